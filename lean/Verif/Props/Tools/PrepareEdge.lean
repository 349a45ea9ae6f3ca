import Verif.Props.Tools.Prepare
import Verif.Props.Devices.Memories

/-!
# C62: components that fill the address space
-/

namespace Lrvm

open Spec

private theorem fills (st st' : List Word) : (∀ pf, Advertises pf (⟨st, 0x3FFFFFF0, 1⟩ : Ram) 0xFFFFFFC0 ∧
      Advertises pf (⟨st', 0x10, 2⟩ : Ram) 0x40) ∧
      prepareVm .debug [(⟨st, 0x3FFFFFF0, 1⟩ : Ram), ⟨st', 0x10, 2⟩] = none ∧
      ∃ s, prepareVm .release [(⟨st, 0x3FFFFFF0, 1⟩ : Ram), ⟨st', 0x10, 2⟩] = some s := by
    have h1 : ∀ pf, Advertises pf (⟨st, 0x3FFFFFF0, 1⟩ : Ram) 0xFFFFFFC0 ∧
        Advertises pf (⟨st', 0x10, 2⟩ : Ram) 0x40 := by
      intro pf
      have a1 := Ram.advertises (pf := pf) ⟨st, 0x3FFFFFF0, 1⟩ (by dsimp only; decide)
      have a2 := Ram.advertises (pf := pf) ⟨st', 0x10, 2⟩ (by dsimp only; decide)
      dsimp only at a1 a2
      rw [show (0x3FFFFFF0 : Word).toNat * 4 = 0xFFFFFFC0 from by decide] at a1
      rw [show (0x10 : Word).toNat * 4 = 0x40 from by decide] at a2
      exact ⟨a1, a2⟩
    have hadv : ∀ pf, ∀ (k : Nat) d n, [(⟨st, 0x3FFFFFF0, 1⟩ : Ram), ⟨st', 0x10, 2⟩][k]? = some d →
        [0xFFFFFFC0, 0x40][k]? = some n → Advertises pf d n := by
      intro pf k d n hd hn
      match k with
      | 0 => cases hd; cases hn; exact (h1 pf).1
      | 1 => cases hd; cases hn; exact (h1 pf).2
      | k + 2 => cases hn
    have hiff : ∀ pf, (∃ s, prepareVm pf [(⟨st, 0x3FFFFFF0, 1⟩ : Ram), ⟨st', 0x10, 2⟩] = some s) ↔
        [0xFFFFFFC0, 0x40].sum ≤ room pf := fun pf =>
      C62_succeeds_iff (ds := [(⟨st, 0x3FFFFFF0, 1⟩ : Ram), ⟨st', 0x10, 2⟩]) (by simp) rfl (hadv pf) (by decide) rfl
    refine ⟨h1, ?_, (hiff .release).mpr (by decide)⟩
    cases hp : prepareVm .debug [(⟨st, 0x3FFFFFF0, 1⟩ : Ram), ⟨st', 0x10, 2⟩] with
    | none => rfl
    | some s => exact absurd ((hiff .debug).mp ⟨s, hp⟩) (by decide)

/-- The claim fails in debug builds for components that fill the address space completely: a RAM of 4 GB less 64 bytes
and one of 64 bytes are refused with a panic, although they fit; a release build accepts them. -/
theorem C62_last_byte_refuted : ∃ a b : Ram, Ram.new 0xFFFFFFC0 1 = some a ∧ Ram.new 0x40 2 = some b ∧
    (∀ pf, Advertises pf a 0xFFFFFFC0 ∧ Advertises pf b 0x40) ∧ 0xFFFFFFC0 + 0x40 = 2 ^ 32 ∧
    prepareVm .debug [a, b] = none ∧ ∃ s, prepareVm .release [a, b] = some s := by
  obtain ⟨k1, k2, k3⟩ := fills (List.replicate (0xFFFFFFC0 : Word).toNat 0) (List.replicate (0x40 : Word).toNat 0)
  refine ⟨_, _, ?_, ?_, k1, rfl, k2, k3⟩
  · unfold Ram.new
    rw [if_neg (by decide), if_neg (by decide)]
    congr 1
  · unfold Ram.new
    rw [if_neg (by decide), if_neg (by decide)]
    congr 1

end Lrvm
