import Verif.Spec.Isa

/-!
# The register file
-/

namespace Lrvm

open Spec

variable {D : Type} [Bus D]

/-! ### Registers -/

theorem lt32 {P : Nat → Prop}
    (h : P 0 ∧ P 1 ∧ P 2 ∧ P 3 ∧ P 4 ∧ P 5 ∧ P 6 ∧ P 7 ∧ P 8 ∧ P 9 ∧ P 10 ∧ P 11 ∧ P 12 ∧ P 13 ∧ P
      14 ∧ P 15 ∧ P 16 ∧ P 17 ∧ P 18 ∧ P 19 ∧ P 20 ∧ P 21 ∧ P 22 ∧ P 23 ∧ P 24 ∧ P 25 ∧ P 26 ∧
      P 27 ∧ P 28 ∧ P 29 ∧ P 30 ∧ P 31) :
    ∀ n, n < 32 → P n := by
  intro n hn
  have : n = 0 ∨ n = 1 ∨ n = 2 ∨ n = 3 ∨ n = 4 ∨ n = 5 ∨ n = 6 ∨ n = 7 ∨ n = 8 ∨ n = 9 ∨ n = 10 ∨ n
    = 11 ∨ n = 12 ∨ n = 13 ∨ n = 14 ∨ n = 15 ∨ n = 16 ∨ n = 17 ∨ n = 18 ∨ n = 19 ∨ n = 20 ∨ n =
    21 ∨ n = 22 ∨ n = 23 ∨ n = 24 ∨ n = 25 ∨ n = 26 ∨ n = 27 ∨ n = 28 ∨ n = 29 ∨ n = 30 ∨ n =
    31 := by omega
  rcases this with rfl | rfl | rfl | rfl | rfl | rfl | rfl | rfl | rfl | rfl | rfl | rfl | rfl | rfl | rfl |
    rfl | rfl | rfl | rfl | rfl | rfl | rfl | rfl | rfl | rfl | rfl | rfl | rfl | rfl | rfl |
    rfl | rfl
  all_goals simp only [h]

/-- Splits a goal `∀ n, n < 32 → P n` in its 32 instances. -/
macro "cases32" : tactic => `(tactic|
  refine lt32 ⟨?_, ?_, ?_, ?_, ?_, ?_, ?_, ?_, ?_, ?_, ?_, ?_, ?_, ?_, ?_, ?_, ?_, ?_, ?_, ?_, ?_, ?_, ?_,
    ?_, ?_, ?_, ?_, ?_, ?_, ?_, ?_, ?_⟩)

theorem code_ofNat {c : U8} {n : Nat} (h : c.toNat = n) : c = BitVec.ofNat 8 n := by
  subst h; simp

theorem Regs.read_eq (r : Regs) (c : U8) :
    r.read c = if c.toNat < 32 then some (reg r c.toNat) else none := by
  by_cases h : c.toNat < 32
  · rw [if_pos h]
    have : ∀ n, n < 32 → ∀ c : U8, c.toNat = n → r.read c = some (reg r n) := by
      cases32 <;> (intro c hc; rw [code_ofNat hc]; rfl)
    exact this _ h c rfl
  · rw [if_neg h]
    unfold Regs.read
    rw [dif_neg (by omega), dif_neg (by omega), dif_neg (by omega), dif_neg (by omega)]
    obtain ⟨m, hm⟩ : ∃ m, c.toNat = m + 32 := ⟨c.toNat - 32, by omega⟩
    rw [hm]
    rfl

theorem Regs.write_eq (r : Regs) (c : U8) (w : Word) :
    r.write c w = if c.toNat < 32 then some (setReg r c.toNat w) else none := by
  by_cases h : c.toNat < 32
  · rw [if_pos h]
    have : ∀ n, n < 32 → ∀ c : U8, c.toNat = n → r.write c w = some (setReg r n w) := by
      cases32 <;> (intro c hc; rw [code_ofNat hc]; rfl)
    exact this _ h c rfl
  · rw [if_neg h]
    unfold Regs.write
    rw [dif_neg (by omega), dif_neg (by omega), dif_neg (by omega), dif_neg (by omega)]
    obtain ⟨m, hm⟩ : ∃ m, c.toNat = m + 32 := ⟨c.toNat - 32, by omega⟩
    rw [hm]
    rfl

theorem Spec.reg_setReg_same (r : Regs) (c : Nat) (w : Word) (h : c < 32) : reg (setReg r c w) c = w := by
  revert c; cases32 <;> simp [reg, setReg]

/-- The registers as a list in code order. -/
def Regs.file (r : Regs) : List Word :=
  r.a.toList ++ r.c.toList ++ r.ac.toList ++ r.rr.toList ++
    [r.avr, r.pc, r.af, r.ssp, r.usp, r.et, r.era, r.ev, r.mtt, r.pda, r.smt]

theorem vec8 (v : Vector Word 8) : v.toList = [v[0], v[1], v[2], v[3], v[4], v[5], v[6], v[7]] := by
  obtain ⟨⟨l⟩, h⟩ := v
  match l, h with
  | [a0, a1, a2, a3, a4, a5, a6, a7], _ => rfl

theorem vec2 (v : Vector Word 2) : v.toList = [v[0], v[1]] := by
  obtain ⟨⟨l⟩, h⟩ := v
  match l, h with
  | [a0, a1], _ => rfl

theorem vec3 (v : Vector Word 3) : v.toList = [v[0], v[1], v[2]] := by
  obtain ⟨⟨l⟩, h⟩ := v
  match l, h with
  | [a0, a1, a2], _ => rfl

theorem Regs.file_get (r : Regs) (n : Nat) (h : n < 32) : r.file[n]? = some (reg r n) := by
  unfold Regs.file
  rw [vec8, vec2, vec3, vec8]
  revert n
  cases32 <;> rfl

theorem Regs.file_set (r : Regs) (n : Nat) (w : Word) (h : n < 32) :
    (setReg r n w).file = r.file.set n w := by
  obtain ⟨⟨⟨la⟩, ha⟩, ⟨⟨lc⟩, hc⟩, ⟨⟨ld⟩, hd⟩, ⟨⟨lb⟩, hb⟩, x1, x2, x3, x4, x5, x6, x7, x8, x9, x10, x11⟩ := r
  match la, ha, lc, hc, ld, hd, lb, hb with
  | [a0, a1, a2, a3, a4, a5, a6, a7], _, [c0, c1], _, [d0, d1, d2], _,
    [b0, b1, b2, b3, b4, b5, b6, b7], _ =>
    revert n
    cases32 <;> rfl

theorem Spec.reg_setReg_ne (r : Regs) (c d : Nat) (w : Word) (hc : c < 32) (hd : d < 32) (h : c ≠ d) :
    reg (setReg r c w) d = reg r d := by
  have := Regs.file_get (setReg r c w) d hd
  rw [Regs.file_set _ _ _ hc, List.getElem?_set_ne h, Regs.file_get _ _ hd] at this
  exact (Option.some.inj this).symm

theorem Regs.ext_get {r r' : Regs} (h : ∀ n, n < 32 → reg r n = reg r' n) : r = r' := by
  have hf : ∀ n, n < 32 → r.file[n]? = r'.file[n]? := by
    intro n hn; rw [Regs.file_get _ _ hn, Regs.file_get _ _ hn, h n hn]
  have e := fun n hn => h n hn
  obtain ⟨a, c, ac, rr, _, _, _, _, _, _, _, _, _, _, _⟩ := r
  obtain ⟨a', c', ac', rr', _, _, _, _, _, _, _, _, _, _, _⟩ := r'
  clear h hf
  have ha : a = a' := Vector.toList_inj.mp (by
    rw [vec8, vec8]
    have := e 0 (by decide); have := e 1 (by decide); have := e 2 (by decide); have := e 3 (by decide)
    have := e 4 (by decide); have := e 5 (by decide); have := e 6 (by decide); have := e 7 (by decide)
    simp only [reg] at *; simp [*])
  have hc : c = c' := Vector.toList_inj.mp (by
    rw [vec2, vec2]
    have := e 8 (by decide); have := e 9 (by decide)
    simp only [reg] at *; simp [*])
  have hac : ac = ac' := Vector.toList_inj.mp (by
    rw [vec3, vec3]
    have := e 10 (by decide); have := e 11 (by decide); have := e 12 (by decide)
    simp only [reg] at *; simp [*])
  have hrr : rr = rr' := Vector.toList_inj.mp (by
    rw [vec8, vec8]
    have := e 13 (by decide); have := e 14 (by decide); have := e 15 (by decide); have := e 16 (by decide)
    have := e 17 (by decide); have := e 18 (by decide); have := e 19 (by decide); have := e 20 (by decide)
    simp only [reg] at *; simp [*])
  subst ha; subst hc; subst hac; subst hrr
  have h1 := e 21 (by decide); have h2 := e 22 (by decide); have h3 := e 23 (by decide)
  have h4 := e 24 (by decide); have h5 := e 25 (by decide); have h6 := e 26 (by decide)
  have h7 := e 27 (by decide); have h8 := e 28 (by decide); have h9 := e 29 (by decide)
  have h10 := e 30 (by decide); have h11 := e 31 (by decide)
  simp only [reg] at h1 h2 h3 h4 h5 h6 h7 h8 h9 h10 h11
  subst h1; subst h2; subst h3; subst h4; subst h5; subst h6; subst h7; subst h8; subst h9; subst h10
  subst h11; rfl

end Lrvm
