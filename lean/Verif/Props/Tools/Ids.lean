import Verif.Model.Tools.Ids
import Verif.Lemmas.Text
import Mathlib.Data.Fintype.Pi
import Mathlib.Data.Fintype.Pigeonhole
import Mathlib.Data.Fintype.BigOperators

/-!
# Identifiers made from names: C124
-/

namespace Lrvm

/-- The reference vector of SipHash-1-3 (empty message, keys made of the bytes 0 to 15), and the identifiers of a few names,
computed apart with another implementation. -/
example : sipHash13 0x0706050403020100 0x0f0e0d0c0b0a0908 [] = 0xabac0158050fc4dc ∧
    genAuxId "display".toList = 0xc6f8c6767fcb960f ∧ genAuxId [] = 0x30406ea523c53def ∧
    genAuxId "a much longer name é".toList = 0x1d0cb5d29915e2d1 := by decide +kernel

/-- A name of letters `a` and `b`. -/
def Demo.abName {n : Nat} (f : Fin n → Bool) : List Char := (List.ofFn f).map fun x => if x then 'a' else 'b'

theorem Demo.abName_inj {n : Nat} {f g : Fin n → Bool} (h : Demo.abName f = Demo.abName g) : f = g := by
  have hi : Function.Injective fun x : Bool => if x then 'a' else 'b' := by
    intro x y; cases x <;> cases y <;> simp
  exact List.ofFn_injective (hi.list_map h)

/-- **C124** is false: there are different names with the same identifier, even among the names of 65 letters `a` and
`b`. -/
theorem C124_false : ∃ n m : List Char, n ≠ m ∧ n.length = 65 ∧ m.length = 65 ∧ (∀ c ∈ n ++ m, c = 'a' ∨ c = 'b') ∧
    genAuxId n = genAuxId m := by
  obtain ⟨f, g, hne, h⟩ := Fintype.exists_ne_map_eq_of_card_lt
    (fun f : Fin 65 → Bool => (genAuxId (Demo.abName f)).toFin) (by simp)
  refine ⟨Demo.abName f, Demo.abName g, fun h => hne (Demo.abName_inj h), by simp [Demo.abName], by simp [Demo.abName], ?_,
    BitVec.toFin_inj.mp h⟩
  intro c hc
  simp only [Demo.abName, List.mem_append, List.mem_map] at hc
  rcases hc with ⟨x, _, rfl⟩ | ⟨x, _, rfl⟩ <;> cases x <;> simp

theorem utf8_ne_ff (t : List Char) : ∀ b ∈ utf8 t, b ≠ 0xFF := by
  induction t with
  | nil => intro b hb; cases hb
  | cons c t ih =>
    intro b hb
    rw [utf8_cons, List.mem_append] at hb
    rcases hb with hb | hb
    · rw [utf8_single, List.mem_map] at hb
      obtain ⟨n, hn, rfl⟩ := hb
      have : n < 248 := by
        unfold encN at hn
        repeat' split at hn
        all_goals simp only [List.mem_cons, List.not_mem_nil, or_false] at hn; omega
      intro h
      have := congrArg BitVec.toNat h
      simp only [BitVec.toNat_ofNat] at this
      rw [Nat.mod_eq_of_lt (by omega)] at this
      change n = 255 at this
      omega
    · exact ih b hb

/-- What is hashed for a name. -/
def Spec.hashedBytes (name : List Char) : List U8 := utf8 name ++ [0xFF]

/-- **C124**, what holds: the identifier of a name is the SipHash-1-3, with zero keys, of bytes that are different for
different names, and that even for one name never begin those for another. So names share their identifier only if
this hash function has the same value on two different messages; what is missing is that it never has, and it does. -/
theorem C124_partial (n m : List Char) : genAuxId n = sipHash13 0 0 (Spec.hashedBytes n) ∧
    (Spec.hashedBytes n <+: Spec.hashedBytes m ↔ n = m) := by
  refine ⟨rfl, fun ⟨u, hu⟩ => ?_, fun h => h ▸ List.prefix_rfl⟩
  have key : ∀ a b : List U8, (∀ x ∈ a, x ≠ 0xFF) → (∀ x ∈ b, x ≠ 0xFF) → a ++ [0xFF] ++ u = b ++ [0xFF] → a = b := by
    intro a
    induction a with
    | nil =>
      intro b _ hb h
      cases b with
      | nil => rfl
      | cons x b => injection h with h1 _; exact absurd h1.symm (hb x (by simp))
    | cons y a ih =>
      intro b ha hb h
      cases b with
      | nil => injection h with h1 _; exact absurd h1 (ha y (by simp))
      | cons x b =>
        injection h with h1 h2
        rw [h1, ih b (fun z hz => ha z (by simp [hz])) (fun z hz => hb z (by simp [hz])) h2]
  have := key _ _ (utf8_ne_ff n) (utf8_ne_ff m) hu
  have h1 := fromUtf8_iff.mpr (rfl : utf8 n = utf8 n)
  rw [this, fromUtf8_iff.mpr rfl] at h1
  exact (Option.some.inj h1).symm

/-- The names of the repository's test. -/
example : genAuxId "test".toList ≠ genAuxId "test2".toList ∧ genAuxId "test".toList ≠ genAuxId "2test".toList := by
  decide +kernel

end Lrvm
