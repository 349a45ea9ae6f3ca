import Verif.Props.Devices.Memories

/-!
# Memories made from a storage: C126
-/

namespace Lrvm

open Spec

variable {pf : Profile}

namespace Spec

/-- The component advertises a size that includes the whole storage, and each of its words is read there. -/
def ContainsAll [Bus D] (pf : Profile) (d : D) (st : List Word) : Prop :=
  ∃ size, Advertises pf d size ∧ ∀ (i : Nat) (w : Word), st[i]? = some w →
    4 * i < size ∧ ∀ (a : Word) ex, a.toNat = 4 * i → Bus.read d a ex = some (d, w, ex)

end Spec

theorem advertises_unique {D : Type} [Bus D] {d : D} {m n : Nat} (h1 : Advertises pf d m) (h2 : Advertises pf d n) : m = n := by
  obtain ⟨x, hx, rfl⟩ := h1
  obtain ⟨y, hy, rfl⟩ := h2
  rw [hx] at hy; cases hy; rfl

theorem containsAll_iff {D : Type} [Bus D] {d : D} {st : List Word} {size : Nat} (hadv : Advertises pf d size)
    (h4 : size % 4 = 0) (hr : ∀ (i : Nat) (w : Word) (a : Word) ex, st[i]? = some w → 4 * i < size → a.toNat = 4 * i →
      Bus.read d a ex = some (d, w, ex)) : ContainsAll pf d st ↔ 4 * st.length ≤ size := by
  constructor
  · rintro ⟨n, hn, h⟩
    obtain rfl := advertises_unique hn hadv
    cases hl : st.length with
    | zero => omega
    | succ k =>
      have := (h k st[k] (List.getElem?_eq_getElem (by omega))).1
      omega
  · intro hle
    refine ⟨size, hadv, fun i w hi => ?_⟩
    have : i < st.length := (List.getElem?_eq_some_iff.mp hi).1
    exact ⟨by omega, fun a ex ha => hr i w a ex hi (by omega) ha⟩

theorem wordMemory_read {D : Type} [Bus D] {d : D} {st : List Word} {size : Nat}
    (hm : WordMemory pf d size (fun i => (st[i]?).getD 0)) (i : Nat) (w a : Word) (ex : U16) (hi : st[i]? = some w)
    (hlt : 4 * i < size) (ha : a.toNat = 4 * i) : Bus.read d a ex = some (d, w, ex) := by
  have := hm.initial [] a ex d [] (by simp) (by simp) (by omega) (by omega) rfl
  rw [show a.toNat / 4 = i by omega, hi] at this
  exact this

theorem wordMemory_adv {D : Type} [Bus D] {d : D} {f : Nat → Word} {size : Nat} (hm : WordMemory pf d size f) :
    Advertises pf d size := by
  obtain ⟨d', as, h1, h2, _⟩ := hm.serves [] (by simp)
  cases h1; exact h2

/-- The sizes `from_with_size` and `with_size` accept. -/
def Spec.Accepted (st : List Word) (size : Word) : Prop :=
  st.length < 2 ^ 32 ∧ st.length ≤ size.toNat ∧ 0 < size.toNat ∧ size.toNat % 4 = 0

theorem accepted_iff {α : Type} (st : List Word) (size : Word) (v : α) :
    (∃ d, (if 4294967296 ≤ st.length then none else if size.toNat < st.length then none else if size = 0 then none
      else if size % 4 ≠ 0 then none else some v) = some d) ↔ Accepted st size := by
  have h0 : size = 0 ↔ size.toNat = 0 := by rw [← BitVec.toNat_inj]; rfl
  have h4 : size % 4 ≠ 0 ↔ size.toNat % 4 ≠ 0 := by rw [ne_eq, ← BitVec.toNat_inj, BitVec.toNat_umod]; rfl
  rw [show Accepted st size = (st.length < 2 ^ 32 ∧ st.length ≤ size.toNat ∧ 0 < size.toNat ∧ size.toNat % 4 = 0) from rfl]
  simp only [h0, h4]
  repeat' split
  all_goals simp only [Option.some.injEq, exists_eq', true_iff, reduceCtorEq, exists_false, false_iff]
  all_goals omega

/-- **C126**, which sizes are accepted: `from_with_size` and `with_size` compare the number of *words* of the storage with
the number of *bytes* of the component. -/
theorem C126_accepts_partial (st : List Word) (size : Word) (hw : U64) :
    ((∃ d, Ram.fromWithSize st size hw = some d) ↔ Accepted st size) ∧
    ((∃ d, PersistentMem.fromWithSize st size hw = some d) ↔ Accepted st size) ∧
    ((∃ d, BootRom.withSize st size hw = some d) ↔ Accepted st size) :=
  ⟨accepted_iff st size _, accepted_iff st size _, accepted_iff st size _⟩

theorem accepted_mod4 {st : List Word} {size : Word} (h : Accepted st size) : size.toNat % 4 = 0 := h.2.2.2

/-- **C126**, what holds of `from_with_size` and `with_size`: the component contains the storage exactly when the storage
fits, that is when its number of words is at most a quarter of the number of bytes. -/
theorem C126_with_size_partial {st : List Word} {size : Word} {hw : U64} :
    (∀ d, Ram.fromWithSize st size hw = some d → (ContainsAll pf d st ↔ 4 * st.length ≤ size.toNat)) ∧
    (∀ d, PersistentMem.fromWithSize st size hw = some d → (ContainsAll pf d st ↔ 4 * st.length ≤ size.toNat)) ∧
    (∀ d, BootRom.withSize st size hw = some d → (ContainsAll pf d st ↔ 4 * st.length ≤ size.toNat)) := by
  have hacc := C126_accepts_partial st size hw
  refine ⟨fun d h => ?_, fun d h => ?_, fun d h => ?_⟩
  · have hm := C64_from_with_size (pf := pf) h
    exact containsAll_iff (wordMemory_adv hm) (hacc.1.mp ⟨d, h⟩).2.2.2 (wordMemory_read hm)
  · have hm := C66_from_with_size_partial (pf := pf) h
    exact containsAll_iff (wordMemory_adv hm) (hacc.2.1.mp ⟨d, h⟩).2.2.2 (wordMemory_read hm)
  · obtain ⟨d', as, h1, h2⟩ := (C73_bootrom (pf := pf)).2 st size h [] (by simp)
    cases h1
    refine containsAll_iff h2 (hacc.2.2.mp ⟨d, h⟩).2.2.2 fun i w a ex hi _ ha => ?_
    have := (C65 (rom := d) (prog := st) ⟨hw, .inr ⟨size, h⟩⟩ (rs := []) rfl a 0 ex).1
    rw [show a.toNat / 4 = i by omega, hi] at this
    exact this

/-- **C126**, what holds without a size: a boot ROM contains its whole storage; a RAM or a persistent memory only if the
storage is empty. -/
theorem C126_from_partial {st : List Word} {hw : U64} :
    (∀ d, st.length < 2 ^ 30 → BootRom.new st hw = some d → ContainsAll pf d st) ∧
    (∀ d, Ram.from st hw = some d → (ContainsAll pf d st ↔ st = [])) ∧
    (∀ d, PersistentMem.from st hw = some d → (ContainsAll pf d st ↔ st = [])) := by
  have key : 4 * st.length ≤ st.length / 4 * 4 ↔ st = [] := by
    rw [← List.length_eq_zero_iff]; omega
  refine ⟨fun d hlt h => ?_, fun d h => ?_, fun d h => ?_⟩
  · obtain ⟨d', as, h1, h2⟩ := (C73_bootrom (pf := pf)).1 st hlt h [] (by simp)
    cases h1
    refine (containsAll_iff h2 (by omega) fun i w a ex hi _ ha => ?_).mpr (by omega)
    have := (C65 (rom := d) (prog := st) ⟨hw, .inl h⟩ (rs := []) rfl a 0 ex).1
    rw [show a.toNat / 4 = i by omega, hi] at this
    exact this
  · have hm := C64_from (pf := pf) h
    exact (containsAll_iff (wordMemory_adv hm) (by omega) (wordMemory_read hm)).trans key
  · have hm := C66_from_partial (pf := pf) h
    exact (containsAll_iff (wordMemory_adv hm) (by omega) (wordMemory_read hm)).trans key

/-- **C126** is false: a RAM, a persistent memory or a boot ROM of 16 bytes made from a storage of 5 words is accepted, and
does not contain the fifth; a RAM made from the 4 words 1 to 4 contains only the first. -/
theorem C126_false : (∃ d, Ram.fromWithSize [1, 2, 3, 4, 5] 16 7 = some d ∧ ¬ ContainsAll pf d [1, 2, 3, 4, 5]) ∧
    (∃ d, PersistentMem.fromWithSize [1, 2, 3, 4, 5] 16 7 = some d ∧ ¬ ContainsAll pf d [1, 2, 3, 4, 5]) ∧
    (∃ d, BootRom.withSize [1, 2, 3, 4, 5] 16 7 = some d ∧ ¬ ContainsAll pf d [1, 2, 3, 4, 5]) ∧
    ∃ d, Ram.from [1, 2, 3, 4] 7 = some d ∧ Advertises pf d 4 := by
  have h := C126_with_size_partial (pf := pf) (st := [1, 2, 3, 4, 5]) (size := 16) (hw := 7)
  refine ⟨⟨_, rfl, fun hc => ?_⟩, ⟨_, rfl, fun hc => ?_⟩, ⟨_, rfl, fun hc => ?_⟩, _, rfl, ?_⟩
  · have := (h.1 _ rfl).mp hc; revert this; decide
  · have := (h.2.1 _ rfl).mp hc; revert this; decide
  · have := (h.2.2 _ rfl).mp hc; revert this; decide
  · exact wordMemory_adv (C64_from (pf := pf) (st := [1, 2, 3, 4]) (hw := 7) rfl)

/-- **C126**, `size()`: the number of words, a quarter of the size in bytes the component is made with and advertises. The
claim that it is that size fails as soon as the component is not empty. -/
theorem C126_size_partial {st : List Word} {hw : U64} (size : Word) :
    (∀ d, Ram.new size hw = some d → 4 * d.size.toNat = size.toNat ∧ Advertises pf d (4 * d.size.toNat)) ∧
    (∀ d, PersistentMem.new size hw = some d → 4 * d.size.toNat = size.toNat ∧ Advertises pf d (4 * d.size.toNat)) ∧
    (∀ d, Ram.fromWithSize st size hw = some d → 4 * d.size.toNat = size.toNat ∧ Advertises pf d (4 * d.size.toNat)) ∧
    (∀ d, PersistentMem.fromWithSize st size hw = some d → 4 * d.size.toNat = size.toNat ∧ Advertises pf d (4 * d.size.toNat)) ∧
    (∀ d, BootRom.withSize st size hw = some d → 4 * d.size.toNat = size.toNat ∧ d.len.toNat = st.length ∧
      Advertises pf d (4 * d.size.toNat)) := by
  have hlt := size.isLt
  have e : ∀ h4 : ¬ size % 4 ≠ 0, (size / 4).toNat * 4 = size.toNat := fun h4 => by
    have := word_mod4 h4
    rw [word_div4]; omega
  refine ⟨?_, ?_, ?_, ?_, ?_⟩
  · intro d h
    unfold Ram.new at h
    repeat' split at h
    all_goals first | (cases h; done) | skip
    next h4 =>
    cases h
    have := e h4
    exact ⟨by dsimp only; omega, by rw [Nat.mul_comm]; exact Ram.advertises _ (by dsimp only; omega)⟩
  · intro d h
    unfold PersistentMem.new at h
    repeat' split at h
    all_goals first | (cases h; done) | skip
    next h4 =>
    cases h
    have := e h4
    exact ⟨by dsimp only; omega, by rw [Nat.mul_comm]; exact PersistentMem.advertises _ (by dsimp only; omega)⟩
  · intro d h
    unfold Ram.fromWithSize at h
    repeat' split at h
    all_goals first | (cases h; done) | skip
    next h4 =>
    cases h
    have := e h4
    exact ⟨by dsimp only; omega, by rw [Nat.mul_comm]; exact Ram.advertises _ (by dsimp only; omega)⟩
  · intro d h
    unfold PersistentMem.fromWithSize at h
    repeat' split at h
    all_goals first | (cases h; done) | skip
    next h4 =>
    cases h
    have := e h4
    exact ⟨by dsimp only; omega, by rw [Nat.mul_comm]; exact PersistentMem.advertises _ (by dsimp only; omega)⟩
  · intro d h
    unfold BootRom.withSize at h
    repeat' split at h
    all_goals first | (cases h; done) | skip
    next h1 _ _ h4 =>
    cases h
    have := e h4
    exact ⟨by dsimp only; omega, ofNat_toNat_lt (by omega),
      by rw [Nat.mul_comm]; exact BootRom.advertises _ (by dsimp only; omega)⟩

/-- A storage that fits, in a RAM of 16 bytes. -/
example : ∃ d, Ram.fromWithSize [1, 2, 3] 16 7 = some d ∧ ContainsAll .debug d [1, 2, 3] :=
  ⟨_, rfl, ((C126_with_size_partial (pf := .debug) (st := [1, 2, 3]) (size := 16) (hw := 7)).1 _ rfl).mpr (by decide)⟩

end Lrvm
