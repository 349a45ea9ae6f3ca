import Verif.Props.Devices.FileBacked

/-!
# Read-only file-backed memory: C67

Any history of requests to a component opened by `FileBackedMem::readonly` or `FileBackedMem::readonly_with_size`
(`lrvm_aux/src/storage/file_backed.rs:77-86`), with the operating system failing as it likes.
-/

namespace Lrvm

open Spec

variable {pf : Profile}

namespace Spec

/-- What a read-only file may answer to a request: the word of the file, strongest byte first, or 0 beyond the last whole
word, or `GenericPhysicalReadError` with 0 if the operating system has failed (`io`); `MemoryNotWritable` to any write. -/
def ReadOnlyAnswer (file : List U8) (io : Prop) : Req → Answer → Prop
  | .read a ex, .value w ex' =>
      (a.toNat < file.length / 4 * 4 ∧ io ∧ w = 0 ∧ ex' = AuxHwException.genericPhysicalReadError.encode) ∨
      (a.toNat % 4 = 0 ∧ a.toNat + 4 ≤ file.length ∧ w = wordAt file (a.toNat / 4) ∧ ex' = ex) ∨
      (file.length / 4 * 4 ≤ a.toNat ∧ w = 0 ∧ ex' = ex)
  | .write _ _ _, .wrote ex' => ex' = AuxHwException.memoryNotWritable.encode
  | .reset, .done => True
  | _, _ => False

/-- Answer by answer. -/
def ReadOnlyAnswers (file : List U8) (io : Prop) : List Req → List Answer → Prop
  | [], [] => True
  | r :: rs, a :: as => ReadOnlyAnswer file io r a ∧ ReadOnlyAnswers file io rs as
  | _, _ => False

end Spec

/-- The state of a read-only component: all but the number of I/O calls is fixed. -/
structure ReadOnlyInv (file : List U8) (broken : Nat → Bool) (size : Word) (d : FileBackedMem) : Prop where
  file_eq : d.file = file
  broken_eq : d.broken = broken
  real : d.realSize.toNat = file.length / 4 * 4
  size_eq : d.size = size
  ro : d.writable = false

theorem ReadOnlyInv.step {file : List U8} {broken : Nat → Bool} {size : Word} {d : FileBackedMem}
    (h : ReadOnlyInv file broken size d) {bound : Nat} {r : Req} (hr : r.Within bound) :
    ∃ d' a, serve d r = some (d', a) ∧ ReadOnlyInv file broken size d' ∧
      ReadOnlyAnswer file (∃ n, broken n = true) r a := by
  cases r with
  | reset => exact ⟨d, .done, rfl, h, trivial⟩
  | write a w ex =>
    refine ⟨d, .wrote AuxHwException.memoryNotWritable.encode, ?_, h, rfl⟩
    show (Bus.write d a w ex).map _ = _
    rw [C67_readonly h.ro]; rfl
  | read a ex =>
    have hm : a.toNat % 4 = 0 := hr.1
    have hreal := h.real
    have hf := h.file_eq
    have hk : ∀ n, ReadOnlyInv file broken size { d with calls := n } := fun n =>
      ⟨h.file_eq, h.broken_eq, h.real, h.size_eq, h.ro⟩
    by_cases hl : a.toNat < d.realSize.toNat
    · by_cases hb : d.broken d.calls = true ∨ d.broken (d.calls + 1) = true
      · obtain ⟨n, e⟩ := C67_read_error ex hl hb
        refine ⟨_, .value 0 AuxHwException.genericPhysicalReadError.encode, ?_, hk n, ?_⟩
        · show (Bus.read d a ex).map _ = _
          rw [e]; rfl
        · refine Or.inl ⟨by omega, ?_, rfl, rfl⟩
          rw [h.broken_eq] at hb
          exact hb.elim (fun e => ⟨_, e⟩) (fun e => ⟨_, e⟩)
      · rw [not_or, Bool.not_eq_true, Bool.not_eq_true] at hb
        refine ⟨_, .value (wordAt d.file (a.toNat / 4)) ex, ?_, hk (d.calls + 2), ?_⟩
        · show (Bus.read d a ex).map _ = _
          rw [C67_read ⟨by omega, by rw [hf]; omega⟩ ex hm hl hb.1 hb.2]; rfl
        · exact Or.inr (Or.inl ⟨hm, by omega, by rw [hf], rfl⟩)
    · refine ⟨d, .value 0 ex, ?_, h, Or.inr (Or.inr ⟨by omega, rfl, rfl⟩)⟩
      show (Bus.read d a ex).map _ = _
      have : FileBackedMem.read d a ex = some (d, 0, ex) := by
        unfold FileBackedMem.read
        rw [if_pos (by rw [ge_iff_le, BitVec.le_def]; omega)]
      show (FileBackedMem.read d a ex).map _ = _
      rw [this]; rfl

theorem ReadOnlyInv.run {file : List U8} {broken : Nat → Bool} {size : Word} {bound : Nat} {rs : List Req} :
    ∀ {d : FileBackedMem}, ReadOnlyInv file broken size d → (∀ r ∈ rs, r.Within bound) →
    ∃ d' as, serveAll d rs = some (d', as) ∧ ReadOnlyInv file broken size d' ∧
      ReadOnlyAnswers file (∃ n, broken n = true) rs as := by
  induction rs with
  | nil => exact fun h _ => ⟨_, [], rfl, h, trivial⟩
  | cons r rs ih =>
    intro d h hr
    obtain ⟨d1, a, e1, h1, ha⟩ := h.step (hr r (by simp))
    obtain ⟨d2, as, e2, h2, has⟩ := ih h1 (fun r hm => hr r (by simp [hm]))
    refine ⟨d2, a :: as, ?_, h2, ha, has⟩
    simp only [serveAll, e1, e2, Option.bind_eq_bind, Option.bind_some]

/-- **C67**, read-only files, any history. Open a file of less than 4 GB with `readonly` and serve any aligned requests,
resets included, even while the operating system fails: the component does not panic, the file is unchanged, each read gives
the word of the file (0 beyond its last whole word) or, only if the operating system has failed, `GenericPhysicalReadError`,
and each write is refused with `MemoryNotWritable`. The constructor refuses larger files. -/
theorem C67_readonly_history (file : List U8) (broken : Nat → Bool) (hw : U64) :
    (2 ^ 32 ≤ file.length → FileBackedMem.readonly file broken hw = none) ∧
    (file.length < 2 ^ 32 → ∃ d, FileBackedMem.readonly file broken hw = some d ∧ ∀ (bound : Nat) (rs : List Req),
      (∀ r ∈ rs, r.Within bound) → ∃ d' as, serveAll d rs = some (d', as) ∧ d'.file = file ∧
        ReadOnlyAnswers file (∃ n, broken n = true) rs as) := by
  constructor
  · intro h
    show FileBackedMem.open file broken false hw = none
    unfold FileBackedMem.open
    rw [if_pos (by omega)]
  · intro h
    obtain ⟨d, ho⟩ : ∃ d, FileBackedMem.readonly file broken hw = some d := by
      show ∃ d, FileBackedMem.open file broken false hw = some d
      unfold FileBackedMem.open
      rw [if_neg (by omega)]
      exact ⟨_, rfl⟩
    refine ⟨d, ho, fun bound rs hr => ?_⟩
    obtain ⟨_, hf, hb, hwr, hsz, _, _⟩ := file_open ho
    obtain ⟨d', as, e, hi, ha⟩ := ReadOnlyInv.run (size := d.size) ⟨hf, hb, hsz, rfl, hwr⟩ hr
    exact ⟨d', as, e, hi.file_eq, ha⟩

/-- **C67**, `readonly_with_size`: the same component, whatever the size asked for; the size is only advertised, four times
too large, and bounds neither the reads nor the file. -/
theorem C67_readonly_size (file : List U8) (broken : Nat → Bool) (size : Word) (hw : U64) :
    (2 ^ 32 ≤ file.length → FileBackedMem.readonlyWithSize file broken size hw = none) ∧
    (file.length < 2 ^ 32 → ∃ d, FileBackedMem.readonlyWithSize file broken size hw = some d ∧
      (0 < size.toNat → size.toNat < 2 ^ 30 → Advertises pf d (4 * size.toNat)) ∧ ∀ (bound : Nat) (rs : List Req),
      (∀ r ∈ rs, r.Within bound) → ∃ d' as, serveAll d rs = some (d', as) ∧ d'.file = file ∧
        (0 < size.toNat → size.toNat < 2 ^ 30 → Advertises pf d' (4 * size.toNat)) ∧
        ReadOnlyAnswers file (∃ n, broken n = true) rs as) := by
  have adv : ∀ d : FileBackedMem, d.size = size → 0 < size.toNat → size.toNat < 2 ^ 30 →
      Advertises pf d (4 * size.toNat) := by
    intro d hs h0 h1
    have e : d.size.toNat * 4 = 4 * size.toNat := by rw [hs]; omega
    rw [← e]
    exact advertises_words (hw := d.hwId) (cat := .storage .persistent) (by rw [hs]; omega) rfl
  constructor
  · intro h
    unfold FileBackedMem.readonlyWithSize
    rw [(C67_readonly_history file broken hw).1 h]; rfl
  · intro h
    obtain ⟨d, ho, _⟩ := (C67_readonly_history file broken hw).2 h
    refine ⟨{ d with size := size }, ?_, adv _ rfl, fun bound rs hr => ?_⟩
    · unfold FileBackedMem.readonlyWithSize
      rw [ho]; rfl
    · obtain ⟨_, hf, hb, hwr, hsz, _, _⟩ := file_open ho
      obtain ⟨d', as, e, hi, ha⟩ := ReadOnlyInv.run (d := { d with size := size }) (size := size) ⟨hf, hb, hsz, rfl, hwr⟩ hr
      exact ⟨d', as, e, hi.file_eq, adv d' hi.size_eq, ha⟩

/-- A file of five bytes, read, written and read again beyond its end; then with an operating system that fails. -/
example : ∃ d d', FileBackedMem.readonly [1, 2, 3, 4, 5] (fun _ => false) 7 = some d ∧
    serveAll d [.read 0 0, .write 0 9 0, .reset, .read 0 0, .read 4 0] =
      some (d', [.value 0x01020304 0, .wrote AuxHwException.memoryNotWritable.encode, .done, .value 0x01020304 0,
        .value 0 0]) := ⟨_, _, rfl, rfl⟩

example : ∃ d d', FileBackedMem.readonlyWithSize [1, 2, 3, 4, 5] (fun n => n == 2) 64 7 = some d ∧
    serveAll d [.read 0 0, .read 0 0] =
      some (d', [.value 0x01020304 0, .value 0 AuxHwException.genericPhysicalReadError.encode]) := ⟨_, _, rfl, rfl⟩

end Lrvm
