import Verif.Model.Devices.FileBacked
import Verif.Props.Devices.Keyboards

/-!
# File-backed memory: C67, C73
-/

namespace Lrvm

open Spec

variable {pf : Profile}

theorem paddedByte_lt (bytes : List U8) (k : Nat) : paddedByte bytes k < 256 := by
  unfold paddedByte
  cases bytes[k]? with
  | none => decide
  | some b => exact b.isLt

theorem wordAt_toNat (bytes : List U8) (i : Nat) : (wordAt bytes i).toNat = paddedByte bytes (4 * i) * 2 ^ 24 +
    paddedByte bytes (4 * i + 1) * 2 ^ 16 + paddedByte bytes (4 * i + 2) * 2 ^ 8 + paddedByte bytes (4 * i + 3) := by
  have h0 := paddedByte_lt bytes (4 * i); have h1 := paddedByte_lt bytes (4 * i + 1)
  have h2 := paddedByte_lt bytes (4 * i + 2); have h3 := paddedByte_lt bytes (4 * i + 3)
  unfold wordAt
  exact ofNat_toNat_lt (by omega)

theorem fromBe_wordAt {file : List U8} {a : Nat} (ha : a % 4 = 0) (hl : a + 4 ≤ file.length) :
    fromBe ((file.drop a).take 4) = wordAt file (a / 4) := by
  have hb : ∀ j (hj : a + j < file.length), paddedByte file (4 * (a / 4) + j) = (file[a + j]).toNat := by
    intro j hj
    unfold paddedByte
    rw [show 4 * (a / 4) + j = a + j by omega, List.getElem?_eq_getElem hj]; rfl
  have h4 : (file.drop a).take 4 = [file[a], file[a + 1], file[a + 2], file[a + 3]] := by
    rw [List.drop_eq_getElem_cons (by omega), List.drop_eq_getElem_cons (by omega), List.drop_eq_getElem_cons (by omega),
      List.drop_eq_getElem_cons (by omega)]
    rfl
  rw [h4]
  apply BitVec.eq_of_toNat_eq
  have h0 := hb 0 (by omega)
  simp only [Nat.add_zero] at h0
  rw [wordAt_toNat, h0, hb 1 (by omega), hb 2 (by omega), hb 3 (by omega)]
  show (join4 file[a] file[a + 1] file[a + 2] file[a + 3]).toNat = _
  rw [join4_nat]; omega

theorem overwrite_length {file bytes : List U8} {a : Nat} (hl : a + bytes.length ≤ file.length) :
    (overwrite file a bytes).length = file.length := by
  unfold overwrite
  rw [show a - file.length = 0 by omega]
  simp; omega

theorem overwrite_get {file bytes : List U8} {a : Nat} (hl : a + bytes.length ≤ file.length) (j : Nat) :
    (overwrite file a bytes)[j]? = if a ≤ j ∧ j < a + bytes.length then bytes[j - a]? else file[j]? := by
  unfold overwrite
  rw [show a - file.length = 0 by omega, List.replicate_zero, List.append_nil]
  have hta : (file.take a).length = a := by rw [List.length_take]; omega
  rw [List.append_assoc]
  by_cases h1 : j < a
  · rw [if_neg (by omega), List.getElem?_append_left (by omega), List.getElem?_take_of_lt h1]
  · rw [List.getElem?_append_right (by omega), hta]
    by_cases h2 : j < a + bytes.length
    · rw [if_pos ⟨by omega, h2⟩, List.getElem?_append_left (by omega)]
    · rw [if_neg (by omega), List.getElem?_append_right (by omega), List.getElem?_drop]
      congr 1; omega

theorem beBytes_padded (w : Word) (j : Nat) (hj : j < 4) : ((beBytes 4 w)[j]?).map BitVec.toNat =
    some (w.toNat / 256 ^ (3 - j) % 256) := by
  have := (C57_words_to_bytes [w]).2 0 j w rfl hj
  rw [wordsToBytes_cons, show wordsToBytes [] = [] from rfl, List.append_nil, Nat.mul_zero, Nat.zero_add] at this
  exact this

/-- Overwriting an aligned word changes that word only. -/
theorem overwrite_word {file : List U8} {a : Nat} (ha : a % 4 = 0) (hl : a + 4 ≤ file.length) (w : Word) (i : Nat) :
    wordAt (overwrite file a (beBytes 4 w)) i = if i = a / 4 then w else wordAt file i := by
  have h4 : (beBytes 4 w).length = 4 := rfl
  have hp : ∀ j, paddedByte (overwrite file a (beBytes 4 w)) j =
      if a ≤ j ∧ j < a + 4 then w.toNat / 256 ^ (3 - (j - a)) % 256 else paddedByte file j := by
    intro j
    unfold paddedByte
    rw [overwrite_get (by rw [h4]; exact hl), h4]
    split
    · rw [beBytes_padded w _ (by omega)]; rfl
    · rfl
  have hw := w.isLt
  apply BitVec.eq_of_toNat_eq
  rw [wordAt_toNat]
  simp only [hp]
  by_cases hi : i = a / 4
  · subst hi
    rw [if_pos rfl, if_pos (by omega), if_pos (by omega), if_pos (by omega), if_pos (by omega),
      show 3 - (4 * (a / 4) - a) = 3 by omega, show 3 - (4 * (a / 4) + 1 - a) = 2 by omega,
      show 3 - (4 * (a / 4) + 2 - a) = 1 by omega, show 3 - (4 * (a / 4) + 3 - a) = 0 by omega]
    omega
  · rw [if_neg hi, if_neg (by omega), if_neg (by omega), if_neg (by omega), if_neg (by omega), wordAt_toNat]

/-- What the constructors establish and every request keeps. -/
structure FileInv (d : FileBackedMem) : Prop where
  aligned : d.realSize.toNat % 4 = 0
  inside : d.realSize.toNat ≤ d.file.length

theorem file_open {file : List U8} {broken : Nat → Bool} {wr : Bool} {hw : U64} {d : FileBackedMem}
    (h : FileBackedMem.open file broken wr hw = some d) : FileInv d ∧ d.file = file ∧ d.broken = broken ∧
      d.writable = wr ∧ d.realSize.toNat = file.length / 4 * 4 ∧ d.size = d.realSize ∧ d.calls = 0 := by
  unfold FileBackedMem.open at h
  split at h
  · cases h
  · next hlt =>
    cases h
    have e : (BitVec.ofNat 32 file.length / 4 * 4 : Word).toNat = file.length / 4 * 4 := by
      rw [BitVec.toNat_mul, word_div4, ofNat_toNat_lt (by omega)]
      exact Nat.mod_eq_of_lt (by show _ / 4 * 4 < 4294967296; omega)
    exact ⟨⟨by show (BitVec.ofNat 32 file.length / 4 * 4 : Word).toNat % 4 = 0; rw [e]; omega,
      by show (BitVec.ofNat 32 file.length / 4 * 4 : Word).toNat ≤ file.length; rw [e]; omega⟩, rfl, rfl, rfl, e, rfl, rfl⟩

/-- **C67**, reading: while the operating system does not fail, an aligned read inside the file gives the word stored there,
its strongest byte first, without exception, and changes neither the file nor anything else observable. -/
theorem C67_read {d : FileBackedMem} (hi : FileInv d) {a : Word} (ex : U16) (ha : a.toNat % 4 = 0)
    (hl : a.toNat < d.realSize.toNat) (h1 : d.broken d.calls = false) (h2 : d.broken (d.calls + 1) = false) :
    Bus.read d a ex = some ({ d with calls := d.calls + 2 }, wordAt d.file (a.toNat / 4), ex) := by
  have hin := hi.inside; have hal := hi.aligned
  show FileBackedMem.read d a ex = _
  unfold FileBackedMem.read
  rw [if_neg (by rw [ge_iff_le, BitVec.le_def]; omega), if_neg (by rw [h1]; decide), if_neg (by rw [h2]; simp; omega),
    fromBe_wordAt ha (by omega)]

/-- **C67**, reading when the operating system fails: `GenericPhysicalReadError`, and the file is unchanged. -/
theorem C67_read_error {d : FileBackedMem} {a : Word} (ex : U16) (hl : a.toNat < d.realSize.toNat)
    (h : d.broken d.calls = true ∨ d.broken (d.calls + 1) = true) :
    ∃ n, Bus.read d a ex = some ({ d with calls := n }, 0, AuxHwException.genericPhysicalReadError.encode) := by
  show ∃ n, FileBackedMem.read d a ex = _
  unfold FileBackedMem.read
  rw [if_neg (by rw [ge_iff_le, BitVec.le_def]; omega)]
  split
  · exact ⟨_, rfl⟩
  · next h1 =>
    rw [if_pos (Or.inl (h.resolve_left h1))]
    exact ⟨_, rfl⟩

/-- **C67**, beyond the file: reads give 0 and writes do nothing. -/
theorem C67_outside {d : FileBackedMem} {a : Word} (w : Word) (ex : U16) (hl : d.realSize.toNat ≤ a.toNat)
    (hw : d.writable = true) : Bus.read d a ex = some (d, 0, ex) ∧ Bus.write d a w ex = some (d, ex) := by
  constructor
  · show FileBackedMem.read d a ex = _
    unfold FileBackedMem.read
    rw [if_pos (by rw [ge_iff_le, BitVec.le_def]; exact hl)]
  · show FileBackedMem.write d a w ex = _
    unfold FileBackedMem.write
    rw [if_neg (by rw [hw]; decide), if_neg (by rw [BitVec.lt_def]; omega)]

theorem file_write_eq {d : FileBackedMem} {a : Word} (w : Word) (ex : U16)
    (hl : a.toNat < d.realSize.toNat) (hw : d.writable = true) (h1 : d.broken d.calls = false)
    (h2 : d.broken (d.calls + 1) = false) : Bus.write d a w ex =
      some ({ d with file := overwrite d.file a.toNat (beBytes 4 w), calls := d.calls + 2 }, ex) := by
  show FileBackedMem.write d a w ex = _
  unfold FileBackedMem.write
  rw [if_neg (by rw [hw]; decide), if_pos (by rw [BitVec.lt_def]; exact hl), if_neg (by rw [h1, h2]; decide)]

/-- **C67**, writing: in writable mode an aligned write inside the file raises nothing and changes exactly the four bytes of
that word, to the word's bytes, strongest first. -/
theorem C67_write {d : FileBackedMem} (hi : FileInv d) {a : Word} (w : Word) (ex : U16) (ha : a.toNat % 4 = 0)
    (hl : a.toNat < d.realSize.toNat) (hw : d.writable = true) (h1 : d.broken d.calls = false)
    (h2 : d.broken (d.calls + 1) = false) :
    ∃ file', Bus.write d a w ex = some ({ d with file := file', calls := d.calls + 2 }, ex) ∧
      file'.length = d.file.length ∧
      (∀ j, j < 4 → (file'[a.toNat + j]?).map BitVec.toNat = some (w.toNat / 256 ^ (3 - j) % 256)) ∧
      ∀ j, j < a.toNat ∨ a.toNat + 4 ≤ j → file'[j]? = d.file[j]? := by
  have hin := hi.inside; have hal := hi.aligned
  have h4 : (beBytes 4 w).length = 4 := rfl
  refine ⟨overwrite d.file a.toNat (beBytes 4 w), file_write_eq w ex hl hw h1 h2,
    overwrite_length (by rw [h4]; omega), ?_, ?_⟩
  · intro j hj
    rw [overwrite_get (by rw [h4]; omega), h4, if_pos (by omega), show a.toNat + j - a.toNat = j by omega]
    exact beBytes_padded w j hj
  · intro j hj
    rw [overwrite_get (by rw [h4]; omega), h4, if_neg (by omega)]

/-- **C67**: a read-only file is never changed; writes are refused with `MemoryNotWritable`. -/
theorem C67_readonly {d : FileBackedMem} (hw : d.writable = false) (a w : Word) (ex : U16) :
    Bus.write d a w ex = some (d, AuxHwException.memoryNotWritable.encode) := by
  show FileBackedMem.write d a w ex = _
  unfold FileBackedMem.write
  rw [if_pos hw]

/-- The file of a writable component after a history (newest first) of aligned requests, from the file `f0`. -/
structure FileHist (size : Nat) (f0 : List U8) (hist : List Req) (d : FileBackedMem) : Prop where
  inv : FileInv d
  size_eq : d.realSize.toNat = size
  fine : ∀ n, d.broken n = false
  writable : d.writable = true
  length : d.file.length = f0.length
  words : ∀ i, 4 * i < size → wordAt d.file i = (lastWritten (4 * i) hist).getD (wordAt f0 i)
  rest : ∀ j, size ≤ j → d.file[j]? = f0[j]?

theorem FileHist.same {size : Nat} {f0 : List U8} {hist : List Req} {d : FileBackedMem} (h : FileHist size f0 hist d)
    (r : Req) (n : Nat) (hr : ∀ i, 4 * i < size → lastWritten (4 * i) (r :: hist) = lastWritten (4 * i) hist) :
    FileHist size f0 (r :: hist) { d with calls := n } where
  inv := ⟨h.inv.aligned, h.inv.inside⟩
  size_eq := h.size_eq
  fine := h.fine
  writable := h.writable
  length := h.length
  words i hi := by rw [hr i hi]; exact h.words i hi
  rest := h.rest

theorem FileHist.step {size bound : Nat} {f0 : List U8} {hist : List Req} {d : FileBackedMem}
    (h : FileHist size f0 hist d) (r : Req) (hr : r.Within bound) :
    ∃ d' a, serve d r = some (d', a) ∧ FileHist size f0 (r :: hist) d' := by
  have hal := h.inv.aligned; have hin := h.inv.inside; have hs := h.size_eq
  cases r with
  | reset => exact ⟨d, _, rfl, h.same _ d.calls fun _ _ => rfl⟩
  | read a ex =>
    by_cases hl : a.toNat < d.realSize.toNat
    · have := C67_read h.inv ex hr.1 hl (h.fine _) (h.fine _)
      exact ⟨{ d with calls := d.calls + 2 }, _, by simp only [serve, this]; rfl, h.same _ _ fun _ _ => rfl⟩
    · have := (C67_outside (a := a) 0 ex (by omega) h.writable).1
      exact ⟨d, _, by simp only [serve, this]; rfl, h.same _ d.calls fun _ _ => rfl⟩
  | write a w ex =>
    have ha := hr.1
    by_cases hl : a.toNat < d.realSize.toNat
    · have := file_write_eq w ex hl h.writable (h.fine _) (h.fine _)
      have h4 : (beBytes 4 w).length = 4 := rfl
      have hlen : (overwrite d.file a.toNat (beBytes 4 w)).length = d.file.length :=
        overwrite_length (by rw [h4]; omega)
      refine ⟨{ d with file := overwrite d.file a.toNat (beBytes 4 w), calls := d.calls + 2 }, .wrote ex,
        by simp only [serve, this]; rfl, ⟨hal, ?_⟩, hs, h.fine, h.writable, ?_, ?_, ?_⟩
      · show d.realSize.toNat ≤ (overwrite d.file a.toNat (beBytes 4 w)).length
        rw [hlen]; exact hin
      · show (overwrite d.file a.toNat (beBytes 4 w)).length = _
        rw [hlen]; exact h.length
      · intro i hi
        show wordAt (overwrite d.file a.toNat (beBytes 4 w)) i = _
        rw [overwrite_word ha (by omega)]
        by_cases hh : a.toNat = 4 * i
        · rw [if_pos (by omega)]; simp only [lastWritten, if_pos hh]; rfl
        · rw [if_neg (by omega), h.words i hi]; simp only [lastWritten, if_neg hh]
      · intro j hj
        show (overwrite d.file a.toNat (beBytes 4 w))[j]? = _
        rw [overwrite_get (by rw [h4]; omega), h4, if_neg (by omega)]
        exact h.rest j hj
    · have := (C67_outside w ex (Nat.le_of_not_lt hl) h.writable).2
      refine ⟨d, _, by simp only [serve, this]; rfl, h.same _ d.calls fun i hi => ?_⟩
      simp only [lastWritten]
      rw [if_neg (by omega)]

theorem FileHist.run {size bound : Nat} {f0 : List U8} {hist rs : List Req} {d : FileBackedMem}
    (h : FileHist size f0 hist d) (hr : ∀ r ∈ rs, r.Within bound) :
    ∃ d' as, serveAll d rs = some (d', as) ∧ FileHist size f0 (rs.reverse ++ hist) d' := by
  induction rs generalizing d hist with
  | nil => exact ⟨d, [], rfl, h⟩
  | cons r rs ih =>
    obtain ⟨d1, a, h1, hi1⟩ := h.step r (hr r List.mem_cons_self)
    obtain ⟨d2, as, h2, hi2⟩ := ih hi1 fun r h => hr r (List.mem_cons_of_mem _ h)
    refine ⟨d2, a :: as, serveAll_cons h1 h2, ?_⟩
    rw [List.reverse_cons, List.append_assoc]; exact hi2

/-- **C67**, any history. Open a file for writing and serve any aligned requests, resets included, while the operating
system does not fail. Then the file has kept its length, each of its words is the last one written there or the original one,
bytes after the last whole word are unchanged, and a read gives the word of the file. -/
theorem C67_history_partial {file : List U8} {broken : Nat → Bool} {hw : U64} {d : FileBackedMem} {bound : Nat}
    (ho : FileBackedMem.openWritable file broken hw = some d) (hio : ∀ n, broken n = false)
    {rs : List Req} (hr : ∀ r ∈ rs, r.Within bound) :
    ∃ d' as, serveAll d rs = some (d', as) ∧ d'.file.length = file.length ∧
      (∀ i, 4 * i + 4 ≤ file.length → wordAt d'.file i = (lastWritten (4 * i) rs.reverse).getD (wordAt file i)) ∧
      (∀ j, file.length / 4 * 4 ≤ j → d'.file[j]? = file[j]?) ∧
      ∀ (a : Word) ex, a.toNat % 4 = 0 → a.toNat + 4 ≤ file.length →
        ∃ d2, Bus.read d' a ex = some (d2, (lastWritten a.toNat rs.reverse).getD (wordAt file (a.toNat / 4)), ex) ∧
          d2.file = d'.file := by
  obtain ⟨hi, hf, hb, hwr, hsz, _, _⟩ := file_open ho
  have hh : FileHist (file.length / 4 * 4) file [] d :=
    ⟨hi, hsz, by rw [hb]; exact hio, hwr, by rw [hf], fun i _ => by rw [hf]; rfl, fun j _ => by rw [hf]⟩
  obtain ⟨d', as, h1, h2⟩ := hh.run hr
  rw [List.append_nil] at h2
  refine ⟨d', as, h1, h2.length, fun i hi => h2.words i (by omega), h2.rest, fun a ex ha hl => ?_⟩
  have hs := h2.size_eq
  refine ⟨{ d' with calls := d'.calls + 2 }, (C67_read h2.inv ex ha (by omega) (h2.fine _) (h2.fine _)).trans ?_, rfl⟩
  rw [h2.words _ (by omega), show 4 * (a.toNat / 4) = a.toNat by omega]

/-- **C67**, persistence: what one component has written into the file, the next component that opens it reads. -/
theorem C67_reopen_partial {file : List U8} {broken broken' : Nat → Bool} {hw hw' : U64} {d d' e : FileBackedMem}
    {as : List Answer} {wr : Bool} {bound : Nat} (ho : FileBackedMem.openWritable file broken hw = some d)
    (hio : ∀ n, broken n = false) {rs : List Req} (hr : ∀ r ∈ rs, r.Within bound) (hs : serveAll d rs = some (d', as))
    (he : FileBackedMem.open d'.file broken' wr hw' = some e) (hio' : ∀ n, broken' n = false) (a : Word) (ex : U16)
    (ha : a.toNat % 4 = 0) (hl : a.toNat + 4 ≤ file.length) :
    ∃ e', Bus.read e a ex = some (e', (lastWritten a.toNat rs.reverse).getD (wordAt file (a.toNat / 4)), ex) := by
  obtain ⟨d2, as2, h1, h2, h3, _⟩ := C67_history_partial ho hio hr
  rw [hs] at h1
  cases h1
  obtain ⟨hi, hf, hb, _, hsz, _, _⟩ := file_open he
  refine ⟨{ e with calls := e.calls + 2 }, (C67_read hi ex ha (by rw [hsz, h2]; omega) (by rw [hb]; exact hio' _) (by rw [hb]; exact hio' _)).trans ?_⟩
  rw [hf, h3 _ (by omega), show 4 * (a.toNat / 4) = a.toNat by omega]

/-- **C67** fails for the size: a component over a file of at least 4 bytes (and less than 1 GiB) advertises four times the
size of its storage. -/
theorem C67_size_refuted {file : List U8} {broken : Nat → Bool} {wr : Bool} {hw : U64} {d : FileBackedMem}
    (h : FileBackedMem.open file broken wr hw = some d) (h4 : 4 ≤ file.length) (hlt : file.length < 2 ^ 30) :
    Advertises pf d (4 * (file.length / 4 * 4)) ∧ 4 * (file.length / 4 * 4) ≠ file.length := by
  obtain ⟨_, _, _, _, hsz, hs, _⟩ := file_open h
  refine ⟨?_, by omega⟩
  have e : d.size.toNat * 4 = 4 * (file.length / 4 * 4) := by rw [hs, hsz]; omega
  rw [← e]
  exact advertises_words (hw := d.hwId) (cat := .storage .persistent) (by omega) rfl

/-- **C67** fails for `writable_with_size`: when it makes the file larger, the component neither advertises nor uses the new
part. -/
theorem C67_grow_refuted {file : List U8} {broken : Nat → Bool} {size : Word} {hw : U64} {d : FileBackedMem}
    (h : FileBackedMem.writableWithSize file broken size hw = some d) (hg : file.length < size.toNat) :
    d.file.length = size.toNat ∧ d.size.toNat = file.length / 4 * 4 ∧
    ∀ (a : Word) w ex, file.length ≤ a.toNat → Bus.read d a ex = some (d, 0, ex) ∧ Bus.write d a w ex = some (d, ex) := by
  obtain ⟨m, h1, h2⟩ := Option.bind_eq_some_iff.mp h
  obtain ⟨hi, hf, hb, hwr, hsz, hs, hc⟩ := file_open h1
  have hlt : ¬ size < m.realSize := by rw [BitVec.lt_def, hsz]; omega
  have hlt2 : m.realSize < size := by rw [BitVec.lt_def, hsz]; omega
  rw [if_neg hlt, if_pos hlt2] at h2
  split at h2
  · cases h2
  · cases h2
    refine ⟨?_, ?_, fun a w ex ha => ?_⟩
    · show (m.file.take size.toNat ++ List.replicate (size.toNat - m.file.length) 0).length = _
      rw [hf, List.length_append, List.length_take, List.length_replicate]; omega
    · show m.size.toNat = _
      rw [hs, hsz]
    · exact C67_outside w ex (by show m.realSize.toNat ≤ _; rw [hsz]; omega) hwr

/-- **C73** fails: a write that the operating system refuses panics. -/
theorem C73_file_write_refuted {d : FileBackedMem} {a : Word} (w : Word) (ex : U16) (hl : a.toNat < d.realSize.toNat)
    (hw : d.writable = true) (h : d.broken d.calls = true ∨ d.broken (d.calls + 1) = true) : Bus.write d a w ex = none := by
  show FileBackedMem.write d a w ex = _
  unfold FileBackedMem.write
  rw [if_neg (by rw [hw]; decide), if_pos (by rw [BitVec.lt_def]; exact hl), if_pos h]

/-- **C73** fails: over a file of 1 GiB or more, a debug build panics when the component is plugged (its size is asked). -/
theorem C73_file_size_refuted {file : List U8} {broken : Nat → Bool} {wr : Bool} {hw : U64} {d : FileBackedMem}
    (h : FileBackedMem.open file broken wr hw = some d) (hlt : 2 ^ 30 ≤ file.length) : Bus.metadata .debug d = none := by
  obtain ⟨_, _, _, _, hsz, hs, _⟩ := file_open h
  show (do let bytes ← Profile.mul .debug d.size 4; _) = _
  have : Profile.mul .debug d.size 4 = none := by
    unfold Profile.mul
    exact if_neg (by rw [hs, hsz]; show ¬ _ * 4 < 2 ^ 32; omega)
  rw [this]; rfl

/-- **C73**, what holds: over a file of less than 1 GiB, while the operating system does not fail. -/
theorem C73_file_partial {file : List U8} {broken : Nat → Bool} {hw : U64} {d : FileBackedMem}
    (h : FileBackedMem.openWritable file broken hw = some d) (hio : ∀ n, broken n = false) (hlt : file.length < 2 ^ 30) :
    Robust pf d (4 * (file.length / 4 * 4)) := by
  obtain ⟨hi, hf, hb, hwr, hsz, hs, _⟩ := file_open h
  have hh : FileHist (file.length / 4 * 4) file [] d :=
    ⟨hi, hsz, by rw [hb]; exact hio, hwr, by rw [hf], fun i _ => by rw [hf]; rfl, fun j _ => by rw [hf]⟩
  refine robust_of_inv (fun d => d.size.toNat = file.length / 4 * 4 ∧ ∃ hist, FileHist (file.length / 4 * 4) file hist d)
    ⟨by rw [hs, hsz], _, hh⟩ ?_ ?_
  · rintro d r ⟨hsize, hist, hi⟩ hr
    obtain ⟨d', a, h2, h3⟩ := hi.step r hr
    refine ⟨d', a, h2, ?_, _, h3⟩
    rw [← hsize]
    cases r with
    | reset => cases h2; rfl
    | read a ex =>
      by_cases hl : a.toNat < d.realSize.toNat
      · simp only [serve, C67_read hi.inv ex hr.1 hl (hi.fine _) (hi.fine _)] at h2; cases h2; rfl
      · simp only [serve, (C67_outside (a := a) 0 ex (Nat.le_of_not_lt hl) hi.writable).1] at h2; cases h2; rfl
    | write a w ex =>
      by_cases hl : a.toNat < d.realSize.toNat
      · simp only [serve, file_write_eq w ex hl hi.writable (hi.fine _) (hi.fine _)] at h2; cases h2; rfl
      · simp only [serve, (C67_outside w ex (Nat.le_of_not_lt hl) hi.writable).2] at h2; cases h2; rfl
  · rintro d ⟨hsize, _⟩
    have e : d.size.toNat * 4 = 4 * (file.length / 4 * 4) := by rw [hsize]; omega
    rw [← e]
    exact advertises_words (hw := d.hwId) (cat := .storage .persistent) (by omega) rfl

example : ((FileBackedMem.openWritable [1, 2, 3, 4, 5, 6, 7, 8, 9] (fun _ => false) 7).bind fun d =>
    serveAll d [.read 0 0, .write 4 0xAABBCCDD 0, .reset, .read 4 0, .read 8 0, .write 12 5 0]).map
      (fun x => (x.1.file, x.2)) =
    some ([1, 2, 3, 4, 0xAA, 0xBB, 0xCC, 0xDD, 9],
      [.value 0x01020304 0, .wrote 0, .done, .value 0xAABBCCDD 0, .value 0 0, .wrote 0]) := by
  decide +kernel

/-- A file that is made larger, from 6 to 20 bytes: the hypotheses of `C67_grow_refuted`; the file is grown, the component is
not. -/
example : ∃ d, FileBackedMem.writableWithSize [1, 2, 3, 4, 5, 6] (fun _ => false) 20 7 = some d ∧
    d.file = [1, 2, 3, 4, 5, 6] ++ List.replicate 14 0 ∧ d.size = 4 ∧
    (serveAll d [.read 0 0, .read 4 0, .write 4 9 0, .read 4 0]).map (·.2) =
      some [.value 0x01020304 0, .value 0 0, .wrote 0, .value 0 0] :=
  ⟨_, rfl, rfl, rfl, by decide +kernel⟩

/-- A read-only file whose disk fails at the fourth call: the hypotheses of `C67_read`, `C67_read_error` and
`C67_readonly`. -/
example : ∃ d, FileBackedMem.open [1, 2, 3, 4, 5, 6, 7, 8] (fun n => n = 3) false 7 = some d ∧
    (serveAll d [.read 4 0, .read 4 0, .write 4 9 0]).map (·.2) =
      some [.value 0x05060708 0, .value 0 AuxHwException.genericPhysicalReadError.encode,
        .wrote AuxHwException.memoryNotWritable.encode] :=
  ⟨_, rfl, by decide +kernel⟩

/-- The same failure under a write: the hypotheses of `C73_file_write_refuted`. -/
example : ∃ d, FileBackedMem.openWritable [1, 2, 3, 4, 5, 6, 7, 8] (fun n => n = 3) 7 = some d ∧
    serveAll d [.read 4 0, .write 4 9 0] = none :=
  ⟨_, rfl, by decide +kernel⟩

end Lrvm
