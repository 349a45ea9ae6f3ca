import Verif.Model.Warnings
import Verif.Props.Mapping
import Verif.Props.Devices.Keyboards
import Verif.Props.Devices.FileBacked
import Verif.Props.Tools.Lasm
import Verif.Props.Tools.Messages
import Verif.Props.Devices.Printing

/-!
# Warnings tell what is lost: C137
-/

namespace Lrvm

open Spec

variable {D : Type} [Bus D] {pf : Profile}

/-! ## Memory -/

/-- The warning about an access to an address where there is no component. -/
def Spec.unmappedWarning (verb : String) (a : Word) : List Char :=
  ("Warning: tried to " ++ verb ++ " non-mapped memory at address ").toList ++ addressText a.toNat

/-- **C137**, memory. On a board built from components, after any history of host calls without `map_abs`, an aligned access
through the mapped memory prints one warning, which tells the kind of the access and the address, when no component is mapped
at the address and the build has debug assertions; otherwise it prints nothing. -/
theorem C137_memory {devs : List D} {s0 s : Machine D} {ops : List HostOp} (hb : newBoard pf devs = some s0)
    (hops : ∀ op ∈ ops, ∀ a e i, op ≠ .mapAbs a e i) (h : hostRun pf ops s0 = some s) {a : Word} (ha : a.toNat % 4 = 0) :
    let warns := pf = .debug ∧ ∀ m ∈ s.mappings, ¬ covers m a
    (warns → memReadPrinted pf s a = some [unmappedWarning "read" a] ∧
      memWritePrinted pf s a = some [unmappedWarning "write" a]) ∧
    (¬ warns → memReadPrinted pf s a = some [] ∧ memWritePrinted pf s a = some []) := by
  have ht := C43_no_overlap_partial hb hops h
  unfold memReadPrinted memWritePrinted
  rw [assert_aligned ha, findMapping_eq ht.ranges, fmtHex_address a.isLt]
  simp only [Option.bind_eq_bind, Option.bind_some]
  cases hf : s.mappings.find? (fun m => decide (covers m a)) with
  | none =>
    have hn : ∀ m ∈ s.mappings, ¬ covers m a := by simpa using hf
    refine ⟨fun hw => ?_, fun hw => ?_⟩
    · obtain ⟨rfl, -⟩ := hw
      exact ⟨rfl, rfl⟩
    · have hp : pf ≠ .debug := fun hp => hw ⟨hp, hn⟩
      constructor <;> simp [hp]
  | some m =>
    have hm := List.mem_of_find?_eq_some hf
    have hc : covers m a := by simpa using List.find?_some (p := fun m => decide (covers m a)) hf
    exact ⟨fun hw => absurd hc (hw.2 m hm), fun _ => ⟨rfl, rfl⟩⟩

/-- **C137**, memory: what is warned about is lost, and nothing else is: when there is a warning the read gives 0 and the write
does nothing. -/
theorem C137_lost {devs : List D} {s0 s : Machine D} {ops : List HostOp} (hb : newBoard pf devs = some s0)
    (hops : ∀ op ∈ ops, ∀ a e i, op ≠ .mapAbs a e i) (h : hostRun pf ops s0 = some s) {a : Word} (ha : a.toNat % 4 = 0)
    (w : Word) (ex : U16) :
    (memReadPrinted pf s a ≠ some [] → memRead pf s a ex = some (0, ex, s)) ∧
    (memWritePrinted pf s a ≠ some [] → memWrite pf s a w ex = some (ex, s)) := by
  have ht := C43_no_overlap_partial hb hops h
  have hm := C137_memory hb hops h ha
  refine ⟨fun hp => ?_, fun hp => ?_⟩
  · by_cases hw : pf = .debug ∧ ∀ m ∈ s.mappings, ¬ covers m a
    · exact (C37_unmapped (w := w) ht hw.2 ha).1
    · exact absurd (hm.2 hw).1 hp
  · by_cases hw : pf = .debug ∧ ∀ m ∈ s.mappings, ¬ covers m a
    · exact (C37_unmapped (ex := ex) ht hw.2 ha).2
    · exact absurd (hm.2 hw).2 hp

/-- **C137**, memory: two warnings are the same text only if they are about the same kind of access at the same address. -/
theorem C137_tells {v v' : String} {a b : Word} (hv : v ∈ ["read", "write"]) (hv' : v' ∈ ["read", "write"])
    (h : unmappedWarning v a = unmappedWarning v' b) : v = v' ∧ a = b := by
  have hx : addressText a.toNat = addressText b.toNat → a = b := by
    intro h
    rw [← fmtHex_address a.isLt, ← fmtHex_address b.isLt] at h
    exact BitVec.eq_of_toNat_eq (fmtHex_inj h)
  simp only [List.mem_cons, List.not_mem_nil, or_false] at hv hv'
  unfold unmappedWarning at h
  rcases hv with rfl | rfl <;> rcases hv' with rfl | rfl
  · exact ⟨rfl, hx (List.append_cancel_left h)⟩
  · have := congrArg (fun t : List Char => t[18]?) h
    simp at this
  · have := congrArg (fun t : List Char => t[18]?) h
    simp at this
  · exact ⟨rfl, hx (List.append_cancel_left h)⟩

/-- The example machine (64 bytes of ROM and 64 bytes of RAM), read and written past its memory. -/
example : ∃ s0 s : Machine Demo.Dev, newBoard .debug (Demo.devices []) = some s0 ∧
    hostRun .debug [.mapContiguous 0 [0, 1]] s0 = some s ∧
    (memReadPrinted .debug s 0x80).map (·.map String.ofList) =
      some ["Warning: tried to read non-mapped memory at address 0x00000080"] ∧
    memWritePrinted .debug s 0x7C = some [] :=
  ⟨_, _, rfl, rfl, by decide +kernel, by decide +kernel⟩

/-! ## Line keyboard -/

theorem lineLoopPrinted_eq (t : List Char) (size : Nat) : ∀ (bytes : List U8) (k pos : Nat), k ≤ 3 → pos ≤ size →
    lineLoopPrinted t size k pos bytes = if 4 * size < 4 * pos + k + bytes.length then [t] else []
  | [], k, pos, hk, hp => by
    unfold lineLoopPrinted
    by_cases h0 : k > 0
    · rw [if_pos h0]
      by_cases h1 : pos ≥ size
      · rw [if_pos h1, if_pos (by simp; omega)]
      · rw [if_neg h1, if_neg (by simp; omega)]
    · rw [if_neg h0, if_neg (by simp; omega)]
  | b :: bs, k, pos, hk, hp => by
    unfold lineLoopPrinted
    rw [List.length_cons]
    by_cases h3 : k = 3
    · rw [if_pos h3]
      by_cases h1 : pos ≥ size
      · rw [if_pos h1, if_pos (by omega)]
      · rw [if_neg h1, lineLoopPrinted_eq t size bs 0 (pos + 1) (by omega) (by omega)]
        simp only [show 4 * (pos + 1) + 0 + bs.length = 4 * pos + k + (bs.length + 1) by omega]
    · rw [if_neg h3, lineLoopPrinted_eq t size bs (k + 1) pos (by omega) hp]
      simp only [show 4 * pos + (k + 1) + bs.length = 4 * pos + k + (bs.length + 1) by omega]

/-- The warning about a line that does not fit in the buffer of `n` bytes. -/
def Spec.longLineWarning (n : Nat) : List Char :=
  "Warning: input is too long for synchronous keyboard's buffer (max. ".toList ++ Nat.toDigits 10 n ++ " bytes)".toList

/-- **C137**, line keyboard. After any history of requests, a line request prints one warning, which tells how many bytes the
buffer has, when the line that the input handler gives has more bytes than the buffer; when it has not, nothing is printed.
No other write prints anything. -/
theorem C137_line {cap : Word} {input : Nat → List Char} {hw : U64} {d : SyncLineKeyboard}
    (hn : SyncLineKeyboard.new cap input hw = some d) {rs : List Req} (hr : ∀ r ∈ rs, r.Within cap.toNat) :
    ∃ d' as, serveAll d rs = some (d', as) ∧
      (let line := utf8 (input (lineRequests (cap.toNat - 4) rs.reverse))
       (cap.toNat - 4 < line.length → d'.writePrinted (cap - 4) 0xAA = [longLineWarning (cap.toNat - 4)]) ∧
       (line.length ≤ cap.toNat - 4 → d'.writePrinted (cap - 4) 0xAA = [])) ∧
      ∀ a w : Word, a.toNat % 4 = 0 → ¬ (a = cap - 4 ∧ w = 0xAA) → d'.writePrinted a w = [] := by
  obtain ⟨hi, h4⟩ := line_new hn
  obtain ⟨d', as, h1, h2⟩ := hi.run hr
  rw [List.append_nil] at h2
  have hwd := h2.words
  have e : (cap - 4).toNat = cap.toNat - 4 := by
    rw [BitVec.toNat_sub_of_le (by rw [BitVec.le_def]; exact h4)]; rfl
  have hcap : (cap - 4) / 4 = d'.capacity := by
    apply BitVec.eq_of_toNat_eq; rw [word_div4, e]; omega
  have hmul : (d'.capacity * 4).toNat = cap.toNat - 4 := by
    rw [BitVec.toNat_mul]
    have := h2.cap_lt
    exact (Nat.mod_eq_of_lt (by show _ * 4 < 4294967296; omega)).trans (by show _ * 4 = _; omega)
  have hp : d'.writePrinted (cap - 4) 0xAA =
      if cap.toNat - 4 < (utf8 (input (lineRequests (cap.toNat - 4) rs.reverse))).length then
        [longLineWarning (cap.toNat - 4)] else [] := by
    unfold SyncLineKeyboard.writePrinted
    rw [if_neg (by rw [hcap]; exact fun h => h rfl)]
    show lineLoopPrinted _ _ _ _ _ = _
    rw [lineLoopPrinted_eq _ _ _ _ _ (by omega) (by omega), hmul, fmtDec_ten, h2.length, h2.input_eq, h2.asked]
    simp only [show 4 * d'.capacity.toNat = cap.toNat - 4 by omega, Nat.mul_zero, Nat.zero_add]
    rfl
  refine ⟨d', as, h1, ⟨fun h => ?_, fun h => ?_⟩, fun a w ha hne => ?_⟩
  · rw [hp, if_pos h]
  · rw [hp, if_neg (by omega)]
  · unfold SyncLineKeyboard.writePrinted
    by_cases hc : a / 4 = d'.capacity
    · rw [if_neg (fun h => h hc)]
      have ha4 : a = cap - 4 := by
        apply BitVec.eq_of_toNat_eq
        have := congrArg BitVec.toNat hc
        rw [word_div4] at this
        rw [e]; omega
      split
      · next hw' => exact absurd ⟨ha4, BitVec.eq_of_toNat_eq hw'⟩ hne
      · rfl
    · rw [if_pos hc]

/-- **C137**, line keyboard: a line nothing is printed about is wholly in the buffer. -/
theorem C137_line_kept {cap : Word} {input : Nat → List Char} {hw : U64} {d d' : SyncLineKeyboard}
    (hn : SyncLineKeyboard.new cap input hw = some d) {rs : List Req} (hr : ∀ r ∈ rs, r.Within cap.toNat) {as : List Answer}
    (h : serveAll d rs = some (d', as)) (hp : d'.writePrinted (cap - 4) 0xAA = []) (e : U16) :
    ∃ d'', (∃ e', Bus.write d' (cap - 4) 0xAA e = some (d'', e')) ∧
      let line := utf8 (input (lineRequests (cap.toNat - 4) rs.reverse))
      ∀ (a : Word) ex, a.toNat % 4 = 0 → a.toNat < line.length → a.toNat < cap.toNat - 4 ∧
        Bus.read d'' a ex = some (d'', wordAt line (a.toNat / 4), ex) := by
  obtain ⟨hi, h4⟩ := line_new hn
  have e4 : (cap - 4).toNat = cap.toNat - 4 := by
    rw [BitVec.toNat_sub_of_le (by rw [BitVec.le_def]; exact h4)]; rfl
  have hw := hi.words
  obtain ⟨d1, as1, h1, hl, -⟩ := C137_line hn hr
  rw [h] at h1; cases h1
  have hlen : (utf8 (input (lineRequests (cap.toNat - 4) rs.reverse))).length ≤ cap.toNat - 4 := by
    refine Nat.le_of_not_lt fun hlt => ?_
    rw [hl.1 hlt] at hp; cases hp
  obtain ⟨d2, as2, hs2, -, hrd⟩ := C71_history_partial hn (rs := rs ++ [.write (cap - 4) 0xAA e]) (by
    intro r hm
    rcases List.mem_append.mp hm with hm | hm
    · exact hr r hm
    · rw [List.mem_singleton.mp hm]
      exact ⟨by rw [e4]; omega, by rw [e4]; omega⟩)
  obtain ⟨dm, a1, a2, hm1, hm2, -⟩ := serveAll_append_inv hs2
  rw [h] at hm1; cases hm1
  obtain ⟨d3, b, bs, hb1, hb2, -⟩ := serveAll_cons_inv hm2
  cases hb2
  refine ⟨d2, ?_, fun a ex ha hlt => ?_⟩
  · simp only [serve, Option.map_eq_some_iff] at hb1
    obtain ⟨⟨x, y⟩, hx, hy⟩ := hb1
    cases hy
    exact ⟨y, hx⟩
  · have hlt' : a.toNat < cap.toNat - 4 := by
      have : (cap.toNat - 4) % 4 = 0 := by omega
      omega
    refine ⟨hlt', ?_⟩
    rw [hrd a ex ha hlt', List.reverse_append]
    show some (_, lineHeld _ _ _ (.write (cap - 4) 0xAA e :: rs.reverse), _) = _
    unfold lineHeld
    rw [if_pos ⟨e4, rfl, by omega⟩]

/-- A line of 5 bytes on a keyboard with a buffer of 4. -/
example : ∃ d, SyncLineKeyboard.new 8 (fun _ => "hello".toList) 7 = some d ∧
    (d.writePrinted 4 0xAA).map String.ofList =
      ["Warning: input is too long for synchronous keyboard's buffer (max. 4 bytes)"] :=
  ⟨_, rfl, by decide +kernel⟩

/-- The same line on a keyboard with a buffer of 8. -/
example : ∃ d, SyncLineKeyboard.new 12 (fun _ => "hello".toList) 7 = some d ∧ d.writePrinted 8 0xAA = [] :=
  ⟨_, rfl, by decide +kernel⟩

/-! ## Files -/

/-- **C137**, files. Opening a file prints a warning when its size is not a multiple of 4, and nothing otherwise. When
nothing is printed every byte of the file is in a word that can be read; when the warning is printed, reading from the last
whole word on gives 0 and writing there does nothing. -/
theorem C137_file {file : List U8} {broken : Nat → Bool} {wr : Bool} {hw : U64} {d : FileBackedMem}
    (h : FileBackedMem.open file broken wr hw = some d) :
    (file.length % 4 ≠ 0 → FileBackedMem.openPrinted file =
        ["Warning: opened unaligned file as aligned (rounded size to nearest lower multiple of 4 bytes)".toList] ∧
      ∀ (a w : Word) ex, file.length / 4 * 4 ≤ a.toNat → Bus.read d a ex = some (d, 0, ex) ∧
        (wr = true → Bus.write d a w ex = some (d, ex))) ∧
    (file.length % 4 = 0 → FileBackedMem.openPrinted file = [] ∧
      ((∀ n, broken n = false) → ∀ (a : Word) ex, a.toNat % 4 = 0 → a.toNat < file.length →
        ∃ d', Bus.read d a ex = some (d', wordAt file (a.toNat / 4), ex))) := by
  have hlt : file.length < 4294967296 := by
    unfold FileBackedMem.open at h
    split at h
    · cases h
    · omega
  obtain ⟨hinv, hfile, hbr, hwr, hsz, -, -⟩ := file_open h
  have e : (BitVec.ofNat 32 file.length / 4 * 4 : Word).toNat = file.length / 4 * 4 := by
    rw [BitVec.toNat_mul, word_div4, ofNat_toNat_lt (by omega)]
    exact Nat.mod_eq_of_lt (by show _ / 4 * 4 < 4294967296; omega)
  have hne : (BitVec.ofNat 32 file.length / 4 * 4 : Word) = BitVec.ofNat 32 file.length ↔ file.length % 4 = 0 := by
    rw [← BitVec.toNat_inj, e, ofNat_toNat_lt (by omega)]; omega
  unfold FileBackedMem.openPrinted
  rw [if_neg (by omega)]
  refine ⟨fun h4 => ⟨if_pos fun hh => h4 (hne.mp hh), fun a w ex hl => ?_⟩,
    fun h4 => ⟨if_neg fun hh => hh (hne.mpr h4), fun hio a ex ha hl => ?_⟩⟩
  · refine ⟨?_, fun hw => (C67_outside w ex (by omega) (hwr.trans hw)).2⟩
    show FileBackedMem.read d a ex = _
    unfold FileBackedMem.read
    rw [if_pos (by rw [ge_iff_le, BitVec.le_def]; omega)]
  · have := C67_read hinv ex ha (by omega) (by rw [hbr]; exact hio _) (by rw [hbr]; exact hio _)
    rw [hfile] at this
    exact ⟨_, this⟩

/-- A file of 6 bytes. -/
example : FileBackedMem.openPrinted [1, 2, 3, 4, 5, 6] ≠ [] ∧
    ∃ d, FileBackedMem.open [1, 2, 3, 4, 5, 6] (fun _ => false) true 7 = some d := ⟨by decide +kernel, _, rfl⟩

end Lrvm
