import Verif.Lemmas.Component
import Verif.Spec.Exceptions
import Verif.Props.Memory

/-!
# Encodings: bytes and words (C57), exceptions (C58, C59), metadata (C63)
-/

namespace Lrvm

open Spec

variable {D : Type} [Bus D] {pf : Profile}

/-! ## C57 -/

/-- Words to bytes and back. -/
theorem C57_words_round_trip (ws : List Word) : bytesToWords (wordsToBytes ws) = ws :=
  bytesToWords_wordsToBytes ws

/-- Whole words of bytes to words and back. -/
theorem C57_bytes_round_trip (bs : List U8) (h : bs.length % 4 = 0) : wordsToBytes (bytesToWords bs) = bs :=
  wordsToBytes_bytesToWords h

/-- Byte `4 i + j` of the bytes of `ws` is byte `j` of word `i`, counted from the strongest. -/
theorem C57_words_to_bytes (ws : List Word) :
    (wordsToBytes ws).length = 4 * ws.length ∧
    ∀ i j w, ws[i]? = some w → j < 4 →
      ((wordsToBytes ws)[4 * i + j]?).map BitVec.toNat = some (w.toNat / 256 ^ (3 - j) % 256) := by
  refine ⟨wordsToBytes_length ws, ?_⟩
  induction ws with
  | nil => intro i j w h; simp at h
  | cons v ws ih =>
    intro i j w h hj
    rw [wordsToBytes_cons, beBytes_four]
    cases i with
    | zero =>
      simp at h; subst h
      have hw := v.isLt
      rcases (by omega : j = 0 ∨ j = 1 ∨ j = 2 ∨ j = 3) with rfl | rfl | rfl | rfl <;>
        simp [BitVec.toNat_setWidth, BitVec.toNat_ushiftRight, Nat.shiftRight_eq_div_pow]
    | succ i =>
      simp at h
      have := ih i j w h hj
      rw [show 4 * (i + 1) + j = (4 * i + j) + 4 by omega]
      simpa using this

/-- The whole words of any list of bytes, in big-endian order, and how many words there are. -/
theorem C57_bytes_to_words (bs : List U8) :
    (bytesToWords bs).length = (bs.length + 3) / 4 ∧
    ∀ i b0 b1 b2 b3, bs[4 * i]? = some b0 → bs[4 * i + 1]? = some b1 → bs[4 * i + 2]? = some b2 → bs[4 * i + 3]? = some b3 →
      ((bytesToWords bs)[i]?).map BitVec.toNat =
        some (b0.toNat * 2 ^ 24 + b1.toNat * 2 ^ 16 + b2.toNat * 2 ^ 8 + b3.toNat) := by
  refine strong_four (P := fun bs => (bytesToWords bs).length = (bs.length + 3) / 4 ∧ ∀ i b0 b1 b2 b3,
    bs[4 * i]? = some b0 → bs[4 * i + 1]? = some b1 → bs[4 * i + 2]? = some b2 → bs[4 * i + 3]? = some b3 →
      ((bytesToWords bs)[i]?).map BitVec.toNat =
        some (b0.toNat * 2 ^ 24 + b1.toNat * 2 ^ 16 + b2.toNat * 2 ^ 8 + b3.toNat)) ?_ ?_ bs
  · intro l hl
    refine ⟨?_, fun i b0 b1 b2 b3 _ _ _ h => ?_⟩
    · match l, hl with
      | [], _ => rfl
      | [_], _ => simp [bytesToWords, bytesToWordsLoop]
      | [_, _], _ => simp [bytesToWords, bytesToWordsLoop]
      | [_, _, _], _ => simp [bytesToWords, bytesToWordsLoop]
    · rw [List.getElem?_eq_none (by omega)] at h; cases h
  · rintro a b c d l ⟨hlen, ih⟩
    rw [bytesToWords_cons4]
    refine ⟨by simp only [List.length_cons, hlen]; omega, ?_⟩
    intro i b0 b1 b2 b3 h0 h1 h2 h3
    cases i with
    | zero =>
      have h0 : some a = some b0 := h0
      have h1 : some b = some b1 := h1
      have h2 : some c = some b2 := h2
      have h3 : some d = some b3 := h3
      cases h0; cases h1; cases h2; cases h3
      show some (join4 a b c d).toNat = _
      rw [join4_nat]
      refine congrArg some ?_
      omega
    | succ i =>
      exact ih i b0 b1 b2 b3 h0 h1 h2 h3

/-- The claim is false of a last incomplete word: it is shifted a second time, so one or two trailing bytes are lost
(with three, the first is). -/
theorem C57_tail_refuted : bytesToWords [0xAB#8] = [0] ∧ bytesToWords [0xAB#8, 0xCD#8] = [0] ∧
    bytesToWords [0xAB#8, 0xCD#8, 0xEF#8] = [0xCDEF0000] := ⟨rfl, rfl, rfl⟩

theorem tail_one (a : U8) : bytesToWords [a] = [(0 : Word)] := by
  have e : bytesToWords [a] = [(0#32 + (a.setWidth 32 <<< 24)) <<< 24] := by
    simp only [bytesToWords, bytesToWordsLoop, List.length_cons, List.length_nil, List.nil_append]; rfl
  have hz : ((0#32 + (a.setWidth 32 <<< 24)) <<< 24 : Word) = 0#32 := by
   apply BitVec.eq_of_toNat_eq
   simp only [BitVec.toNat_shiftLeft, BitVec.toNat_add, BitVec.toNat_setWidth, Nat.shiftLeft_eq, BitVec.toNat_ofNat]
   omega
  rw [e, hz]; rfl

theorem tail_two (a b : U8) : bytesToWords [a, b] = [(0 : Word)] := by
  have e : bytesToWords [a, b] = [(0#32 + (a.setWidth 32 <<< 24) + (b.setWidth 32 <<< 16)) <<< 16] := by
    simp only [bytesToWords, bytesToWordsLoop, List.length_cons, List.length_nil, List.nil_append]; rfl
  have hz : ((0#32 + (a.setWidth 32 <<< 24) + (b.setWidth 32 <<< 16)) <<< 16 : Word) = 0#32 := by
   apply BitVec.eq_of_toNat_eq
   simp only [BitVec.toNat_shiftLeft, BitVec.toNat_add, BitVec.toNat_setWidth, Nat.shiftLeft_eq, BitVec.toNat_ofNat]
   omega
  rw [e, hz]; rfl

theorem tail_three (a b c : U8) : bytesToWords [a, b, c] =
    [(0#32 + (a.setWidth 32 <<< 24) + (b.setWidth 32 <<< 16) + (c.setWidth 32 <<< 8)) <<< 8] := by
  simp only [bytesToWords, bytesToWordsLoop, List.length_cons, List.length_nil, List.nil_append]; rfl

theorem tail_three_toNat (a b c : U8) :
    (((0#32 + (a.setWidth 32 <<< 24) + (b.setWidth 32 <<< 16) + (c.setWidth 32 <<< 8)) <<< 8 : Word)).toNat =
      b.toNat * 2 ^ 24 + c.toNat * 2 ^ 16 := by
  have := a.isLt; have := b.isLt; have := c.isLt
  simp only [BitVec.toNat_shiftLeft, BitVec.toNat_add, BitVec.toNat_setWidth, Nat.shiftLeft_eq, BitVec.toNat_ofNat]
  omega

/-- **C57**, what happens to one, two or three bytes after the last whole word, whatever precedes them: one or two are
replaced by zeros, and of three the first is lost and the others move one place to the left. -/
theorem C57_tail_partial (ws : List Word) (a b c : U8) :
    bytesToWords (wordsToBytes ws ++ [a]) = ws ++ [0] ∧
    bytesToWords (wordsToBytes ws ++ [a, b]) = ws ++ [0] ∧
    ∃ w : Word, bytesToWords (wordsToBytes ws ++ [a, b, c]) = ws ++ [w] ∧ w.toNat = b.toNat * 2 ^ 24 + c.toNat * 2 ^ 16 := by
  have key : ∀ t : List U8, bytesToWords (wordsToBytes ws ++ t) = ws ++ bytesToWords t := by
    intro t
    induction ws with
    | nil => rfl
    | cons w ws ih => rw [wordsToBytes_cons, List.append_assoc, bytesToWords_be4, ih]; rfl
  rw [key, key, key, tail_one, tail_two, tail_three]
  exact ⟨rfl, rfl, _, rfl, tail_three_toNat a b c⟩

/-! ## C58, C59 -/

theorem etWord_parts {sv : Bool} {c d : Nat} (hc : c < 256) (hd : d < 65536) :
    let w := BitVec.ofNat 32 (etWord sv c d)
    (((w >>> 24).setWidth 8 : U8) != 0) = sv ∧ ((w >>> 16).setWidth 8 : U8) = BitVec.ofNat 8 c ∧
    (((w >>> 8).setWidth 8 : U8) ++ (w.setWidth 8 : U8)) = BitVec.ofNat 16 d := by
  have hs : sv.toNat ≤ 1 := by cases sv <;> decide
  have hn : (BitVec.ofNat 32 (etWord sv c d)).toNat = etWord sv c d := by
    rw [BitVec.toNat_ofNat]; apply Nat.mod_eq_of_lt; unfold etWord; omega
  dsimp only
  refine ⟨?_, ?_, ?_⟩
  · have h : ((BitVec.ofNat 32 (etWord sv c d) >>> 24).setWidth 8 : U8) = BitVec.ofNat 8 sv.toNat := by
      apply BitVec.eq_of_toNat_eq
      rw [BitVec.toNat_setWidth, BitVec.toNat_ushiftRight, hn, Nat.shiftRight_eq_div_pow, BitVec.toNat_ofNat]
      unfold etWord; omega
    rw [h]; cases sv <;> rfl
  · apply BitVec.eq_of_toNat_eq
    rw [BitVec.toNat_setWidth, BitVec.toNat_ushiftRight, hn, Nat.shiftRight_eq_div_pow, BitVec.toNat_ofNat]
    unfold etWord; omega
  · apply BitVec.eq_of_toNat_eq
    rw [append_nat, BitVec.toNat_setWidth, BitVec.toNat_setWidth, BitVec.toNat_ushiftRight, hn,
      Nat.shiftRight_eq_div_pow, BitVec.toNat_ofNat]
    unfold etWord; omega

theorem decode_etWord {sv : Bool} {c d : Nat} (hc : c < 256) (hd : d < 65536) :
    NativeException.decodeWithMode (BitVec.ofNat 32 (etWord sv c d)) =
      (NativeException.decodeParts (BitVec.ofNat 8 c) (some (BitVec.ofNat 16 d))).map fun e => (e, sv) := by
  obtain ⟨h0, h1, h2⟩ := etWord_parts (sv := sv) hc hd
  unfold NativeException.decodeWithMode
  dsimp only
  rw [h1, h2, h0]
  cases NativeException.decodeParts (BitVec.ofNat 8 c) (some (BitVec.ofNat 16 d)) <;> rfl

theorem ofNat_low (x : U8) : (BitVec.ofNat 16 x.toNat).setWidth 8 = x := by
  apply BitVec.eq_of_toNat_eq
  rw [BitVec.toNat_setWidth, BitVec.toNat_ofNat]; have := x.isLt; omega

theorem Spec.AuxTable.bounds {e : AuxHwException} {hi lo : Nat} (h : AuxTable e hi lo) : hi < 256 ∧ lo < 256 := by
  cases h with
  | unknownOperation op => exact ⟨by decide, op.isLt⟩
  | _ => exact ⟨by decide, by decide⟩

theorem Spec.Table.bounds {e : NativeException} {c d : Nat} (h : Table e c d) : c < 256 ∧ d < 65536 := by
  cases h with
  | hardwareException h => have := h.bounds; exact ⟨by decide, by omega⟩
  | divisionOrModByZero => exact ⟨by decide, by decide⟩
  | overflowingDivOrMod => exact ⟨by decide, by decide⟩
  | mmuRefusedRead x => exact ⟨by decide, x.isLt⟩
  | mmuRefusedWrite x => exact ⟨by decide, x.isLt⟩
  | mmuRefusedExec x => exact ⟨by decide, x.isLt⟩
  | unknownComponentId x => exact ⟨by decide, x.isLt⟩
  | componentNotMapped x => exact ⟨by decide, x.isLt⟩
  | unknownOpCode x | unknownRegister x | readProtectedRegister x | writeProtectedRegister x
  | unalignedMemoryAddress x | supervisorReservedInstruction x | invalidCondFlag x | invalidCondMode x
  | unknownHardwareInformationCode x | interruption x => exact ⟨by decide, Nat.lt_trans x.isLt (by decide)⟩

/-- Every component exception encodes to the two bytes of the table, and decodes from them. -/
theorem C59_round_trip (e : AuxHwException) :
    AuxHwException.decode e.encode = some e ∧
    ∀ hi lo, AuxTable e hi lo ↔ e.encode.toNat = hi * 256 + lo ∧ hi < 256 ∧ lo < 256 := by
  have enc : ∀ hi lo, AuxTable e hi lo → e.encode = BitVec.ofNat 16 (hi * 256 + lo) := by
    intro hi lo h
    cases h with
    | unknownOperation op =>
      apply BitVec.eq_of_toNat_eq
      have := op.isLt
      show (BitVec.ofNat 16 0x1000 + op.setWidth 16).toNat = _
      rw [BitVec.toNat_add, BitVec.toNat_setWidth, BitVec.toNat_ofNat, BitVec.toNat_ofNat]; omega
    | _ => rfl
  have tot : ∃ hi lo, AuxTable e hi lo := by
    cases e <;> exact ⟨_, _, by constructor⟩
  have num : ∀ hi lo, AuxTable e hi lo → e.encode.toNat = hi * 256 + lo ∧ hi < 256 ∧ lo < 256 := by
    intro hi lo h
    have hb := h.bounds
    rw [enc hi lo h, BitVec.toNat_ofNat]; omega
  constructor
  · obtain ⟨hi, lo, h⟩ := tot
    cases h with
    | unknownOperation op =>
      have h1 : (((AuxHwException.unknownOperation op).encode >>> 8).setWidth 8 : U8) = 0x10 := by
        apply BitVec.eq_of_toNat_eq
        rw [BitVec.toNat_setWidth, BitVec.toNat_ushiftRight, (num _ _ (.unknownOperation op)).1,
          Nat.shiftRight_eq_div_pow]
        have := op.isLt
        show (0x10 * 256 + op.toNat) / 2 ^ 8 % 2 ^ 8 = 0x10
        omega
      have h2 : ((AuxHwException.unknownOperation op).encode.setWidth 8 : U8) = op := by
        apply BitVec.eq_of_toNat_eq
        rw [BitVec.toNat_setWidth, (num _ _ (.unknownOperation op)).1]
        have := op.isLt; omega
      unfold AuxHwException.decode
      rw [h1, h2]; rfl
    | _ => rfl
  · refine fun hi lo => ⟨num hi lo, ?_⟩
    rintro ⟨h, h1, h2⟩
    obtain ⟨hi', lo', ht⟩ := tot
    have h' := num _ _ ht
    obtain ⟨rfl, rfl⟩ : hi = hi' ∧ lo = lo' := by omega
    exact ht

theorem Spec.Table.decodeParts {e : NativeException} {c d : Nat} (h : Table e c d) :
    NativeException.decodeParts (BitVec.ofNat 8 c) (some (BitVec.ofNat 16 d)) = some e := by
  cases h with
  | hardwareException h =>
    rename_i a hi lo
    have := (C59_round_trip a).1
    have he : a.encode = BitVec.ofNat 16 (hi * 256 + lo) := by
      apply BitVec.eq_of_toNat_eq
      have hb := h.bounds
      rw [((C59_round_trip a).2 hi lo |>.mp h).1, BitVec.toNat_ofNat]; omega
    show (do let e ← AuxHwException.decode (BitVec.ofNat 16 (hi * 256 + lo)); some (NativeException.hardwareException e)) = _
    rw [← he, this]; rfl
  | divisionOrModByZero => rfl
  | overflowingDivOrMod => rfl
  | mmuRefusedRead x => show some (NativeException.mmuRefusedRead _) = _; rw [BitVec.ofNat_toNat, BitVec.setWidth_eq]
  | mmuRefusedWrite x => show some (NativeException.mmuRefusedWrite _) = _; rw [BitVec.ofNat_toNat, BitVec.setWidth_eq]
  | mmuRefusedExec x => show some (NativeException.mmuRefusedExec _) = _; rw [BitVec.ofNat_toNat, BitVec.setWidth_eq]
  | unknownComponentId x =>
    show some (NativeException.unknownComponentId _) = _; rw [BitVec.ofNat_toNat, BitVec.setWidth_eq]
  | componentNotMapped x =>
    show some (NativeException.componentNotMapped _) = _; rw [BitVec.ofNat_toNat, BitVec.setWidth_eq]
  | unknownOpCode x => exact congrArg (fun y => some (NativeException.unknownOpCode y)) (ofNat_low x)
  | unknownRegister x => exact congrArg (fun y => some (NativeException.unknownRegister y)) (ofNat_low x)
  | readProtectedRegister x => exact congrArg (fun y => some (NativeException.readProtectedRegister y)) (ofNat_low x)
  | writeProtectedRegister x => exact congrArg (fun y => some (NativeException.writeProtectedRegister y)) (ofNat_low x)
  | unalignedMemoryAddress x => exact congrArg (fun y => some (NativeException.unalignedMemoryAddress y)) (ofNat_low x)
  | supervisorReservedInstruction x => exact congrArg (fun y => some (NativeException.supervisorReservedInstruction y)) (ofNat_low x)
  | invalidCondFlag x => exact congrArg (fun y => some (NativeException.invalidCondFlag y)) (ofNat_low x)
  | invalidCondMode x => exact congrArg (fun y => some (NativeException.invalidCondMode y)) (ofNat_low x)
  | unknownHardwareInformationCode x => exact congrArg (fun y => some (NativeException.unknownHardwareInformationCode y)) (ofNat_low x)
  | interruption x => exact congrArg (fun y => some (NativeException.interruption y)) (ofNat_low x)

/-- Every exception has one entry in the table. -/
theorem Spec.Table.total (e : NativeException) : ∃ c d, Table e c d := by
  cases e with
  | hardwareException e =>
    obtain ⟨hi, lo, h⟩ : ∃ hi lo, AuxTable e hi lo := by cases e <;> exact ⟨_, _, by constructor⟩
    exact ⟨_, _, .hardwareException h⟩
  | _ => exact ⟨_, _, by constructor⟩

theorem Spec.Table.encode {e : NativeException} {c d : Nat} (h : Table e c d) (sv : Bool) :
    (e.encodeWithMode sv).toNat = etWord sv c d := by
  have key : ∀ (c : U8) (d : U16), ((c.setWidth 32 <<< 16 + d.setWidth 32 : Word) +
      (if sv then 1#32 <<< 24 else 0)).toNat = etWord sv c.toNat d.toNat := by
    intro c d
    have hc := c.isLt
    have hd := d.isLt
    have h1 : (c.setWidth 32 <<< 16 + d.setWidth 32 : Word).toNat = c.toNat * 2 ^ 16 + d.toNat := by
      rw [BitVec.toNat_add, BitVec.toNat_shiftLeft, BitVec.toNat_setWidth, BitVec.toNat_setWidth, Nat.shiftLeft_eq,
        Nat.mod_eq_of_lt (show c.toNat < 2 ^ 32 by omega), Nat.mod_eq_of_lt (show d.toNat < 2 ^ 32 by omega),
        Nat.mod_eq_of_lt (show c.toNat * 2 ^ 16 < 2 ^ 32 by omega), Nat.mod_eq_of_lt (by omega)]
    rw [BitVec.toNat_add, h1]
    unfold etWord
    cases sv with
    | false => exact (Nat.mod_eq_of_lt (by show _ + 0 < _; omega)).trans (by show _ + 0 = 0 * _ + _ + _; omega)
    | true =>
      exact (Nat.mod_eq_of_lt (by show _ + 16777216 < _; omega)).trans (by show _ + 16777216 = 1 * _ + _ + _; omega)
  have := key e.code (e.associatedData.getD 0)
  unfold NativeException.encodeWithMode NativeException.encode
  rw [this]
  have low : ∀ x : U8, (x.setWidth 16 : U16).toNat = x.toNat := by
    intro x; rw [BitVec.toNat_setWidth]; have := x.isLt; omega
  cases h with
  | hardwareException h => exact congrArg _ ((C59_round_trip _).2 _ _ |>.mp h).1
  | divisionOrModByZero => rfl
  | overflowingDivOrMod => rfl
  | mmuRefusedRead x | mmuRefusedWrite x | mmuRefusedExec x | unknownComponentId x | componentNotMapped x => rfl
  | unknownOpCode x | unknownRegister x | readProtectedRegister x | writeProtectedRegister x
  | unalignedMemoryAddress x | supervisorReservedInstruction x | invalidCondFlag x | invalidCondMode x
  | unknownHardwareInformationCode x | interruption x => exact congrArg _ (low x)

/-- Exceptions encode to the word of the table and decode from it, with the mode in which they happened. -/
theorem C58_round_trip (e : NativeException) (sv : Bool) :
    NativeException.decodeWithMode (e.encodeWithMode sv) = some (e, sv) ∧
    NativeException.decode e.encode = some e ∧
    (∃ c d, Table e c d) ∧ ∀ c d, Table e c d → (e.encodeWithMode sv).toNat = etWord sv c d := by
  obtain ⟨c, d, h⟩ := Table.total e
  have main : ∀ sv, NativeException.decodeWithMode (e.encodeWithMode sv) = some (e, sv) := by
    intro sv
    have : e.encodeWithMode sv = BitVec.ofNat 32 (etWord sv c d) := by
      rw [← h.encode sv, BitVec.ofNat_toNat, BitVec.setWidth_eq]
    rw [this, decode_etWord h.bounds.1 h.bounds.2, h.decodeParts]; rfl
  refine ⟨main sv, ?_, ⟨c, d, h⟩, fun c d h => h.encode sv⟩
  have h0 : e.encode = e.encodeWithMode false := by
    unfold NativeException.encodeWithMode; simp
  unfold NativeException.decode
  rw [h0, main false]; rfl

theorem trap_et_word (r : Regs) (c d : Nat) : (trap r c d).et = BitVec.ofNat 32 (etWord (supervisor r) c d) := by
  unfold trap etWord
  cases supervisor r <;> simp

theorem accDo_data {r : Regs} {maps : List Mapping} {devs devs' : List D} {v : Word} {α : Type}
    {hd : List D → Word → Res (α × U16 × List D)} {c : U8} {d : U16}
    (h : accDo pf r maps devs v hd = .fault c d devs') : DataShape c d := by
  unfold accDo at h
  split at h
  · injection h with h1 h2 h3; subst h1; subst h2
    refine .inr (.inr ⟨by decide, ?_⟩)
    rw [BitVec.toNat_setWidth, BitVec.toNat_umod]; have := v.isLt; simp; omega
  · repeat' split at h
    all_goals first
      | (injection h with h1 h2 h3; subst h1; exact .inl (by decide))
      | cases h

/-- Every step leaves `et` alone, resets the machine, or enters an exception whose data has the documented shape. -/
theorem et_step {s s' : Machine D} (h : next pf s = some s') :
    s'.regs.et = s.regs.et ∨ s'.regs = startup ∨
    ∃ r c d, c ∈ exceptionCodes ∧ d < 65536 ∧ s'.regs = trap r c d ∧
      (c ∈ [0x06, 0x10, 0x11, 0x12, 0xA0, 0xF0] ∨ d = 0 ∨ (c ∉ [0x0A, 0x0B] ∧ d < 256)) := by
  have shape : ∀ {c : U8} {d : U16}, DataShape c d →
      (c.toNat ∈ [0x06, 0x10, 0x11, 0x12, 0xA0, 0xF0] ∨ d.toNat = 0 ∨ (c.toNat ∉ [0x0A, 0x0B] ∧ d.toNat < 256)) := by
    intro c d h
    rcases h with h | h | ⟨h1, h2⟩
    · left
      simp only [List.mem_cons, List.not_mem_nil, or_false] at h
      rcases h with rfl | rfl | rfl | rfl | rfl <;> decide
    · exact .inr (.inl h)
    · refine .inr (.inr ⟨?_, h2⟩)
      intro hm
      simp only [List.mem_cons, List.not_mem_nil, or_false] at hm h1
      exact h1 (hm.imp (fun h => BitVec.eq_of_toNat_eq h) fun h => BitVec.eq_of_toNat_eq h)
  cases hh : s.halted with
  | true => unfold next at h; rw [if_pos hh] at h; injection h with h; subst h; exact .inl rfl
  | false =>
    rcases next_inv h hh with ⟨devs, c, d, hc, ha, hl, rfl⟩ | ⟨w, devs, hf, hl, hr⟩
    · exact .inr (.inr ⟨_, _, _, fetchCodes_doc c hc, d.isLt, exception_regs .., shape (accDo_data ha)⟩)
    · rcases hr with ⟨t, c, d, _, he, hc, rfl⟩ | ⟨t, hrun, he, rfl⟩
      · exact .inr (.inr ⟨_, _, _, faultCodes_doc c hc, d.isLt, exception_regs .., shape hc.2⟩)
      · by_cases h10 : (fieldsOf w).opcode.toNat = 0x10
        · rw [runInstr_itr h10] at hrun
          rcases execItr_eq (atExec s devs) (fieldsOf w) with ⟨v, _, hv⟩ | ⟨_, _, hv⟩
          · rw [hv] at hrun
            injection hrun with _ hrun
            have hcp : t.changedPc = true := by rw [← hrun]; rfl
            rw [if_pos hcp, ← hrun]
            exact .inr (.inr ⟨_, _, _, by decide, (v.setWidth 16).isLt, exception_regs _ 0xF0 _, .inl (by decide)⟩)
          · rw [hv] at hrun; cases hrun
        · by_cases h1F : (fieldsOf w).opcode.toNat = 0x1F
          · rw [runInstr_reset h1F] at hrun
            obtain ⟨v, _, ⟨_, ht⟩ | ⟨_, ht⟩⟩ := execReset_ok hrun
            · have hcp : t.changedPc = true := by rw [ht]; rfl
              rw [if_pos hcp, ht]
              exact .inr (.inl rfl)
            · left
              split <;> (rw [ht]; rfl)
          · left
            have := (he.hidden h1F h10).2.1
            split
            · exact this
            · exact this

/-- The codes whose data always fits the table. -/
theorem table_of_shape {c d : Nat} (hc : c ∈ exceptionCodes) (hd : d < 65536)
    (hs : c ∈ [0x06, 0x10, 0x11, 0x12, 0xA0, 0xF0] ∨ d = 0 ∨ (c ∉ [0x0A, 0x0B] ∧ d < 256))
    (hA : c = 0xA0 → ∃ (e : AuxHwException) (hi lo : Nat), AuxTable e hi lo ∧ d = hi * 256 + lo)
    (hF : c ∈ [0x11, 0xF0] → d < 256) : ∃ e, Table e c d := by
  have b8 : d < 256 → ∃ x : U8, x.toNat = d := fun h => ⟨BitVec.ofNat 8 d, by rw [BitVec.toNat_ofNat]; omega⟩
  have b16 : ∃ x : U16, x.toNat = d := ⟨BitVec.ofNat 16 d, by rw [BitVec.toNat_ofNat]; omega⟩
  obtain ⟨y, hy⟩ := b16
  have small : c ∉ [0x06, 0x10, 0x11, 0x12, 0xA0, 0xF0] → d < 256 := by
    intro h; rcases hs with hs | hs | hs
    · exact absurd hs h
    · omega
    · exact hs.2
  simp only [exceptionCodes, List.mem_cons, List.not_mem_nil, or_false] at hc
  rcases hc with rfl | rfl | rfl | rfl | rfl | rfl | rfl | rfl | rfl | rfl | rfl | rfl | rfl | rfl | rfl | rfl | rfl | rfl
  · obtain ⟨x, rfl⟩ := b8 (small (by decide)); exact ⟨_, .unknownOpCode x⟩
  · obtain ⟨x, rfl⟩ := b8 (small (by decide)); exact ⟨_, .unknownRegister x⟩
  · obtain ⟨x, rfl⟩ := b8 (small (by decide)); exact ⟨_, .readProtectedRegister x⟩
  · obtain ⟨x, rfl⟩ := b8 (small (by decide)); exact ⟨_, .writeProtectedRegister x⟩
  · obtain ⟨x, rfl⟩ := b8 (small (by decide)); exact ⟨_, .unalignedMemoryAddress x⟩
  · subst hy; exact ⟨_, .mmuRefusedRead y⟩
  · subst hy; exact ⟨_, .mmuRefusedWrite y⟩
  · subst hy; exact ⟨_, .mmuRefusedExec y⟩
  · obtain ⟨x, rfl⟩ := b8 (small (by decide)); exact ⟨_, .supervisorReservedInstruction x⟩
  · have : d = 0 := by simp at hs; exact hs
    subst this; exact ⟨_, .divisionOrModByZero⟩
  · have : d = 0 := by simp at hs; exact hs
    subst this; exact ⟨_, .overflowingDivOrMod⟩
  · obtain ⟨x, rfl⟩ := b8 (small (by decide)); exact ⟨_, .invalidCondFlag x⟩
  · obtain ⟨x, rfl⟩ := b8 (small (by decide)); exact ⟨_, .invalidCondMode x⟩
  · subst hy; exact ⟨_, .unknownComponentId y⟩
  · obtain ⟨x, rfl⟩ := b8 (hF (by decide)); exact ⟨_, .unknownHardwareInformationCode x⟩
  · subst hy; exact ⟨_, .componentNotMapped y⟩
  · obtain ⟨e, hi, lo, h, rfl⟩ := hA rfl; exact ⟨_, .hardwareException h⟩
  · obtain ⟨x, rfl⟩ := b8 (hF (by decide)); exact ⟨_, .interruption x⟩

/-- Whatever a step does, the content of `et` afterwards is the old one, that of startup, or that of an exception entered
in this step, and then it decodes to the exception with that code and data, in that mode. Missing: interruptions and
unknown hardware information codes above 255 (`C58_wide_data_refuted`), and components raising a code
that is not in the table (`C58_unknown_aux_refuted`). -/
theorem C58_step_partial {s s' : Machine D} (h : next pf s = some s') :
    s'.regs.et = s.regs.et ∨ s'.regs = startup ∨
    ∃ r c d, c ∈ exceptionCodes ∧ d < 65536 ∧ s'.regs = trap r c d ∧
      ((c ∈ [0x11, 0xF0] → d < 256) →
       (c = 0xA0 → ∃ (e : AuxHwException) (hi lo : Nat), AuxTable e hi lo ∧ d = hi * 256 + lo) →
        ∃ e, Table e c d ∧ NativeException.decodeWithMode s'.regs.et = some (e, supervisor r)) := by
  rcases et_step h with h | h | ⟨r, c, d, hc, hd, hr, hs⟩
  · exact .inl h
  · exact .inr (.inl h)
  · refine .inr (.inr ⟨r, c, d, hc, hd, hr, fun hF hA => ?_⟩)
    obtain ⟨e, ht⟩ := table_of_shape hc hd hs hA hF
    refine ⟨e, ht, ?_⟩
    rw [hr, trap_et_word, decode_etWord ht.bounds.1 ht.bounds.2, ht.decodeParts]; rfl

/-- Non-vacuity: an unaligned load raises an exception which decodes. -/
example : ∃ s' : Machine Demo.Dev, next .debug (Demo.run1 startup (instrWord 0x15 false false false 0x42 0 0)) = some s' ∧
    NativeException.decodeWithMode s'.regs.et = some (.unalignedMemoryAddress 2, true) := ⟨_, rfl, by decide⟩

/-- `ITR` with a register holding 0x1234 raises an interruption with code 0x1234, decoded as interruption 0x34; `HWD` with
information code 0x100 is decoded as unknown code 0x00. -/
theorem C58_wide_data_refuted :
    (∃ s' : Machine Demo.Dev, next .debug (Demo.run1 (setReg startup 0 0x1234) (instrWord 0x10 true false false 0 0 0)) = some s' ∧
      s'.regs.et = 0x01F01234 ∧ NativeException.decode s'.regs.et = some (.interruption 0x34)) ∧
    (∃ s' : Machine Demo.Dev,
      next .debug (Demo.run1 (setReg startup 0 0x100) (instrWord 0x1C false false true 1 0 0)) = some s' ∧
      s'.regs.et = 0x01110100 ∧ NativeException.decode s'.regs.et = some (.unknownHardwareInformationCode 0)) :=
  ⟨⟨_, rfl, rfl, by decide⟩, ⟨_, rfl, rfl, by decide⟩⟩

/-- A component that raises an exception outside the table leaves a word in `et` that does not decode (in general:
`C58_decode_partial`). -/
theorem C58_unknown_aux_refuted (sv : Bool) : NativeException.decode (BitVec.ofNat 32 (etWord sv 0xA0 0xFF00)) = none := by
  cases sv <;> rfl

/-- What the decoder keeps of the data `d` of code `c`: all of it for the codes whose data is 16 bits long, nothing for
the two division errors, the strongest byte of the code of a component (and the weakest for an unknown operation), and the
weakest byte otherwise. -/
def Spec.KeepsData (c d d' : Nat) : Prop :=
  if c ∈ [0x06, 0x07, 0x08, 0x10, 0x12] then d' = d
  else if c ∈ [0x0A, 0x0B] then True
  else if c = 0xA0 then d' / 256 = d / 256 ∧ (d / 256 = 0x10 → d' = d)
  else d' = d % 256

theorem keepsData_low {c d d' : Nat} (h1 : c ∉ [0x06, 0x07, 0x08, 0x10, 0x12]) (h2 : c ∉ [0x0A, 0x0B]) (h3 : c ≠ 0xA0) :
    KeepsData c d d' ↔ d' = d % 256 := by
  unfold KeepsData; rw [if_neg h1, if_neg h2, if_neg h3]

theorem keepsData_wide {c d d' : Nat} (h1 : c ∈ [0x06, 0x07, 0x08, 0x10, 0x12]) : KeepsData c d d' ↔ d' = d := by
  unfold KeepsData; rw [if_pos h1]

theorem keepsData_none {c d d' : Nat} (h1 : c ∈ [0x0A, 0x0B]) : KeepsData c d d' := by
  unfold KeepsData; rw [if_neg (by revert h1; simp; omega), if_pos h1]; trivial

theorem keepsData_aux {d d' : Nat} : KeepsData 0xA0 d d' ↔ d' / 256 = d / 256 ∧ (d / 256 = 0x10 → d' = d) := Iff.rfl

theorem low_of {d : Nat} (hd : d < 65536) : ((BitVec.ofNat 16 d).setWidth 8 : U8).toNat = d % 256 := by
  rw [BitVec.toNat_setWidth, BitVec.toNat_ofNat]; omega

theorem decodeAux_iff {d : Nat} (hd : d < 65536) (e : AuxHwException) :
    AuxHwException.decode (BitVec.ofNat 16 d) = some e ↔
      ∃ hi lo, AuxTable e hi lo ∧ hi = d / 256 ∧ (hi = 0x10 → lo = d % 256) := by
  have hhi : (((BitVec.ofNat 16 d) >>> 8).setWidth 8 : U8).toNat = d / 256 := by
    rw [BitVec.toNat_setWidth, BitVec.toNat_ushiftRight, BitVec.toNat_ofNat, Nat.shiftRight_eq_div_pow]; omega
  unfold AuxHwException.decode AuxHwException.decodeParts
  rw [hhi]
  constructor
  · intro h
    split at h
    all_goals first | (cases h; done) | skip
    all_goals
      rename_i hc
      cases h
      first
      | exact ⟨_, _, .unknownError, hc.symm, fun h => absurd h (by decide)⟩
      | exact ⟨_, _, .unspecifiedSyncError, hc.symm, fun h => absurd h (by decide)⟩
      | exact ⟨_, _, .timeSynchronizationError, hc.symm, fun h => absurd h (by decide)⟩
      | exact ⟨_, _, .unknownOperation _, hc.symm, fun _ => low_of hd⟩
      | exact ⟨_, _, .unsupportedOperation, hc.symm, fun h => absurd h (by decide)⟩
      | exact ⟨_, _, .genericPhysicalReadError, hc.symm, fun h => absurd h (by decide)⟩
      | exact ⟨_, _, .memoryNotReadable, hc.symm, fun h => absurd h (by decide)⟩
      | exact ⟨_, _, .genericPhysicalWriteError, hc.symm, fun h => absurd h (by decide)⟩
      | exact ⟨_, _, .memoryNotWritable, hc.symm, fun h => absurd h (by decide)⟩
  · rintro ⟨hi, lo, ht, hh, hl⟩
    rw [← hh]
    cases ht with
    | unknownOperation op =>
      have : ((BitVec.ofNat 16 d).setWidth 8 : U8) = op := BitVec.eq_of_toNat_eq ((low_of hd).trans (hl rfl).symm)
      show some (AuxHwException.unknownOperation _) = _
      rw [this]
    | _ => rfl

theorem decodeParts_iff {c d : Nat} (hc : c < 256) (hd : d < 65536) (e : NativeException) :
    NativeException.decodeParts (BitVec.ofNat 8 c) (some (BitVec.ofNat 16 d)) = some e ↔
      ∃ d', Table e c d' ∧ KeepsData c d d' := by
  have hc8 : (BitVec.ofNat 8 c).toNat = c := by rw [BitVec.toNat_ofNat]; omega
  have hd16 : (BitVec.ofNat 16 d).toNat = d := by rw [BitVec.toNat_ofNat]; omega
  unfold NativeException.decodeParts
  dsimp only
  rw [hc8]
  constructor
  · intro h
    split at h
    all_goals first | (cases h; done) | skip
    all_goals try
      rename_i hc
      cases h
      first
      | exact ⟨_, .unknownOpCode _, (keepsData_low (by decide) (by decide) (by decide)).mpr (low_of hd)⟩
      | exact ⟨_, .unknownRegister _, (keepsData_low (by decide) (by decide) (by decide)).mpr (low_of hd)⟩
      | exact ⟨_, .readProtectedRegister _, (keepsData_low (by decide) (by decide) (by decide)).mpr (low_of hd)⟩
      | exact ⟨_, .writeProtectedRegister _, (keepsData_low (by decide) (by decide) (by decide)).mpr (low_of hd)⟩
      | exact ⟨_, .unalignedMemoryAddress _, (keepsData_low (by decide) (by decide) (by decide)).mpr (low_of hd)⟩
      | exact ⟨_, .supervisorReservedInstruction _, (keepsData_low (by decide) (by decide) (by decide)).mpr (low_of hd)⟩
      | exact ⟨_, .invalidCondFlag _, (keepsData_low (by decide) (by decide) (by decide)).mpr (low_of hd)⟩
      | exact ⟨_, .invalidCondMode _, (keepsData_low (by decide) (by decide) (by decide)).mpr (low_of hd)⟩
      | exact ⟨_, .unknownHardwareInformationCode _, (keepsData_low (by decide) (by decide) (by decide)).mpr (low_of hd)⟩
      | exact ⟨_, .interruption _, (keepsData_low (by decide) (by decide) (by decide)).mpr (low_of hd)⟩
      | exact ⟨_, .mmuRefusedRead _, (keepsData_wide (by decide)).mpr hd16⟩
      | exact ⟨_, .mmuRefusedWrite _, (keepsData_wide (by decide)).mpr hd16⟩
      | exact ⟨_, .mmuRefusedExec _, (keepsData_wide (by decide)).mpr hd16⟩
      | exact ⟨_, .unknownComponentId _, (keepsData_wide (by decide)).mpr hd16⟩
      | exact ⟨_, .componentNotMapped _, (keepsData_wide (by decide)).mpr hd16⟩
      | exact ⟨_, .divisionOrModByZero, keepsData_none (by decide)⟩
      | exact ⟨_, .overflowingDivOrMod, keepsData_none (by decide)⟩
    cases hx : AuxHwException.decode (BitVec.ofNat 16 d) with
    | none => rw [Option.bind_eq_bind, Option.bind_some, hx] at h; cases h
    | some x =>
      rw [Option.bind_eq_bind, Option.bind_some, hx] at h
      cases h
      obtain ⟨hi, lo, ht, hh, hl⟩ := (decodeAux_iff hd x).mp hx
      have := ht.bounds
      exact ⟨_, .hardwareException ht, keepsData_aux.mpr ⟨by omega, fun h10 => by have := hl (by omega); omega⟩⟩
  · rintro ⟨d', ht, hk⟩
    have hl : ∀ x : U8, x.toNat = d % 256 → ((BitVec.ofNat 16 d).setWidth 8 : U8) = x := fun x hx =>
      BitVec.eq_of_toNat_eq ((low_of hd).trans hx.symm)
    have hw : ∀ x : U16, x.toNat = d → BitVec.ofNat 16 d = x := fun x hx => BitVec.eq_of_toNat_eq (hd16.trans hx.symm)
    cases ht with
    | hardwareException h =>
      have hk := keepsData_aux.mp hk
      have := h.bounds
      have hx := (decodeAux_iff hd _).mpr ⟨_, _, h, by omega, fun h10 => by have := hk.2 (by omega); omega⟩
      show (do let e ← AuxHwException.decode (BitVec.ofNat 16 d); some (NativeException.hardwareException e)) = _
      rw [hx]; rfl
    | divisionOrModByZero => rfl
    | overflowingDivOrMod => rfl
    | mmuRefusedRead x | mmuRefusedWrite x | mmuRefusedExec x | unknownComponentId x | componentNotMapped x =>
      have := hw x ((keepsData_wide (by decide)).mp hk)
      show some (_ : NativeException) = _
      rw [this]
    | unknownOpCode x | unknownRegister x | readProtectedRegister x | writeProtectedRegister x
    | unalignedMemoryAddress x | supervisorReservedInstruction x | invalidCondFlag x | invalidCondMode x
    | unknownHardwareInformationCode x | interruption x =>
      have := hl x ((keepsData_low (by decide) (by decide) (by decide)).mp hk)
      show some (_ : NativeException) = _
      dsimp only; rw [this]

/-- **C58**, what is decoded from any code and data: an exception of the table with that code, and the part of the data the
decoder keeps, in the mode written; nothing when the table has no such exception. -/
theorem C58_decode_partial {c d : Nat} (hc : c < 256) (hd : d < 65536) (sv m : Bool) (e : NativeException) :
    NativeException.decodeWithMode (BitVec.ofNat 32 (etWord sv c d)) = some (e, m) ↔
      m = sv ∧ ∃ d', Table e c d' ∧ KeepsData c d d' := by
  rw [decode_etWord hc hd, ← decodeParts_iff hc hd e]
  cases NativeException.decodeParts (BitVec.ofNat 8 c) (some (BitVec.ofNat 16 d)) with
  | none => simp
  | some x => simp only [Option.map_some, Option.some.injEq, Prod.mk.injEq]; constructor <;> rintro ⟨rfl, rfl⟩ <;> exact ⟨rfl, rfl⟩

/-- An interruption with code 0x1234, in user mode. -/
example : NativeException.decodeWithMode (BitVec.ofNat 32 (etWord false 0xF0 0x1234)) = some (.interruption 0x34, false) :=
  (C58_decode_partial (by decide) (by decide) _ _ _).mpr
    ⟨rfl, _, .interruption _, (keepsData_low (by decide) (by decide) (by decide)).mpr rfl⟩

/-- **C59**, on the bus, MMU off: an exception of the table raised by a component is seen by the processor as a hardware
exception, and decodes back to it. Missing: `UnknownError`, which encodes to 0 (`C59_unknown_error_refuted`). -/
theorem C59_seen_partial {s : Machine D} {devs devs' : List D} {v w : Word} {e : AuxHwException} (he : e ≠ .unknownError)
    (hm : s.regs.mtt = 0) (ha : v.toNat % 4 = 0) :
    (BusRead pf s devs v w e.encode devs' → LoadFaults pf s devs v 0xA0 e.encode.toNat devs') ∧
    (BusWrite pf s devs v w e.encode devs' → StoreFaults pf s devs v w 0xA0 e.encode.toNat devs') ∧
    NativeException.decodeWithMode (trap s.regs 0xA0 e.encode.toNat).et =
      some (.hardwareException e, supervisor s.regs) := by
  have hne : e.encode ≠ 0 := by
    intro h
    have h1 := (C59_round_trip e).1
    rw [h] at h1
    exact he (by injection h1 with h1; exact h1.symm)
  refine ⟨fun h => ?_, fun h => ?_, ?_⟩
  · have := C26_load hm ha h; rwa [if_neg hne] at this
  · have := C26_store hm ha h; rwa [if_neg hne] at this
  · obtain ⟨c, d, ht⟩ := Table.total (.hardwareException e)
    cases ht with
    | hardwareException h =>
      rename_i hi lo
      have h1 := ((C59_round_trip e).2 hi lo |>.mp h).1
      rw [h1, trap_et_word, decode_etWord (Table.hardwareException h).bounds.1 (Table.hardwareException h).bounds.2,
        (Table.hardwareException h).decodeParts]; rfl

example : StoreFaults .debug (Demo.run1 startup 0) (Demo.devices [0]) 0 7 0xA0
    AuxHwException.memoryNotWritable.encode.toNat (Demo.devices [0]) :=
  (C59_seen_partial (by decide) rfl rfl (w := 7)).2.1 rfl

/-- `UnknownError` is encoded as 0, which the processor takes for success. -/
theorem C59_unknown_error_refuted : AuxHwException.unknownError.encode = 0 := rfl

/-! ## C63 -/

/-- The metadata words are those documented (`docs/Hardware.md`, "Metadata"): words 0-1 identifier, 2 size, 3 category,
4 type, 5 model or 0, 6-7 data or 0; and the category and type words decode back to the category. -/
theorem C63_metadata (m : DeviceMetadata) : ∃ w : Metadata, m.encode = some w ∧
    w[0].toNat * 2 ^ 32 + w[1].toNat = m.hwId.toNat ∧ w[2] = m.sizeBytes ∧
    w[3] = m.category.categoryCode ∧ w[4] = m.category.typeCode ∧
    DeviceCategory.decode (w[3] ++ w[4]) = some m.category ∧
    w[5] = m.model.getD 0 ∧ w[6].toNat * 2 ^ 32 + w[7].toNat = (m.data.getD 0).toNat := by
  have split64 : ∀ x : U64, ((x >>> 32).setWidth 32 : Word).toNat * 2 ^ 32 + (x.setWidth 32 : Word).toNat = x.toNat := by
    intro x
    rw [BitVec.toNat_setWidth, BitVec.toNat_setWidth, BitVec.toNat_ushiftRight, Nat.shiftRight_eq_div_pow]
    have := x.isLt; omega
  have hn : m.category.encode.toNat = m.category.categoryCode.toNat * 2 ^ 32 + m.category.typeCode.toNat := by
    unfold DeviceCategory.encode
    rw [BitVec.toNat_add, BitVec.toNat_shiftLeft, BitVec.toNat_setWidth, BitVec.toNat_setWidth, Nat.shiftLeft_eq]
    have := m.category.categoryCode.isLt; have := m.category.typeCode.isLt; omega
  have h3 : ((m.category.encode >>> 32).setWidth 32 : Word) = m.category.categoryCode := by
    apply BitVec.eq_of_toNat_eq
    rw [BitVec.toNat_setWidth, BitVec.toNat_ushiftRight, Nat.shiftRight_eq_div_pow, hn]
    have := m.category.categoryCode.isLt; have := m.category.typeCode.isLt; omega
  have h4 : (m.category.encode.setWidth 32 : Word) = m.category.typeCode := by
    apply BitVec.eq_of_toNat_eq
    rw [BitVec.toNat_setWidth, hn]
    have := m.category.categoryCode.isLt; have := m.category.typeCode.isLt; omega
  have dec : ∀ c : DeviceCategory, DeviceCategory.decode (c.categoryCode ++ c.typeCode) = some c := by
    intro c
    have e1 : ∀ a b : Word, (((a ++ b : U64) >>> 32).setWidth 32 : Word) = a := by
      intro a b
      apply BitVec.eq_of_toNat_eq
      rw [BitVec.toNat_setWidth, BitVec.toNat_ushiftRight, append_nat, Nat.shiftRight_eq_div_pow]
      have := a.isLt; have := b.isLt; omega
    have e2 : ∀ a b : Word, ((a ++ b : U64) &&& 0xFFFFFFFF#64).setWidth 32 = b := by
      intro a b
      apply BitVec.eq_of_toNat_eq
      rw [BitVec.toNat_setWidth, BitVec.toNat_and, append_nat]
      have : (0xFFFFFFFF#64).toNat = 2 ^ 32 - 1 := rfl
      rw [this, Nat.and_two_pow_sub_one_eq_mod]
      have := a.isLt; have := b.isLt; omega
    unfold DeviceCategory.decode
    rw [e1, e2]
    cases c with
    | platformSpecific x => rfl
    | uncategorized => rfl
    | debug t => cases t; rfl
    | clock t => cases t; rfl
    | display t => cases t <;> rfl
    | keyboard t => cases t <;> rfl
    | memory t => cases t; rfl
    | storage t => cases t <;> rfl
  refine ⟨_, m.encode_eq, split64 _, rfl, h3, h4, ?_, rfl, split64 _⟩
  show DeviceCategory.decode (((m.category.encode >>> 32).setWidth 32 : Word) ++ (m.category.encode.setWidth 32 : Word)) = _
  rw [h3, h4, dec]

/-- Only sizes that are multiples of 4 are accepted. -/
theorem C63_size (hw : U64) (size : Word) (c : DeviceCategory) (m : Option Word) (d : Option U64) :
    DeviceMetadata.new hw size c m d = if size.toNat % 4 = 0 then some ⟨hw, size, c, m, d⟩ else none := by
  unfold DeviceMetadata.new
  by_cases h : size.toNat % 4 = 0
  · have h4 : size % 4 = 0 := by apply BitVec.eq_of_toNat_eq; rw [BitVec.toNat_umod]; exact h
    rw [if_pos h, h4]; rfl
  · rw [if_neg h, assert_unaligned h]; rfl

example : ∃ w, (DeviceMetadata.mk 0x0102030405060708 0x40 (.storage .flash) (some 9) none).encode = some w ∧ w[4] = 0x11 :=
  ⟨_, rfl, rfl⟩

end Lrvm
