import Verif.Props.Tools.Lasm
import Verif.Props.Tools.LasmSource
import Verif.Props.Tools.SignedLit
import Verif.Props.Tools.Extended

/-!
# Single words, extended instructions as bytes, names of conditions, unsigned byte literals: C51, C53, C55, C60, C102
-/

namespace Lrvm

open Spec

variable {D : Type} [Bus D] {pf : Profile}

/-- **C51**, for one word of a program (`ProgramWord::decode_word`, `ProgramWord::decode`): it is an instruction exactly when
the decoder accepts it, and then the processor executes that instruction; otherwise it is raw data, kept byte by byte, and
the processor does not complete it. -/
theorem C51_program_word {b : Bytes4} {w : Word} (hb : IsBytesOf b w) :
    ProgramWord.decodeWord w = ProgramWord.decode b ∧
    (∀ i, ProgramWord.decodeWord w = .instr i ↔ Instr.decode b = .ok i) ∧
    (∀ c, ProgramWord.decodeWord w = .raw c ↔ c = b ∧ ∃ e, Instr.decode b = .error e) ∧
    (∀ i (s : Machine D) devs, ProgramWord.decodeWord w = .instr i → Fetches pf s w devs →
      next pf s = runInstruction pf s devs i) ∧
    (∀ c (s s' : Machine D) devs, ProgramWord.decodeWord w = .raw c → Fetches pf s w devs → next pf s = some s' →
      (ProgramWord.raw c).encodeWord = w ∧ ∃ r k d, k ∈ exceptionCodes ∧ d < 65536 ∧ s'.regs = trap r k d) := by
  have hw : w = b.toWord := BitVec.eq_of_toNat_eq (hb.trans (isBytesOf_toWord b).symm)
  have e1 : ProgramWord.decodeWord w = ProgramWord.decode b := by
    unfold ProgramWord.decodeWord; rw [hw, ofWord_toWord]
  have hi : ∀ i, ProgramWord.decodeWord w = .instr i ↔ Instr.decode b = .ok i := by
    intro i; rw [e1]; unfold ProgramWord.decode
    cases Instr.decode b <;> simp
  have hr : ∀ c, ProgramWord.decodeWord w = .raw c ↔ c = b ∧ ∃ e, Instr.decode b = .error e := by
    intro c; rw [e1]; unfold ProgramWord.decode
    cases Instr.decode b <;> simp [eq_comm]
  refine ⟨e1, hi, hr, fun i s devs h hf => C51_step_is_decoded_instruction hf hb ((hi i).1 h),
    fun c s s' devs h hf hn => ?_⟩
  obtain ⟨rfl, e, he⟩ := (hr c).1 h
  exact ⟨hw.symm, C51_undecodable_raises hf hb he hn⟩

/-- `cpy a1, 5`, and a word whose opcode is not an instruction. -/
example : IsBytesOf ⟨0x0C, 1, 0, 5⟩ 0x0C010005 ∧ ProgramWord.decodeWord 0x0C010005 = .instr (.cpy .a1 (.lit 5)) ∧
    IsBytesOf ⟨0, 1, 2, 3⟩ 0x00010203 ∧ ProgramWord.decodeWord 0x00010203 = .raw ⟨0, 1, 2, 3⟩ :=
  ⟨rfl, by decide, rfl, by decide⟩

/-- **C55**, one word: what is decoded from a word is encoded to it again exactly when the word is canonical. -/
theorem C55_word_round_trip_partial {b : Bytes4} {w : Word} (hb : IsBytesOf b w) :
    (ProgramWord.decodeWord w).encodeWord = w ↔ Canonical b := by
  have hw : w = b.toWord := BitVec.eq_of_toNat_eq (hb.trans (isBytesOf_toWord b).symm)
  have e : ∀ x : ProgramWord, x.encodeWord = x.encode.toWord := fun x => by cases x <;> rfl
  unfold ProgramWord.decodeWord
  rw [← encode_decode_iff, e, hw, ofWord_toWord]
  constructor
  · intro h
    have := congrArg Bytes4.ofWord h
    rwa [ofWord_toWord, ofWord_toWord] at this
  · intro h
    rw [h]

/-- **C60**, as bytes and as words of a program: an extended instruction is the bytes, strongest first, of the words whose
execution the other theorems describe, four for each of its instructions, wherever it stands in a program. -/
theorem C60_encodings (e : ExtInstr) (p q : Program) :
    e.encode.length = 4 * e.encodeWords.length ∧
    (∀ (k : Nat) (w : Word), e.encodeWords[k]? = some w ↔ ∃ b, (groups4 e.encode)[k]? = some b ∧ IsBytesOf b w) ∧
    Program.encodeWords (p ++ e.toProgWords ++ q) = p.encodeWords ++ e.encodeWords ++ q.encodeWords ∧
    Program.encode (p ++ e.toProgWords ++ q) = p.encode ++ e.encode ++ q.encode := by
  obtain ⟨h1, h2, h3, h4⟩ := C55_encode (Program.fromInstr e.toInstr)
  refine ⟨?_, fun k w => ?_, ?_, ?_⟩
  · show (Program.encode _).length = 4 * (Program.encodeWords _).length
    rw [h1, h3]
  · show (Program.encodeWords _)[k]? = some w ↔ ∃ b, (groups4 (Program.encode _))[k]? = some b ∧ _
    rw [h2]
    constructor
    · intro h
      simp only [Program.encodeWords, List.getElem?_map, Option.map_eq_some_iff] at h
      obtain ⟨x, hx, rfl⟩ := h
      obtain ⟨h5, n, h6, h7⟩ := h4 k x hx
      simp only [Program.encodeWords, List.getElem?_map, hx, Option.map_some, Option.some.injEq] at h6
      exact ⟨_, h5, h6 ▸ h7⟩
    · rintro ⟨b, hb, hbw⟩
      simp only [Program.toFoldedBytes, List.getElem?_map, Option.map_eq_some_iff] at hb
      obtain ⟨x, hx, rfl⟩ := hb
      obtain ⟨_, n, h6, h7⟩ := h4 k x hx
      rw [h6, BitVec.eq_of_toNat_eq (h7.trans hbw.symm)]
  · simp only [Program.encodeWords, ExtInstr.encodeWords, ExtInstr.toProgWords, Program.fromInstr, List.map_append]
  · simp only [Program.encode, ExtInstr.encode, ExtInstr.toProgWords, Program.fromInstr, List.flatMap_append]

/-- Setting a register takes three instructions, twelve bytes. -/
example : (ExtInstr.setReg .rr3 0xDEADBEEF).encode =
    [0x0C, 0x10, 0xDE, 0xAD, 0x5C, 0x10, 0x10, 0x00, 0x1C, 0x10, 0xBE, 0xEF] := by decide

/-- **C53**, the constants that stand for the conditions of `IF2` in assembly texts: the documented ones, with the code that
the condition has, one for each. -/
theorem C53_condition_names (k : If2Cond) :
    (∀ n : String, n.toList = k.toLasm → (n, k.code.toNat) ∈ condConstants) ∧
    (∀ k' : If2Cond, k'.toLasm = k.toLasm → k' = k) ∧
    ∀ n c, (n, c) ∈ condConstants → ∃ k' : If2Cond, n.toList = k'.toLasm ∧ k'.code.toNat = c := by
  refine ⟨fun n h => ?_, fun k' h => ?_, fun n c h => ?_⟩
  · have e : n = String.ofList k.toLasm := by rw [← h, String.ofList_toList]
    rw [e]
    cases k <;> decide +kernel
  · revert h
    cases k <;> cases k' <;> decide +kernel
  · have hall : ∀ p ∈ condConstants, ∃ k' ∈ [If2Cond.or, .and, .xor, .nor, .nand, .left, .right],
        p.1.toList = k'.toLasm ∧ k'.code.toNat = p.2 := by decide +kernel
    obtain ⟨k', _, hk⟩ := hall (n, c) h
    exact ⟨k', hk⟩

example : "CMP_NAND".toList = If2Cond.nand.toLasm := by decide

/-- **C102**, unsigned bytes: a `u8` given where a 2-byte operand is expected is a literal, not a register, and copying,
adding, subtracting and multiplying with it compute with that number, from 0 to 255. -/
theorem C102_unsigned_byte {s : Machine D} {devs : List D} {n : U8} {r : Reg} {o : SignedLit.LitOp} (h16 : o.bits = 16)
    (hf : Fetches pf s (withWide (.ofByte n) (o.instr 0 r 0)).encodeWord devs)
    (hw : mayWrite (supervisor s.regs) r.code.toNat = true) (hpc : r ≠ .pc) :
    (RegOrLit2.ofByte n).isLit = true ∧ (RegOrLit2.ofByte n).isReg = false ∧
    ∃ s', next pf s = some s' ∧
      Assigned s s' r.code.toNat (BitVec.ofInt 32 (o.on (reg s.regs r.code.toNat).toInt n.toNat)) 1 ∧ s'.devs = devs := by
  refine ⟨rfl, rfl, ?_⟩
  have hn := n.isLt
  have e : RegOrLit2.ofByte n = .signedLit (BitVec.ofInt 16 n.toNat) := by
    unfold RegOrLit2.ofByte RegOrLit2.signedLit
    congr 1
    apply BitVec.eq_of_toNat_eq
    rw [BitVec.ofInt_natCast, BitVec.toNat_setWidth, BitVec.toNat_ofNat]
  have ei : withWide (.ofByte n) (o.instr 0 r 0) = o.instr 0 r n.toNat := by
    cases o <;> simp only [SignedLit.LitOp.instr, withWide, e] <;> simp [SignedLit.LitOp.bits] at h16
  rw [ei] at hf
  refine C102_partial (m := 0) ⟨?_, ?_, ?_⟩ (by omega) hf hw hpc
  · rw [h16]; omega
  · rw [h16]; omega
  · rintro (rfl | rfl) <;> simp [SignedLit.LitOp.bits] at h16

/-- `add a0, 200` in a machine that fetches it. -/
example : ∃ devs, Fetches .debug (Demo.start [Instr.encodeWord (.add .a0 (.lit 200))])
    (withWide (.ofByte 200) (SignedLit.LitOp.add.instr 0 .a0 0)).encodeWord devs := ⟨_, rfl, rfl⟩

end Lrvm
