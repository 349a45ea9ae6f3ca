import Verif.Props.Tools.Extended
import Verif.Spec.SignedLit
import Verif.Props.Devices.Printing

/-!
# Signed literals: C102
-/

namespace Lrvm

open Spec Spec.SignedLit

variable {D : Type} [Bus D] {pf : Profile}

/-- What a literal is worth to the instruction: `i` itself, or `i` plus 2¹⁶ (2⁸) if it is negative. -/
def litWorth (o : LitOp) (i : Int) : Int := if i < 0 then i + 2 ^ o.bits else i

theorem ofInt16_toNat {i : Int} (h0 : -2 ^ 15 ≤ i) (h1 : i < 2 ^ 15) :
    ((BitVec.ofInt 16 i).toNat : Int) = if i < 0 then i + 2 ^ 16 else i := by
  rw [BitVec.toNat_ofInt]
  split <;> omega

theorem ofInt8_toNat {i : Int} (h0 : -2 ^ 7 ≤ i) (h1 : i < 2 ^ 7) :
    ((BitVec.ofInt 8 i).toNat : Int) = if i < 0 then i + 2 ^ 8 else i := by
  rw [BitVec.toNat_ofInt]
  split <;> omega

theorem ofInt_congr32 {a b : Int} (h : a % 2 ^ 32 = b % 2 ^ 32) : BitVec.ofInt 32 a = BitVec.ofInt 32 b := by
  apply BitVec.eq_of_toNat_eq
  rw [BitVec.toNat_ofInt, BitVec.toNat_ofInt]
  omega

theorem toInt_mod32 (x : Word) : x.toInt % 2 ^ 32 = (x.toNat : Int) % 2 ^ 32 := by
  rw [BitVec.toInt_eq_toNat_cond]
  split <;> omega

/-- Every one of these instructions computes with the worth of the literal. -/
theorem signedLit_step {s : Machine D} {devs : List D} {m : U8} {r : Reg} {i : Int} {o : LitOp} (ha : o.Allows m i)
    (hf : Fetches pf s (o.instr m r i).encodeWord devs)
    (hw : mayWrite (supervisor s.regs) r.code.toNat = true) (hpc : r ≠ .pc) :
    ∃ s', next pf s = some s' ∧
      Assigned s s' r.code.toNat (BitVec.ofInt 32 (o.on (reg s.regs r.code.toNat).toInt (litWorth o i))) 1 ∧
      s'.devs = devs := by
  obtain ⟨h0, h1, h2⟩ := ha
  have hx := toInt_mod32 (reg s.regs r.code.toNat)
  cases o with
  | set =>
    have hn := ofInt16_toNat h0 h1
    have hval : BitVec.ofNat 32 (BitVec.ofInt 16 i).toNat = BitVec.ofInt 32 (litWorth .set i) := by
      rw [show litWorth .set i = ((BitVec.ofInt 16 i).toNat : Int) from hn.symm, BitVec.ofInt_natCast]
    have := step_cpy_lit hf hw hpc
    rw [hval] at this
    exact this
  | add =>
    have hn := ofInt16_toNat h0 h1
    refine step_update (v := BitVec.ofNat 32 (BitVec.ofInt 16 i).toNat) (f := calcAdd) rfl
      (by rintro ⟨r, h, _⟩; cases h) hf hw hpc (c := ?_) (o := ?_) ?_
    · exact decide (2 ^ 32 ≤ (reg s.regs r.code.toNat).toNat + (BitVec.ofNat 32 (BitVec.ofInt 16 i).toNat).toNat)
    · exact !fitsSigned ((reg s.regs r.code.toNat).toInt + (BitVec.ofNat 32 (BitVec.ofInt 16 i).toNat).toInt)
    · unfold calcAdd
      congr 2
      rw [← BitVec.ofInt_natCast]
      apply ofInt_congr32
      rw [show litWorth .add i = ((BitVec.ofInt 16 i).toNat : Int) from hn.symm]
      simp only [LitOp.on, BitVec.toNat_ofNat]
      omega
  | sub =>
    have hn := ofInt16_toNat h0 h1
    refine step_update (v := BitVec.ofNat 32 (BitVec.ofInt 16 i).toNat) (f := calcSub) rfl
      (by rintro ⟨r, h, _⟩; cases h) hf hw hpc (c := ?_) (o := ?_) ?_
    · exact decide ((reg s.regs r.code.toNat).toNat < (BitVec.ofNat 32 (BitVec.ofInt 16 i).toNat).toNat)
    · exact !fitsSigned ((reg s.regs r.code.toNat).toInt - (BitVec.ofNat 32 (BitVec.ofInt 16 i).toNat).toInt)
    · unfold calcSub
      congr 2
      apply ofInt_congr32
      rw [show litWorth .sub i = ((BitVec.ofInt 16 i).toNat : Int) from hn.symm]
      simp only [LitOp.on, BitVec.toNat_ofNat]
      omega
  | mul =>
    have hn := ofInt16_toNat h0 h1
    refine step_update (v := BitVec.ofNat 32 (BitVec.ofInt 16 i).toNat) (f := calcMul) rfl
      (by rintro ⟨r, h, _⟩; cases h) hf hw hpc (c := ?_) (o := ?_) ?_
    · exact !fitsSigned ((reg s.regs r.code.toNat).toInt * (BitVec.ofNat 32 (BitVec.ofInt 16 i).toNat).toInt)
    · exact !fitsSigned ((reg s.regs r.code.toNat).toInt * (BitVec.ofNat 32 (BitVec.ofInt 16 i).toNat).toInt)
    · unfold calcMul
      congr 2
      rw [← BitVec.ofInt_natCast]
      apply ofInt_congr32
      rw [show litWorth .mul i = ((BitVec.ofInt 16 i).toNat : Int) from hn.symm]
      have hlt := (BitVec.ofInt 16 i).isLt
      simp only [LitOp.on, BitVec.toNat_ofNat]
      rw [Nat.mod_eq_of_lt (by omega), Int.natCast_mul, Int.mul_emod, ← hx, ← Int.mul_emod]
  | quotient =>
    have h0 : -2 ^ 7 ≤ i := h0
    have h1 : i < 2 ^ 7 := h1
    have hn := ofInt8_toNat h0 h1
    obtain ⟨hne, hm⟩ := h2 (.inl rfl)
    have hlt := (BitVec.ofInt 8 i).isLt
    have hv : ((BitVec.ofNat 32 (BitVec.ofInt 8 i).toNat).toInt) = litWorth .quotient i := by
      rw [show litWorth .quotient i = ((BitVec.ofInt 8 i).toNat : Int) from hn.symm, BitVec.toInt_eq_toNat_cond,
        BitVec.toNat_ofNat]
      split <;> omega
    refine step_update (v := BitVec.ofNat 32 (BitVec.ofInt 8 i).toNat) (f := calcDiv false (BitVec.ofNat 32 m.toNat)) rfl
      (by rintro ⟨r, h, _⟩; cases h) hf hw hpc (c := false) (o := false) ?_
    have hmm : (BitVec.ofNat 32 m.toNat).toNat / 16 % 2 = 1 := by
      rw [BitVec.toNat_ofNat]; have := m.isLt; omega
    unfold calcDiv
    rw [if_neg (by rw [BitVec.toNat_ofNat]; intro h; revert hn; split <;> omega), if_pos hmm,
      if_neg (by rw [hv]; unfold litWorth; simp only [LitOp.bits]; split <;> omega), hv]
    rfl
  | remainder =>
    have h0 : -2 ^ 7 ≤ i := h0
    have h1 : i < 2 ^ 7 := h1
    have hn := ofInt8_toNat h0 h1
    obtain ⟨hne, hm⟩ := h2 (.inr rfl)
    have hlt := (BitVec.ofInt 8 i).isLt
    have hv : ((BitVec.ofNat 32 (BitVec.ofInt 8 i).toNat).toInt) = litWorth .remainder i := by
      rw [show litWorth .remainder i = ((BitVec.ofInt 8 i).toNat : Int) from hn.symm, BitVec.toInt_eq_toNat_cond,
        BitVec.toNat_ofNat]
      split <;> omega
    refine step_update (v := BitVec.ofNat 32 (BitVec.ofInt 8 i).toNat) (f := calcDiv true (BitVec.ofNat 32 m.toNat)) rfl
      (by rintro ⟨r, h, _⟩; cases h) hf hw hpc (c := false) (o := false) ?_
    have hmm : (BitVec.ofNat 32 m.toNat).toNat / 16 % 2 = 1 := by
      rw [BitVec.toNat_ofNat]; have := m.isLt; omega
    unfold calcDiv
    rw [if_neg (by rw [BitVec.toNat_ofNat]; intro h; revert hn; split <;> omega), if_pos hmm,
      if_neg (by rw [hv]; unfold litWorth; simp only [LitOp.bits]; split <;> omega), hv]
    rfl

/-- **C102**, partial: an instruction with a signed literal that is not negative computes on the literal as written.
Missing: negative literals, where the claim is false (`C102_refuted`, exactly: `C102_negative_partial`). -/
theorem C102_partial {s : Machine D} {devs : List D} {m : U8} {r : Reg} {i : Int} {o : LitOp} (ha : o.Allows m i)
    (hi : 0 ≤ i) (hf : Fetches pf s (o.instr m r i).encodeWord devs)
    (hw : mayWrite (supervisor s.regs) r.code.toNat = true) (hpc : r ≠ .pc) :
    ∃ s', next pf s = some s' ∧
      Assigned s s' r.code.toNat (BitVec.ofInt 32 (o.on (reg s.regs r.code.toNat).toInt i)) 1 ∧ s'.devs = devs := by
  have := signedLit_step ha hf hw hpc
  rw [litWorth, if_neg (by omega)] at this
  exact this

/-- **C102**, what happens instead: a negative literal counts as itself plus 2¹⁶ (2⁸ for a divisor). -/
theorem C102_negative_partial {s : Machine D} {devs : List D} {m : U8} {r : Reg} {i : Int} {o : LitOp} (ha : o.Allows m i)
    (hi : i < 0) (hf : Fetches pf s (o.instr m r i).encodeWord devs)
    (hw : mayWrite (supervisor s.regs) r.code.toNat = true) (hpc : r ≠ .pc) :
    ∃ s', next pf s = some s' ∧
      Assigned s s' r.code.toNat (BitVec.ofInt 32 (o.on (reg s.regs r.code.toNat).toInt (i + 2 ^ o.bits))) 1 ∧
      s'.devs = devs := by
  have := signedLit_step ha hf hw hpc
  rw [litWorth, if_pos hi] at this
  exact this

/-- **C102** is false of every negative literal: `cpy`, `add` and `sub` never give what the literal says. -/
theorem C102_refuted {s s' : Machine D} {devs : List D} {m : U8} {r : Reg} {i : Int} {o : LitOp} (ha : o.Allows m i)
    (ho : o = .set ∨ o = .add ∨ o = .sub) (hi : i < 0) (hf : Fetches pf s (o.instr m r i).encodeWord devs)
    (hw : mayWrite (supervisor s.regs) r.code.toNat = true) (hpc : r ≠ .pc) (hn : next pf s = some s') :
    reg s'.regs r.code.toNat ≠ BitVec.ofInt 32 (o.on (reg s.regs r.code.toNat).toInt i) := by
  obtain ⟨t, ht, ⟨hr, _⟩, _⟩ := C102_negative_partial ha hi hf hw hpc
  rw [hn] at ht; injection ht with ht; subst ht
  rw [hr]
  intro h
  have h := congrArg BitVec.toNat h
  rw [BitVec.toNat_ofInt, BitVec.toNat_ofInt] at h
  rcases ho with rfl | rfl | rfl <;> simp only [LitOp.on, LitOp.bits] at h <;> omega

/-- **C102**, the relative jump: its literal is a signed number, whatever the sign, and the jump goes that far. -/
theorem C102_jpr {s : Machine D} {devs : List D} {i : Int} (h0 : -2 ^ 15 ≤ i) (h1 : i < 2 ^ 15)
    (hf : Fetches pf s (Instr.encodeWord (.jpr (.signedLit (BitVec.ofInt 16 i)))) devs) :
    ∃ s', next pf s = some s' ∧ s'.regs = { s.regs with pc := BitVec.ofInt 32 (s.regs.pc.toNat + i) } ∧
      s'.devs = devs := by
  have hn := C52_partial (pf := pf) _ (by rintro ⟨r, h, _⟩; cases h) hf
  refine ⟨_, hn, ?_, rfl⟩
  have hp : ∀ w, w = s.regs.pc + BitVec.ofInt 32
      (BitVec.ofNat 16 (BitVec.ofNat 32 (BitVec.ofInt 16 i).toNat).toNat).toInt →
      w = BitVec.ofInt 32 (s.regs.pc.toNat + i) → ({ s.regs with pc := w } : Regs) =
        { s.regs with pc := BitVec.ofInt 32 (s.regs.pc.toNat + i) } := by
    intro w _ h; rw [h]
  refine hp _ rfl ?_
  have hb : (BitVec.ofNat 16 (BitVec.ofNat 32 (BitVec.ofInt 16 i).toNat).toNat) = BitVec.ofInt 16 i := by
    apply BitVec.eq_of_toNat_eq
    have := (BitVec.ofInt 16 i).isLt
    rw [BitVec.toNat_ofNat, BitVec.toNat_ofNat]
    omega
  have hi : (BitVec.ofInt 16 i).toInt = i := by
    rw [BitVec.toInt_ofInt, Int.bmod]
    split <;> omega
  rw [hb, hi]
  apply BitVec.eq_of_toNat_eq
  rw [BitVec.toNat_add, BitVec.toNat_ofInt, BitVec.toNat_ofInt]
  show (s.regs.pc.toNat + _) % _ = _
  omega

/-- **C102**: an `i8` given where a 2-byte operand is expected is the same literal as the `i16` with the same value. -/
theorem C102_widened {i : Int} (h0 : -2 ^ 7 ≤ i) (h1 : i < 2 ^ 7) :
    RegOrLit2.ofSignedByte (BitVec.ofInt 8 i) = .signedLit (BitVec.ofInt 16 i) := by
  unfold RegOrLit2.ofSignedByte
  congr 1
  apply BitVec.eq_of_toInt_eq
  rw [BitVec.toInt_signExtend_of_le (by decide), BitVec.toInt_ofInt, BitVec.toInt_ofInt, Int.bmod, Int.bmod]
  split <;> split <;> omega

/-- **C102**, in the disassembly: the offset of a relative jump is shown as that number, a minus sign before the absolute
value if it is negative. Missing: the least number, which crashes debug builds and is shown as `-0x8000` by release builds. -/
theorem C102_text_partial {i : Int} (h0 : -2 ^ 15 ≤ i) (h1 : i < 2 ^ 15) :
    (pf = .release ∨ i ≠ -2 ^ 15 → Instr.toLasm pf (.jpr (.signedLit (BitVec.ofInt 16 i))) =
      some ("jpr ".toList ++ Printing.withSign (RunLines.hex 0) i)) ∧
    (pf = .debug → i = -2 ^ 15 → Instr.toLasm pf (.jpr (.signedLit (BitVec.ofInt 16 i))) = none) := by
  have hi : (BitVec.ofInt 16 i).toInt = i := by
    rw [BitVec.toInt_ofInt, Int.bmod]
    split <;> omega
  have hm : BitVec.ofInt 16 i = 0x8000 ↔ i = -2 ^ 15 := by
    constructor
    · intro h
      rw [← hi, h]
      rfl
    · intro h
      rw [h]
      rfl
  have hn : ((BitVec.ofInt 16 i).toNat : Int) = if i < 0 then i + 2 ^ 16 else i := ofInt16_toNat h0 h1
  have he : ∀ t, RegOrLit2.toLasmSigned pf (.signedLit (BitVec.ofInt 16 i)) = t →
      Instr.toLasm pf (.jpr (.signedLit (BitVec.ofInt 16 i))) = t.bind fun t => some ("jpr ".toList ++ t) := by
    intro t h
    subst h
    rfl
  constructor
  · intro h
    refine (he (some (Printing.withSign (RunLines.hex 0) i)) ?_)
    unfold RegOrLit2.signedLit RegOrLit2.toLasmSigned Printing.withSign
    simp only [hi]
    split
    · rename_i hneg
      rw [if_neg (by rw [hm]; rintro ⟨ha, hb⟩; subst hb; rcases h with h | h; (· cases h); exact h ha),
        fmtHex_zero]
      congr 3
      rw [BitVec.toNat_neg]
      split at hn
      · omega
      · omega
    · rename_i hpos
      rw [fmtHex_zero]
      congr 2
      rw [if_neg hpos] at hn
      omega
  · intro hp h
    refine (he none ?_)
    unfold RegOrLit2.signedLit RegOrLit2.toLasmSigned
    simp only [hi]
    rw [if_pos (by omega), if_pos ⟨hm.2 h, hp⟩]

/-- `jpr -1`. -/
example : (Instr.toLasm .debug (.jpr (.signedLit (BitVec.ofInt 16 (-1))))).map String.ofList = some "jpr -0x1" := by
  decide +kernel

/-- `add a0, -1` is such an instruction, and a machine about to run it exists; so is `div a0, 7` in signed mode. -/
example : LitOp.add.Allows 0 (-1) ∧ LitOp.quotient.Allows 0x10 7 ∧
    Fetches .debug (Demo.start [(LitOp.add.instr 0 .a0 (-1)).encodeWord]) (LitOp.add.instr 0 .a0 (-1)).encodeWord
      (Demo.devices [(LitOp.add.instr 0 .a0 (-1)).encodeWord]) ∧
    mayWrite (supervisor (Demo.start [(LitOp.add.instr 0 .a0 (-1)).encodeWord]).regs) Reg.a0.code.toNat = true :=
  ⟨by simp [LitOp.Allows, LitOp.bits], by simp [LitOp.Allows, LitOp.bits], ⟨rfl, rfl⟩, rfl⟩

/-- `jpr -8` is fetched as assembled. -/
example : Fetches .debug (Demo.start [Instr.encodeWord (.jpr (.signedLit (BitVec.ofInt 16 (-8))))])
    (Instr.encodeWord (.jpr (.signedLit (BitVec.ofInt 16 (-8)))))
    (Demo.devices [Instr.encodeWord (.jpr (.signedLit (BitVec.ofInt 16 (-8))))]) := ⟨rfl, rfl⟩

end Lrvm
