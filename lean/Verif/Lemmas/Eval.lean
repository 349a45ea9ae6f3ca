import Verif.Lemmas.Effects
import Verif.Lemmas.RegFile

/-!
# Exact evaluation lemmas
-/

namespace Lrvm

open Spec

variable {D : Type} [Bus D]

theorem svMode_eq (s : Machine D) : s.svMode = supervisor s.regs := rfl

theorem exception_regs (s : Machine D) (c : U8) (d : U16) :
    (s.exception c d).regs = trap s.regs c.toNat d.toNat := by
  unfold Machine.exception trap
  simp only [svMode_eq]
  congr 1
  apply BitVec.eq_of_toNat_eq
  have hc := c.isLt
  have hd := d.isLt
  by_cases hsv : supervisor s.regs = true <;>
  simp [hsv, BitVec.toNat_add, BitVec.toNat_shiftLeft, Nat.shiftLeft_eq] <;> omega

theorem exception_devs (s : Machine D) (c : U8) (d : U16) : (s.exception c d).devs = s.devs := rfl

/-- The exception of a refused or unknown register read. -/
def readFault (sv : Bool) : U8 := if sv then 0x02 else 0x03

theorem readReg_eq (c : U8) (s : Machine D) :
    readReg c s = if mayRead (supervisor s.regs) c.toNat then .ok (reg s.regs c.toNat) s
      else .ex (s.exception (readFault (supervisor s.regs)) (c.setWidth 16)) := by
  unfold readReg mayRead readFault
  rw [svMode_eq, Regs.read_eq]
  have h18 : 0x18#8 ≤ c ↔ 0x18 ≤ c.toNat := BitVec.le_def
  cases supervisor s.regs <;> by_cases h1 : c.toNat ≤ 0x17 <;> by_cases h2 : c.toNat ≤ 0x1F
  all_goals
    have h3 : (c.toNat < 32) ↔ c.toNat ≤ 0x1F := by omega
    have h4 : (0x18 ≤ c.toNat) ↔ ¬ c.toNat ≤ 0x17 := by omega
    first
    | omega
    | simp [h18, h3, h4, h1, h2]

theorem readReg_val {c : U8} {s : Machine D} (h : mayRead (supervisor s.regs) c.toNat = true) :
    readReg c s = .ok (reg s.regs c.toNat) s := by
  rw [readReg_eq, if_pos h]

theorem mayWrite_lt {sv : Bool} {c : Nat} (h : mayWrite sv c = true) : c < 32 := by
  unfold mayWrite at h
  split at h
  · omega
  · split at h
    · next hm => simp at hm; omega
    · cases h

theorem mayRead_lt {sv : Bool} {c : Nat} (h : mayRead sv c = true) : c < 32 := by
  unfold mayRead at h
  split at h
  · omega
  · split at h
    · omega
    · cases h

theorem mayRead_of_mayWrite {sv : Bool} {c : Nat} (h : mayWrite sv c = true) : mayRead sv c = true := by
  unfold mayWrite at h
  unfold mayRead
  split at h
  · rw [if_pos (by omega)]
  · split at h
    · next h1 => simp at h1; subst h; split <;> first | rfl | (rw [if_pos (by omega)])
    · cases h

theorem writeReg_val {c : U8} {s : Machine D} (w : Word)
    (h : mayWrite (supervisor s.regs) c.toNat = true) :
    writeReg c w s = .ok () { s with
      regs := setReg s.regs c.toNat w, changedPc := if c = 0x16#8 then true else s.changedPc } := by
  have hlt := mayWrite_lt h
  unfold mayWrite at h
  unfold writeReg
  rw [svMode_eq]
  have h17 : 0x17#8 ≤ c ↔ 0x17 ≤ c.toNat := BitVec.le_def
  have e17 : c = 0x17#8 ↔ c.toNat = 0x17 := BitVec.toNat_eq
  have e1A : c = 0x1A#8 ↔ c.toNat = 0x1A := BitVec.toNat_eq
  have e1B : c = 0x1B#8 ↔ c.toNat = 0x1B := BitVec.toNat_eq
  have hg1 : ¬ (0x17#8 ≤ c ∧ supervisor s.regs = false) := by
    rintro ⟨ha, hb⟩
    rw [h17] at ha
    rw [if_neg (by omega), hb] at h
    simp at h
  have hg2 : ¬ (c = 0x17#8 ∨ c = 0x1A#8 ∨ c = 0x1B#8) := by
    rw [e17, e1A, e1B]
    intro hh
    rw [if_neg (by omega), if_neg (by simp; omega)] at h
    cases h
  rw [if_neg hg1, if_neg hg2]
  by_cases hc : c = 0x16#8
  · simp only [if_pos hc, Regs.write_eq, if_pos hlt]
  · simp only [if_neg hc, Regs.write_eq, if_pos hlt]

/-- The exception of a refused or unknown register write. -/
def writeFault (sv : Bool) (c : Nat) : U8 := if sv ∧ 0x20 ≤ c then 0x02 else 0x04

theorem writeReg_fault {c : U8} {s : Machine D} (w : Word)
    (h : mayWrite (supervisor s.regs) c.toNat = false) :
    writeReg c w s = .ex (s.exception (writeFault (supervisor s.regs) c.toNat) (c.setWidth 16)) := by
  unfold mayWrite at h
  unfold writeReg writeFault
  rw [svMode_eq]
  have h17 : 0x17#8 ≤ c ↔ 0x17 ≤ c.toNat := BitVec.le_def
  have e17 : c = 0x17#8 ↔ c.toNat = 0x17 := BitVec.toNat_eq
  have e1A : c = 0x1A#8 ↔ c.toNat = 0x1A := BitVec.toNat_eq
  have e1B : c = 0x1B#8 ↔ c.toNat = 0x1B := BitVec.toNat_eq
  have e16 : c = 0x16#8 ↔ c.toNat = 0x16 := BitVec.toNat_eq
  have hge : 0x17 ≤ c.toNat := by
    rcases Nat.lt_or_ge c.toNat 0x17 with hlt | hge
    · rw [if_pos (by omega)] at h; cases h
    · exact hge
  rw [if_neg (by omega)] at h
  cases hsv : supervisor s.regs with
  | false => rw [if_pos ⟨h17.mpr hge, rfl⟩]; simp
  | true =>
    rw [if_neg (by simp)]
    by_cases hro : c.toNat = 0x17 ∨ c.toNat = 0x1A ∨ c.toNat = 0x1B
    · rw [if_pos (by rw [e17, e1A, e1B]; exact hro), if_neg (by omega)]; rfl
    · rw [if_neg (by rw [e17, e1A, e1B]; exact hro)]
      have hbig : 0x20 ≤ c.toNat := by
        rw [hsv] at h
        split at h
        · cases h
        · next hm => simp at hm; omega
      have hc : (true = true ∧ 32 ≤ c.toNat) := ⟨rfl, hbig⟩
      rw [if_pos hc]
      have hne : c ≠ 0x16#8 := by rw [Ne, e16]; omega
      simp only [if_neg hne, Regs.write_eq, if_neg (show ¬ c.toNat < 32 by omega), raise_apply]

theorem regOrLit1_val {s : Machine D} {b : Bool} {p : U8} {v : Word} (h : Val1 s.regs b p v) :
    regOrLit1 b p s = .ok v s := by
  unfold Val1 at h
  cases b with
  | true => simp at h; rw [h.2]; exact readReg_val h.1
  | false =>
    simp at h; rw [h]
    show Out.ok (p.setWidth 32) s = _
    congr 1

theorem regOrLit2_val {s : Machine D} {b : Bool} {p q : U8} {v : Word} (h : Val2 s.regs b p q v) :
    regOrLit2 b p q s = .ok v s := by
  unfold Val2 at h
  cases b with
  | true => simp at h; rw [h.2]; exact readReg_val h.1
  | false =>
    simp at h; rw [h]
    show Out.ok ((p ++ q).setWidth 32) s = _
    congr 1
    apply BitVec.eq_of_toNat_eq
    rw [BitVec.toNat_setWidth, BitVec.toNat_append, BitVec.toNat_ofNat, Nat.shiftLeft_eq, Nat.mul_comm,
      ← Nat.two_pow_add_eq_or_of_lt (i := 8) q.isLt, Nat.mul_comm]

/-! ### Instruction words -/

/-- The first byte of an instruction. -/
def headByte (op : BitVec 5) (r0 r1 r2 : Bool) : U8 :=
  op ++ BitVec.ofBool r0 ++ BitVec.ofBool r1 ++ BitVec.ofBool r2

theorem toNat_append8 {n : Nat} (a : BitVec n) (b : U8) : (a ++ b).toNat = a.toNat * 256 + b.toNat := by
  rw [BitVec.toNat_append, Nat.shiftLeft_eq, Nat.mul_comm,
    ← Nat.two_pow_add_eq_or_of_lt (i := 8) b.isLt, Nat.mul_comm]

theorem toNat_be (a b c d : U8) : (a ++ b ++ c ++ d).toNat =
    ((a.toNat * 256 + b.toNat) * 256 + c.toNat) * 256 + d.toNat := by
  rw [toNat_append8, toNat_append8, toNat_append8]

theorem toNat_beByte (w : Word) (i : Nat) : (beByte w i).toNat = w.toNat / 2 ^ (8 * (3 - i)) % 256 := by
  unfold beByte
  rw [BitVec.toNat_setWidth, BitVec.toNat_ushiftRight, Nat.shiftRight_eq_div_pow]

theorem beByte_append (a b c d : U8) :
    beByte (a ++ b ++ c ++ d) 0 = a ∧ beByte (a ++ b ++ c ++ d) 1 = b ∧
    beByte (a ++ b ++ c ++ d) 2 = c ∧ beByte (a ++ b ++ c ++ d) 3 = d := by
  have h1 := a.isLt; have h2 := b.isLt; have h3 := c.isLt; have h4 := d.isLt
  refine ⟨?_, ?_, ?_, ?_⟩ <;> apply BitVec.eq_of_toNat_eq <;> rw [toNat_beByte, toNat_be] <;>
    simp only [Nat.reduceSub, Nat.reduceMul, Nat.reducePow] at * <;> omega

theorem headByte_fields : ∀ (op : BitVec 5) (r0 r1 r2 : Bool),
    headByte op r0 r1 r2 >>> 3 = op.setWidth 8 ∧ (headByte op r0 r1 r2 &&& 0b100#8 != 0) = r0 ∧
    (headByte op r0 r1 r2 &&& 0b10#8 != 0) = r1 ∧ (headByte op r0 r1 r2 &&& 0b1#8 != 0) = r2 := by
  decide +kernel

theorem fieldsOf_instrWord (op : BitVec 5) (r0 r1 r2 : Bool) (p0 p1 p2 : U8) :
    fieldsOf (instrWord op r0 r1 r2 p0 p1 p2) = ⟨op.setWidth 8, r0, r1, r2, p0, p1, p2⟩ := by
  show fieldsOf (headByte op r0 r1 r2 ++ p0 ++ p1 ++ p2) = _
  unfold fieldsOf fieldsOfBytes
  obtain ⟨h1, h2, h3, h4⟩ := headByte_fields op r0 r1 r2
  obtain ⟨e0, e1, e2, e3⟩ := beByte_append (headByte op r0 r1 r2) p0 p1 p2
  rw [e0, e1, e2, e3, h1, h2, h3, h4]

theorem be_split (w : Word) : w = beByte w 0 ++ beByte w 1 ++ beByte w 2 ++ beByte w 3 := by
  apply BitVec.eq_of_toNat_eq
  have h := w.isLt
  rw [toNat_be, toNat_beByte, toNat_beByte, toNat_beByte, toNat_beByte]
  simp only [Nat.reduceSub, Nat.reduceMul, Nat.reducePow] at *
  omega

theorem headByte_surj : ∀ b : U8, ∃ op r0 r1 r2, b = headByte op r0 r1 r2 := by
  intro b
  refine ⟨(b >>> 3).setWidth 5, b.getLsbD 2, b.getLsbD 1, b.getLsbD 0, ?_⟩
  revert b; decide +kernel

/-- Every word is an instruction word. -/
theorem exists_instrWord (w : Word) :
    ∃ op r0 r1 r2 p0 p1 p2, w = instrWord op r0 r1 r2 p0 p1 p2 := by
  obtain ⟨op, r0, r1, r2, h⟩ := headByte_surj (beByte w 0)
  refine ⟨op, r0, r1, r2, beByte w 1, beByte w 2, beByte w 3, ?_⟩
  show w = headByte op r0 r1 r2 ++ beByte w 1 ++ beByte w 2 ++ beByte w 3
  rw [← h]; exact be_split w

end Lrvm
