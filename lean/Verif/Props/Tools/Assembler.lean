import Verif.Lemmas.Perform
import Verif.Demo.Machines

/-!
# The instruction encoder and decoder, and what the processor makes of their output: C50, C51, C52
-/

namespace Lrvm

open Spec

variable {D : Type} [Bus D] {pf : Profile}

/-! ## C50 -/

theorem fromCode_code (r : Reg) : Reg.fromCode r.code = some r := by cases r <;> rfl

theorem argReg_enc {b : Bytes4} {p : Nat} {r : Reg} (h : b.get p = r.code) : argReg b p = .ok r := by
  unfold argReg
  rw [h, fromCode_code]

theorem arg1_enc {b : Bytes4} {p : Nat} {v : RegOrLit1} (h : argIsLit b p = !v.isReg) (hv : b.get p = v.value) :
    argRegOrLit1 b p = .ok v := by
  unfold argRegOrLit1
  rw [h]
  cases v with
  | lit n => rw [hv]; rfl
  | reg r => rw [argReg_enc (r := r) hv]; rfl

/-- What is left of a wide operand once encoded. -/
def RegOrLit2.kept : RegOrLit2 → RegOrLit2
  | .reg _ => .reg .a0
  | .lit n => .lit n

theorem arg2_enc {b : Bytes4} {p : Nat} {v : RegOrLit2} (h : argIsLit b p = !v.isReg)
    (h1 : b.get p = (v.value >>> 8).setWidth 8) (h2 : b.get (p + 1) = v.value.setWidth 8) :
    argRegOrLit2 b p = .ok v.kept := by
  unfold argRegOrLit2
  rw [h]
  cases v with
  | lit n =>
    rw [h1, h2]
    show Except.ok (RegOrLit2.lit _) = Except.ok (RegOrLit2.lit n)
    congr 2
    apply BitVec.eq_of_toNat_eq
    have := n.isLt
    show (BitVec.append ((n >>> 8).setWidth 8 : U8) (n.setWidth 8 : U8)).toNat = _
    rw [show (BitVec.append ((n >>> 8).setWidth 8) (n.setWidth 8) : BitVec (8 + 8))
      = ((n >>> 8).setWidth 8 : U8) ++ (n.setWidth 8 : U8) from rfl, BitVec.toNat_append,
      ← Nat.shiftLeft_add_eq_or_of_lt (BitVec.isLt _), Nat.shiftLeft_eq, BitVec.toNat_setWidth,
      BitVec.toNat_setWidth, BitVec.toNat_ushiftRight, Nat.shiftRight_eq_div_pow]
    omega
  | reg r =>
    have h0 : b.get p = Reg.a0.code := by rw [h1]; cases r <;> rfl
    rw [argReg_enc h0]; rfl

/-- The first byte of an encoded instruction. -/
def encByte (op : U8) (x y z : Bool) : U8 :=
  (op <<< 3) + (if x then 1#8 <<< 2 else 0) + (if y then 1#8 <<< 1 else 0) + (if z then 1#8 else 0)

theorem encByte_op : ∀ op : Fin 32, ∀ x y z, ((encByte (BitVec.ofNat 8 op) x y z) >>> 3).toNat = op := by
  decide +kernel

theorem encByte_lit : ∀ op : Fin 32, ∀ x y z,
    (encByte (BitVec.ofNat 8 op) x y z &&& 4#8 == 0) = !x ∧ (encByte (BitVec.ofNat 8 op) x y z &&& 2#8 == 0) = !y ∧
    (encByte (BitVec.ofNat 8 op) x y z &&& 1#8 == 0) = !z := by
  decide +kernel

/-- The two assertions of the encoder always hold. -/
theorem C50_parts_fit (i : Instr) : i.parts.2.1.length ≤ 3 ∧ i.parts.2.2.length ≤ 3 := by
  cases i <;> simp [Instr.parts, RegOrLit2.bytes]

/-- The decoder after the opcode. -/
def decodeAs (b : Bytes4) (n : Nat) : Except InstrDecodingError Instr :=
  match n with
  | 0x01 => do .ok (.cpy (← argReg b 1) (← argRegOrLit2 b 2))
  | 0x02 => do .ok (.ex (← argReg b 1) (← argReg b 2))
  | 0x03 => do .ok (.add (← argReg b 1) (← argRegOrLit2 b 2))
  | 0x04 => do .ok (.sub (← argReg b 1) (← argRegOrLit2 b 2))
  | 0x05 => do .ok (.mul (← argReg b 1) (← argRegOrLit2 b 2))
  | 0x06 => do .ok (.div (← argReg b 1) (← argRegOrLit1 b 2) (← argRegOrLit1 b 3))
  | 0x07 => do .ok (.mod (← argReg b 1) (← argRegOrLit1 b 2) (← argRegOrLit1 b 3))
  | 0x08 => do .ok (.and (← argReg b 1) (← argRegOrLit2 b 2))
  | 0x09 => do .ok (.bor (← argReg b 1) (← argRegOrLit2 b 2))
  | 0x0A => do .ok (.xor (← argReg b 1) (← argRegOrLit2 b 2))
  | 0x0B => do .ok (.shl (← argReg b 1) (← argRegOrLit1 b 2))
  | 0x0C => do .ok (.shr (← argReg b 1) (← argRegOrLit1 b 2))
  | 0x0D => do .ok (.cmp (← argReg b 1) (← argRegOrLit2 b 2))
  | 0x0E => do .ok (.jpr (← argRegOrLit2 b 1))
  | 0x0F => do .ok (.lsm (← argRegOrLit2 b 1))
  | 0x10 => do .ok (.itr (← argRegOrLit1 b 1))
  | 0x11 => do .ok (.«if» (← argRegOrLit1 b 1))
  | 0x12 => do .ok (.ifN (← argRegOrLit1 b 1))
  | 0x13 => do .ok (.if2 (← argRegOrLit1 b 1) (← argRegOrLit1 b 2) (← argRegOrLit1 b 3))
  | 0x14 => do .ok (.lsa (← argReg b 1) (← argRegOrLit1 b 2) (← argRegOrLit1 b 3))
  | 0x15 => do .ok (.lea (← argRegOrLit1 b 1) (← argRegOrLit1 b 2) (← argRegOrLit1 b 3))
  | 0x16 => do .ok (.wsa (← argRegOrLit1 b 1) (← argRegOrLit1 b 2) (← argRegOrLit1 b 3))
  | 0x17 => do .ok (.wea (← argRegOrLit1 b 1) (← argRegOrLit1 b 2) (← argRegOrLit1 b 3))
  | 0x18 => do .ok (.srm (← argRegOrLit1 b 1) (← argRegOrLit1 b 2) (← argReg b 3))
  | 0x19 => do .ok (.push (← argRegOrLit2 b 1))
  | 0x1A => do .ok (.pop (← argReg b 1))
  | 0x1B => do .ok (.call (← argRegOrLit2 b 1))
  | 0x1C => do .ok (.hwd (← argReg b 1) (← argRegOrLit1 b 2) (← argRegOrLit1 b 3))
  | 0x1D => do .ok (.cycles (← argReg b 1))
  | 0x1E => .ok .halt
  | 0x1F => do .ok (.reset (← argRegOrLit1 b 1))
  | _ => .error (.unknownOpCode (b.b0 >>> 3))

theorem decode_at {n : Nat} (b : Bytes4) (h : (b.b0 >>> 3).toNat = n) : Instr.decode b = decodeAs b n := by
  subst h; rfl

theorem bind_except {ε α β : Type} {x : Except ε α} {k : α → Except ε β} {a : α} (h : x = .ok a) :
    (x >>= k) = k a := by subst h; rfl

theorem decode_encode (i : Instr) :
    Instr.decode i.encode = .ok (match wideOperand i with | some v => withWide v.kept i | none => i) := by
  have hd : ∀ (op : Fin 32) (x y z : Bool) (p q r : U8),
      let b : Bytes4 := ⟨encByte (BitVec.ofNat 8 op) x y z, p, q, r⟩
      (b.b0 >>> 3).toNat = op ∧ argIsLit b 1 = !x ∧ argIsLit b 2 = !y ∧ argIsLit b 3 = !z :=
    fun op x y z p q r => ⟨encByte_op op x y z, encByte_lit op x y z⟩
  cases i with
  | cpy a b =>
    obtain ⟨h0, h1, h2, h3⟩ := hd 0x01 true b.isReg false a.code ((b.value >>> 8).setWidth 8) (b.value.setWidth 8)
    refine (decode_at _ h0).trans ?_
    refine (bind_except (argReg_enc (r := a) rfl)).trans ?_
    refine (bind_except (arg2_enc (v := b) h2 rfl rfl)).trans ?_
    rfl
  | ex a b =>
    obtain ⟨h0, h1, h2, h3⟩ := hd 0x02 true true false a.code b.code 0
    refine (decode_at _ h0).trans ?_
    refine (bind_except (argReg_enc (r := a) rfl)).trans ?_
    refine (bind_except (argReg_enc (r := b) rfl)).trans ?_
    rfl
  | add a b =>
    obtain ⟨h0, h1, h2, h3⟩ := hd 0x03 true b.isReg false a.code ((b.value >>> 8).setWidth 8) (b.value.setWidth 8)
    refine (decode_at _ h0).trans ?_
    refine (bind_except (argReg_enc (r := a) rfl)).trans ?_
    refine (bind_except (arg2_enc (v := b) h2 rfl rfl)).trans ?_
    rfl
  | sub a b =>
    obtain ⟨h0, h1, h2, h3⟩ := hd 0x04 true b.isReg false a.code ((b.value >>> 8).setWidth 8) (b.value.setWidth 8)
    refine (decode_at _ h0).trans ?_
    refine (bind_except (argReg_enc (r := a) rfl)).trans ?_
    refine (bind_except (arg2_enc (v := b) h2 rfl rfl)).trans ?_
    rfl
  | mul a b =>
    obtain ⟨h0, h1, h2, h3⟩ := hd 0x05 true b.isReg false a.code ((b.value >>> 8).setWidth 8) (b.value.setWidth 8)
    refine (decode_at _ h0).trans ?_
    refine (bind_except (argReg_enc (r := a) rfl)).trans ?_
    refine (bind_except (arg2_enc (v := b) h2 rfl rfl)).trans ?_
    rfl
  | div a b c =>
    obtain ⟨h0, h1, h2, h3⟩ := hd 0x06 true b.isReg c.isReg a.code b.value c.value
    refine (decode_at _ h0).trans ?_
    refine (bind_except (argReg_enc (r := a) rfl)).trans ?_
    refine (bind_except (arg1_enc (v := b) h2 rfl)).trans ?_
    refine (bind_except (arg1_enc (v := c) h3 rfl)).trans ?_
    rfl
  | mod a b c =>
    obtain ⟨h0, h1, h2, h3⟩ := hd 0x07 true b.isReg c.isReg a.code b.value c.value
    refine (decode_at _ h0).trans ?_
    refine (bind_except (argReg_enc (r := a) rfl)).trans ?_
    refine (bind_except (arg1_enc (v := b) h2 rfl)).trans ?_
    refine (bind_except (arg1_enc (v := c) h3 rfl)).trans ?_
    rfl
  | and a b =>
    obtain ⟨h0, h1, h2, h3⟩ := hd 0x08 true b.isReg false a.code ((b.value >>> 8).setWidth 8) (b.value.setWidth 8)
    refine (decode_at _ h0).trans ?_
    refine (bind_except (argReg_enc (r := a) rfl)).trans ?_
    refine (bind_except (arg2_enc (v := b) h2 rfl rfl)).trans ?_
    rfl
  | bor a b =>
    obtain ⟨h0, h1, h2, h3⟩ := hd 0x09 true b.isReg false a.code ((b.value >>> 8).setWidth 8) (b.value.setWidth 8)
    refine (decode_at _ h0).trans ?_
    refine (bind_except (argReg_enc (r := a) rfl)).trans ?_
    refine (bind_except (arg2_enc (v := b) h2 rfl rfl)).trans ?_
    rfl
  | xor a b =>
    obtain ⟨h0, h1, h2, h3⟩ := hd 0x0A true b.isReg false a.code ((b.value >>> 8).setWidth 8) (b.value.setWidth 8)
    refine (decode_at _ h0).trans ?_
    refine (bind_except (argReg_enc (r := a) rfl)).trans ?_
    refine (bind_except (arg2_enc (v := b) h2 rfl rfl)).trans ?_
    rfl
  | shl a b =>
    obtain ⟨h0, h1, h2, h3⟩ := hd 0x0B true b.isReg false a.code b.value 0
    refine (decode_at _ h0).trans ?_
    refine (bind_except (argReg_enc (r := a) rfl)).trans ?_
    refine (bind_except (arg1_enc (v := b) h2 rfl)).trans ?_
    rfl
  | shr a b =>
    obtain ⟨h0, h1, h2, h3⟩ := hd 0x0C true b.isReg false a.code b.value 0
    refine (decode_at _ h0).trans ?_
    refine (bind_except (argReg_enc (r := a) rfl)).trans ?_
    refine (bind_except (arg1_enc (v := b) h2 rfl)).trans ?_
    rfl
  | cmp a b =>
    obtain ⟨h0, h1, h2, h3⟩ := hd 0x0D true b.isReg false a.code ((b.value >>> 8).setWidth 8) (b.value.setWidth 8)
    refine (decode_at _ h0).trans ?_
    refine (bind_except (argReg_enc (r := a) rfl)).trans ?_
    refine (bind_except (arg2_enc (v := b) h2 rfl rfl)).trans ?_
    rfl
  | jpr a =>
    obtain ⟨h0, h1, h2, h3⟩ := hd 0x0E a.isReg false false ((a.value >>> 8).setWidth 8) (a.value.setWidth 8) 0
    refine (decode_at _ h0).trans ?_
    refine (bind_except (arg2_enc (v := a) h1 rfl rfl)).trans ?_
    rfl
  | lsm a =>
    obtain ⟨h0, h1, h2, h3⟩ := hd 0x0F a.isReg false false ((a.value >>> 8).setWidth 8) (a.value.setWidth 8) 0
    refine (decode_at _ h0).trans ?_
    refine (bind_except (arg2_enc (v := a) h1 rfl rfl)).trans ?_
    rfl
  | itr a =>
    obtain ⟨h0, h1, h2, h3⟩ := hd 0x10 a.isReg false false a.value 0 0
    refine (decode_at _ h0).trans ?_
    refine (bind_except (arg1_enc (v := a) h1 rfl)).trans ?_
    rfl
  | «if» a =>
    obtain ⟨h0, h1, h2, h3⟩ := hd 0x11 a.isReg false false a.value 0 0
    refine (decode_at _ h0).trans ?_
    refine (bind_except (arg1_enc (v := a) h1 rfl)).trans ?_
    rfl
  | ifN a =>
    obtain ⟨h0, h1, h2, h3⟩ := hd 0x12 a.isReg false false a.value 0 0
    refine (decode_at _ h0).trans ?_
    refine (bind_except (arg1_enc (v := a) h1 rfl)).trans ?_
    rfl
  | if2 a b c =>
    obtain ⟨h0, h1, h2, h3⟩ := hd 0x13 a.isReg b.isReg c.isReg a.value b.value c.value
    refine (decode_at _ h0).trans ?_
    refine (bind_except (arg1_enc (v := a) h1 rfl)).trans ?_
    refine (bind_except (arg1_enc (v := b) h2 rfl)).trans ?_
    refine (bind_except (arg1_enc (v := c) h3 rfl)).trans ?_
    rfl
  | lsa a b c =>
    obtain ⟨h0, h1, h2, h3⟩ := hd 0x14 true b.isReg c.isReg a.code b.value c.value
    refine (decode_at _ h0).trans ?_
    refine (bind_except (argReg_enc (r := a) rfl)).trans ?_
    refine (bind_except (arg1_enc (v := b) h2 rfl)).trans ?_
    refine (bind_except (arg1_enc (v := c) h3 rfl)).trans ?_
    rfl
  | lea a b c =>
    obtain ⟨h0, h1, h2, h3⟩ := hd 0x15 a.isReg b.isReg c.isReg a.value b.value c.value
    refine (decode_at _ h0).trans ?_
    refine (bind_except (arg1_enc (v := a) h1 rfl)).trans ?_
    refine (bind_except (arg1_enc (v := b) h2 rfl)).trans ?_
    refine (bind_except (arg1_enc (v := c) h3 rfl)).trans ?_
    rfl
  | wsa a b c =>
    obtain ⟨h0, h1, h2, h3⟩ := hd 0x16 a.isReg b.isReg c.isReg a.value b.value c.value
    refine (decode_at _ h0).trans ?_
    refine (bind_except (arg1_enc (v := a) h1 rfl)).trans ?_
    refine (bind_except (arg1_enc (v := b) h2 rfl)).trans ?_
    refine (bind_except (arg1_enc (v := c) h3 rfl)).trans ?_
    rfl
  | wea a b c =>
    obtain ⟨h0, h1, h2, h3⟩ := hd 0x17 a.isReg b.isReg c.isReg a.value b.value c.value
    refine (decode_at _ h0).trans ?_
    refine (bind_except (arg1_enc (v := a) h1 rfl)).trans ?_
    refine (bind_except (arg1_enc (v := b) h2 rfl)).trans ?_
    refine (bind_except (arg1_enc (v := c) h3 rfl)).trans ?_
    rfl
  | srm a b c =>
    obtain ⟨h0, h1, h2, h3⟩ := hd 0x18 a.isReg b.isReg true a.value b.value c.code
    refine (decode_at _ h0).trans ?_
    refine (bind_except (arg1_enc (v := a) h1 rfl)).trans ?_
    refine (bind_except (arg1_enc (v := b) h2 rfl)).trans ?_
    refine (bind_except (argReg_enc (r := c) rfl)).trans ?_
    rfl
  | push a =>
    obtain ⟨h0, h1, h2, h3⟩ := hd 0x19 a.isReg false false ((a.value >>> 8).setWidth 8) (a.value.setWidth 8) 0
    refine (decode_at _ h0).trans ?_
    refine (bind_except (arg2_enc (v := a) h1 rfl rfl)).trans ?_
    rfl
  | pop a =>
    obtain ⟨h0, h1, h2, h3⟩ := hd 0x1A true false false a.code 0 0
    refine (decode_at _ h0).trans ?_
    refine (bind_except (argReg_enc (r := a) rfl)).trans ?_
    rfl
  | call a =>
    obtain ⟨h0, h1, h2, h3⟩ := hd 0x1B a.isReg false false ((a.value >>> 8).setWidth 8) (a.value.setWidth 8) 0
    refine (decode_at _ h0).trans ?_
    refine (bind_except (arg2_enc (v := a) h1 rfl rfl)).trans ?_
    rfl
  | hwd a b c =>
    obtain ⟨h0, h1, h2, h3⟩ := hd 0x1C true b.isReg c.isReg a.code b.value c.value
    refine (decode_at _ h0).trans ?_
    refine (bind_except (argReg_enc (r := a) rfl)).trans ?_
    refine (bind_except (arg1_enc (v := b) h2 rfl)).trans ?_
    refine (bind_except (arg1_enc (v := c) h3 rfl)).trans ?_
    rfl
  | cycles a =>
    obtain ⟨h0, h1, h2, h3⟩ := hd 0x1D true false false a.code 0 0
    refine (decode_at _ h0).trans ?_
    refine (bind_except (argReg_enc (r := a) rfl)).trans ?_
    rfl
  | halt  =>
    obtain ⟨h0, h1, h2, h3⟩ := hd 0x1E false false false 0 0 0
    refine (decode_at _ h0).trans ?_
    rfl
  | reset a =>
    obtain ⟨h0, h1, h2, h3⟩ := hd 0x1F a.isReg false false a.value 0 0
    refine (decode_at _ h0).trans ?_
    refine (bind_except (arg1_enc (v := a) h1 rfl)).trans ?_
    rfl

/-- **C50**, what the encoder loses: decoding an encoded instruction gives the instruction back, except that a
register given as the "register or constant on 2 bytes" operand becomes `a0`. -/
theorem C50_lossy_round_trip (i : Instr) :
    (∀ r, wideOperand i = some (.reg r) → Instr.decode i.encode = .ok (withWide (.reg .a0) i)) ∧
    ((∀ r, wideOperand i ≠ some (.reg r)) → Instr.decode i.encode = .ok i) := by
  have h := decode_encode i
  constructor
  · intro r hr
    rw [hr] at h; exact h
  · intro hn
    rw [h]
    cases hw : wideOperand i with
    | none => rfl
    | some v =>
      cases v with
      | reg r => exact absurd hw (hn r)
      | lit n =>
        show Except.ok (withWide (.lit n) i) = _
        congr 1
        cases i <;> first | (injection hw with hw; subst hw; rfl) | cases hw

/-- **C50**, partial: exactly the instructions whose wide operand is a constant, `a0`, or absent, round-trip. The
full claim (every instruction round-trips) is false: `C50_refuted`. -/
theorem C50_partial (i : Instr) : Instr.decode i.encode = .ok i ↔ ¬ LosesRegister i := by
  have h := C50_lossy_round_trip i
  constructor
  · rintro he ⟨r, hr, hne⟩
    rw [h.1 r hr] at he
    injection he with he
    apply hne
    cases i <;> first | (cases hr; done) | (injection hr with hr; subst hr; injection he; simp_all)
  · intro hn
    cases hw : wideOperand i with
    | none => exact h.2 (by simp [hw])
    | some v =>
      cases v with
      | lit n => exact h.2 (by simp [hw])
      | reg r =>
        have hr : r = .a0 := Classical.byContradiction fun hne => hn ⟨r, hw, hne⟩
        subst hr
        rw [h.1 _ hw]
        congr 1
        cases i <;> first | (cases hw; done) | (injection hw with hw; subst hw; rfl)

/-- **C50** is false: `cpy a0, a1` is encoded as `cpy a0, a0`. -/
theorem C50_refuted : ∃ i, Instr.decode i.encode ≠ .ok i ∧ ∃ j, Instr.decode i.encode = .ok j :=
  by
  refine ⟨.cpy .a0 (.reg .a1), ?_, .cpy .a0 (.reg .a0), rfl⟩
  intro h
  injection h with h
  injection h with _ h
  cases h

/-- Encodings of distinct round-tripping instructions are distinct. -/
theorem C50_injective {i j : Instr} (hi : ¬ LosesRegister i) (hj : ¬ LosesRegister j) (h : i.encode = j.encode) :
    i = j := by
  have h1 := (C50_partial i).mpr hi
  have h2 := (C50_partial j).mpr hj
  rw [h, h2] at h1
  injection h1 with h1; exact h1.symm

example : ¬ LosesRegister (.lsa .rr3 (.reg .a2) (.lit 200)) := by rintro ⟨r, h, _⟩; cases h
example : Instr.decode (Instr.encode (.jpr (.lit 0xFFF8))) = .ok (.jpr (.lit 0xFFF8)) := rfl

/-! ## C51 -/

theorem fieldsOf_bytes {b : Bytes4} {w : Word} (h : IsBytesOf b w) : fieldsOf w = fieldsOf4 b := by
  have e : w = b.b0 ++ b.b1 ++ b.b2 ++ b.b3 := by
    apply BitVec.eq_of_toNat_eq
    rw [h]
    have h1 := b.b1.isLt
    have h2 := b.b2.isLt
    have h3 := b.b3.isLt
    simp only [BitVec.toNat_append]
    rw [← Nat.shiftLeft_add_eq_or_of_lt h3, ← Nat.shiftLeft_add_eq_or_of_lt h2, ← Nat.shiftLeft_add_eq_or_of_lt h1]
    simp only [Nat.shiftLeft_eq]
    omega
  unfold fieldsOf fieldsOf4
  have hb : ∀ i, i < 4 → (beByte w i).toNat = w.toNat / 2 ^ (8 * (3 - i)) % 256 := by
    intro i hi
    rw [toNat_beByte]
  have b0 : beByte w 0 = b.b0 := by
    apply BitVec.eq_of_toNat_eq; rw [hb 0 (by omega), h]
    have := b.b0.isLt; have := b.b1.isLt; have := b.b2.isLt; have := b.b3.isLt; omega
  have b1 : beByte w 1 = b.b1 := by
    apply BitVec.eq_of_toNat_eq; rw [hb 1 (by omega), h]
    have := b.b0.isLt; have := b.b1.isLt; have := b.b2.isLt; have := b.b3.isLt; omega
  have b2 : beByte w 2 = b.b2 := by
    apply BitVec.eq_of_toNat_eq; rw [hb 2 (by omega), h]
    have := b.b0.isLt; have := b.b1.isLt; have := b.b2.isLt; have := b.b3.isLt; omega
  have b3 : beByte w 3 = b.b3 := by
    apply BitVec.eq_of_toNat_eq; rw [hb 3 (by omega), h]
    have := b.b0.isLt; have := b.b1.isLt; have := b.b2.isLt; have := b.b3.isLt; omega
  rw [b0, b1, b2, b3]

/-- **C51.** The processor executes the instruction that the decoder shows: for every machine, if the fetched word
consists of the bytes `b` and `b` decodes as `i`, then the whole cycle (registers, components, cycle counter, halting,
exceptions and crashes included) is the one the reference semantics gives for `i`. -/
theorem C51_step_is_decoded_instruction {s : Machine D} {w : Word} {devs : List D} {b : Bytes4} {i : Instr}
    (hf : Fetches pf s w devs) (hb : IsBytesOf b w) (hd : Instr.decode b = .ok i) :
    next pf s = runInstruction pf s devs i := by
  rw [next_of_fetch hf]
  have h := runInstr_decode (pf := pf) hd { s with cycles := s.cycles + 1, devs := devs, changedPc := false }
  have e : execWord pf w { s with cycles := s.cycles + 1, devs := devs } =
      cycleEnd (runInstr pf (fieldsOf4 b) { s with cycles := s.cycles + 1, devs := devs, changedPc := false }) := by
    unfold execWord
    rw [fieldsOf_bytes hb]; rfl
  rw [e, h]
  unfold runInstruction
  cases perform pf i { s with cycles := s.cycles + 1, devs := devs, changedPc := false } with
  | ok _ t => show cycleEnd (.ok () t) = _; cases ht : t.changedPc <;> simp [cycleEnd, ht]
  | error e t => cases e <;> rfl

theorem fromCode_none {c : U8} (h : Reg.fromCode c = none) : 32 ≤ c.toNat := by
  apply Classical.byContradiction
  intro hlt
  have : ∀ n : Fin 32, Reg.fromCode (BitVec.ofNat 8 n) ≠ none := by decide
  apply this ⟨c.toNat, by omega⟩
  rw [show BitVec.ofNat 8 c.toNat = c from BitVec.eq_of_toNat_eq (by simp)]
  exact h

theorem argReg_err {b : Bytes4} {p : Nat} {e : InstrDecodingError} (h : argReg b p = .error e) :
    32 ≤ (b.get p).toNat := by
  unfold argReg at h
  split at h
  · cases h
  · next h1 => exact fromCode_none h1

theorem readReg_never {c : U8} (h : 32 ≤ c.toNat) : NeverOk (readReg c : M D Word) := by
  intro s a t he
  rw [readReg_eq, if_neg] at he
  · cases he
  · unfold mayRead
    cases supervisor s.regs <;> simp <;> omega

theorem writeReg_never {c : U8} (h : 32 ≤ c.toNat) (w : Word) : NeverOk (writeReg c w : M D Unit) := by
  intro s a t he
  rw [writeReg_fault] at he
  · cases he
  · unfold mayWrite
    cases supervisor s.regs <;> simp <;> omega

theorem arg1_err {b : Bytes4} {p : Nat} {e : InstrDecodingError} (h : argRegOrLit1 b p = .error e) :
    NeverOk (regOrLit1 (!argIsLit b p) (b.get p) : M D Word) := by
  unfold argRegOrLit1 at h
  cases hl : argIsLit b p with
  | true => rw [hl, if_pos rfl] at h; cases h
  | false =>
    rw [hl, if_neg (by simp)] at h
    cases ha : argReg b p with
    | error e => exact readReg_never (argReg_err ha)
    | ok r => rw [ha] at h; cases h

theorem arg2_err {b : Bytes4} {p : Nat} {e : InstrDecodingError} (h : argRegOrLit2 b p = .error e) :
    NeverOk (regOrLit2 (!argIsLit b p) (b.get p) (b.get (p + 1)) : M D Word) := by
  unfold argRegOrLit2 at h
  cases hl : argIsLit b p with
  | true => rw [hl, if_pos rfl] at h; cases h
  | false =>
    rw [hl, if_neg (by simp)] at h
    cases ha : argReg b p with
    | error e => exact readReg_never (argReg_err ha)
    | ok r => rw [ha] at h; cases h

theorem bind_err {ε α β : Type} {x : Except ε α} {k : α → Except ε β} {e : ε} (h : (x >>= k) = .error e) :
    (∃ e, x = .error e) ∨ ∃ a, k a = .error e := by
  cases x with
  | error e => exact .inl ⟨e, rfl⟩
  | ok a => exact .inr ⟨a, h⟩

theorem arg1_err' {b : Bytes4} {p : Nat} {q : U8} {e : InstrDecodingError} (h : argRegOrLit1 b p = .error e) :
    NeverOk (regOrLit2 (!argIsLit b p) (b.get p) q : M D Word) := by
  unfold argRegOrLit1 at h
  cases hl : argIsLit b p with
  | true => rw [hl, if_pos rfl] at h; cases h
  | false =>
    rw [hl, if_neg (by simp)] at h
    cases ha : argReg b p with
    | error e => exact readReg_never (argReg_err ha)
    | ok r => rw [ha] at h; cases h

theorem er1_1 {b : Bytes4} {e : InstrDecodingError} (h : argRegOrLit1 b 1 = .error e) :
    NeverOk (regOrLit1 (fieldsOf4 b).r0 (fieldsOf4 b).p0 : M D Word) := by
  have := arg1_err (D := D) h
  rw [← fieldsOf4_r0] at this
  exact this

theorem er1_2 {b : Bytes4} {e : InstrDecodingError} (h : argRegOrLit1 b 2 = .error e) :
    NeverOk (regOrLit1 (fieldsOf4 b).r1 (fieldsOf4 b).p1 : M D Word) := by
  have := arg1_err (D := D) h
  rw [← fieldsOf4_r1] at this
  exact this

theorem er1_3 {b : Bytes4} {e : InstrDecodingError} (h : argRegOrLit1 b 3 = .error e) :
    NeverOk (regOrLit1 (fieldsOf4 b).r2 (fieldsOf4 b).p2 : M D Word) := by
  have := arg1_err (D := D) h
  rw [← fieldsOf4_r2] at this
  exact this

theorem er2_1 {b : Bytes4} {e : InstrDecodingError} (h : argRegOrLit2 b 1 = .error e) :
    NeverOk (regOrLit2 (fieldsOf4 b).r0 (fieldsOf4 b).p0 (fieldsOf4 b).p1 : M D Word) := by
  have := arg2_err (D := D) h
  rw [← fieldsOf4_r0] at this
  exact this

theorem er2_2 {b : Bytes4} {e : InstrDecodingError} (h : argRegOrLit2 b 2 = .error e) :
    NeverOk (regOrLit2 (fieldsOf4 b).r1 (fieldsOf4 b).p1 (fieldsOf4 b).p2 : M D Word) := by
  have := arg2_err (D := D) h
  rw [← fieldsOf4_r1] at this
  exact this

theorem er3_2 {b : Bytes4} {e : InstrDecodingError} (h : argRegOrLit1 b 2 = .error e) :
    NeverOk (regOrLit2 (fieldsOf4 b).r1 (fieldsOf4 b).p1 (fieldsOf4 b).p2 : M D Word) := by
  have := arg1_err' (D := D) (q := b.b3) h
  rw [← fieldsOf4_r1] at this
  exact this

set_option maxHeartbeats 2000000 in
/-- The processor never completes an instruction that the decoder refuses. -/
theorem runInstr_undecodable {b : Bytes4} {e : InstrDecodingError} (h : Instr.decode b = .error e) :
    NeverOk (runInstr pf (fieldsOf4 b) : M D Unit) := by
  have hop : (fieldsOf4 b).opcode = b.b0 >>> 3 := rfl
  rw [decode_at b rfl] at h
  unfold runInstr
  rw [hop]
  have hk := shift3 b.b0
  revert h hk
  generalize hn : (b.b0 >>> 3).toNat = n
  intro h hk
  match n, hk with
  | 0, _ => exact fun s a t he => by cases he
  | 0x01, _ =>
    dsimp only [decodeAs] at h ⊢
    unfold execCpy
    rcases bind_err h with ⟨e, h⟩ | ⟨_, h⟩
    · exact .bind fun _ => writeReg_never (argReg_err h) _
    rcases bind_err h with ⟨e, h⟩ | ⟨_, h⟩
    · exact .bind_left (er2_2 h)
    cases h
  | 0x02, _ =>
    dsimp only [decodeAs] at h ⊢
    unfold execEx
    rcases bind_err h with ⟨e, h⟩ | ⟨_, h⟩
    · exact .bind_left (readReg_never (argReg_err h))
    rcases bind_err h with ⟨e, h⟩ | ⟨_, h⟩
    · exact .bind fun _ => .bind_left (readReg_never (argReg_err h))
    cases h
  | 0x03, _ =>
    dsimp only [decodeAs] at h ⊢
    unfold execAlu
    rcases bind_err h with ⟨e, h⟩ | ⟨_, h⟩
    · exact .bind fun _ => .bind_left (readReg_never (argReg_err h))
    rcases bind_err h with ⟨e, h⟩ | ⟨_, h⟩
    · exact .bind_left (er2_2 h)
    cases h
  | 0x04, _ =>
    dsimp only [decodeAs] at h ⊢
    unfold execAlu
    rcases bind_err h with ⟨e, h⟩ | ⟨_, h⟩
    · exact .bind fun _ => .bind_left (readReg_never (argReg_err h))
    rcases bind_err h with ⟨e, h⟩ | ⟨_, h⟩
    · exact .bind_left (er2_2 h)
    cases h
  | 0x05, _ =>
    dsimp only [decodeAs] at h ⊢
    unfold execAlu
    rcases bind_err h with ⟨e, h⟩ | ⟨_, h⟩
    · exact .bind fun _ => .bind_left (readReg_never (argReg_err h))
    rcases bind_err h with ⟨e, h⟩ | ⟨_, h⟩
    · exact .bind_left (er2_2 h)
    cases h
  | 0x06, _ =>
    dsimp only [decodeAs] at h ⊢
    unfold execDiv
    rcases bind_err h with ⟨e, h⟩ | ⟨_, h⟩
    · exact .bind fun _ => .bind fun _ => .bind_left (readReg_never (argReg_err h))
    rcases bind_err h with ⟨e, h⟩ | ⟨_, h⟩
    · exact .bind_left (er1_2 h)
    rcases bind_err h with ⟨e, h⟩ | ⟨_, h⟩
    · exact .bind fun _ => .bind_left (er1_3 h)
    cases h
  | 0x07, _ =>
    dsimp only [decodeAs] at h ⊢
    unfold execDiv
    rcases bind_err h with ⟨e, h⟩ | ⟨_, h⟩
    · exact .bind fun _ => .bind fun _ => .bind_left (readReg_never (argReg_err h))
    rcases bind_err h with ⟨e, h⟩ | ⟨_, h⟩
    · exact .bind_left (er1_2 h)
    rcases bind_err h with ⟨e, h⟩ | ⟨_, h⟩
    · exact .bind fun _ => .bind_left (er1_3 h)
    cases h
  | 0x08, _ =>
    dsimp only [decodeAs] at h ⊢
    unfold execAlu
    rcases bind_err h with ⟨e, h⟩ | ⟨_, h⟩
    · exact .bind fun _ => .bind_left (readReg_never (argReg_err h))
    rcases bind_err h with ⟨e, h⟩ | ⟨_, h⟩
    · exact .bind_left (er2_2 h)
    cases h
  | 0x09, _ =>
    dsimp only [decodeAs] at h ⊢
    unfold execAlu
    rcases bind_err h with ⟨e, h⟩ | ⟨_, h⟩
    · exact .bind fun _ => .bind_left (readReg_never (argReg_err h))
    rcases bind_err h with ⟨e, h⟩ | ⟨_, h⟩
    · exact .bind_left (er2_2 h)
    cases h
  | 0x0A, _ =>
    dsimp only [decodeAs] at h ⊢
    unfold execAlu
    rcases bind_err h with ⟨e, h⟩ | ⟨_, h⟩
    · exact .bind fun _ => .bind_left (readReg_never (argReg_err h))
    rcases bind_err h with ⟨e, h⟩ | ⟨_, h⟩
    · exact .bind_left (er2_2 h)
    cases h
  | 0x0B, _ =>
    dsimp only [decodeAs] at h ⊢
    unfold execAlu
    rcases bind_err h with ⟨e, h⟩ | ⟨_, h⟩
    · exact .bind fun _ => .bind_left (readReg_never (argReg_err h))
    rcases bind_err h with ⟨e, h⟩ | ⟨_, h⟩
    · exact .bind_left (er3_2 h)
    cases h
  | 0x0C, _ =>
    dsimp only [decodeAs] at h ⊢
    unfold execAlu
    rcases bind_err h with ⟨e, h⟩ | ⟨_, h⟩
    · exact .bind fun _ => .bind_left (readReg_never (argReg_err h))
    rcases bind_err h with ⟨e, h⟩ | ⟨_, h⟩
    · exact .bind_left (er3_2 h)
    cases h
  | 0x0D, _ =>
    dsimp only [decodeAs] at h ⊢
    unfold execCmp
    rcases bind_err h with ⟨e, h⟩ | ⟨_, h⟩
    · exact .bind fun _ => .bind_left (readReg_never (argReg_err h))
    rcases bind_err h with ⟨e, h⟩ | ⟨_, h⟩
    · exact .bind_left (er2_2 h)
    cases h
  | 0x0E, _ =>
    dsimp only [decodeAs] at h ⊢
    unfold execJpr
    rcases bind_err h with ⟨e, h⟩ | ⟨_, h⟩
    · exact .bind_left (er2_1 h)
    cases h
  | 0x0F, _ =>
    dsimp only [decodeAs] at h ⊢
    unfold execLsm
    rcases bind_err h with ⟨e, h⟩ | ⟨_, h⟩
    · refine .bind fun sv => ?_
      cases sv with
      | true => exact .bind_left (er2_1 h)
      | false => exact fun s a t he => by cases he
    · cases h
  | 0x10, _ =>
    dsimp only [decodeAs] at h ⊢
    unfold execItr
    rcases bind_err h with ⟨e, h⟩ | ⟨_, h⟩
    · exact .bind_left (er1_1 h)
    cases h
  | 0x11, _ =>
    dsimp only [decodeAs] at h ⊢
    unfold execIf
    rcases bind_err h with ⟨e, h⟩ | ⟨_, h⟩
    · exact .bind_left (er1_1 h)
    cases h
  | 0x12, _ =>
    dsimp only [decodeAs] at h ⊢
    unfold execIf
    rcases bind_err h with ⟨e, h⟩ | ⟨_, h⟩
    · exact .bind_left (er1_1 h)
    cases h
  | 0x13, _ =>
    dsimp only [decodeAs] at h ⊢
    unfold execIf2
    rcases bind_err h with ⟨e, h⟩ | ⟨_, h⟩
    · exact .bind_left (er1_1 h)
    rcases bind_err h with ⟨e, h⟩ | ⟨_, h⟩
    · exact .bind fun _ => .bind_left (er1_2 h)
    rcases bind_err h with ⟨e, h⟩ | ⟨_, h⟩
    · exact .bind fun _ => .bind fun _ => .bind_left (er1_3 h)
    cases h
  | 0x14, _ =>
    dsimp only [decodeAs] at h ⊢
    unfold execLsa
    rcases bind_err h with ⟨e, h⟩ | ⟨_, h⟩
    · exact .bind fun _ => .bind fun _ => .bind fun _ => writeReg_never (argReg_err h) _
    rcases bind_err h with ⟨e, h⟩ | ⟨_, h⟩
    · exact .bind_left (er1_2 h)
    rcases bind_err h with ⟨e, h⟩ | ⟨_, h⟩
    · exact .bind fun _ => .bind_left (er1_3 h)
    cases h
  | 0x15, _ =>
    dsimp only [decodeAs] at h ⊢
    unfold execLea
    rcases bind_err h with ⟨e, h⟩ | ⟨_, h⟩
    · exact .bind_left (er1_1 h)
    rcases bind_err h with ⟨e, h⟩ | ⟨_, h⟩
    · exact .bind fun _ => .bind_left (er1_2 h)
    rcases bind_err h with ⟨e, h⟩ | ⟨_, h⟩
    · exact .bind fun _ => .bind fun _ => .bind_left (er1_3 h)
    cases h
  | 0x16, _ =>
    dsimp only [decodeAs] at h ⊢
    unfold execWsa
    rcases bind_err h with ⟨e, h⟩ | ⟨_, h⟩
    · exact .bind_left (er1_1 h)
    rcases bind_err h with ⟨e, h⟩ | ⟨_, h⟩
    · exact .bind fun _ => .bind_left (er1_2 h)
    rcases bind_err h with ⟨e, h⟩ | ⟨_, h⟩
    · exact .bind fun _ => .bind fun _ => .bind_left (er1_3 h)
    cases h
  | 0x17, _ =>
    dsimp only [decodeAs] at h ⊢
    unfold execWea
    rcases bind_err h with ⟨e, h⟩ | ⟨_, h⟩
    · exact .bind_left (er1_1 h)
    rcases bind_err h with ⟨e, h⟩ | ⟨_, h⟩
    · exact .bind fun _ => .bind_left (er1_2 h)
    rcases bind_err h with ⟨e, h⟩ | ⟨_, h⟩
    · exact .bind fun _ => .bind fun _ => .bind_left (er1_3 h)
    cases h
  | 0x18, _ =>
    dsimp only [decodeAs] at h ⊢
    unfold execSrm
    rcases bind_err h with ⟨e, h⟩ | ⟨_, h⟩
    · exact .bind_left (er1_1 h)
    rcases bind_err h with ⟨e, h⟩ | ⟨_, h⟩
    · exact .bind fun _ => .bind_left (er1_2 h)
    rcases bind_err h with ⟨e, h⟩ | ⟨_, h⟩
    · exact .bind fun _ => .bind fun _ => .bind fun _ => .bind fun _ => .bind_left (readReg_never (argReg_err h))
    cases h
  | 0x19, _ =>
    dsimp only [decodeAs] at h ⊢
    unfold execPush
    rcases bind_err h with ⟨e, h⟩ | ⟨_, h⟩
    · exact .bind_left (er2_1 h)
    cases h
  | 0x1A, _ =>
    dsimp only [decodeAs] at h ⊢
    unfold execPop
    rcases bind_err h with ⟨e, h⟩ | ⟨_, h⟩
    · exact .bind fun _ => .bind fun _ => writeReg_never (argReg_err h) _
    cases h
  | 0x1B, _ =>
    dsimp only [decodeAs] at h ⊢
    unfold execCall
    rcases bind_err h with ⟨e, h⟩ | ⟨_, h⟩
    · exact .bind_left (er2_1 h)
    cases h
  | 0x1C, _ =>
    dsimp only [decodeAs] at h ⊢
    unfold execHwd
    rcases bind_err h with ⟨e, h⟩ | ⟨_, h⟩
    · refine .bind fun _ => .bind fun _ => ?_
      split
      · exact .bind fun _ => writeReg_never (argReg_err h) _
      · exact .bind fun _ => writeReg_never (argReg_err h) _
    rcases bind_err h with ⟨e, h⟩ | ⟨_, h⟩
    · exact .bind_left (er1_2 h)
    rcases bind_err h with ⟨e, h⟩ | ⟨_, h⟩
    · exact .bind fun _ => .bind_left (er1_3 h)
    cases h
  | 0x1D, _ =>
    dsimp only [decodeAs] at h ⊢
    unfold execCycles
    rcases bind_err h with ⟨e, h⟩ | ⟨_, h⟩
    · exact .bind fun _ => writeReg_never (argReg_err h) _
    cases h
  | 0x1E, _ => cases h
  | 0x1F, _ =>
    dsimp only [decodeAs] at h ⊢
    unfold execReset
    rcases bind_err h with ⟨e, h⟩ | ⟨_, h⟩
    · exact .bind_left (er1_1 h)
    cases h
  | n + 32, hk => omega

/-- **C51.** If the decoder refuses the fetched word, the processor does not complete the instruction: it raises one of
the documented exceptions (or the host program crashes). -/
theorem C51_undecodable_raises {s s' : Machine D} {w : Word} {devs : List D} {b : Bytes4} {e : InstrDecodingError}
    (hf : Fetches pf s w devs) (hb : IsBytesOf b w) (hd : Instr.decode b = .error e) (h : next pf s = some s') :
    ∃ r c d, c ∈ exceptionCodes ∧ d < 65536 ∧ s'.regs = trap r c d := by
  rcases next_inv h hf.1 with ⟨devs', c, d, hc, ha, hl, rfl⟩ | ⟨w', devs', hf', hl, hr⟩
  · rw [fetches_iff, ha] at hf
    cases hf.2
  · have hw : w' = w := by
      rw [fetches_iff] at hf hf'
      rw [hf.2] at hf'
      have := hf'.2
      injection this with h1 _; exact h1.symm
    subst hw
    rcases hr with ⟨t, c, d, _, he, hc, rfl⟩ | ⟨t, hrun, he, rfl⟩
    · exact ⟨_, _, _, faultCodes_doc c hc, d.isLt, exception_regs ..⟩
    · rw [fieldsOf_bytes hb] at hrun
      exact absurd hrun (runInstr_undecodable hd _ _ _)

/-- `lsa a0, a1, 4` is fetched and decoded on the example machine. -/
example : Fetches .debug (Demo.start [0xA6000104]) 0xA6000104 (Demo.devices [0xA6000104]) ∧
    IsBytesOf ⟨0xA6, 0, 1, 4⟩ 0xA6000104 ∧
    Instr.decode ⟨0xA6, 0, 1, 4⟩ = .ok (.lsa .a0 (.reg .a1) (.lit 4)) := ⟨⟨rfl, rfl⟩, by unfold IsBytesOf; decide, rfl⟩

/-- A word with an unknown register. -/
example : Fetches .debug (Demo.start [0x08200001]) 0x08200001 (Demo.devices [0x08200001]) ∧
    Instr.decode ⟨0x08, 0x20, 0, 1⟩ = .error (.unknownRegister 0 0x20) ∧
    ∃ s', next .debug (Demo.start [0x08200001]) = some s' := ⟨⟨rfl, rfl⟩, rfl, _, rfl⟩

/-! ## C52 -/

theorem isBytesOf_toWord (b : Bytes4) : IsBytesOf b b.toWord := by
  unfold IsBytesOf Bytes4.toWord
  have h1 := b.b1.isLt
  have h2 := b.b2.isLt
  have h3 := b.b3.isLt
  simp only [BitVec.toNat_append]
  rw [← Nat.shiftLeft_add_eq_or_of_lt h3, ← Nat.shiftLeft_add_eq_or_of_lt h2, ← Nat.shiftLeft_add_eq_or_of_lt h1]
  simp only [Nat.shiftLeft_eq]
  omega

/-- **C52**, what happens to every assembled instruction: the processor executes it as written, except that a register
given as the "register or constant on 2 bytes" operand is replaced by `a0`. -/
theorem C52_lossy_execution {s : Machine D} {devs : List D} (i : Instr) (hf : Fetches pf s i.encodeWord devs) :
    (∀ r, wideOperand i = some (.reg r) → next pf s = runInstruction pf s devs (withWide (.reg .a0) i)) ∧
    ((∀ r, wideOperand i ≠ some (.reg r)) → next pf s = runInstruction pf s devs i) :=
  ⟨fun r hr => C51_step_is_decoded_instruction hf (isBytesOf_toWord _) ((C50_lossy_round_trip i).1 r hr),
    fun hn => C51_step_is_decoded_instruction hf (isBytesOf_toWord _) ((C50_lossy_round_trip i).2 hn)⟩

/-- **C52**, partial: an assembled instruction is executed as written, if its wide operand is not a register other than
`a0`. The full claim is false: `C52_refuted`. -/
theorem C52_partial {s : Machine D} {devs : List D} (i : Instr) (hi : ¬ LosesRegister i)
    (hf : Fetches pf s i.encodeWord devs) : next pf s = runInstruction pf s devs i :=
  C51_step_is_decoded_instruction hf (isBytesOf_toWord _) ((C50_partial i).mpr hi)

/-- A machine that is about to run `cpy a0, a1`, `a1` containing 5. -/
def copyMachine : Machine Demo.Dev :=
  { Demo.start [Instr.encodeWord (.cpy .a0 (.reg .a1))] with regs := setReg startup 1 5 }

/-- **C52** is false: `cpy a0, a1` leaves `a0` unchanged. -/
theorem C52_refuted : ∃ (s s' t : Machine Demo.Dev) (devs : List Demo.Dev) (i : Instr),
    Fetches .debug s i.encodeWord devs ∧ next .debug s = some s' ∧ runInstruction .debug s devs i = some t ∧
    s'.regs.a[0] = 0 ∧ t.regs.a[0] = 5 :=
  ⟨copyMachine, _, _, _, .cpy .a0 (.reg .a1), ⟨rfl, rfl⟩, rfl, rfl, rfl, rfl⟩

/-- `add a0, 5` is fetched as assembled. -/
example : Fetches .debug (Demo.start [Instr.encodeWord (.add .a0 (.lit 5))]) (Instr.encodeWord (.add .a0 (.lit 5)))
    (Demo.devices [Instr.encodeWord (.add .a0 (.lit 5))]) ∧ ¬ LosesRegister (.add .a0 (.lit 5)) :=
  ⟨⟨rfl, rfl⟩, by rintro ⟨r, h, _⟩; cases h⟩

end Lrvm
