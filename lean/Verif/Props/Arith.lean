import Verif.Lemmas.Alu
import Verif.Props.Modes

/-!
# Arithmetic, bitwise and shift instructions: C16, C17, C18, C19
-/

namespace Lrvm

open Spec

variable {D : Type} [Bus D] {pf : Profile}

/-! ## C16 -/

theorem uaddOverflow_spec (x y : Word) :
    BitVec.uaddOverflow x y = decide (2 ^ 32 ≤ x.toNat + y.toNat) := rfl

theorem usubOverflow_spec (x y : Word) :
    BitVec.usubOverflow x y = decide (x.toNat < y.toNat) := rfl

theorem overflow_fits (i : Int) : (decide (i ≥ 2 ^ 31) || decide (i < -2 ^ 31)) = !fitsSigned i := by
  unfold fitsSigned
  rw [Bool.eq_iff_iff]
  simp
  omega

theorem saddOverflow_spec (x y : Word) :
    BitVec.saddOverflow x y = !fitsSigned (x.toInt + y.toInt) := overflow_fits _

theorem ssubOverflow_spec (x y : Word) :
    BitVec.ssubOverflow x y = !fitsSigned (x.toInt - y.toInt) := overflow_fits _

theorem smulOverflow_spec (x y : Word) :
    BitVec.smulOverflow x y = !fitsSigned (x.toInt * y.toInt) := overflow_fits _

/-- A machine with given register contents, running one instruction. -/
def Demo.run1 (r : Regs) (w : Word) : Machine Demo.Dev := { Demo.start [w] with regs := r }

theorem Demo.run1_fetches (r : Regs) (w : Word) (h : r.pc = 0) (hm : r.mtt = 0) :
    Fetches .debug (Demo.run1 r w) w (Demo.devices [w]) := by
  refine fetches_iff.mpr ⟨rfl, ?_⟩
  show accRead .debug r _ (Demo.devices [w]) r.pc = _
  unfold accRead accDo transl
  rw [h, if_pos hm, if_neg (by decide)]
  rfl

/-- **C16**, ADD. The destination receives the sum modulo `2 ^ 32`; CF is set exactly when the unsigned sum
does not fit in 32 bits, OF exactly when the signed sum does not fit; nothing else changes but `pc`. -/
theorem C16_add {s : Machine D} {devs : List D} {r0 r1 r2 : Bool} {p0 p1 p2 : U8} {y : Word}
    (hf : Fetches pf s (instrWord 0x03 r0 r1 r2 p0 p1 p2) devs)
    (hw : mayWrite (supervisor s.regs) p0.toNat = true) (hv : Val2 s.regs r1 p1 p2 y) :
    let x := reg s.regs p0.toNat
    let res := BitVec.ofNat 32 (x.toNat + y.toNat)
    Steps pf s (assign { s.regs with
      af := flagsFor res (decide (2 ^ 32 ≤ x.toNat + y.toNat)) (!fitsSigned (x.toInt + y.toInt))
        (zlfCode res) } p0.toNat res) devs := by
  intro x res
  have hres : res = x + y := BitVec.eq_of_toNat_eq (by simp [res, BitVec.toNat_add])
  have := alu_step hf (by simp) hw hv (res := x + y) (cf := BitVec.uaddOverflow x y)
    (of := BitVec.saddOverflow x y) rfl
  rw [flagsOf_eq, uaddOverflow_spec, saddOverflow_spec, ← hres] at this
  exact this

/-- **C16**, SUB. -/
theorem C16_sub {s : Machine D} {devs : List D} {r0 r1 r2 : Bool} {p0 p1 p2 : U8} {y : Word}
    (hf : Fetches pf s (instrWord 0x04 r0 r1 r2 p0 p1 p2) devs)
    (hw : mayWrite (supervisor s.regs) p0.toNat = true) (hv : Val2 s.regs r1 p1 p2 y) :
    let x := reg s.regs p0.toNat
    let res := BitVec.ofInt 32 ((x.toNat : Int) - y.toNat)
    Steps pf s (assign { s.regs with
      af := flagsFor res (decide (x.toNat < y.toNat)) (!fitsSigned (x.toInt - y.toInt))
        (zlfCode res) } p0.toNat res) devs := by
  intro x res
  have hres : res = x - y := by
    apply BitVec.eq_of_toNat_eq
    simp only [res, BitVec.toNat_sub, BitVec.toNat_ofInt]
    have := x.isLt; have := y.isLt
    omega
  have := alu_step hf (by simp) hw hv (res := x - y) (cf := BitVec.usubOverflow x y)
    (of := BitVec.ssubOverflow x y) rfl
  rw [flagsOf_eq, usubOverflow_spec, ssubOverflow_spec, ← hres] at this
  exact this

/-- Non-vacuity: `SUB a0, a1`. -/
example : Fetches .debug (Demo.run1 (setReg (setReg startup 0 7) 1 2) (instrWord 0x04 false true false 0 1
    0)) (instrWord 0x04 false true false 0 1 0) (Demo.devices [instrWord 0x04 false true false 0 1 0]) ∧
    mayWrite (supervisor (setReg (setReg startup 0 7) 1 2)) 0 = true ∧
    Val2 (setReg (setReg startup 0 7) 1 2) true 1 0 2 :=
  ⟨Demo.run1_fetches _ _ rfl rfl, rfl, ⟨rfl, rfl⟩⟩

/-- **C16**, MUL: the product modulo `2 ^ 32`. Both CF and OF report a signed product that does not fit. -/
theorem C16_mul {s : Machine D} {devs : List D} {r0 r1 r2 : Bool} {p0 p1 p2 : U8} {y : Word}
    (hf : Fetches pf s (instrWord 0x05 r0 r1 r2 p0 p1 p2) devs)
    (hw : mayWrite (supervisor s.regs) p0.toNat = true) (hv : Val2 s.regs r1 p1 p2 y) :
    let x := reg s.regs p0.toNat
    let res := BitVec.ofNat 32 (x.toNat * y.toNat)
    Steps pf s (assign { s.regs with
      af := flagsFor res (!fitsSigned (x.toInt * y.toInt)) (!fitsSigned (x.toInt * y.toInt))
        (zlfCode res) } p0.toNat res) devs := by
  intro x res
  have hres : res = x * y := BitVec.eq_of_toNat_eq (by simp [res, BitVec.toNat_mul])
  have := alu_step hf (by simp) hw hv (res := x * y) (cf := BitVec.smulOverflow x y)
    (of := BitVec.smulOverflow x y) rfl
  rw [flagsOf_eq, smulOverflow_spec, ← hres] at this
  exact this

/-- Non-vacuity: `MUL a0, a1`. -/
example : Fetches .debug (Demo.run1 (setReg (setReg startup 0 7) 1 2) (instrWord 0x05 false true false 0 1
    0)) (instrWord 0x05 false true false 0 1 0) (Demo.devices [instrWord 0x05 false true false 0 1 0]) ∧
    mayWrite (supervisor (setReg (setReg startup 0 7) 1 2)) 0 = true ∧
    Val2 (setReg (setReg startup 0 7) 1 2) true 1 0 2 :=
  ⟨Demo.run1_fetches _ _ rfl rfl, rfl, ⟨rfl, rfl⟩⟩

/-- **C16**, AND, BOR and XOR: bit by bit, with CF and OF clear. -/
theorem C16_bitwise {s : Machine D} {devs : List D} {op : BitVec 5} {r0 r1 r2 : Bool} {p0 p1 p2 : U8}
    {y : Word} (g : Bool → Bool → Bool)
    (hg : (op = 0x08#5 ∧ g = and) ∨ (op = 0x09#5 ∧ g = or) ∨ (op = 0x0A#5 ∧ g = xor))
    (hf : Fetches pf s (instrWord op r0 r1 r2 p0 p1 p2) devs)
    (hw : mayWrite (supervisor s.regs) p0.toNat = true) (hv : Val2 s.regs r1 p1 p2 y) :
    ∃ res : Word, (∀ i, i < 32 → res.getLsbD i = g ((reg s.regs p0.toNat).getLsbD i) (y.getLsbD i)) ∧
      Steps pf s (assign { s.regs with af := flagsFor res false false (zlfCode res) } p0.toNat res)
        devs := by
  rcases hg with ⟨rfl, rfl⟩ | ⟨rfl, rfl⟩ | ⟨rfl, rfl⟩
  · have := alu_step hf (by simp) hw hv (cf := false) (of := false) rfl
    rw [flagsOf_eq] at this
    exact ⟨_, fun i _ => BitVec.getLsbD_and, this⟩
  · have := alu_step hf (by simp) hw hv (cf := false) (of := false) rfl
    rw [flagsOf_eq] at this
    exact ⟨_, fun i _ => BitVec.getLsbD_or, this⟩
  · have := alu_step hf (by simp) hw hv (cf := false) (of := false) rfl
    rw [flagsOf_eq] at this
    exact ⟨_, fun i _ => BitVec.getLsbD_xor, this⟩

/-- Non-vacuity: `XOR a0, a1`. -/
example : Fetches .debug (Demo.run1 (setReg (setReg startup 0 7) 1 2) (instrWord 0x0A false true false 0 1
    0)) (instrWord 0x0A false true false 0 1 0) (Demo.devices [instrWord 0x0A false true false 0 1 0]) ∧
    mayWrite (supervisor (setReg (setReg startup 0 7) 1 2)) 0 = true ∧
    Val2 (setReg (setReg startup 0 7) 1 2) true 1 0 2 :=
  ⟨Demo.run1_fetches _ _ rfl rfl, rfl, ⟨rfl, rfl⟩⟩

/-- `ADD a0, a1` with a carry. -/
example : Fetches .debug
      (Demo.run1 (setReg (setReg startup 0 0xFFFFFFF0) 1 0x20) (instrWord 0x03 false true false 0 1 0))
      (instrWord 0x03 false true false 0 1 0) (Demo.devices [instrWord 0x03 false true false 0 1 0]) ∧
    mayWrite true 0 = true ∧
    Val2 (setReg (setReg startup 0 0xFFFFFFF0) 1 0x20) true 1 0 0x20 :=
  ⟨Demo.run1_fetches _ _ rfl rfl, rfl, ⟨rfl, rfl⟩⟩

/-! ## C17 -/

theorem mode_signed (m : Word) : (m.setWidth 8 &&& 0b00010000#8 ≠ 0) ↔ m.toNat / 16 % 2 = 1 := by
  have : ∀ b : U8, (b &&& 0b00010000#8 ≠ 0) ↔ b.toNat / 16 % 2 = 1 := by decide +kernel
  rw [this]; simp; omega

theorem mode_zero (m : Word) :
    ((m.setWidth 8 &&& 0b00001100#8) >>> 2).toNat = m.toNat / 4 % 4 := by
  have : ∀ b : U8, ((b &&& 0b00001100#8) >>> 2).toNat = b.toNat / 4 % 4 := by decide +kernel
  rw [this]; simp; omega

theorem mode_ofw (m : Word) : ((m.setWidth 8 &&& 0b00000011#8) >>> 2).toNat = 0 := by
  have : ∀ b : U8, ((b &&& 0b00000011#8) >>> 2).toNat = 0 := by decide +kernel
  rw [this]

/-- **C17**, unsigned DIV and MOD by a non-zero value: quotient or remainder, CF and OF clear. -/
theorem C17_unsigned {s : Machine D} {devs : List D} {op : BitVec 5} {r0 r1 r2 : Bool} {p0 p1 p2 : U8}
    {y m : Word} (hop : op = 0x06#5 ∨ op = 0x07#5)
    (hf : Fetches pf s (instrWord op r0 r1 r2 p0 p1 p2) devs)
    (hw : mayWrite (supervisor s.regs) p0.toNat = true) (hv : Val1 s.regs r1 p1 y)
    (hm : Val1 s.regs r2 p2 m) (hy : y ≠ 0) (hu : m.toNat / 16 % 2 = 0) :
    let x := reg s.regs p0.toNat
    let res := BitVec.ofNat 32 (if op = 0x06#5 then x.toNat / y.toNat else x.toNat % y.toNat)
    Steps pf s (assign { s.regs with af := flagsFor res false false (zlfCode res) } p0.toNat res)
      devs := by
  intro x res
  rw [← flagsOf_eq]
  refine div_step hf hop hw hv hm ?_
  have hns : ¬ (m.setWidth 8 &&& 0b00010000#8 ≠ 0) := by rw [mode_signed]; omega
  unfold divCore
  simp only [hy, hns, if_false, false_and]
  have hdiv : op = 0x06#5 → x / y = res := fun ho => by
    apply BitVec.eq_of_toNat_eq
    have := x.isLt
    have := Nat.div_le_self x.toNat y.toNat
    simp only [res, ho, if_true, BitVec.toNat_udiv, BitVec.toNat_ofNat]
    rw [Nat.mod_eq_of_lt (by omega)]
  have hmod : op ≠ 0x06#5 → x % y = res := fun ho => by
    apply BitVec.eq_of_toNat_eq
    have := x.isLt
    have := Nat.mod_le x.toNat y.toNat
    simp only [res, ho, if_false, BitVec.toNat_umod, BitVec.toNat_ofNat]
    omega
  by_cases ho : op = 0x06#5
  · simp only [ho, decide_true, if_true]
    rw [← hdiv ho]
  · simp only [ho, decide_false]
    rw [← hmod ho]
    rfl

/-- Non-vacuity: `MOD a0, a1` in unsigned mode. -/
example : Fetches .debug (Demo.run1 (setReg (setReg startup 0 7) 1 2) (instrWord 0x07 false true false 0 1
    0)) (instrWord 0x07 false true false 0 1 0) (Demo.devices [instrWord 0x07 false true false 0 1 0]) ∧
    mayWrite (supervisor (setReg (setReg startup 0 7) 1 2)) 0 = true ∧
    Val1 (setReg (setReg startup 0 7) 1 2) true 1 2 ∧
    (Val1 (setReg (setReg startup 0 7) 1 2) false 0 0 ∧ (0 : Word).toNat / 16 % 2 = 0) :=
  ⟨Demo.run1_fetches _ _ rfl rfl, rfl, ⟨rfl, rfl⟩, rfl, rfl⟩

/-- **C17**, signed DIV and MOD by a non-zero value, except the minimum value by -1: truncating quotient or
remainder. -/
theorem C17_signed {s : Machine D} {devs : List D} {op : BitVec 5} {r0 r1 r2 : Bool} {p0 p1 p2 : U8}
    {y m : Word} (hop : op = 0x06#5 ∨ op = 0x07#5)
    (hf : Fetches pf s (instrWord op r0 r1 r2 p0 p1 p2) devs)
    (hw : mayWrite (supervisor s.regs) p0.toNat = true) (hv : Val1 s.regs r1 p1 y)
    (hm : Val1 s.regs r2 p2 m) (hy : y ≠ 0) (hu : m.toNat / 16 % 2 = 1)
    (hne : ¬ ((reg s.regs p0.toNat).toInt = -2 ^ 31 ∧ y.toInt = -1)) :
    let x := reg s.regs p0.toNat
    let res := BitVec.ofInt 32 (if op = 0x06#5 then x.toInt.tdiv y.toInt else x.toInt.tmod y.toInt)
    Steps pf s (assign { s.regs with af := flagsFor res false false (zlfCode res) } p0.toNat res)
      devs := by
  intro x res
  rw [← flagsOf_eq]
  refine div_step hf hop hw hv hm ?_
  have hs : (m.setWidth 8 &&& 0b00010000#8 ≠ 0) := by rw [mode_signed]; omega
  have hne' : ¬ (x = 0x80000000#32 ∧ y = 0xFFFFFFFF#32) := by
    rintro ⟨h1, h2⟩; apply hne; rw [show reg s.regs p0.toNat = x from rfl, h1, h2]; decide
  unfold divCore
  have hne'' : ¬ (reg s.regs p0.toNat = 0x80000000#32 ∧ y = 0xFFFFFFFF#32) := hne'
  simp only [hy, hs, if_false, ne_eq, not_false_eq_true, true_and, if_true]
  rw [if_neg hne'']
  by_cases ho : op = 0x06#5
  · simp only [ho, decide_true, if_true]
    rw [show x.sdiv y = res from ?_]
    apply BitVec.eq_of_toInt_eq
    simp only [res, ho, if_true, BitVec.toInt_sdiv, BitVec.toInt_ofInt]
  · simp only [ho, decide_false]
    rw [show x.srem y = res from ?_]
    · rfl
    apply BitVec.eq_of_toInt_eq
    simp only [res, ho, if_false, BitVec.toInt_srem, BitVec.toInt_ofInt]
    rw [← BitVec.toInt_srem, ← BitVec.toInt_ofInt, BitVec.ofInt_toInt]

/-- **C17**, division by zero: exception `0x0A`, or the minimum value, zero or the maximum value with CF and
OF set, according to bits 4-5 of the mode (counted from the strongest). -/
theorem C17_by_zero {s : Machine D} {devs : List D} {op : BitVec 5} {r0 r1 r2 : Bool} {p0 p1 p2 : U8}
    {m : Word} (hop : op = 0x06#5 ∨ op = 0x07#5)
    (hf : Fetches pf s (instrWord op r0 r1 r2 p0 p1 p2) devs)
    (hw : mayWrite (supervisor s.regs) p0.toNat = true) (hv : Val1 s.regs r1 p1 0)
    (hm : Val1 s.regs r2 p2 m) :
    (m.toNat / 4 % 4 = 0 → Steps pf s (trap s.regs 0x0A 0) devs) ∧
    (∀ res : Word, (m.toNat / 4 % 4, res) ∈ [(1, 0x80000000#32), (2, 0#32), (3, 0x7FFFFFFF#32)] →
      Steps pf s (assign { s.regs with af := flagsFor res true true (zlfCode res) } p0.toNat res)
        devs) := by
  constructor
  · intro h0
    refine div_trap (c := 0x0A) hf hop (mayRead_of_mayWrite hw) hv hm ?_
    unfold divCore
    simp only [mode_zero, h0, if_true]
  · intro res hres
    rw [← flagsOf_eq]
    refine div_step hf hop hw hv hm ?_
    unfold divCore
    simp only [mode_zero, if_true]
    simp only [List.mem_cons, Prod.mk.injEq, List.not_mem_nil, or_false] at hres
    rcases hres with ⟨h, rfl⟩ | ⟨h, rfl⟩ | ⟨h, rfl⟩ <;> simp only [h] <;> rfl

/-- Non-vacuity: `DIV a0, 0` giving 0: the mode byte is 8. -/
example : Fetches .debug (Demo.run1 (setReg (setReg startup 0 7) 1 2) (instrWord 0x06 false false false 0
    0 8)) (instrWord 0x06 false false false 0 0 8) (Demo.devices [instrWord 0x06 false false false 0 0 8])
    ∧
    mayWrite (supervisor (setReg (setReg startup 0 7) 1 2)) 0 = true ∧
    Val1 (setReg (setReg startup 0 7) 1 2) false 0 0 ∧
    (Val1 (setReg (setReg startup 0 7) 1 2) false 8 8 ∧ (8 : Word).toNat / 4 % 4 = 2) :=
  ⟨Demo.run1_fetches _ _ rfl rfl, rfl, rfl, rfl, rfl⟩

/-- **C17**, partial, the minimum value by -1 in signed mode: always exception `0x0B`, whatever bits 6-7 of
the mode say. Missing: the documented results MIN, 0 and MAX for the other modes, which the code never gives
(`C17_overflow_refuted`). -/
theorem C17_overflow_partial {s : Machine D} {devs : List D} {op : BitVec 5} {r0 r1 r2 : Bool}
    {p0 p1 p2 : U8} {m y : Word} (hop : op = 0x06#5 ∨ op = 0x07#5)
    (hf : Fetches pf s (instrWord op r0 r1 r2 p0 p1 p2) devs)
    (hr : mayRead (supervisor s.regs) p0.toNat = true) (hv : Val1 s.regs r1 p1 y)
    (hm : Val1 s.regs r2 p2 m) (hu : m.toNat / 16 % 2 = 1)
    (hx : (reg s.regs p0.toNat).toInt = -2 ^ 31) (hy : y.toInt = -1) :
    Steps pf s (trap s.regs 0x0B 0) devs := by
  refine div_trap (c := 0x0B) hf hop hr hv hm ?_
  have hs : (m.setWidth 8 &&& 0b00010000#8 ≠ 0) := by rw [mode_signed]; omega
  have hx' : reg s.regs p0.toNat = 0x80000000#32 := BitVec.eq_of_toInt_eq (by rw [hx]; decide)
  have hy' : y = 0xFFFFFFFF#32 := BitVec.eq_of_toInt_eq (by rw [hy]; decide)
  unfold divCore
  simp only [hx', hy', hs, ne_eq, not_false_eq_true, true_and, and_self, if_true, mode_ofw]
  rw [if_neg (by decide)]

/-- Non-vacuity: the minimum value by -1, signed. -/
example : Fetches .debug (Demo.run1 (setReg (setReg startup 0 0x80000000) 1 0xFFFFFFFF) (instrWord 0x06
    false true false 0 1 0x10)) (instrWord 0x06 false true false 0 1 0x10) (Demo.devices [instrWord 0x06
    false true false 0 1 0x10]) ∧
    (reg (setReg (setReg startup 0 0x80000000) 1 0xFFFFFFFF) 0).toInt = -2 ^ 31 ∧
    (0xFFFFFFFF : Word).toInt = -1 ∧
    Val1 (setReg (setReg startup 0 0x80000000) 1 0xFFFFFFFF) true 1 0xFFFFFFFF :=
  ⟨Demo.run1_fetches _ _ rfl rfl, by decide, by decide, ⟨rfl, rfl⟩⟩

/-- The full claim is false of the code: `DIV a0, a1, DIV_SIG | DIV_OFW_ZRO` of the minimum value by -1 is
documented to give 0 but raises exception `0x0B`. -/
theorem C17_overflow_refuted : ∃ s s' : Machine Demo.Dev,
    Fetches .debug s (instrWord 0x06 false true false 0 1 0x12) s.devs ∧
    reg s.regs 0 = 0x80000000 ∧ reg s.regs 1 = 0xFFFFFFFF ∧ next .debug s = some s' ∧
    s'.regs = trap s.regs 0x0B 0 :=
  ⟨Demo.run1 (setReg (setReg startup 0 0x80000000) 1 0xFFFFFFFF) (instrWord 0x06 false true false 0 1 0x12),
    _, Demo.run1_fetches _ _ rfl rfl, rfl, rfl, rfl, rfl⟩

/-- `DIV a0, a1, DIV_SIG` of -7 by 2. -/
example : Fetches .debug
      (Demo.run1 (setReg (setReg startup 0 0xFFFFFFF9) 1 2) (instrWord 0x06 false true false 0 1 0x10))
      (instrWord 0x06 false true false 0 1 0x10) (Demo.devices [instrWord 0x06 false true false 0 1 0x10]) ∧
    Val1 (setReg (setReg startup 0 0xFFFFFFF9) 1 2) true 1 2 ∧
    Val1 (setReg (setReg startup 0 0xFFFFFFF9) 1 2) false 0x10 0x10 ∧
    ((0xFFFFFFF9 : Word).toInt.tdiv 2) = -3 :=
  ⟨Demo.run1_fetches _ _ rfl rfl, ⟨rfl, rfl⟩, rfl, by decide⟩

/-! ## C18 -/

theorem shiftVal_lit {op : BitVec 5} (hop : op = 0x0B#5 ∨ op = 0x0C#5) {r : Regs} {r1 : Bool} {p1 p2 : U8}
    {k : Word} (hk : Val1 r r1 p1 k) :
    ∃ y, Val2 r r1 p1 p2 y ∧ shiftVal op r1 y = k := by
  cases r1 with
  | true => exact ⟨k, hk, if_neg (by simp)⟩
  | false =>
    refine ⟨_, rfl, ?_⟩
    unfold shiftVal
    rw [if_pos ⟨hop, rfl⟩]
    have : k = BitVec.ofNat 32 p1.toNat := hk
    rw [this]
    apply BitVec.eq_of_toNat_eq
    have h1 := p1.isLt; have h2 := p2.isLt
    simp only [BitVec.toNat_ushiftRight, BitVec.toNat_ofNat, Nat.shiftRight_eq_div_pow]
    omega

/-- **C18**, SHL: a shift by `k < 32` multiplies by `2 ^ k` modulo `2 ^ 32` with CF and OF clear; an amount of
32 or more shifts by `k` modulo 32 and sets CF and OF. A constant amount is the byte following the register. -/
theorem C18_shl {s : Machine D} {devs : List D} {r0 r1 r2 : Bool} {p0 p1 p2 : U8} {k : Word}
    (hf : Fetches pf s (instrWord 0x0B r0 r1 r2 p0 p1 p2) devs)
    (hw : mayWrite (supervisor s.regs) p0.toNat = true) (hv : Val1 s.regs r1 p1 k) :
    let res := BitVec.ofNat 32 ((reg s.regs p0.toNat).toNat * 2 ^ (k.toNat % 32))
    let big := decide (32 ≤ k.toNat)
    Steps pf s (assign { s.regs with af := flagsFor res big big (zlfCode res) } p0.toNat res) devs := by
  intro res big
  obtain ⟨y, hy, hk⟩ := shiftVal_lit (p2 := p2) (op := 0x0B#5) (.inl rfl) hv
  rw [← flagsOf_eq]
  refine alu_step hf (by simp) hw hy ?_
  refine Eq.trans (congrArg (fun v => computeCore _ v _) hk) ?_
  show Except.ok (_, _, _) = _
  congr 2
  apply BitVec.eq_of_toNat_eq
  simp [res, BitVec.toNat_shiftLeft, Nat.shiftLeft_eq]

/-- **C18**, SHR: a shift by `k < 32` divides by `2 ^ k`, rounding down. -/
theorem C18_shr {s : Machine D} {devs : List D} {r0 r1 r2 : Bool} {p0 p1 p2 : U8} {k : Word}
    (hf : Fetches pf s (instrWord 0x0C r0 r1 r2 p0 p1 p2) devs)
    (hw : mayWrite (supervisor s.regs) p0.toNat = true) (hv : Val1 s.regs r1 p1 k) :
    let res := BitVec.ofNat 32 ((reg s.regs p0.toNat).toNat / 2 ^ (k.toNat % 32))
    let big := decide (32 ≤ k.toNat)
    Steps pf s (assign { s.regs with af := flagsFor res big big (zlfCode res) } p0.toNat res) devs := by
  intro res big
  obtain ⟨y, hy, hk⟩ := shiftVal_lit (p2 := p2) (op := 0x0C#5) (.inr rfl) hv
  rw [← flagsOf_eq]
  refine alu_step hf (by simp) hw hy ?_
  refine Eq.trans (congrArg (fun v => computeCore _ v _) hk) ?_
  show Except.ok (_, _, _) = _
  congr 2
  apply BitVec.eq_of_toNat_eq
  have h1 := (reg s.regs p0.toNat).isLt
  have h2 := Nat.div_le_self (reg s.regs p0.toNat).toNat (2 ^ (k.toNat % 32))
  simp only [res, BitVec.toNat_ushiftRight, Nat.shiftRight_eq_div_pow, BitVec.toNat_ofNat]
  exact (Nat.mod_eq_of_lt (Nat.lt_of_le_of_lt h2 h1)).symm

/-- Non-vacuity: `SHR a0, 36`, an amount above 31. -/
example : Fetches .debug (Demo.run1 (setReg (setReg startup 0 7) 1 2) (instrWord 0x0C false false false 0
    36 0)) (instrWord 0x0C false false false 0 36 0) (Demo.devices [instrWord 0x0C false false false 0 36
    0]) ∧
    mayWrite (supervisor (setReg (setReg startup 0 7) 1 2)) 0 = true ∧
    (Val1 (setReg (setReg startup 0 7) 1 2) false 36 36 ∧ 32 ≤ (36 : Word).toNat) :=
  ⟨Demo.run1_fetches _ _ rfl rfl, rfl, rfl, by decide⟩

/-- `SHL a0, 4`. -/
example : Fetches .debug (Demo.run1 (setReg startup 0 0x1234) (instrWord 0x0B false false false 0 4 0))
      (instrWord 0x0B false false false 0 4 0) (Demo.devices [instrWord 0x0B false false false 0 4 0]) ∧
    Val1 (setReg startup 0 0x1234) false 4 4 :=
  ⟨Demo.run1_fetches _ _ rfl rfl, rfl⟩

end Lrvm
