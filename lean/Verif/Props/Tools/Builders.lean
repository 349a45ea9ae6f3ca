import Verif.Model.Tools.Builders
import Verif.Props.Tools.Tables

/-!
# Chains of builder calls: C54
-/

namespace Lrvm

open Spec

/-- One call of a chain. -/
inductive DivCall
  | sign (m : DivSignMode)
  | zero (m : DivByZeroMode)
  | overflow (m : DivOverflowMode)

/-- The value the call returns. -/
def DivCall.apply (m : DivMode) : DivCall → DivMode
  | .sign v => m.withSignMode v
  | .zero v => m.withZroMode v
  | .overflow v => m.withOfwMode v

/-- The last value a chain of calls gives for one of the three choices, if any. -/
def lastChoice {α : Type} (pick : DivCall → Option α) (calls : List DivCall) : Option α :=
  (calls.filterMap pick).getLast?

theorem lastChoice_cons {α : Type} (pick : DivCall → Option α) (c : DivCall) (cs : List DivCall) (x : α) :
    (lastChoice pick (c :: cs)).getD x = (lastChoice pick cs).getD ((pick c).getD x) := by
  unfold lastChoice
  cases h : pick c with
  | none => rw [List.filterMap_cons_none h]; rfl
  | some v =>
    rw [List.filterMap_cons_some h, List.getLast?_cons]
    cases (cs.filterMap pick).getLast? <;> rfl

/-- **C54**, builders: whatever chain of `with_*` calls is made on a mode (on `DivMode::new()`: unsigned, everything
forbidden), each of the three getters gives the last value chosen for it, or the one of the initial mode when the chain
chose none, in whatever order the calls were made; the byte is the documented number of these three choices, and the
operand made of it is that constant. -/
theorem C54_builders (m0 : DivMode) (calls : List DivCall) :
    let m := calls.foldl DivCall.apply m0
    m.signMode = (lastChoice (fun | .sign v => some v | _ => none) calls).getD m0.signMode ∧
    m.zroMode = (lastChoice (fun | .zero v => some v | _ => none) calls).getD m0.zroMode ∧
    m.mboMode = (lastChoice (fun | .overflow v => some v | _ => none) calls).getD m0.mboMode ∧
    m = DivMode.fromSubModes m.signMode m.zroMode m.mboMode ∧
    m.encode.toNat = divModeNumber (DivMode.fromSubModes m.signMode m.zroMode m.mboMode) ∧
    m.toVal = .lit (BitVec.ofNat 8 (divModeNumber m)) := by
  intro m
  have key : m.sign = (lastChoice (fun | .sign v => some v | _ => none) calls).getD m0.sign ∧
      m.zero = (lastChoice (fun | .zero v => some v | _ => none) calls).getD m0.zero ∧
      m.overflow = (lastChoice (fun | .overflow v => some v | _ => none) calls).getD m0.overflow := by
    show (calls.foldl DivCall.apply m0).sign = _ ∧ (calls.foldl DivCall.apply m0).zero = _ ∧
      (calls.foldl DivCall.apply m0).overflow = _
    clear m
    induction calls generalizing m0 with
    | nil => exact ⟨rfl, rfl, rfl⟩
    | cons c cs ih =>
      rw [List.foldl_cons, lastChoice_cons, lastChoice_cons, lastChoice_cons]
      cases c with
      | sign v => exact ih _
      | zero v => exact ih _
      | overflow v => exact ih _
  refine ⟨key.1, key.2.1, key.2.2, rfl, C54_encode m, ?_⟩
  show RegOrLit1.lit m.encode = _
  rw [← C54_encode, BitVec.ofNat_toNat, BitVec.setWidth_eq]

/-- The initial mode. -/
theorem C54_new : DivMode.new.signMode = .unsigned ∧ DivMode.new.zroMode = .forbid ∧ DivMode.new.mboMode = .forbid ∧
    divModeNumber DivMode.new = 0 := ⟨rfl, rfl, rfl, rfl⟩

/-- The sign flag of a mode. -/
theorem C54_is_signed (b : Bool) (m : DivSignMode) : (DivSignMode.fromIsSigned b).isSigned = b ∧
    DivSignMode.fromIsSigned m.isSigned = m ∧
    (m.isSigned = true ↔ ∀ z o, divModeNumber ⟨m, z, o⟩ / 16 % 2 = 1) := by
  refine ⟨by cases b <;> rfl, by cases m <;> rfl, ?_⟩
  constructor
  · intro h z o; cases m <;> cases z <;> cases o <;> first | (cases h; done) | rfl
  · intro h; have := h .forbid .forbid; cases m <;> first | (cases this; done) | rfl

variable {D : Type} [Bus D] {pf : Profile}

/-- **C54**, partial: `result` is what the register receives when a division by zero is executed in a mode that allows it
(for DIV and MOD, signed or not). The same claim about the overflow modes is false: `C54_result_refuted`. -/
theorem C54_result_partial {s : Machine D} {devs : List D} {op : BitVec 5} {r0 r1 : Bool} {p0 p1 : U8}
    (m : DivMode) (hop : op = 0x06#5 ∨ op = 0x07#5)
    (hf : Fetches pf s (instrWord op r0 r1 false p0 p1 m.encode) devs)
    (hw : mayWrite (supervisor s.regs) p0.toNat = true) (hv : Val1 s.regs r1 p1 0) (hz : m.zroMode ≠ .forbid) :
    Steps pf s (assign { s.regs with af := flagsFor m.zroMode.result true true (zlfCode m.zroMode.result) }
      p0.toNat m.zroMode.result) devs := by
  have h := (C54_processor_partial m hop hf hw hv).1 rfl
  change match divZeroOutcome m.zroMode with | .error _ => _ | .ok _ => _ at h
  cases hm : m.zroMode with
  | forbid => exact absurd hm hz
  | eqToMin => rw [hm] at h; exact h
  | eqToZero => rw [hm] at h; exact h
  | eqToMax => rw [hm] at h; exact h

/-- `result` of an overflow mode is not what the register receives: the division raises 0x0B and leaves it alone. -/
theorem C54_result_refuted : ∃ (m : DivMode) (s s' : Machine Demo.Dev),
    m.mboMode = .eqToMax ∧ m.signMode = .signed ∧
    Fetches .debug s (instrWord 0x06 false true false 0 1 m.encode) s.devs ∧
    (reg s.regs 0).toInt = -2 ^ 31 ∧ (reg s.regs 1).toInt = -1 ∧ next .debug s = some s' ∧
    reg s'.regs 0 ≠ m.mboMode.result ∧ s'.regs = trap s.regs 0x0B 0 :=
  ⟨⟨.signed, .forbid, .eqToMax⟩,
    Demo.run1 (setReg (setReg startup 0 0x80000000) 1 0xFFFFFFFF) (instrWord 0x06 false true false 0 1 0x13),
    _, rfl, rfl, Demo.run1_fetches _ _ rfl rfl, rfl, rfl, rfl, by decide +kernel, rfl⟩

example : Fetches .debug
      (Demo.run1 (setReg startup 0 7) (instrWord 0x06 true false false 0 0 0x0C))
      (instrWord 0x06 true false false 0 0 (DivMode.encode (DivMode.new.withZroMode .eqToMax)))
      (Demo.devices [instrWord 0x06 true false false 0 0 0x0C]) ∧
    Val1 (setReg startup 0 7) false 0 0 ∧ (DivMode.new.withZroMode .eqToMax).zroMode ≠ .forbid :=
  ⟨Demo.run1_fetches _ _ rfl rfl, rfl, by decide⟩

example : [DivCall.zero .eqToMax, .sign .signed, .zero .eqToZero].foldl DivCall.apply DivMode.new =
    ⟨.signed, .eqToZero, .forbid⟩ := rfl

end Lrvm
