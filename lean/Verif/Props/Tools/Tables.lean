import Verif.Props.Tools.Assembler

/-!
# Symbol tables and division modes: C53, C54
-/

namespace Lrvm

open Spec

variable {D : Type} [Bus D] {pf : Profile}

/-! ## C53 -/

/-- A table whose codes are in range and that agrees with both functions on all 256 codes. -/
theorem isTable_of {decode : U8 → Option α} {code : α → U8} {table : List (α × Nat)}
    (h1 : ∀ a, (a, (code a).toNat) ∈ table) (h2 : ∀ p ∈ table, (code p.1).toNat = p.2)
    (h3 : ∀ a, decode (code a) = some a) (h4 : ∀ c a, decode c = some a → code a = c) :
    IsTable decode code table := by
  refine ⟨fun a n => ⟨fun h => h2 _ h, ?_⟩, fun c a => ⟨fun h => ?_, fun h => ?_⟩⟩
  · rintro rfl; exact h1 a
  · rw [← h4 c a h]; exact h1 a
  · have := h2 _ h
    have e : code a = c := BitVec.eq_of_toNat_eq this
    rw [← e]; exact h3 a

/-- **C53**, registers: `Reg::from_code` and `Reg::code` are the two directions of the documented table; the names
are the documented ones, in the order of the codes, and `Reg::from_name` recognises exactly them. -/
theorem C53_registers :
    IsTable Reg.fromCode Reg.code registerTable ∧
    (∀ r : Reg, registerNames[r.code.toNat]? = some r.name) ∧
    (∀ (name : String) (r : Reg), Reg.fromName name = some r ↔ name = r.name) := by
  refine ⟨isTable_of ?_ ?_ fromCode_code ?_, ?_, ?_⟩
  · intro a; cases a <;> decide
  · decide
  · intro c a h; exact (fromCode_some h).symm
  · intro r; cases r <;> rfl
  · intro name r
    constructor
    · intro h
      unfold Reg.fromName at h
      split at h
      all_goals first
        | (injection h with h; subst h; rfl)
        | cases h
    · rintro rfl
      cases r <;> rfl

theorem arflag_decode {c : U8} {a : ArFlag} (h : ArFlag.decode c = some a) : a.code = c := by
  unfold ArFlag.decode at h
  split at h
  all_goals first
    | (next e => injection h with h; subst h; exact BitVec.eq_of_toNat_eq e.symm)
    | cases h

/-- **C53**, arithmetic flags. -/
theorem C53_flags : IsTable ArFlag.decode ArFlag.code flagTable :=
  isTable_of (by intro a; cases a <;> decide) (by decide) (by intro a; cases a <;> rfl) fun _ _ h => arflag_decode h

theorem if2cond_decode {c : U8} {a : If2Cond} (h : If2Cond.decode c = some a) : a.code = c := by
  unfold If2Cond.decode at h
  split at h
  all_goals first
    | (next e => injection h with h; subst h; exact BitVec.eq_of_toNat_eq e.symm)
    | cases h

/-- **C53**, conditions of IF2, and what the processor makes of them: the next instruction is executed exactly when the
named condition is met. -/
theorem C53_conditions : IsTable If2Cond.decode If2Cond.code conditionTable ∧
    (∀ (k : If2Cond) (a b : Bool), ∃ r, if2Cond (k.code.setWidth 32) a b = some r ∧
      (r = true ↔ conditionMeaning a b k)) ∧
    (∀ (c : U8) (a b : Bool), If2Cond.decode c = none ↔ if2Cond (c.setWidth 32) a b = none) := by
  refine ⟨isTable_of (by intro a; cases a <;> decide) (by decide) (by intro a; cases a <;> rfl)
    fun _ _ h => if2cond_decode h, ?_, ?_⟩
  · intro k a b
    cases k <;> cases a <;> cases b <;> exact ⟨_, rfl, by simp [conditionMeaning]⟩
  · intro c a b
    unfold If2Cond.decode if2Cond
    have : (c.setWidth 32 : Word).toNat = c.toNat := by
      rw [BitVec.toNat_setWidth]; have := c.isLt; omega
    rw [this]
    generalize c.toNat = n
    match n with
    | 0 | 1 | 2 | 3 | 4 | 5 | 6 | 7 => simp
    | n + 8 => simp

theorem hwinfo_decode {c : U8} {a : HwInfo} (h : HwInfo.decode c = some a) : a.code = c := by
  unfold HwInfo.decode at h
  split at h
  all_goals first
    | (next e => injection h with h; subst h; exact BitVec.eq_of_toNat_eq e.symm)
    | cases h

/-- **C53**, hardware information codes. -/
theorem C53_hardware_informations : IsTable HwInfo.decode HwInfo.code hwInfoTable :=
  isTable_of (by intro a; cases a <;> decide) (by decide) (by intro a; cases a <;> rfl) fun _ _ h => hwinfo_decode h

/-- **C53**, lifted to operands: a register or constant of one byte survives the operand encoder and decoder. -/
theorem C53_operands (b : Bytes4) (p : Nat) (v : RegOrLit1) (h1 : argIsLit b p = v.isLit) (h2 : b.get p = v.value) :
    argRegOrLit1 b p = .ok v :=
  arg1_enc (by rw [h1]; cases v <;> rfl) h2

example : argIsLit ⟨0xA6, 0, 1, 4⟩ 2 = (RegOrLit1.reg .a1).isLit ∧
    Bytes4.get ⟨0xA6, 0, 1, 4⟩ 2 = (RegOrLit1.reg .a1).value := ⟨rfl, rfl⟩
example : Reg.fromName "rr7" = some .rr7 ∧ Reg.fromName "rr8" = none := ⟨rfl, rfl⟩

/-! ## C54 -/

/-- **C54**, encoding: the byte is the documented one. -/
theorem C54_encode (m : DivMode) : m.encode.toNat = divModeNumber m := by
  obtain ⟨s, z, o⟩ := m
  cases s <;> cases z <;> cases o <;> rfl

/-- **C54**, partial: decoding gives the mode back exactly when the zero mode is not "greatest number", which is decoded
as "smallest number". The full claim is false: `C54_refuted`. -/
theorem C54_partial (m : DivMode) :
    DivMode.decode m.encode = some (if m.zero = .eqToMax then { m with zero := .eqToMin } else m) := by
  obtain ⟨s, z, o⟩ := m
  cases s <;> cases z <;> cases o <;> rfl

/-- **C54** is false: the mode "unsigned, greatest number for a division by zero" does not round-trip. -/
theorem C54_refuted : ∃ m : DivMode, DivMode.decode m.encode ≠ some m :=
  ⟨⟨.unsigned, .eqToMax, .forbid⟩, by decide⟩

/-- **C54**: the decoder accepts every byte (the three strongest bits are ignored), so an unknown mode is never
reported. -/
theorem C54_decode_total (c : U8) : ∃ m, DivMode.decode c = some m ∧
    (m.encode.toNat % 4 = c.toNat % 4 ∧ m.encode.toNat / 16 = c.toNat / 16 % 2) := by
  have : ∀ n : Fin 256, ((DivMode.decode (BitVec.ofNat 8 n)).any fun m =>
      decide (m.encode.toNat % 4 = n.val % 4 ∧ m.encode.toNat / 16 = n.val / 16 % 2)) = true := by
    decide +kernel
  have h := this ⟨c.toNat, c.isLt⟩
  rw [Option.any_eq_true] at h
  obtain ⟨m, h1, h2⟩ := h
  dsimp only at h1
  rw [show BitVec.ofNat 8 c.toNat = c from BitVec.eq_of_toNat_eq (by simp)] at h1
  exact ⟨m, h1, of_decide_eq_true h2⟩

/-- **C54**, partial: the processor does what the mode says, for DIV (0x06) and MOD (0x07) with the mode given as a
constant: the sign of the division, and the outcome of a division by zero. A signed division that overflows raises 0x0B
whatever the mode, which is what the mode says only in the mode "forbid" (`C54_overflow_refuted`). -/
theorem C54_processor_partial {s : Machine D} {devs : List D} {op : BitVec 5} {r0 r1 : Bool} {p0 p1 : U8} {y : Word}
    (m : DivMode) (hop : op = 0x06#5 ∨ op = 0x07#5)
    (hf : Fetches pf s (instrWord op r0 r1 false p0 p1 m.encode) devs)
    (hw : mayWrite (supervisor s.regs) p0.toNat = true) (hv : Val1 s.regs r1 p1 y) :
    let x := reg s.regs p0.toNat
    let done := fun (v : Int) (special : Bool) =>
      let res := BitVec.ofInt 32 v
      Steps pf s (assign { s.regs with af := flagsFor res special special (zlfCode res) } p0.toNat res) devs
    (y = 0 → match divZeroOutcome m.zero with
      | .error c => Steps pf s (trap s.regs c 0) devs
      | .ok v => done v true) ∧
    (y ≠ 0 → m.sign = .unsigned →
      done (if op = 0x06#5 then (x.toNat : Int) / y.toNat else (x.toNat : Int) % y.toNat) false) ∧
    (y ≠ 0 → m.sign = .signed → ¬ (x.toInt = -2 ^ 31 ∧ y.toInt = -1) →
      done (if op = 0x06#5 then x.toInt.tdiv y.toInt else x.toInt.tmod y.toInt) false) ∧
    (m.sign = .signed → x.toInt = -2 ^ 31 → y.toInt = -1 →
      Steps pf s (trap s.regs 0x0B 0) devs) := by
  have hm : Val1 s.regs false m.encode (BitVec.ofNat 32 (divModeNumber m)) := by
    rw [← C54_encode]; rfl
  have hn : (BitVec.ofNat 32 (divModeNumber m)).toNat = divModeNumber m := by
    obtain ⟨a, b, c⟩ := m; cases a <;> cases b <;> cases c <;> rfl
  have hz : divModeNumber m / 4 % 4 = (match m.zero with | .forbid => 0 | .eqToMin => 1 | .eqToZero => 2 | .eqToMax => 3) := by
    obtain ⟨a, b, c⟩ := m; cases a <;> cases b <;> cases c <;> rfl
  have hs : divModeNumber m / 16 % 2 = (match m.sign with | .unsigned => 0 | .signed => 1) := by
    obtain ⟨a, b, c⟩ := m; cases a <;> cases b <;> cases c <;> rfl
  refine ⟨?_, ?_, ?_, ?_⟩
  · rintro rfl
    have h := C17_by_zero hop hf hw hv hm
    rw [hn, hz] at h
    cases hzm : m.zero with
    | forbid => rw [hzm] at h; exact h.1 rfl
    | eqToMin => rw [hzm] at h; exact h.2 _ (by simp)
    | eqToZero => rw [hzm] at h; exact h.2 _ (by simp)
    | eqToMax => rw [hzm] at h; exact h.2 _ (by simp)
  · intro hy hsg
    have h := C17_unsigned hop hf hw hv hm hy (by rw [hn, hs, hsg])
    dsimp only at h ⊢
    have e : BitVec.ofInt 32 (if op = 0x06#5 then ((reg s.regs p0.toNat).toNat : Int) / y.toNat
        else ((reg s.regs p0.toNat).toNat : Int) % y.toNat) =
        BitVec.ofNat 32 (if op = 0x06#5 then (reg s.regs p0.toNat).toNat / y.toNat
        else (reg s.regs p0.toNat).toNat % y.toNat) := by
      split
      · exact BitVec.ofInt_natCast 32 ((reg s.regs p0.toNat).toNat / y.toNat)
      · exact BitVec.ofInt_natCast 32 ((reg s.regs p0.toNat).toNat % y.toNat)
    rw [e]; exact h
  · intro hy hsg hne
    exact C17_signed hop hf hw hv hm hy (by rw [hn, hs, hsg]) hne
  · intro hsg hx hy
    exact C17_overflow_partial hop hf (mayRead_of_mayWrite hw) hv hm (by rw [hn, hs, hsg]) hx hy

/-- The overflow modes other than "forbid" are not honoured: with the mode "zero", dividing the smallest number by -1
raises the exception 0x0B. -/
theorem C54_overflow_refuted : ∃ (m : DivMode) (s s' : Machine Demo.Dev),
    m.overflow = .eqToZero ∧ m.sign = .signed ∧
    Fetches .debug s (instrWord 0x06 false true false 0 1 m.encode) s.devs ∧
    (reg s.regs 0).toInt = -2 ^ 31 ∧ (reg s.regs 1).toInt = -1 ∧ next .debug s = some s' ∧
    s'.regs = trap s.regs 0x0B 0 :=
  ⟨⟨.signed, .forbid, .eqToZero⟩,
    Demo.run1 (setReg (setReg startup 0 0x80000000) 1 0xFFFFFFFF) (instrWord 0x06 false true false 0 1 0x12),
    _, rfl, rfl, Demo.run1_fetches _ _ rfl rfl, rfl, rfl, rfl, rfl⟩

example : Fetches .debug
      (Demo.run1 (setReg startup 0 7) (instrWord 0x06 true false false 0 0 0x08))
      (instrWord 0x06 true false false 0 0 (DivMode.encode ⟨.unsigned, .eqToZero, .forbid⟩))
      (Demo.devices [instrWord 0x06 true false false 0 0 0x08]) ∧
    Val1 (setReg startup 0 7) false 0 0 ∧ divZeroOutcome .eqToZero = .ok 0 :=
  ⟨Demo.run1_fetches _ _ rfl rfl, rfl, rfl⟩

end Lrvm
