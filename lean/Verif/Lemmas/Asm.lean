import Verif.Lemmas.Alu
import Verif.Props.Arith
import Verif.Spec.Asm

/-!
# The processor simulates the reference semantics of instructions
-/

namespace Lrvm

open Spec

variable {D : Type} [Bus D] {pf : Profile}

/-- The outcome of a reference action as an outcome of a CPU action. -/
def actOut : EStateM.Result Stop (Machine D) α → Out (Machine D) α
  | .ok a t => .ok a t
  | .error (.exception c d) t => .ex { t with regs := trap t.regs c d, changedPc := true }
  | .error .crash _ => .panic

/-- A CPU action does what a reference action does. -/
def Sim (m : M D α) (a : Act D α) : Prop := ∀ s, m s = actOut (a s)

theorem Sim.bind {m : M D α} {a : Act D α} {k : α → M D β} {f : α → Act D β} (h : Sim m a)
    (hk : ∀ x, Sim (k x) (f x)) : Sim (m >>= k) (a >>= f) := by
  intro s
  rw [M.bind_def, h s]
  show _ = actOut (EStateM.bind a f s)
  unfold EStateM.bind
  cases a s with
  | ok x t => exact hk x t
  | error e t => cases e <;> rfl

theorem Sim.pure (x : α) : Sim (Pure.pure x : M D α) (Pure.pure x : Act D α) := fun _ => rfl

theorem Sim.get {k : Machine D → M D β} {f : Machine D → Act D β} (h : ∀ s, k s s = actOut (f s s)) :
    Sim (getM >>= k) (MonadState.get >>= f) := fun s => h s

theorem exception_trap (s : Machine D) (c : U8) (d : U16) :
    s.exception c d = { s with regs := trap s.regs c.toNat d.toNat, changedPc := true } := by
  have h := exception_regs s c d
  have : s.exception c d = { s with regs := (s.exception c d).regs, changedPc := true } := rfl
  rw [this, h]

theorem Sim.fault (c : U8) (d : U16) {n k : Nat} (hn : c.toNat = n) (hk : d.toNat = k) :
    Sim (raise c d : M D α) (Spec.fault n k : Act D α) := by
  intro s
  subst hn hk
  show Out.ex (s.exception c d) = Out.ex _
  rw [exception_trap]

theorem Reg.code_lt (r : Reg) : r.code.toNat < 32 := by cases r <;> decide

theorem Reg.code_pc (r : Reg) : (r == Reg.pc) = decide (r.code = 0x16#8) := by cases r <;> decide

theorem code16 (r : Reg) : (r.code.setWidth 16).toNat = r.code.toNat := by cases r <;> decide

theorem getReg_eval (r : Reg) (s : Machine D) : (Spec.getReg r : Act D Word) s =
    if mayRead (supervisor s.regs) r.code.toNat then .ok (reg s.regs r.code.toNat) s
    else .error (.exception 0x03 r.code.toNat) s := by
  show (if mayRead (supervisor s.regs) r.code.toNat = true then (Pure.pure (reg s.regs r.code.toNat) : Act D Word)
    else Spec.fault 0x03 r.code.toNat) s = _
  split <;> rfl

theorem putReg_eval (r : Reg) (w : Word) (s : Machine D) : (Spec.putReg r w : Act D Unit) s =
    if mayWrite (supervisor s.regs) r.code.toNat then
      .ok () { s with regs := setReg s.regs r.code.toNat w, changedPc := s.changedPc || r == Reg.pc }
    else .error (.exception 0x04 r.code.toNat) s := by
  show (if mayWrite (supervisor s.regs) r.code.toNat = true then
      (set { s with regs := setReg s.regs r.code.toNat w, changedPc := s.changedPc || r == Reg.pc } : Act D Unit)
    else Spec.fault 0x04 r.code.toNat) s = _
  split <;> rfl

theorem Sim.getReg (r : Reg) : Sim (readReg r.code : M D Word) (Spec.getReg r) := by
  intro s
  rw [readReg_eq, getReg_eval]
  split
  · rfl
  · next h =>
    rw [exception_trap, code16]
    have : readFault (supervisor s.regs) = 0x03 := by
      unfold readFault
      unfold mayRead at h
      have := r.code_lt
      cases hsv : supervisor s.regs with
      | false => rfl
      | true =>
        rw [hsv] at h
        exfalso; apply h
        split
        · rfl
        · rw [if_pos (by omega)]
    rw [this]; rfl

theorem Sim.putReg (r : Reg) (w : Word) : Sim (writeReg r.code w : M D Unit) (Spec.putReg r w) := by
  intro s
  rw [putReg_eval]
  by_cases h : mayWrite (supervisor s.regs) r.code.toNat = true
  · rw [writeReg_val w h, if_pos h, Reg.code_pc]
    by_cases hc : r.code = 0x16#8 <;> simp [hc, actOut]
  · rw [writeReg_fault w (by simpa using h), if_neg h, exception_trap, code16]
    have : writeFault (supervisor s.regs) r.code.toNat = 0x04 := by
      unfold writeFault
      have := r.code_lt
      rw [if_neg (by omega)]
    rw [this]; rfl

theorem Sim.lit (n : U8) : Sim (Pure.pure (n.setWidth 32) : M D Word) (Pure.pure (BitVec.ofNat 32 n.toNat)) := by
  intro s
  show Out.ok _ _ = Out.ok _ _
  congr 1
  apply BitVec.eq_of_toNat_eq; simp

theorem Sim.lit2 (n : U16) : Sim (Pure.pure (n.setWidth 32) : M D Word) (Pure.pure (BitVec.ofNat 32 n.toNat)) := by
  intro s
  show Out.ok _ _ = Out.ok _ _
  congr 1
  apply BitVec.eq_of_toNat_eq; simp

/-- A port: changes nothing but the components, and raises exceptions on the machine it was given. -/
def PortLike (m : M D α) : Prop := ∀ s,
  (∃ a devs, m s = .ok a { s with devs := devs }) ∨
  (∃ c d devs, m s = .ex ({ s with devs := devs }.exception c d)) ∨ m s = .panic

theorem trap_et_toNat (r : Regs) (c : U8) (d : U16) :
    (trap r c.toNat d.toNat).et.toNat / 2 ^ 16 % 256 = c.toNat ∧ (trap r c.toNat d.toNat).et.toNat % 2 ^ 16 = d.toNat := by
  have hc := c.isLt
  have hd := d.isLt
  unfold trap
  dsimp only
  rw [BitVec.toNat_ofNat]
  split <;> omega

theorem Sim.port {m : M D α} (h : PortLike m) : Sim m (Spec.port m) := by
  intro s
  unfold Spec.port
  rcases h s with ⟨a, devs, e⟩ | ⟨c, d, devs, e⟩ | e
  · rw [e]; rfl
  · rw [e, exception_trap]
    dsimp only
    rw [(trap_et_toNat _ c d).1, (trap_et_toNat _ c d).2]
    rfl
  · rw [e]; rfl

theorem toOut_portLike {m : M D α} (h : ∀ s, ∃ x : Acc D α, m s = x.toOut s) : PortLike m := by
  intro s
  obtain ⟨x, e⟩ := h s
  rw [e]
  cases x with
  | done a devs => exact .inl ⟨a, devs, rfl⟩
  | fault c d devs => exact .inr (.inl ⟨c, d, devs, rfl⟩)
  | panic => exact .inr (.inr rfl)

theorem Sim.load (a : Word) : Sim (cpuRead pf a : M D Word) (Spec.load pf a) :=
  Sim.port (toOut_portLike fun s => ⟨_, cpuRead_eq pf a s⟩)

theorem Sim.store (a w : Word) : Sim (cpuWrite pf a w : M D Unit) (Spec.store pf a w) :=
  Sim.port (toOut_portLike fun s => ⟨_, cpuWrite_eq pf a w s⟩)

theorem getHwInfo_portLike (code : Word) (id : Nat) : PortLike (getHwInfo pf code id : M D Word) := by
  apply toOut_portLike
  intro s
  unfold getHwInfo
  generalize s.hwbCache[id]? = o
  cases o with
  | none => exact ⟨.fault _ _ s.devs, rfl⟩
  | some cache =>
    dsimp only
    generalize s.getMapping id = mo
    split
    all_goals first
      | exact ⟨.done _ s.devs, rfl⟩
      | skip
    · cases mo with
      | none => exact ⟨.fault _ _ s.devs, rfl⟩
      | some m => exact ⟨.done _ s.devs, rfl⟩
    · cases mo with
      | none => exact ⟨.fault _ _ s.devs, rfl⟩
      | some m =>
        dsimp only
        cases m.endAddr pf with
        | none => exact ⟨.panic, rfl⟩
        | some a => exact ⟨.done _ s.devs, rfl⟩
    · split
      · exact ⟨.done _ s.devs, rfl⟩
      · exact ⟨.fault _ _ s.devs, rfl⟩

theorem Sim.ask (id : Nat) (code : Word) : Sim (getHwInfo pf code id : M D Word) (Spec.ask pf id code) :=
  Sim.port (getHwInfo_portLike code id)

/-! ### Operands -/

theorem fromCode_some {c : U8} {r : Reg} (h : Reg.fromCode c = some r) : c = r.code := by
  unfold Reg.fromCode at h
  split at h
  all_goals first
    | (injection h with h; subst h; apply BitVec.eq_of_toNat_eq; assumption)
    | cases h

theorem argReg_ok {b : Bytes4} {p : Nat} {r : Reg} (h : argReg b p = .ok r) : b.get p = r.code := by
  unfold argReg at h
  split at h
  · next h1 => injection h with h; subst h; exact fromCode_some h1
  · cases h

theorem arg1_ok {b : Bytes4} {p : Nat} {v : RegOrLit1} (h : argRegOrLit1 b p = .ok v) :
    Sim (regOrLit1 (!argIsLit b p) (b.get p) : M D Word) (value1 v) := by
  unfold argRegOrLit1 at h
  cases hl : argIsLit b p with
  | true =>
    rw [hl, if_pos rfl] at h
    injection h with h; subst h
    exact Sim.lit _
  | false =>
    rw [hl, if_neg (by simp)] at h
    cases ha : argReg b p with
    | error e => rw [ha] at h; cases h
    | ok r =>
      rw [ha] at h
      injection h with h; subst h
      rw [argReg_ok ha]
      exact Sim.getReg r

theorem arg2_ok {b : Bytes4} {p : Nat} {v : RegOrLit2} (h : argRegOrLit2 b p = .ok v) :
    Sim (regOrLit2 (!argIsLit b p) (b.get p) (b.get (p + 1)) : M D Word) (value2 v) := by
  unfold argRegOrLit2 at h
  cases hl : argIsLit b p with
  | true =>
    rw [hl, if_pos rfl] at h
    injection h with h; subst h
    exact Sim.lit2 _
  | false =>
    rw [hl, if_neg (by simp)] at h
    cases ha : argReg b p with
    | error e => rw [ha] at h; cases h
    | ok r =>
      rw [ha] at h
      injection h with h; subst h
      rw [argReg_ok ha]
      exact Sim.getReg r

/-- The processor's fields of an instruction. -/
def fieldsOf4 (b : Bytes4) : Fields := fieldsOfBytes b.b0 b.b1 b.b2 b.b3

theorem fieldsOf4_r0 (b : Bytes4) : (fieldsOf4 b).r0 = !argIsLit b 1 := rfl
theorem fieldsOf4_r1 (b : Bytes4) : (fieldsOf4 b).r1 = !argIsLit b 2 := rfl
theorem fieldsOf4_r2 (b : Bytes4) : (fieldsOf4 b).r2 = !argIsLit b 3 := rfl

theorem op1_1 {b : Bytes4} {v : RegOrLit1} (h : argRegOrLit1 b 1 = .ok v) :
    Sim (regOrLit1 (fieldsOf4 b).r0 (fieldsOf4 b).p0 : M D Word) (value1 v) := by
  have := arg1_ok (D := D) h
  rw [← fieldsOf4_r0] at this
  exact this

theorem op1_2 {b : Bytes4} {v : RegOrLit1} (h : argRegOrLit1 b 2 = .ok v) :
    Sim (regOrLit1 (fieldsOf4 b).r1 (fieldsOf4 b).p1 : M D Word) (value1 v) := by
  have := arg1_ok (D := D) h
  rw [← fieldsOf4_r1] at this
  exact this

theorem op1_3 {b : Bytes4} {v : RegOrLit1} (h : argRegOrLit1 b 3 = .ok v) :
    Sim (regOrLit1 (fieldsOf4 b).r2 (fieldsOf4 b).p2 : M D Word) (value1 v) := by
  have := arg1_ok (D := D) h
  rw [← fieldsOf4_r2] at this
  exact this

theorem op2_1 {b : Bytes4} {v : RegOrLit2} (h : argRegOrLit2 b 1 = .ok v) :
    Sim (regOrLit2 (fieldsOf4 b).r0 (fieldsOf4 b).p0 (fieldsOf4 b).p1 : M D Word) (value2 v) := by
  have := arg2_ok (D := D) h
  rw [← fieldsOf4_r0] at this
  exact this

theorem op2_2 {b : Bytes4} {v : RegOrLit2} (h : argRegOrLit2 b 2 = .ok v) :
    Sim (regOrLit2 (fieldsOf4 b).r1 (fieldsOf4 b).p1 (fieldsOf4 b).p2 : M D Word) (value2 v) := by
  have := arg2_ok (D := D) h
  rw [← fieldsOf4_r1] at this
  exact this

/-! ### Arithmetic -/

/-- An outcome of the processor's arithmetic unit, exception codes being numbers. -/
def asCalc : Except U8 (Word × Bool × Bool) → Calc
  | .error c => .error c.toNat
  | .ok r => .ok r

theorem Sim.settle {x y : Word} {op : Op} {c : Calc} (h : asCalc (computeCore x y op) = c) :
    Sim (compute x y op : M D Word) (Spec.settle c) := by
  intro s
  subst h
  unfold compute
  cases computeCore x y op with
  | error e =>
    show Out.ex (s.exception e 0) = _
    rw [exception_trap]; rfl
  | ok r =>
    obtain ⟨res, cf, of⟩ := r
    show Out.ok res { s with regs := { s.regs with af := flagsOf res cf of } } = _
    rw [flagsOf_eq]; rfl

theorem calcAdd_eq (x y : Word) : asCalc (computeCore x y .add) = calcAdd x y := by
  unfold asCalc computeCore calcAdd
  dsimp only
  rw [uaddOverflow_spec, saddOverflow_spec]
  congr 2

theorem calcSub_eq (x y : Word) : asCalc (computeCore x y .sub) = calcSub x y := by
  unfold asCalc computeCore calcSub
  dsimp only
  rw [usubOverflow_spec, ssubOverflow_spec]
  congr 2
  apply BitVec.eq_of_toNat_eq
  rw [BitVec.toNat_sub, BitVec.toNat_ofInt]
  have := x.isLt
  have := y.isLt
  omega

theorem calcMul_eq (x y : Word) : asCalc (computeCore x y .mul) = calcMul x y := by
  unfold asCalc computeCore calcMul
  dsimp only
  rw [smulOverflow_spec]
  congr 2

theorem calcAnd_eq (x y : Word) : asCalc (computeCore x y .and) = calcBits and x y := by
  unfold asCalc computeCore calcBits
  dsimp only
  congr 2
  show _ = BitVec.ofNat 32 (x.toNat &&& y.toNat)
  apply BitVec.eq_of_toNat_eq
  rw [← BitVec.toNat_and, BitVec.toNat_ofNat, Nat.mod_eq_of_lt (BitVec.isLt _)]

theorem calcBor_eq (x y : Word) : asCalc (computeCore x y .bor) = calcBits or x y := by
  unfold asCalc computeCore calcBits
  dsimp only
  congr 2
  show _ = BitVec.ofNat 32 (x.toNat ||| y.toNat)
  apply BitVec.eq_of_toNat_eq
  rw [← BitVec.toNat_or, BitVec.toNat_ofNat, Nat.mod_eq_of_lt (BitVec.isLt _)]

theorem calcXor_eq (x y : Word) : asCalc (computeCore x y .xor) = calcBits xor x y := by
  unfold asCalc computeCore calcBits
  dsimp only
  congr 2
  have : Nat.bitwise xor x.toNat y.toNat = x.toNat ^^^ y.toNat := by
    show _ = Nat.bitwise bne _ _
    congr 1
  rw [this]
  apply BitVec.eq_of_toNat_eq
  rw [← BitVec.toNat_xor, BitVec.toNat_ofNat, Nat.mod_eq_of_lt (BitVec.isLt _)]

theorem calcShl_eq (x y : Word) : asCalc (computeCore x y .shl) = calcShl x y := by
  unfold asCalc computeCore calcShl
  dsimp only
  congr 2
  apply BitVec.eq_of_toNat_eq
  rw [BitVec.toNat_shiftLeft, Nat.shiftLeft_eq, BitVec.toNat_ofNat]

theorem calcShr_eq (x y : Word) : asCalc (computeCore x y .shr) = calcShr x y := by
  unfold asCalc computeCore calcShr
  dsimp only
  congr 2
  apply BitVec.eq_of_toNat_eq
  rw [BitVec.toNat_ushiftRight, Nat.shiftRight_eq_div_pow, BitVec.toNat_ofNat]
  exact (Nat.mod_eq_of_lt (Nat.lt_of_le_of_lt (Nat.div_le_self _ _) x.isLt)).symm

theorem calcDiv_eq (rest : Bool) (m x y : Word) :
    asCalc (computeCore x y ((if rest then Op.mod else Op.div) (m.setWidth 8))) = calcDiv rest m x y := by
  have hc : computeCore x y ((if rest then Op.mod else Op.div) (m.setWidth 8)) = divCore (!rest) (m.setWidth 8) x y := by
    cases rest <;> rfl
  rw [hc]
  unfold divCore calcDiv
  dsimp only
  by_cases hy : y = 0
  · rw [if_pos hy, if_pos (by rw [hy]; rfl), mode_zero]
    generalize m.toNat / 4 % 4 = k
    match k with
    | 0 => rfl
    | 1 => rfl
    | 2 => rfl
    | n + 3 => rfl
  · have hy' : ¬ y.toNat = 0 := fun h => hy (BitVec.eq_of_toNat_eq h)
    rw [if_neg hy, if_neg hy', mode_ofw]
    by_cases hs : m.toNat / 16 % 2 = 1
    · rw [if_pos hs]
      have h1 := (mode_signed m).mpr hs
      by_cases ho : x.toInt = -2 ^ 31 ∧ y.toInt = -1
      · have hx : x = 0x80000000#32 := by apply BitVec.eq_of_toInt_eq; rw [ho.1]; rfl
        have hy' : y = 0xFFFFFFFF#32 := by apply BitVec.eq_of_toInt_eq; rw [ho.2]; rfl
        rw [if_pos ⟨h1, hx, hy'⟩, if_pos ho]
        rfl
      · rw [if_neg (by rintro ⟨_, rfl, rfl⟩; exact ho ⟨rfl, rfl⟩), if_pos h1, if_neg ho]
        have e1 : (x.sdiv y) = BitVec.ofInt 32 (x.toInt.tdiv y.toInt) := by
          apply BitVec.eq_of_toInt_eq
          rw [BitVec.toInt_sdiv]; simp
        have e2 : (x.srem y) = BitVec.ofInt 32 (x.toInt.tmod y.toInt) := by
          apply BitVec.eq_of_toInt_eq
          rw [BitVec.toInt_srem, BitVec.toInt_ofInt, ← BitVec.toInt_srem, BitVec.toInt_bmod_cancel]
        cases rest
        · simp [asCalc, e1]
        · simp [asCalc, e2]
    · rw [if_neg hs]
      have h1 := mt (mode_signed m).mp hs
      rw [if_neg (fun h => h1 h.1), if_neg h1]
      cases rest
      · simp only [asCalc, Bool.not_false, if_true, Bool.false_eq_true, if_false]
        congr 2
        apply BitVec.eq_of_toNat_eq
        rw [BitVec.toNat_udiv, BitVec.toNat_ofNat, Nat.mod_eq_of_lt]
        exact Nat.lt_of_le_of_lt (Nat.div_le_self _ _) x.isLt
      · simp only [asCalc, Bool.not_true, if_true, Bool.false_eq_true, if_false]
        congr 2
        apply BitVec.eq_of_toNat_eq
        rw [BitVec.toNat_umod, BitVec.toNat_ofNat]
        exact (Nat.mod_eq_of_lt (Nat.lt_of_le_of_lt (Nat.mod_le _ _) x.isLt)).symm

/-! ### Instructions -/

theorem Sim.update {r : Reg} {m : M D Word} {a : Act D Word} {op : Op} {f : Word → Word → Calc} (g : Word → Word)
    (hm : Sim (m >>= fun v => Pure.pure (g v)) a) (hf : ∀ x y, asCalc (computeCore x y op) = f x y) :
    Sim (do
      let value ← m
      let value := g value
      let regValue ← readReg r.code
      let result ← compute regValue value op
      writeReg r.code result) (Spec.update r a f) := by
  have h : Sim ((m >>= fun v => Pure.pure (g v)) >>= fun y => do
      let regValue ← readReg r.code
      let result ← compute regValue y op
      writeReg r.code result) (Spec.update r a f) := by
    refine Sim.bind hm fun y => Sim.bind (Sim.getReg r) fun x => Sim.bind (Sim.settle (hf x y)) fun w => Sim.putReg r w
  intro s
  rw [← h s]
  rw [M.bind_def, M.bind_def, M.bind_def]
  cases m s <;> rfl

theorem simAlu {f : Fields} {r : Reg} {a : Act D Word} {g : Word → Word → Calc} (hr : f.p0 = r.code)
    (h1 : f.opcode ≠ 0x0B#8) (h2 : f.opcode ≠ 0x0C#8) (ha : Sim (regOrLit2 f.r1 f.p1 f.p2) a)
    (hf : ∀ x y, asCalc (computeCore x y (aluOp f.opcode.toNat)) = g x y) :
    Sim (execAlu f : M D Unit) (Spec.update r a g) := by
  unfold execAlu
  rw [hr]
  refine Sim.update (fun v => if (f.opcode = 0x0B#8 ∨ f.opcode = 0x0C#8) ∧ f.r1 = false then v >>> 8 else v) ?_ hf
  intro s
  rw [← ha s, M.bind_def]
  rw [show (fun v : Word => (Pure.pure (if (f.opcode = 0x0B#8 ∨ f.opcode = 0x0C#8) ∧ f.r1 = false then v >>> 8 else v) : M D Word))
    = fun v => Pure.pure v from funext fun v => by rw [if_neg (by rintro ⟨h | h, _⟩ <;> contradiction)]]
  cases regOrLit2 f.r1 f.p1 f.p2 s <;> rfl

theorem simShift {f : Fields} {r : Reg} {a : Act D Word} {g : Word → Word → Calc} (hr : f.p0 = r.code)
    (h1 : f.opcode = 0x0B#8 ∨ f.opcode = 0x0C#8) (ha : Sim (regOrLit1 f.r1 f.p1) a)
    (hf : ∀ x y, asCalc (computeCore x y (aluOp f.opcode.toNat)) = g x y) :
    Sim (execAlu f : M D Unit) (Spec.update r a g) := by
  unfold execAlu
  rw [hr]
  refine Sim.update (fun v => if (f.opcode = 0x0B#8 ∨ f.opcode = 0x0C#8) ∧ f.r1 = false then v >>> 8 else v) ?_ hf
  intro s
  rw [← ha s, M.bind_def]
  unfold regOrLit1 regOrLit2
  cases hr1 : f.r1 with
  | true =>
    simp only [if_true]
    cases readReg f.p1 s <;> simp
  | false =>
    simp only [Bool.false_eq_true, if_false, pure_apply]
    rw [if_pos ⟨h1, trivial⟩]
    congr 1
    apply BitVec.eq_of_toNat_eq
    have h3 := f.p1.isLt
    have h4 := f.p2.isLt
    rw [BitVec.toNat_ushiftRight, BitVec.toNat_setWidth, BitVec.toNat_setWidth, BitVec.toNat_append,
      Nat.shiftRight_eq_div_pow, ← Nat.shiftLeft_add_eq_or_of_lt h4, Nat.shiftLeft_eq]
    omega

theorem simDiv {f : Fields} {r : Reg} {a b : Act D Word} (rest : Bool) (hr : f.p0 = r.code)
    (ha : Sim (regOrLit1 f.r1 f.p1) a) (hb : Sim (regOrLit1 f.r2 f.p2) b) :
    Sim (execDiv (if rest then Op.mod else Op.div) f : M D Unit) (do
      let y ← a
      let mode ← b
      Spec.update r (Pure.pure y) (calcDiv rest mode)) := by
  unfold execDiv
  rw [hr]
  refine Sim.bind ha fun y => Sim.bind hb fun m => ?_
  have h : Sim (do
      let x ← readReg r.code
      let w ← compute x y ((if rest then Op.mod else Op.div) (m.setWidth 8))
      writeReg r.code w : M D Unit) (do
      let x ← Spec.getReg r
      let w ← Spec.settle (calcDiv rest m x y)
      Spec.putReg r w) :=
    Sim.bind (Sim.getReg r) fun x => Sim.bind (Sim.settle (calcDiv_eq rest m x y)) fun w => Sim.putReg r w
  exact h

theorem simModify (g h : Machine D → Machine D) (e : ∀ s, g s = h s) :
    Sim (modifyM g : M D Unit) (modify h : Act D Unit) := by
  intro s
  show Out.ok () (g s) = Out.ok () (h s)
  rw [e]

theorem simModRegs (g : Regs → Regs) (h : Machine D → Machine D) (e : ∀ s, { s with regs := g s.regs } = h s) :
    Sim (modRegs g : M D Unit) (modify h : Act D Unit) := by
  intro s
  exact congrArg (Out.ok ()) (e s)

theorem Sim.get_left {a : Machine D → Act D β} {g : Machine D → α} {k : α → M D β}
    (h : ∀ s, k (g s) s = actOut (a s s)) : Sim (getsM g >>= k) (MonadState.get >>= a) := fun s => h s

/-- A bit of a word, seen as a mask test. -/
theorem mask_bit (w : Word) (k : Nat) (hk : k < 32) : (w &&& (1#32 <<< k) != 0) = w.getLsbD k := by
  rw [Bool.eq_iff_iff]
  simp only [bne_iff_ne, ne_eq]
  constructor
  · intro h
    cases hb : w.getLsbD k with
    | true => rfl
    | false =>
      exfalso; apply h
      apply BitVec.eq_of_getLsbD_eq
      intro i hi
      simp only [BitVec.getLsbD_and, BitVec.getLsbD_shiftLeft, BitVec.getLsbD_one]
      by_cases hik : i = k
      · subst hik; simp [hb]
      · simp; omega
  · intro h h0
    have := congrArg (fun x => x.getLsbD k) h0
    simp [h, hk] at this
    rw [BitVec.getLsbD_eq_getElem hk, this] at h
    cases h

theorem flag_bit (af : Word) (n : Nat) (h : n ≤ 7) : flag af n = af.getLsbD (7 - n) := by
  unfold flag
  rw [BitVec.getLsbD, Nat.testBit_eq_decide_div_mod_eq, Bool.eq_iff_iff]
  simp

theorem simIf {f : Fields} {v : RegOrLit1} (wanted : Bool) (ha : Sim (regOrLit1 f.r0 f.p0) (value1 v : Act D Word)) :
    Sim (execIf wanted f : M D Unit) (Spec.onFlag wanted v) := by
  unfold execIf Spec.onFlag
  refine Sim.bind ha fun n => ?_
  have hlt : 7#32 < n ↔ ¬ n.toNat ≤ 7 := by rw [BitVec.lt_def]; simp
  by_cases hn : n.toNat ≤ 7
  · rw [if_neg (by rw [hlt]; simpa using hn), if_pos hn]
    intro s
    show (if (s.regs.af &&& (1#32 <<< (7 - n.toNat)) != 0) != wanted then skipNext else Pure.pure () : M D Unit) s =
      actOut ((if flag s.regs.af n.toNat = wanted then Pure.pure () else Spec.skip : Act D Unit) s)
    rw [mask_bit _ _ (by omega), flag_bit _ _ hn]
    cases s.regs.af.getLsbD (7 - n.toNat) <;> cases wanted <;> rfl
  · rw [if_pos (by rw [hlt]; exact hn), if_neg hn]
    apply Sim.fault
    · rfl
    · simp only [BitVec.toNat_setWidth]; omega

theorem simFlagTest (af n : Word) : Sim (liftRes (flagTest pf af n) : M D Bool) (Spec.flagOf pf af n) := by
  intro s
  unfold Spec.flagOf flagTest
  by_cases hn : n.toNat ≤ 7
  · rw [if_pos hn]
    have h1 : pf.sub 7 n = some (7 - n) := by
      cases pf
      · show (if n.toNat ≤ 7 then _ else _) = _
        rw [if_pos hn]
      · rfl
    have h2 : (7 - n : Word).toNat = 7 - n.toNat := by
      rw [BitVec.toNat_sub]; show (2 ^ 32 - n.toNat + 7) % 2 ^ 32 = _; omega
    have h3 : pf.oneShl (7 - n) = some (1#32 <<< (7 - n.toNat)) := by
      cases pf
      · show (if (7 - n : Word).toNat < 32 then _ else _) = _
        rw [if_pos (by rw [h2]; omega), h2]
      · show some _ = _
        rw [h2, Nat.mod_eq_of_lt (by omega)]
    rw [h1]
    simp only [Option.bind_eq_bind, Option.bind_some, h3, mask_bit _ _ (show 7 - n.toNat < 32 by omega)]
    rw [flag_bit _ _ hn]
    rfl
  · rw [if_neg hn]
    cases pf
    · have h1 : Profile.debug.sub 7 n = none := by
        show (if n.toNat ≤ 7 then _ else _) = _
        rw [if_neg hn]
      rw [h1]; rfl
    · have h2 : (7 - n : Word).toNat % 32 = ((7 - (n.toNat : Int)) % 32).toNat := by
        rw [BitVec.toNat_sub]; show (2 ^ 32 - n.toNat + 7) % 2 ^ 32 % 32 = _
        have := n.isLt; omega
      show liftRes (some (af &&& (1#32 <<< ((7 - n : Word).toNat % 32)) != 0)) s = _
      rw [h2, mask_bit _ _ (by omega)]
      rfl

theorem simIf2Cond (c : Word) (a b : Bool) : if2Cond c a b = if2Condition c.toNat a b := by
  unfold if2Cond if2Condition
  generalize c.toNat = n
  match n with
  | 0 | 1 | 2 | 3 | 4 | 5 | 6 | 7 => cases a <;> cases b <;> rfl
  | n + 8 => rfl

theorem plainAdd_eq (a b : Word) : Sim (liftRes (pf.add a b) : M D Word) (Spec.plainAdd pf a b) := by
  intro s
  unfold Spec.plainAdd
  cases pf with
  | debug =>
    show liftRes (if a.toNat + b.toNat < 2 ^ 32 then some (a + b) else none) s = _
    by_cases h : a.toNat + b.toNat < 2 ^ 32
    · rw [if_pos h, if_neg (by omega)]; rfl
    · rw [if_neg h, if_pos ⟨rfl, by omega⟩]; rfl
  | release => rw [if_neg (by simp)]; rfl

theorem simSp (a : Word) : Sim (setSp a : M D Unit) (Spec.moveSp a) := by
  apply simModify
  intro s
  unfold withStackPtr
  rw [svMode_eq]
  cases supervisor s.regs <;> rfl

end Lrvm
