import Verif.Spec.Causes
import Verif.Lemmas.Step
import Verif.Lemmas.Eval
import Verif.Lemmas.Next

/-!
# Reading the operands of an instruction

What an instruction does, by whether one of its operands may not be read.
-/

namespace Lrvm

open Spec

variable {D : Type} [Bus D] {pf : Profile} {α β : Type}

theorem M.bind_ex_inv {m : M D α} {k : α → M D β} {s t : Machine D} (h : (m >>= k) s = .ex t) :
    m s = .ex t ∨ ∃ a s', m s = .ok a s' ∧ k a s' = .ex t := by
  rw [M.bind_def] at h
  cases hm : m s with
  | ok a s' => rw [hm] at h; exact .inr ⟨a, s', rfl, h⟩
  | ex s' => rw [hm] at h; injection h with h; subst h; exact .inl rfl
  | panic => rw [hm] at h; cases h

/-- The exception of an operand that may not be read. -/
def refusal (s : Machine D) (n : Nat) : Machine D := s.exception (readFault (supervisor s.regs)) (BitVec.ofNat 16 n)

theorem refusal_u8 (s : Machine D) (p : U8) :
    s.exception (readFault (supervisor s.regs)) (p.setWidth 16) = refusal s p.toNat := by
  unfold refusal
  rw [BitVec.ofNat_toNat]

theorem bind_readReg (s : Machine D) (p : U8) (k : Word → M D β) :
    (readReg p >>= k) s = match [p.toNat].find? (fun n => !mayRead (supervisor s.regs) n) with
      | some n => .ex (refusal s n)
      | none => k (reg s.regs p.toNat) s := by
  rw [M.bind_def, readReg_eq]
  cases h : mayRead (supervisor s.regs) p.toNat with
  | true => simp [h]
  | false => simp [h, refusal_u8]

theorem bind_regOrLit1 (s : Machine D) (b : Bool) (p : U8) (k : Word → M D β) :
    (regOrLit1 b p >>= k) s = match (ifReg b p).find? (fun n => !mayRead (supervisor s.regs) n) with
      | some n => .ex (refusal s n)
      | none => k (operand1 s.regs b p) s := by
  cases b with
  | true => exact bind_readReg s p k
  | false =>
    show k (p.setWidth 32) s = k (BitVec.ofNat 32 p.toNat) s
    rw [BitVec.ofNat_toNat]

theorem operand2_lit (p q : U8) : ((p ++ q).setWidth 32 : Word) = BitVec.ofNat 32 (p.toNat * 256 + q.toNat) := by
  apply BitVec.eq_of_toNat_eq
  rw [BitVec.toNat_setWidth, toNat_append8, BitVec.toNat_ofNat]

theorem bind_regOrLit2 (s : Machine D) (b : Bool) (p q : U8) (k : Word → M D β) :
    (regOrLit2 b p q >>= k) s = match (ifReg b p).find? (fun n => !mayRead (supervisor s.regs) n) with
      | some n => .ex (refusal s n)
      | none => k (operand2 s.regs b p q) s := by
  cases b with
  | true => exact bind_readReg s p k
  | false =>
    show k ((p ++ q).setWidth 32) s = k (BitVec.ofNat 32 (p.toNat * 256 + q.toNat)) s
    rw [operand2_lit]

/-- The fields that the processor sees of an instruction. -/
def Spec.Parts.fields (i : Parts) : Fields := ⟨i.op.setWidth 8, i.r0, i.r1, i.r2, i.p0, i.p1, i.p2⟩

theorem or_match {x y : Option Nat} {f : Nat → β} {z : β} :
    (match x with | some n => f n | none => match y with | some n => f n | none => z) =
      match x.or y with | some n => f n | none => z := by
  cases x <;> rfl

theorem op_eq {op : BitVec 5} {n : Nat} (h : op.toNat = n) : op = BitVec.ofNat 5 n := by
  subst h; simp

/-- The end of IF and IFN. -/
def ifTail (wanted : Bool) (flag : Word) : M D Unit := getM >>= fun s =>
  if (s.regs.af &&& (1#32 <<< (7 - flag.toNat)) != 0) != wanted then skipNext else pure ()

/-! ### Operands, instruction by instruction -/

section
variable {s : Machine D} {i : Parts}

theorem run_cpy (ho : i.op = 0x01) : runInstr pf i.fields s = match i.refused s.regs with
    | some n => .ex (refusal s n)
    | none => writeReg i.p0 (operand2 s.regs i.r1 i.p1 i.p2) s := by
  obtain ⟨op, r0, r1, r2, p0, p1, p2⟩ := i
  dsimp only at ho; subst ho
  show execCpy _ s = _
  unfold execCpy
  rw [bind_regOrLit2]
  rfl

theorem run_ex (ho : i.op = 0x02) : runInstr pf i.fields s = match i.refused s.regs with
    | some n => .ex (refusal s n)
    | none => (writeReg i.p0 (reg s.regs i.p1.toNat) >>= fun _ => writeReg i.p1 (reg s.regs i.p0.toNat)) s := by
  obtain ⟨op, r0, r1, r2, p0, p1, p2⟩ := i
  dsimp only at ho; subst ho
  show execEx _ s = _
  unfold execEx
  rw [bind_readReg, bind_readReg, or_match]
  show _ = match [p0.toNat, p1.toNat].find? _ with | some n => _ | none => _
  rw [show [p0.toNat, p1.toNat] = [p0.toNat] ++ [p1.toNat] from rfl, List.find?_append]
  rfl

theorem run_alu (ho : i.op.toNat ∈ [0x03, 0x04, 0x05, 0x08, 0x09, 0x0A, 0x0B, 0x0C]) : ∃ y, runInstr pf i.fields s =
    match i.refused s.regs with
    | some n => .ex (refusal s n)
    | none => (compute (reg s.regs i.p0.toNat) y (aluOp i.op.toNat) >>= writeReg i.p0) s := by
  obtain ⟨op, r0, r1, r2, p0, p1, p2⟩ := i
  dsimp only at ho
  have key : ∀ o : BitVec 5, ∃ y, execAlu ⟨o.setWidth 8, r0, r1, r2, p0, p1, p2⟩ s =
      match (ifReg r1 p1 ++ [p0.toNat]).find? (fun n => !mayRead (supervisor s.regs) n) with
      | some n => .ex (refusal s n)
      | none => (compute (reg s.regs p0.toNat) y (aluOp (o.setWidth 8).toNat) >>= writeReg p0) s := by
    intro o
    refine ⟨if (o.setWidth 8 = 0x0B#8 ∨ o.setWidth 8 = 0x0C#8) ∧ r1 = false then operand2 s.regs r1 p1 p2 >>> 8
      else operand2 s.regs r1 p1 p2, ?_⟩
    unfold execAlu
    rw [bind_regOrLit2, bind_readReg, or_match, List.find?_append]
  simp only [List.mem_cons, List.not_mem_nil, or_false] at ho
  rcases ho with h | h | h | h | h | h | h | h
  all_goals
    obtain rfl := op_eq h
    exact key _

theorem run_cmp (ho : i.op = 0x0D) : ∃ y, runInstr pf i.fields s = match i.refused s.regs with
    | some n => .ex (refusal s n)
    | none => (compute (reg s.regs i.p0.toNat) y .sub >>= fun _ => pure ()) s := by
  obtain ⟨op, r0, r1, r2, p0, p1, p2⟩ := i
  dsimp only at ho; subst ho
  refine ⟨operand2 s.regs r1 p1 p2, ?_⟩
  show execCmp _ s = _
  unfold execCmp
  rw [bind_regOrLit2, bind_readReg, or_match]
  show _ = match (ifReg r1 p1 ++ [p0.toNat]).find? _ with | some n => _ | none => _
  rw [List.find?_append]
  rfl

theorem run_div (ho : i.op = 0x06) : runInstr pf i.fields s = match i.refused s.regs with
    | some n => .ex (refusal s n)
    | none => (compute (reg s.regs i.p0.toNat) (operand1 s.regs i.r1 i.p1) (.div ((operand1 s.regs i.r2 i.p2).setWidth 8)) >>= writeReg i.p0) s := by
  obtain ⟨op, r0, r1, r2, p0, p1, p2⟩ := i
  dsimp only at ho; subst ho
  show execDiv .div _ s = _
  unfold execDiv
  rw [bind_regOrLit1, bind_regOrLit1, bind_readReg]
  rw [or_match]
  rw [or_match]
  show _ = match (ifReg r1 p1 ++ ifReg r2 p2 ++ [p0.toNat]).find? _ with | some n => _ | none => _
  rw [List.find?_append, List.find?_append]
  rfl

theorem run_mod (ho : i.op = 0x07) : runInstr pf i.fields s = match i.refused s.regs with
    | some n => .ex (refusal s n)
    | none => (compute (reg s.regs i.p0.toNat) (operand1 s.regs i.r1 i.p1) (.mod ((operand1 s.regs i.r2 i.p2).setWidth 8)) >>= writeReg i.p0) s := by
  obtain ⟨op, r0, r1, r2, p0, p1, p2⟩ := i
  dsimp only at ho; subst ho
  show execDiv .mod _ s = _
  unfold execDiv
  rw [bind_regOrLit1, bind_regOrLit1, bind_readReg]
  rw [or_match]
  rw [or_match]
  show _ = match (ifReg r1 p1 ++ ifReg r2 p2 ++ [p0.toNat]).find? _ with | some n => _ | none => _
  rw [List.find?_append, List.find?_append]
  rfl

theorem run_jpr (ho : i.op = 0x0E) : runInstr pf i.fields s = match i.refused s.regs with
    | some n => .ex (refusal s n)
    | none => .ok () { s with regs := { s.regs with pc := s.regs.pc + ((operand2 s.regs i.r0 i.p0 i.p1).setWidth 16).signExtend 32 }, changedPc := true } := by
  obtain ⟨op, r0, r1, r2, p0, p1, p2⟩ := i
  dsimp only at ho; subst ho
  show execJpr _ s = _
  unfold execJpr
  rw [bind_regOrLit2]
  show _ = match (ifReg r0 p0).find? _ with | some n => _ | none => _
  rfl

theorem run_itr (ho : i.op = 0x10) : runInstr pf i.fields s = match i.refused s.regs with
    | some n => .ex (refusal s n)
    | none => .ok () (s.exception 0xF0 ((operand1 s.regs i.r0 i.p0).setWidth 16)) := by
  obtain ⟨op, r0, r1, r2, p0, p1, p2⟩ := i
  dsimp only at ho; subst ho
  show execItr _ s = _
  unfold execItr
  rw [bind_regOrLit1]
  show _ = match (ifReg r0 p0).find? _ with | some n => _ | none => _
  rfl

theorem run_if (ho : i.op = 0x11) : runInstr pf i.fields s = match i.refused s.regs with
    | some n => .ex (refusal s n)
    | none => (if 7#32 < operand1 s.regs i.r0 i.p0 then raise 0x0C (((operand1 s.regs i.r0 i.p0).setWidth 8).setWidth 16)
      else ifTail true (operand1 s.regs i.r0 i.p0)) s := by
  obtain ⟨op, r0, r1, r2, p0, p1, p2⟩ := i
  dsimp only at ho; subst ho
  show execIf true _ s = _
  unfold execIf
  rw [bind_regOrLit1]
  show _ = match (ifReg r0 p0).find? _ with | some n => _ | none => _
  rfl

theorem run_ifn (ho : i.op = 0x12) : runInstr pf i.fields s = match i.refused s.regs with
    | some n => .ex (refusal s n)
    | none => (if 7#32 < operand1 s.regs i.r0 i.p0 then raise 0x0C (((operand1 s.regs i.r0 i.p0).setWidth 8).setWidth 16)
      else ifTail false (operand1 s.regs i.r0 i.p0)) s := by
  obtain ⟨op, r0, r1, r2, p0, p1, p2⟩ := i
  dsimp only at ho; subst ho
  show execIf false _ s = _
  unfold execIf
  rw [bind_regOrLit1]
  show _ = match (ifReg r0 p0).find? _ with | some n => _ | none => _
  rfl

theorem run_if2 (ho : i.op = 0x13) : runInstr pf i.fields s = match i.refused s.regs with
    | some n => .ex (refusal s n)
    | none => (do
      let a ← liftRes (flagTest pf s.regs.af (operand1 s.regs i.r0 i.p0))
      let b ← liftRes (flagTest pf s.regs.af (operand1 s.regs i.r1 i.p1))
      match if2Cond (operand1 s.regs i.r2 i.p2) a b with
      | none => raise 0x0D (((operand1 s.regs i.r2 i.p2).setWidth 8).setWidth 16)
      | some result => if !result then skipNext else pure () : M D Unit) s := by
  obtain ⟨op, r0, r1, r2, p0, p1, p2⟩ := i
  dsimp only at ho; subst ho
  show execIf2 pf _ s = _
  unfold execIf2
  rw [bind_regOrLit1, bind_regOrLit1, bind_regOrLit1]
  rw [or_match]
  rw [or_match]
  show _ = match (ifReg r0 p0 ++ ifReg r1 p1 ++ ifReg r2 p2).find? _ with | some n => _ | none => _
  rw [List.find?_append, List.find?_append]
  rfl

theorem run_lsa (ho : i.op = 0x14) : runInstr pf i.fields s = match i.refused s.regs with
    | some n => .ex (refusal s n)
    | none => (cpuRead pf (operand1 s.regs i.r1 i.p1 + operand1 s.regs i.r2 i.p2) >>= writeReg i.p0) s := by
  obtain ⟨op, r0, r1, r2, p0, p1, p2⟩ := i
  dsimp only at ho; subst ho
  show execLsa pf _ s = _
  unfold execLsa
  rw [bind_regOrLit1, bind_regOrLit1]
  rw [or_match]
  show _ = match (ifReg r1 p1 ++ ifReg r2 p2).find? _ with | some n => _ | none => _
  rw [List.find?_append]
  rfl

theorem run_lea (ho : i.op = 0x15) : runInstr pf i.fields s = match i.refused s.regs with
    | some n => .ex (refusal s n)
    | none => (cpuRead pf (operand1 s.regs i.r0 i.p0 + operand1 s.regs i.r1 i.p1 * operand1 s.regs i.r2 i.p2) >>= fun w => modRegs (fun r => { r with avr := w })) s := by
  obtain ⟨op, r0, r1, r2, p0, p1, p2⟩ := i
  dsimp only at ho; subst ho
  show execLea pf _ s = _
  unfold execLea
  rw [bind_regOrLit1, bind_regOrLit1, bind_regOrLit1]
  rw [or_match]
  rw [or_match]
  show _ = match (ifReg r0 p0 ++ ifReg r1 p1 ++ ifReg r2 p2).find? _ with | some n => _ | none => _
  rw [List.find?_append, List.find?_append]
  rfl

theorem run_wsa (ho : i.op = 0x16) : runInstr pf i.fields s = match i.refused s.regs with
    | some n => .ex (refusal s n)
    | none => cpuWrite pf (operand1 s.regs i.r0 i.p0 + operand1 s.regs i.r1 i.p1) (operand1 s.regs i.r2 i.p2) s := by
  obtain ⟨op, r0, r1, r2, p0, p1, p2⟩ := i
  dsimp only at ho; subst ho
  show execWsa pf _ s = _
  unfold execWsa
  rw [bind_regOrLit1, bind_regOrLit1, bind_regOrLit1]
  rw [or_match]
  rw [or_match]
  show _ = match (ifReg r0 p0 ++ ifReg r1 p1 ++ ifReg r2 p2).find? _ with | some n => _ | none => _
  rw [List.find?_append, List.find?_append]
  rfl

theorem run_wea (ho : i.op = 0x17) : runInstr pf i.fields s = match i.refused s.regs with
    | some n => .ex (refusal s n)
    | none => cpuWrite pf (operand1 s.regs i.r0 i.p0 + operand1 s.regs i.r1 i.p1 * operand1 s.regs i.r2 i.p2) s.regs.avr s := by
  obtain ⟨op, r0, r1, r2, p0, p1, p2⟩ := i
  dsimp only at ho; subst ho
  show execWea pf _ s = _
  unfold execWea
  rw [bind_regOrLit1, bind_regOrLit1, bind_regOrLit1]
  rw [or_match]
  rw [or_match]
  show _ = match (ifReg r0 p0 ++ ifReg r1 p1 ++ ifReg r2 p2).find? _ with | some n => _ | none => _
  rw [List.find?_append, List.find?_append]
  rfl

theorem run_srm (ho : i.op = 0x18) : runInstr pf i.fields s = match i.refused s.regs with
    | some n => .ex (refusal s n)
    | none => (do
      let a ← liftRes (pf.add (operand1 s.regs i.r0 i.p0) (operand1 s.regs i.r1 i.p1))
      let old ← cpuRead pf a
      let w ← readReg i.p2
      let b ← liftRes (pf.add (operand1 s.regs i.r0 i.p0) (operand1 s.regs i.r1 i.p1))
      cpuWrite pf b w
      writeReg i.p2 old : M D Unit) s := by
  obtain ⟨op, r0, r1, r2, p0, p1, p2⟩ := i
  dsimp only at ho; subst ho
  show execSrm pf _ s = _
  unfold execSrm
  rw [bind_regOrLit1, bind_regOrLit1]
  rw [or_match]
  show _ = match (ifReg r0 p0 ++ ifReg r1 p1).find? _ with | some n => _ | none => _
  rw [List.find?_append]
  rfl

theorem run_push (ho : i.op = 0x19) : runInstr pf i.fields s = match i.refused s.regs with
    | some n => .ex (refusal s n)
    | none => (cpuWrite pf (s.sp - 4) (operand2 s.regs i.r0 i.p0 i.p1) >>= fun _ => setSp (s.sp - 4)) s := by
  obtain ⟨op, r0, r1, r2, p0, p1, p2⟩ := i
  dsimp only at ho; subst ho
  show execPush pf _ s = _
  unfold execPush
  rw [bind_regOrLit2]
  show _ = match (ifReg r0 p0).find? _ with | some n => _ | none => _
  rfl

theorem run_call (ho : i.op = 0x1B) : runInstr pf i.fields s = match i.refused s.regs with
    | some n => .ex (refusal s n)
    | none => (do
      let ret ← liftRes (pf.add s.regs.pc 4)
      cpuWrite pf (s.sp - 4) ret
      setSp (s.sp - 4)
      modifyM (fun t => { t with regs := { t.regs with pc := operand2 s.regs i.r0 i.p0 i.p1 }, changedPc := true }) : M D Unit) s := by
  obtain ⟨op, r0, r1, r2, p0, p1, p2⟩ := i
  dsimp only at ho; subst ho
  show execCall pf _ s = _
  unfold execCall
  rw [bind_regOrLit2]
  show _ = match (ifReg r0 p0).find? _ with | some n => _ | none => _
  rfl

theorem run_hwd (ho : i.op = 0x1C) : runInstr pf i.fields s = match i.refused s.regs with
    | some n => .ex (refusal s n)
    | none => (if operand1 s.regs i.r1 i.p1 = 0 ∧ operand1 s.regs i.r2 i.p2 = 0 then do
      let n ← getsM (·.devs.length)
      writeReg i.p0 (BitVec.ofNat 32 n)
    else do
      let data ← getHwInfo pf (operand1 s.regs i.r2 i.p2) (operand1 s.regs i.r1 i.p1).toNat
      writeReg i.p0 data : M D Unit) s := by
  obtain ⟨op, r0, r1, r2, p0, p1, p2⟩ := i
  dsimp only at ho; subst ho
  show execHwd pf _ s = _
  unfold execHwd
  rw [bind_regOrLit1, bind_regOrLit1]
  rw [or_match]
  show _ = match (ifReg r1 p1 ++ ifReg r2 p2).find? _ with | some n => _ | none => _
  rw [List.find?_append]
  rfl

theorem run_reset (ho : i.op = 0x1F) : runInstr pf i.fields s = match i.refused s.regs with
    | some n => .ex (refusal s n)
    | none => (do
      resetDevs (operand1 s.regs i.r0 i.p0 &&& 0x0F#32).toNat
      if operand1 s.regs i.r0 i.p0 &&& 0xF0#32 = 0 then modifyM Machine.cpuReset else pure () : M D Unit) s := by
  obtain ⟨op, r0, r1, r2, p0, p1, p2⟩ := i
  dsimp only at ho; subst ho
  show execReset _ s = _
  unfold execReset
  rw [bind_regOrLit1]
  show _ = match (ifReg r0 p0).find? _ with | some n => _ | none => _
  rfl

end

end Lrvm
