import Verif.Lemmas.Asm
import Verif.Props.Hardware

/-!
# Every instruction does what the reference semantics says
-/

namespace Lrvm

open Spec

variable {D : Type} [Bus D] {pf : Profile}

theorem Sim.gets {a : Machine D → Act D β} {g : Machine D → α} {k : α → M D β}
    (h : ∀ s, Sim (k (g s)) (a s)) : Sim (getsM g >>= k) (MonadState.get >>= a) := fun s => h s s

theorem Sim.gets' {a : Machine D → Act D β} {k : Machine D → M D β}
    (h : ∀ s, Sim (k s) (a s)) : Sim (getM >>= k) (MonadState.get >>= a) := fun s => h s s

theorem simSkip : Sim (skipNext : M D Unit) Spec.skip := simModRegs _ _ fun _ => rfl

section
variable {b : Bytes4}

theorem simCpy {r : Reg} {v : RegOrLit2} (h1 : argReg b 1 = .ok r) (h2 : argRegOrLit2 b 2 = .ok v) :
    Sim (execCpy (fieldsOf4 b) : M D Unit) (perform pf (.cpy r v)) := by
  have e : (fieldsOf4 b).p0 = r.code := argReg_ok h1
  unfold execCpy
  rw [e]
  exact Sim.bind (op2_2 h2) fun w => Sim.putReg r w

theorem simEx {r q : Reg} (h1 : argReg b 1 = .ok r) (h2 : argReg b 2 = .ok q) :
    Sim (execEx (fieldsOf4 b) : M D Unit) (perform pf (.ex r q)) := by
  have e : (fieldsOf4 b).p0 = r.code := argReg_ok h1
  have e2 : (fieldsOf4 b).p1 = q.code := argReg_ok h2
  unfold execEx
  rw [e, e2]
  exact Sim.bind (Sim.getReg r) fun x => Sim.bind (Sim.getReg q) fun y => Sim.bind (Sim.putReg r y) fun _ =>
    Sim.putReg q x

theorem simCmp {r : Reg} {v : RegOrLit2} (h1 : argReg b 1 = .ok r) (h2 : argRegOrLit2 b 2 = .ok v) :
    Sim (execCmp (fieldsOf4 b) : M D Unit) (perform pf (.cmp r v)) := by
  have e : (fieldsOf4 b).p0 = r.code := argReg_ok h1
  unfold execCmp
  rw [e]
  exact Sim.bind (op2_2 h2) fun y => Sim.bind (Sim.getReg r) fun x =>
    Sim.bind (Sim.settle (calcSub_eq x y)) fun _ => Sim.pure _

theorem simJpr {v : RegOrLit2} (h1 : argRegOrLit2 b 1 = .ok v) :
    Sim (execJpr (fieldsOf4 b) : M D Unit) (perform pf (.jpr v)) := by
  unfold execJpr
  refine Sim.bind (op2_1 h1) fun n => ?_
  intro s
  have : (n.setWidth 16 : U16).signExtend 32 = BitVec.ofInt 32 (BitVec.ofNat 16 n.toNat).toInt := rfl
  show Out.ok _ _ = Out.ok _ _
  rw [this]

theorem simLsm {v : RegOrLit2} (h : b.b0 >>> 3 = 0x0F#8) (h1 : argRegOrLit2 b 1 = .ok v) :
    Sim (execLsm (fieldsOf4 b) : M D Unit) (perform pf (.lsm v)) := by
  unfold execLsm
  refine Sim.gets fun s => ?_
  rw [svMode_eq]
  cases supervisor s.regs with
  | true => exact Sim.bind (op2_1 h1) fun a => fun s => rfl
  | false =>
    have e : (fieldsOf4 b).opcode = 0x0F#8 := h
    rw [e]
    exact Sim.fault _ _ rfl rfl

theorem simIf2 {u v w : RegOrLit1} (h1 : argRegOrLit1 b 1 = .ok u) (h2 : argRegOrLit1 b 2 = .ok v)
    (h3 : argRegOrLit1 b 3 = .ok w) : Sim (execIf2 pf (fieldsOf4 b) : M D Unit) (perform pf (.if2 u v w)) := by
  unfold execIf2
  refine Sim.bind (op1_1 h1) fun m => Sim.bind (op1_2 h2) fun n => Sim.bind (op1_3 h3) fun c =>
    Sim.gets' fun s => Sim.bind (simFlagTest _ m) fun x => Sim.bind (simFlagTest _ n) fun y => ?_
  rw [simIf2Cond]
  cases if2Condition c.toNat x y with
  | none =>
    apply Sim.fault
    · rfl
    · simp only [BitVec.toNat_setWidth]; omega
  | some r =>
    cases r with
    | true => exact Sim.pure _
    | false => exact simSkip

theorem simLsa {r : Reg} {u v : RegOrLit1} (h1 : argReg b 1 = .ok r) (h2 : argRegOrLit1 b 2 = .ok u)
    (h3 : argRegOrLit1 b 3 = .ok v) : Sim (execLsa pf (fieldsOf4 b) : M D Unit) (perform pf (.lsa r u v)) := by
  have e : (fieldsOf4 b).p0 = r.code := argReg_ok h1
  unfold execLsa
  rw [e]
  exact Sim.bind (op1_2 h2) fun x => Sim.bind (op1_3 h3) fun y => Sim.bind (Sim.load _) fun w => Sim.putReg r w

theorem simLea {u v w : RegOrLit1} (h1 : argRegOrLit1 b 1 = .ok u) (h2 : argRegOrLit1 b 2 = .ok v)
    (h3 : argRegOrLit1 b 3 = .ok w) : Sim (execLea pf (fieldsOf4 b) : M D Unit) (perform pf (.lea u v w)) := by
  unfold execLea
  exact Sim.bind (op1_1 h1) fun x => Sim.bind (op1_2 h2) fun y => Sim.bind (op1_3 h3) fun z =>
    Sim.bind (Sim.load _) fun w => simModRegs _ _ fun _ => rfl

theorem simWsa {u v w : RegOrLit1} (h1 : argRegOrLit1 b 1 = .ok u) (h2 : argRegOrLit1 b 2 = .ok v)
    (h3 : argRegOrLit1 b 3 = .ok w) : Sim (execWsa pf (fieldsOf4 b) : M D Unit) (perform pf (.wsa u v w)) := by
  unfold execWsa
  exact Sim.bind (op1_1 h1) fun x => Sim.bind (op1_2 h2) fun y => Sim.bind (op1_3 h3) fun z => Sim.store _ _

theorem simWea {u v w : RegOrLit1} (h1 : argRegOrLit1 b 1 = .ok u) (h2 : argRegOrLit1 b 2 = .ok v)
    (h3 : argRegOrLit1 b 3 = .ok w) : Sim (execWea pf (fieldsOf4 b) : M D Unit) (perform pf (.wea u v w)) := by
  unfold execWea
  exact Sim.bind (op1_1 h1) fun x => Sim.bind (op1_2 h2) fun y => Sim.bind (op1_3 h3) fun z =>
    Sim.gets fun s => Sim.store _ _

theorem simSrm {r : Reg} {u v : RegOrLit1} (h1 : argRegOrLit1 b 1 = .ok u) (h2 : argRegOrLit1 b 2 = .ok v)
    (h3 : argReg b 3 = .ok r) : Sim (execSrm pf (fieldsOf4 b) : M D Unit) (perform pf (.srm u v r)) := by
  have e : (fieldsOf4 b).p2 = r.code := argReg_ok h3
  unfold execSrm
  rw [e]
  refine Sim.bind (op1_1 h1) fun x => Sim.bind (op1_2 h2) fun y => ?_
  intro s
  have hp := plainAdd_eq (D := D) (pf := pf) x y
  cases ha : pf.add x y with
  | none =>
    have : (Spec.plainAdd pf x y : Act D Word) s = .error .crash s := by
      have := hp s
      rw [ha] at this
      unfold Spec.plainAdd at this ⊢
      split
      · rfl
      · next hh => rw [if_neg hh] at this; cases this
    show Out.panic = actOut (EStateM.bind _ _ s)
    unfold EStateM.bind
    rw [this]; rfl
  | some a =>
    have : (Spec.plainAdd pf x y : Act D Word) = Pure.pure a := by
      have := hp s
      rw [ha] at this
      unfold Spec.plainAdd at this ⊢
      split
      · next hh => rw [if_pos hh] at this; cases this
      · next hh => rw [if_neg hh] at this; injection this with this _; rw [this]
    rw [this]
    have h : Sim (do
        let oldWord ← cpuRead pf a
        let toWrite ← readReg r.code
        cpuWrite pf a toWrite
        writeReg r.code oldWord : M D Unit) (do
        let old ← Spec.load pf a
        let new ← Spec.getReg r
        Spec.store pf a new
        Spec.putReg r old) := Sim.bind (Sim.load a) fun old => Sim.bind (Sim.getReg r) fun new =>
          Sim.bind (Sim.store a new) fun _ => Sim.putReg r old
    exact h s

theorem simPush {v : RegOrLit2} (h1 : argRegOrLit2 b 1 = .ok v) :
    Sim (execPush pf (fieldsOf4 b) : M D Unit) (perform pf (.push v)) := by
  unfold execPush
  refine Sim.bind (op2_1 h1) fun w => Sim.gets fun s => ?_
  rw [sp_eq]
  exact Sim.bind (Sim.store _ _) fun _ => simSp _

theorem bind_modRegs_assoc (m : M D α) (g : Regs → Regs) (k : α → M D β) (s : Machine D) :
    ((do
      let w ← m
      modRegs g
      pure w) >>= k) s = (do
      let w ← m
      modRegs g
      k w) s := by
  rw [M.bind_def, M.bind_def, M.bind_def]
  cases m s <;> rfl

theorem simPop {r : Reg} (h1 : argReg b 1 = .ok r) :
    Sim (execPop pf (fieldsOf4 b) : M D Unit) (perform pf (.pop r)) := by
  have e : (fieldsOf4 b).p0 = r.code := argReg_ok h1
  unfold execPop
  rw [e]
  intro s
  have key : ∀ (sv : Bool) (p : Word), supervisor s.regs = sv → stackPtr s.regs = p →
      (do
        let word ← cpuRead pf p
        modRegs (if sv then fun r => { r with ssp := r.ssp + 4 } else fun r => { r with usp := r.usp + 4 })
        writeReg r.code word : M D Unit) s = actOut ((do
        let w ← Spec.load pf p
        Spec.moveSp (p + 4)
        Spec.putReg r w : Act D Unit) s) := by
    intro sv p hsv hp
    have hl := Sim.load (pf := pf) p s
    have he := cpuRead_eq pf p s
    cases hx : accRead pf s.regs s.mappings s.devs p with
    | panic =>
      rw [hx] at he
      have h2 : (Spec.load pf p : Act D Word) s = .error .crash s := by unfold Spec.load Spec.port; rw [he]; rfl
      exact (M.bind_panic he).trans (by show _ = actOut (EStateM.bind _ _ s); unfold EStateM.bind; rw [h2]; rfl)
    | fault c d devs =>
      rw [hx] at he
      refine (M.bind_ex he).trans ?_
      show _ = actOut (EStateM.bind _ _ s)
      unfold EStateM.bind
      rw [he] at hl
      cases h2 : (Spec.load pf p : Act D Word) s with
      | ok _ _ => rw [h2] at hl; cases hl
      | error e t => rw [h2] at hl; cases e with
        | crash => cases hl
        | exception c d => injection hl with hl; exact congrArg Out.ex hl
    | done w devs =>
      rw [hx] at he
      have h2 : (Spec.load pf p : Act D Word) s = .ok w { s with devs := devs } := by
        unfold Spec.load Spec.port; rw [he]; rfl
      refine (M.bind_ok he).trans ?_
      show _ = actOut (EStateM.bind _ _ s)
      unfold EStateM.bind
      rw [h2]
      have h3 := Sim.putReg r w { s with devs := devs, regs := withStackPtr s.regs (p + 4) }
      refine Eq.trans ?_ h3
      show writeReg r.code w _ = writeReg r.code w _
      congr 2
      subst hp
      unfold withStackPtr stackPtr
      rw [hsv]
      cases sv <;> rfl
  have hm := svMode_eq s
  have hs := sp_eq s
  unfold Machine.sp at hs
  have k1 := key _ _ rfl rfl
  rw [← hm, ← hs] at k1
  refine Eq.trans ?_ (k1.trans ?_)
  · show ((if s.svMode then _ else _ : M D Word) >>= fun word => writeReg r.code word) s = _
    cases s.svMode with
    | true => exact bind_modRegs_assoc (cpuRead pf s.regs.ssp) _ _ s
    | false => exact bind_modRegs_assoc (cpuRead pf s.regs.usp) _ _ s
  · rw [hs]; rfl

theorem simCall {v : RegOrLit2} (h1 : argRegOrLit2 b 1 = .ok v) :
    Sim (execCall pf (fieldsOf4 b) : M D Unit) (perform pf (.call v)) := by
  unfold execCall
  refine Sim.bind (op2_1 h1) fun w => fun s => ?_
  have h : Sim (do
      let ret ← liftRes (pf.add s.regs.pc 4)
      cpuWrite pf (stackPtr s.regs - 4) ret
      setSp (stackPtr s.regs - 4)
      modifyM (fun s => { s with regs := { s.regs with pc := w }, changedPc := true }) : M D Unit) (do
      Spec.store pf (stackPtr s.regs - 4) (← Spec.plainAdd pf s.regs.pc 4)
      Spec.moveSp (stackPtr s.regs - 4)
      Spec.jump w) :=
    Sim.bind (plainAdd_eq _ _) fun ret => Sim.bind (Sim.store _ _) fun _ => Sim.bind (simSp _) fun _ => fun _ => rfl
  rw [← sp_eq] at h
  exact (h s).trans (by rw [sp_eq]; rfl)

theorem simHwd {r : Reg} {u v : RegOrLit1} (h1 : argReg b 1 = .ok r) (h2 : argRegOrLit1 b 2 = .ok u)
    (h3 : argRegOrLit1 b 3 = .ok v) : Sim (execHwd pf (fieldsOf4 b) : M D Unit) (perform pf (.hwd r u v)) := by
  have e : (fieldsOf4 b).p0 = r.code := argReg_ok h1
  unfold execHwd
  rw [e]
  refine Sim.bind (op1_2 h2) fun x => Sim.bind (op1_3 h3) fun y => ?_
  by_cases hc : x = 0 ∧ y = 0
  · rw [if_pos hc, if_pos (by rw [hc.1, hc.2]; exact ⟨rfl, rfl⟩)]
    exact Sim.gets fun s => Sim.putReg r _
  · rw [if_neg hc, if_neg (fun h => hc ⟨BitVec.eq_of_toNat_eq h.1, BitVec.eq_of_toNat_eq h.2⟩)]
    exact Sim.bind (Sim.ask _ _) fun w => Sim.putReg r w

theorem simCycles {r : Reg} (h1 : argReg b 1 = .ok r) :
    Sim (execCycles (fieldsOf4 b) : M D Unit) (perform pf (.cycles r)) := by
  have e : (fieldsOf4 b).p0 = r.code := argReg_ok h1
  unfold execCycles
  rw [e]
  refine Sim.gets fun s => ?_
  have : s.cycles.setWidth 32 = BitVec.ofNat 32 s.cycles.toNat := rfl
  rw [this]
  exact Sim.putReg r _

theorem simHalt : Sim (execHalt : M D Unit) (perform pf .halt) := fun _ => rfl

theorem resetLoop_some (sel : Nat → Bool) : ∀ (rest pre : List D),
    resetLoop sel pre.length rest.length (pre ++ rest) =
      ((rest.zipIdx pre.length).mapM fun (x : D × Nat) => if sel x.2 then Bus.reset x.1 else some x.1).map (pre ++ ·)
  | [], pre => by simp [resetLoop]
  | d :: rest, pre => by
    have ih := fun d' => resetLoop_some sel rest (pre ++ [d'])
    simp only [List.length_append, List.length_cons, List.length_nil, Nat.zero_add, List.append_assoc,
      List.cons_append, List.nil_append] at ih
    simp only [List.length_cons, resetLoop, List.zipIdx_cons, List.mapM_cons]
    by_cases hs : sel pre.length = true
    · rw [if_pos hs, if_pos hs]
      have : bridgeReset (pre ++ d :: rest) pre.length = (Bus.reset d).map fun d' => some (pre ++ d' :: rest) := by
        unfold bridgeReset
        rw [List.getElem?_append_right (Nat.le_refl _), Nat.sub_self]
        simp only [List.getElem?_cons_zero]
        cases Bus.reset d with
        | none => rfl
        | some d' => simp [List.set_append]
      rw [this]
      cases Bus.reset d with
      | none => rfl
      | some d' =>
        dsimp only [Option.map_some]
        rw [ih d']
        simp only [Option.bind_eq_bind, Option.bind_some]
        generalize List.mapM (m := Option) _ _ = o
        cases o <;> simp
    · rw [if_neg hs, if_neg hs, ih d]
      simp only [Option.bind_eq_bind, Option.bind_some]
      generalize List.mapM (m := Option) _ _ = o
      cases o <;> simp

theorem resetLoop_resetSome (sel : Nat → Bool) (devs : List D) :
    resetLoop sel 0 devs.length devs = resetSome sel devs := by
  have := resetLoop_some sel devs []
  simp only [List.length_nil, List.nil_append] at this
  rw [this]
  show Option.map id _ = _
  rw [Option.map_id]; rfl

theorem resetSome_one (devs : List D) (id : Nat) :
    resetSome (codeResets 1 id) devs =
      if h : id < devs.length then (Bus.reset devs[id]).map (devs.set id) else some devs := by
  have key : ∀ (l : List D) (k : Nat), k ≤ id →
      ((l.zipIdx k).mapM fun (x : D × Nat) => if codeResets 1 id x.2 then Bus.reset x.1 else some x.1) =
        if h : id - k < l.length then (Bus.reset l[id - k]).map (l.set (id - k)) else some l := by
    have after : ∀ (l : List D) (k : Nat), id < k →
        ((l.zipIdx k).mapM fun (x : D × Nat) => if codeResets 1 id x.2 then Bus.reset x.1 else some x.1) = some l := by
      intro l
      induction l with
      | nil => intro k _; rfl
      | cons d l ih =>
        intro k hk
        simp only [List.zipIdx_cons, List.mapM_cons]
        rw [if_neg (by simp [codeResets]; omega), ih (k + 1) (by omega)]
        rfl
    intro l
    induction l with
    | nil => intro k _; simp
    | cons d l ih =>
      intro k hk
      simp only [List.zipIdx_cons, List.mapM_cons]
      by_cases hd : k = id
      · subst hd
        rw [if_pos (by simp [codeResets]), after l (k + 1) (by omega)]
        simp only [Nat.sub_self, List.length_cons, Nat.zero_lt_succ, dite_true, List.getElem_cons_zero]
        cases Bus.reset d <;> rfl
      · rw [if_neg (by simp [codeResets]; omega), ih (k + 1) (by omega)]
        have hs : id - k = id - (k + 1) + 1 := by omega
        by_cases hl : id - (k + 1) < l.length
        · rw [dif_pos hl, dif_pos (by simp; omega)]
          simp only [hs, List.getElem_cons_succ, List.set_cons_succ]
          cases Bus.reset l[id - (k + 1)] <;> rfl
        · rw [dif_neg hl, dif_neg (by simp; omega)]; rfl
  exact key devs 0 (Nat.zero_le _)

theorem resetSome_none (mode avr : Nat) (h : 5 ≤ mode) (devs : List D) :
    resetSome (codeResets mode avr) devs = some devs := by
  have hf : ∀ i, codeResets mode avr i = false := by
    intro i
    match mode, h with
    | n + 5, _ => rfl
  have key : ∀ (l : List D) (k : Nat),
      ((l.zipIdx k).mapM fun (x : D × Nat) => if codeResets mode avr x.2 then Bus.reset x.1 else some x.1) = some l := by
    intro l
    induction l with
    | nil => intro k; rfl
    | cons d l ih =>
      intro k
      simp only [List.zipIdx_cons, List.mapM_cons]
      rw [if_neg (by rw [hf]; simp), ih]
      rfl
  exact key devs 0

theorem simResetDevs (mode : Nat) : Sim (resetDevs mode : M D Unit) (Spec.resetComponents mode) := by
  intro s
  have loop : ∀ test, (do
      let devs ← liftRes (resetLoop test 0 s.devs.length s.devs)
      modifyM (fun s => { s with devs := devs }) : M D Unit) s =
      actOut ((match resetSome test s.devs with
        | none => throw .crash
        | some devs => set { s with devs := devs } : Act D Unit) s) := by
    intro test
    rw [resetLoop_resetSome]
    cases resetSome test s.devs <;> rfl
  unfold resetDevs
  rw [getM_bind]
  show _ = actOut ((if mode = 1 ∧ s.devs.length ≤ s.regs.avr.toNat then
    Spec.fault 0x10 (s.regs.avr.toNat % 2 ^ 16) else _ : Act D Unit) s)
  split
  · exact loop _
  · by_cases hl : s.devs.length ≤ s.regs.avr.toNat
    · rw [if_pos ⟨rfl, hl⟩]
      have : bridgeReset s.devs s.regs.avr.toNat = some none := by
        unfold bridgeReset
        rw [List.getElem?_eq_none hl]
      rw [this]
      show Out.ex (s.exception 0x10 _) = _
      rw [exception_trap]
      rfl
    · rw [if_neg (fun h => hl h.2), resetSome_one, dif_pos (by omega)]
      have : bridgeReset s.devs s.regs.avr.toNat =
          (Bus.reset (s.devs[s.regs.avr.toNat]'(by omega))).map fun d => some (s.devs.set s.regs.avr.toNat d) := by
        unfold bridgeReset
        rw [List.getElem?_eq_getElem (by omega)]
        dsimp only
        cases Bus.reset (s.devs[s.regs.avr.toNat]'(by omega)) <;> rfl
      rw [this]
      cases Bus.reset (s.devs[s.regs.avr.toNat]'(by omega)) <;> rfl
  · exact loop _
  · exact loop _
  · exact loop _
  · next h0 h1 h2 h3 h4 =>
    rw [if_neg (fun h => h1 h.1), resetSome_none _ _ (by
      have h0 : mode ≠ 0 := h0
      have h1 : mode ≠ 1 := h1
      have h2 : mode ≠ 2 := h2
      have h3 : mode ≠ 3 := h3
      have h4 : mode ≠ 4 := h4
      omega)]
    rfl

theorem simReset {v : RegOrLit1} (h1 : argRegOrLit1 b 1 = .ok v) :
    Sim (execReset (fieldsOf4 b) : M D Unit) (perform pf (.reset v)) := by
  unfold execReset
  refine Sim.bind (op1_1 h1) fun mode => ?_
  rw [and_low]
  refine Sim.bind (simResetDevs _) fun _ => ?_
  by_cases hm : mode.toNat / 16 % 16 = 0
  · rw [if_pos ((and_high mode).mpr hm), if_pos hm]
    exact fun s => rfl
  · rw [if_neg (mt (and_high mode).mp hm), if_neg hm]
    exact Sim.pure _

/-! ### From instructions to steps -/

/-- The end of a cycle. -/
def cycleEnd : Out (Machine D) Unit → Option (Machine D)
  | .panic => none
  | .ex s => some s
  | .ok () s => if s.changedPc then some s else some { s with regs := advance s.regs }

theorem cycleEnd_itr {v : RegOrLit1} (h1 : argRegOrLit1 b 1 = .ok v) (s : Machine D) :
    cycleEnd (execItr (fieldsOf4 b) s) = cycleEnd (actOut (perform pf (.itr v) s)) := by
  have h : Sim (do
      let code ← regOrLit1 (fieldsOf4 b).r0 (fieldsOf4 b).p0
      raise 0xF0 (code.setWidth 16) : M D Unit) (perform pf (.itr v)) :=
    Sim.bind (op1_1 h1) fun n => Sim.fault _ _ rfl (by simp)
  rw [← h s]
  unfold execItr
  rw [M.bind_def, M.bind_def]
  cases regOrLit1 (fieldsOf4 b).r0 (fieldsOf4 b).p0 s <;> rfl

theorem shift3 (c : U8) : (c >>> 3).toNat < 32 := by
  rw [BitVec.toNat_ushiftRight, Nat.shiftRight_eq_div_pow]
  have := c.isLt
  omega

theorem bind_ok_except {ε α β : Type} {x : Except ε α} {k : α → Except ε β} {v : β} (h : (x >>= k) = .ok v) :
    ∃ a, x = .ok a ∧ k a = .ok v := by
  cases x with
  | error e => cases h
  | ok a => exact ⟨a, rfl, h⟩

set_option maxHeartbeats 2000000 in
/-- What the processor does with the bytes of a decodable instruction. -/
theorem runInstr_decode {i : Instr} (h : Instr.decode b = .ok i) (s : Machine D) :
    cycleEnd (runInstr pf (fieldsOf4 b) s) = cycleEnd (actOut (perform pf i s)) := by
  have sim : ∀ {m : M D Unit}, Sim m (perform pf i) → cycleEnd (m s) = cycleEnd (actOut (perform pf i s)) :=
    fun hm => congrArg cycleEnd (hm s)
  have hop : (fieldsOf4 b).opcode = b.b0 >>> 3 := rfl
  unfold Instr.decode at h
  dsimp only at h
  unfold runInstr
  rw [hop]
  have hnat : ∀ k : Nat, k < 256 → (b.b0 >>> 3).toNat = k → b.b0 >>> 3 = BitVec.ofNat 8 k := by
    intro k hk e
    apply BitVec.eq_of_toNat_eq; rw [e]; simp; omega
  have hne : ∀ k j : Nat, k < 256 → (b.b0 >>> 3).toNat = k → k ≠ j % 256 → b.b0 >>> 3 ≠ BitVec.ofNat 8 j := by
    intro k j hk e hkj he
    rw [he] at e
    simp at e
    omega
  have hk := shift3 b.b0
  revert h hk
  generalize hn : (b.b0 >>> 3).toNat = n
  intro h hk
  match n, hk with
  | 0, _ => cases h
  | 0x01, _ =>
    obtain ⟨a, ha, h⟩ := bind_ok_except h
    obtain ⟨b', hb, h⟩ := bind_ok_except h
    injection h with h; subst h
    exact sim (simCpy ha hb)
  | 0x02, _ =>
    obtain ⟨a, ha, h⟩ := bind_ok_except h
    obtain ⟨b', hb, h⟩ := bind_ok_except h
    injection h with h; subst h
    exact sim (simEx ha hb)
  | 0x03, _ =>
    obtain ⟨a, ha, h⟩ := bind_ok_except h
    obtain ⟨b', hb, h⟩ := bind_ok_except h
    injection h with h; subst h
    exact sim (simAlu (a := value2 b') (g := calcAdd) (argReg_ok ha) (hne _ _ (by omega) hn (by omega)) (hne _ _ (by omega) hn (by omega)) (op2_2 hb) (by rw [hop, hn]; exact calcAdd_eq))
  | 0x04, _ =>
    obtain ⟨a, ha, h⟩ := bind_ok_except h
    obtain ⟨b', hb, h⟩ := bind_ok_except h
    injection h with h; subst h
    exact sim (simAlu (a := value2 b') (g := calcSub) (argReg_ok ha) (hne _ _ (by omega) hn (by omega)) (hne _ _ (by omega) hn (by omega)) (op2_2 hb) (by rw [hop, hn]; exact calcSub_eq))
  | 0x05, _ =>
    obtain ⟨a, ha, h⟩ := bind_ok_except h
    obtain ⟨b', hb, h⟩ := bind_ok_except h
    injection h with h; subst h
    exact sim (simAlu (a := value2 b') (g := calcMul) (argReg_ok ha) (hne _ _ (by omega) hn (by omega)) (hne _ _ (by omega) hn (by omega)) (op2_2 hb) (by rw [hop, hn]; exact calcMul_eq))
  | 0x06, _ =>
    obtain ⟨a, ha, h⟩ := bind_ok_except h
    obtain ⟨b', hb, h⟩ := bind_ok_except h
    obtain ⟨c, hc, h⟩ := bind_ok_except h
    injection h with h; subst h
    exact sim (simDiv false (argReg_ok ha) (op1_2 hb) (op1_3 hc))
  | 0x07, _ =>
    obtain ⟨a, ha, h⟩ := bind_ok_except h
    obtain ⟨b', hb, h⟩ := bind_ok_except h
    obtain ⟨c, hc, h⟩ := bind_ok_except h
    injection h with h; subst h
    exact sim (simDiv true (argReg_ok ha) (op1_2 hb) (op1_3 hc))
  | 0x08, _ =>
    obtain ⟨a, ha, h⟩ := bind_ok_except h
    obtain ⟨b', hb, h⟩ := bind_ok_except h
    injection h with h; subst h
    exact sim (simAlu (a := value2 b') (g := calcBits and) (argReg_ok ha) (hne _ _ (by omega) hn (by omega)) (hne _ _ (by omega) hn (by omega)) (op2_2 hb) (by rw [hop, hn]; exact calcAnd_eq))
  | 0x09, _ =>
    obtain ⟨a, ha, h⟩ := bind_ok_except h
    obtain ⟨b', hb, h⟩ := bind_ok_except h
    injection h with h; subst h
    exact sim (simAlu (a := value2 b') (g := calcBits or) (argReg_ok ha) (hne _ _ (by omega) hn (by omega)) (hne _ _ (by omega) hn (by omega)) (op2_2 hb) (by rw [hop, hn]; exact calcBor_eq))
  | 0x0A, _ =>
    obtain ⟨a, ha, h⟩ := bind_ok_except h
    obtain ⟨b', hb, h⟩ := bind_ok_except h
    injection h with h; subst h
    exact sim (simAlu (a := value2 b') (g := calcBits xor) (argReg_ok ha) (hne _ _ (by omega) hn (by omega)) (hne _ _ (by omega) hn (by omega)) (op2_2 hb) (by rw [hop, hn]; exact calcXor_eq))
  | 0x0B, _ =>
    obtain ⟨a, ha, h⟩ := bind_ok_except h
    obtain ⟨b', hb, h⟩ := bind_ok_except h
    injection h with h; subst h
    exact sim (simShift (a := value1 b') (g := calcShl) (argReg_ok ha) (.inl (hnat _ (by omega) hn)) (op1_2 hb) (by rw [hop, hn]; exact calcShl_eq))
  | 0x0C, _ =>
    obtain ⟨a, ha, h⟩ := bind_ok_except h
    obtain ⟨b', hb, h⟩ := bind_ok_except h
    injection h with h; subst h
    exact sim (simShift (a := value1 b') (g := calcShr) (argReg_ok ha) (.inr (hnat _ (by omega) hn)) (op1_2 hb) (by rw [hop, hn]; exact calcShr_eq))
  | 0x0D, _ =>
    obtain ⟨a, ha, h⟩ := bind_ok_except h
    obtain ⟨b', hb, h⟩ := bind_ok_except h
    injection h with h; subst h
    exact sim (simCmp ha hb)
  | 0x0E, _ =>
    obtain ⟨a, ha, h⟩ := bind_ok_except h
    injection h with h; subst h
    exact sim (simJpr ha)
  | 0x0F, _ =>
    obtain ⟨a, ha, h⟩ := bind_ok_except h
    injection h with h; subst h
    exact sim (simLsm (hnat _ (by omega) hn) ha)
  | 0x10, _ =>
    obtain ⟨a, ha, h⟩ := bind_ok_except h
    injection h with h; subst h
    exact cycleEnd_itr ha s
  | 0x11, _ =>
    obtain ⟨a, ha, h⟩ := bind_ok_except h
    injection h with h; subst h
    exact sim (simIf true (op1_1 ha))
  | 0x12, _ =>
    obtain ⟨a, ha, h⟩ := bind_ok_except h
    injection h with h; subst h
    exact sim (simIf false (op1_1 ha))
  | 0x13, _ =>
    obtain ⟨a, ha, h⟩ := bind_ok_except h
    obtain ⟨b', hb, h⟩ := bind_ok_except h
    obtain ⟨c, hc, h⟩ := bind_ok_except h
    injection h with h; subst h
    exact sim (simIf2 ha hb hc)
  | 0x14, _ =>
    obtain ⟨a, ha, h⟩ := bind_ok_except h
    obtain ⟨b', hb, h⟩ := bind_ok_except h
    obtain ⟨c, hc, h⟩ := bind_ok_except h
    injection h with h; subst h
    exact sim (simLsa ha hb hc)
  | 0x15, _ =>
    obtain ⟨a, ha, h⟩ := bind_ok_except h
    obtain ⟨b', hb, h⟩ := bind_ok_except h
    obtain ⟨c, hc, h⟩ := bind_ok_except h
    injection h with h; subst h
    exact sim (simLea ha hb hc)
  | 0x16, _ =>
    obtain ⟨a, ha, h⟩ := bind_ok_except h
    obtain ⟨b', hb, h⟩ := bind_ok_except h
    obtain ⟨c, hc, h⟩ := bind_ok_except h
    injection h with h; subst h
    exact sim (simWsa ha hb hc)
  | 0x17, _ =>
    obtain ⟨a, ha, h⟩ := bind_ok_except h
    obtain ⟨b', hb, h⟩ := bind_ok_except h
    obtain ⟨c, hc, h⟩ := bind_ok_except h
    injection h with h; subst h
    exact sim (simWea ha hb hc)
  | 0x18, _ =>
    obtain ⟨a, ha, h⟩ := bind_ok_except h
    obtain ⟨b', hb, h⟩ := bind_ok_except h
    obtain ⟨c, hc, h⟩ := bind_ok_except h
    injection h with h; subst h
    exact sim (simSrm ha hb hc)
  | 0x19, _ =>
    obtain ⟨a, ha, h⟩ := bind_ok_except h
    injection h with h; subst h
    exact sim (simPush ha)
  | 0x1A, _ =>
    obtain ⟨a, ha, h⟩ := bind_ok_except h
    injection h with h; subst h
    exact sim (simPop ha)
  | 0x1B, _ =>
    obtain ⟨a, ha, h⟩ := bind_ok_except h
    injection h with h; subst h
    exact sim (simCall ha)
  | 0x1C, _ =>
    obtain ⟨a, ha, h⟩ := bind_ok_except h
    obtain ⟨b', hb, h⟩ := bind_ok_except h
    obtain ⟨c, hc, h⟩ := bind_ok_except h
    injection h with h; subst h
    exact sim (simHwd ha hb hc)
  | 0x1D, _ =>
    obtain ⟨a, ha, h⟩ := bind_ok_except h
    injection h with h; subst h
    exact sim (simCycles ha)
  | 0x1E, _ => injection h with h; subst h; exact sim simHalt
  | 0x1F, _ =>
    obtain ⟨a, ha, h⟩ := bind_ok_except h
    injection h with h; subst h
    exact sim (simReset ha)
  | n + 32, hk => omega

end

end Lrvm
