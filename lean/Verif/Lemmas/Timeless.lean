import Verif.Lemmas.Access
import Verif.Lemmas.Next
import Verif.Lemmas.Monad
import Verif.Lemmas.Mapping
import Verif.Spec.Timeless

/-!
# Two runs that differ in the number of cycles counted
-/

namespace Lrvm

open Spec

variable {D : Type} [Bus D] {pf : Profile}

/-- The same machine with another cycle count. -/
def Later (s t : Machine D) : Prop := ∃ c, t = { s with cycles := c }

/-- The outcomes of the same action on two such machines correspond. -/
def OutLater : Out (Machine D) α → Out (Machine D) α → Prop
  | .ok a u, .ok b v => a = b ∧ Later u v
  | .ex u, .ex v => Later u v
  | .panic, .panic => True
  | _, _ => False

/-- The action does not depend on the cycle count. -/
def Timeless (m : M D α) : Prop := ∀ s t, Later s t → OutLater (m s) (m t)

theorem timeless_bind {m : M D α} {k : α → M D β} (h1 : Timeless m) (h2 : ∀ a, Timeless (k a)) : Timeless (m >>= k) := by
  intro s t hs
  have := h1 s t hs
  rw [M.bind_def, M.bind_def]
  cases e1 : m s <;> cases e2 : m t <;> rw [e1, e2] at this <;> try exact this.elim
  · obtain ⟨rfl, hu⟩ := this; exact h2 _ _ _ hu
  · exact this
  · trivial

theorem timeless_pure (a : α) : Timeless (pure a : M D α) := fun _ _ h => ⟨rfl, h⟩

theorem timeless_raise (c : U8) (d : U16) : Timeless (raise c d : M D α) := by
  rintro s _ ⟨k, rfl⟩; exact ⟨k, rfl⟩

theorem timeless_gets (g : Machine D → α) (hg : ∀ s c, g { s with cycles := c } = g s) : Timeless (getsM g) := by
  rintro s _ ⟨k, rfl⟩; exact ⟨(hg s k).symm, k, rfl⟩

theorem timeless_get {k : Machine D → M D β} (hk : ∀ s c, OutLater (k s s) (k { s with cycles := c } { s with cycles := c })) :
    Timeless (getM >>= k) := by
  rintro s _ ⟨c, rfl⟩; exact hk s c

theorem timeless_modify (g : Machine D → Machine D) (hg : ∀ s c, Later (g s) (g { s with cycles := c })) :
    Timeless (modifyM g) := by
  rintro s _ ⟨c, rfl⟩; exact ⟨rfl, hg s c⟩

theorem timeless_modRegs (g : Regs → Regs) : Timeless (modRegs g : M D Unit) := by
  rintro s _ ⟨c, rfl⟩; exact ⟨rfl, c, rfl⟩

theorem timeless_lift (r : Res α) : Timeless (liftRes r : M D α) := by
  intro s t h
  cases r with
  | none => trivial
  | some a => exact ⟨rfl, h⟩

theorem timeless_ite {c : Prop} [Decidable c] {m n : M D α} (h1 : Timeless m) (h2 : Timeless n) :
    Timeless (if c then m else n) := by split <;> assumption

theorem timeless_readReg (code : U8) : Timeless (readReg code : M D Word) := by
  rintro s _ ⟨c, rfl⟩
  unfold readReg
  show OutLater (if 0x18#8 ≤ code ∧ s.svMode = false then _ else _) (if 0x18#8 ≤ code ∧ s.svMode = false then _ else _)
  split
  · exact ⟨c, rfl⟩
  · show OutLater (match s.regs.read code with | some w => _ | none => _) (match s.regs.read code with | some w => _ | none => _)
    cases s.regs.read code with
    | none => exact ⟨c, rfl⟩
    | some w => exact ⟨rfl, c, rfl⟩

theorem timeless_writeReg (code : U8) (w : Word) : Timeless (writeReg code w : M D Unit) := by
  rintro s _ ⟨c, rfl⟩
  unfold writeReg
  show OutLater (if 0x17#8 ≤ code ∧ s.svMode = false then _ else _) (if 0x17#8 ≤ code ∧ s.svMode = false then _ else _)
  split
  · exact ⟨c, rfl⟩
  · split
    · exact ⟨c, rfl⟩
    · by_cases h16 : code = 0x16#8
      · rw [if_pos h16, if_pos h16]
        show OutLater (match s.regs.write code w with | some r => _ | none => _) (match s.regs.write code w with | some r => _ | none => _)
        cases s.regs.write code w with
        | none => exact ⟨c, rfl⟩
        | some r => exact ⟨rfl, c, rfl⟩
      · rw [if_neg h16, if_neg h16]
        show OutLater (match s.regs.write code w with | some r => _ | none => _) (match s.regs.write code w with | some r => _ | none => _)
        cases s.regs.write code w with
        | none => exact ⟨c, rfl⟩
        | some r => exact ⟨rfl, c, rfl⟩

theorem outLater_acc {s t : Machine D} (hs : Later s t) (a : Acc D α) : OutLater (a.toOut s) (a.toOut t) := by
  obtain ⟨c, rfl⟩ := hs
  cases a with
  | done a devs => exact ⟨rfl, c, rfl⟩
  | fault k d devs => exact ⟨c, rfl⟩
  | panic => trivial

theorem timeless_cpuRead (v : Word) : Timeless (cpuRead pf v : M D Word) := by
  rintro s _ ⟨c, rfl⟩
  rw [cpuRead_eq, cpuRead_eq]
  exact outLater_acc ⟨c, rfl⟩ _

theorem timeless_cpuExec (v : Word) : Timeless (cpuExec pf v : M D Word) := by
  rintro s _ ⟨c, rfl⟩
  rw [cpuExec_eq, cpuExec_eq]
  exact outLater_acc ⟨c, rfl⟩ _

theorem timeless_cpuWrite (v w : Word) : Timeless (cpuWrite pf v w : M D Unit) := by
  rintro s _ ⟨c, rfl⟩
  rw [cpuWrite_eq, cpuWrite_eq]
  exact outLater_acc ⟨c, rfl⟩ _

theorem timeless_rol1 (b : Bool) (p : U8) : Timeless (regOrLit1 b p : M D Word) := by
  cases b
  · exact timeless_pure _
  · exact timeless_readReg p

theorem timeless_rol2 (b : Bool) (p q : U8) : Timeless (regOrLit2 b p q : M D Word) := by
  cases b
  · exact timeless_pure _
  · exact timeless_readReg p

theorem timeless_compute (a b : Word) (op : Op) : Timeless (compute a b op : M D Word) := by
  unfold compute
  split
  · exact timeless_raise _ _
  · exact timeless_bind (timeless_modRegs _) fun _ => timeless_pure _

theorem timeless_hwInfo (info : Word) (id : Nat) : Timeless (getHwInfo pf info id : M D Word) := by
  rintro s _ ⟨c, rfl⟩
  unfold getHwInfo
  rw [show ({ s with cycles := c } : Machine D).getMapping id = s.getMapping id from rfl]
  generalize s.getMapping id = g
  show OutLater (match s.hwbCache[id]? with | none => _ | some cache => _) (match s.hwbCache[id]? with | none => _ | some cache => _)
  cases s.hwbCache[id]? with
  | none => exact ⟨c, rfl⟩
  | some cache =>
    dsimp only
    generalize info.toNat = n
    split
    all_goals first
      | exact ⟨rfl, c, rfl⟩
      | skip
    · cases g with
      | none => exact ⟨c, rfl⟩
      | some m => exact ⟨rfl, c, rfl⟩
    · cases g with
      | none => exact ⟨c, rfl⟩
      | some m => exact timeless_lift _ _ _ ⟨c, rfl⟩
    · split
      · exact ⟨rfl, c, rfl⟩
      · exact ⟨c, rfl⟩

theorem timeless_setSp (v : Word) : Timeless (setSp v : M D Unit) := by
  refine timeless_modify _ fun s c => ?_
  rw [show ({ s with cycles := c } : Machine D).svMode = s.svMode from rfl]
  split <;> exact ⟨c, rfl⟩

theorem timeless_skip : Timeless (skipNext : M D Unit) := timeless_modRegs _

theorem timeless_pc (g : Regs → Word) :
    Timeless (modifyM (fun s => { s with regs := { s.regs with pc := g s.regs }, changedPc := true }) : M D Unit) :=
  timeless_modify _ fun _ c => ⟨c, rfl⟩

theorem timeless_resetDevs (k : Nat) : Timeless (resetDevs k : M D Unit) := by
  unfold resetDevs
  refine timeless_get fun s c => ?_
  dsimp only
  split
  · exact timeless_bind (timeless_lift _) (fun _ => timeless_modify _ fun _ c => ⟨c, rfl⟩) _ _ ⟨c, rfl⟩
  · refine timeless_bind (timeless_lift _) (fun o => ?_) _ _ ⟨c, rfl⟩
    cases o with
    | none => exact timeless_raise _ _
    | some devs => exact timeless_modify _ fun _ c => ⟨c, rfl⟩
  · exact timeless_bind (timeless_lift _) (fun _ => timeless_modify _ fun _ c => ⟨c, rfl⟩) _ _ ⟨c, rfl⟩
  · exact timeless_bind (timeless_lift _) (fun _ => timeless_modify _ fun _ c => ⟨c, rfl⟩) _ _ ⟨c, rfl⟩
  · exact timeless_bind (timeless_lift _) (fun _ => timeless_modify _ fun _ c => ⟨c, rfl⟩) _ _ ⟨c, rfl⟩
  · exact ⟨rfl, c, rfl⟩

/-- Every instruction but CYCLES ignores the cycle count. -/
theorem timeless_runInstr (f : Fields) (hlt : f.opcode.toNat < 32) (h1D : f.opcode.toNat ≠ 0x1D) :
    Timeless (runInstr pf f : M D Unit) := by
  have alu : Timeless (execAlu f : M D Unit) :=
    timeless_bind (timeless_rol2 _ _ _) fun _ => timeless_bind (timeless_readReg _) fun _ => timeless_bind (timeless_compute _ _ _) fun _ =>
      timeless_writeReg _ _
  have div : ∀ mk, Timeless (execDiv mk f : M D Unit) := fun mk =>
    timeless_bind (timeless_rol1 _ _) fun _ => timeless_bind (timeless_rol1 _ _) fun _ => timeless_bind (timeless_readReg _) fun _ =>
      timeless_bind (timeless_compute _ _ _) fun _ => timeless_writeReg _ _
  have cond : ∀ b, Timeless (execIf b f : M D Unit) := fun b => by
    refine timeless_bind (timeless_rol1 _ _) fun v => timeless_ite (timeless_raise _ _) (timeless_get fun s c => ?_)
    exact timeless_ite timeless_skip (timeless_pure _) _ _ ⟨c, rfl⟩
  unfold runInstr
  split
  · exact timeless_raise _ _
  · exact timeless_bind (timeless_rol2 _ _ _) fun _ => timeless_writeReg _ _
  · exact timeless_bind (timeless_readReg _) fun _ => timeless_bind (timeless_readReg _) fun _ => timeless_bind (timeless_writeReg _ _)
      fun _ => timeless_writeReg _ _
  all_goals first
    | exact alu
    | exact div _
    | exact cond _
    | skip
  · exact timeless_bind (timeless_rol2 _ _ _) fun _ => timeless_bind (timeless_readReg _) fun _ => timeless_bind (timeless_compute _ _ _)
      fun _ => timeless_pure _
  · exact timeless_bind (timeless_rol2 _ _ _) fun _ => timeless_pc (fun r => r.pc + _)
  · -- LSM
    refine timeless_bind (timeless_gets _ fun _ _ => rfl) fun sv => ?_
    cases sv
    · exact timeless_raise _ _
    · exact timeless_bind (timeless_rol2 _ _ _) fun _ => timeless_bind (timeless_modRegs _) fun _ => timeless_modRegs _
  · -- ITR
    exact timeless_bind (timeless_rol1 _ _) fun _ => timeless_modify _ fun _ c => ⟨c, rfl⟩
  · -- IF2
    refine timeless_bind (timeless_rol1 _ _) fun a => timeless_bind (timeless_rol1 _ _) fun b => timeless_bind (timeless_rol1 _ _) fun c =>
      timeless_get fun s k => ?_
    show OutLater ((liftRes (flagTest pf s.regs.af a) >>= fun x => _) s) ((liftRes (flagTest pf s.regs.af a) >>= fun x => _) _)
    refine timeless_bind (timeless_lift _) (fun x => timeless_bind (timeless_lift _) fun y => ?_) _ _ ⟨k, rfl⟩
    cases if2Cond c x y with
    | none => exact timeless_raise _ _
    | some r => exact timeless_ite timeless_skip (timeless_pure _)
  · exact timeless_bind (timeless_rol1 _ _) fun _ => timeless_bind (timeless_rol1 _ _) fun _ => timeless_bind (timeless_cpuRead _) fun _ =>
      timeless_writeReg _ _
  · exact timeless_bind (timeless_rol1 _ _) fun _ => timeless_bind (timeless_rol1 _ _) fun _ => timeless_bind (timeless_rol1 _ _) fun _ =>
      timeless_bind (timeless_cpuRead _) fun _ => timeless_modRegs _
  · exact timeless_bind (timeless_rol1 _ _) fun _ => timeless_bind (timeless_rol1 _ _) fun _ => timeless_bind (timeless_rol1 _ _) fun _ =>
      timeless_cpuWrite _ _
  · exact timeless_bind (timeless_rol1 _ _) fun _ => timeless_bind (timeless_rol1 _ _) fun _ => timeless_bind (timeless_rol1 _ _) fun _ =>
      timeless_bind (timeless_gets _ fun _ _ => rfl) fun _ => timeless_cpuWrite _ _
  · exact timeless_bind (timeless_rol1 _ _) fun _ => timeless_bind (timeless_rol1 _ _) fun _ => timeless_bind (timeless_lift _) fun _ =>
      timeless_bind (timeless_cpuRead _) fun _ => timeless_bind (timeless_readReg _) fun _ => timeless_bind (timeless_lift _) fun _ =>
      timeless_bind (timeless_cpuWrite _ _) fun _ => timeless_writeReg _ _
  · exact timeless_bind (timeless_rol2 _ _ _) fun _ => timeless_bind (timeless_gets _ fun _ _ => rfl) fun _ =>
      timeless_bind (timeless_cpuWrite _ _) fun _ => timeless_setSp _
  · -- POP
    refine timeless_bind (m := (getsM (·.svMode) >>= fun sv => if sv then _ else _)) ?_ fun _ => timeless_writeReg _ _
    refine timeless_bind (timeless_gets _ fun _ _ => rfl) fun sv => timeless_ite ?_ ?_ <;>
    exact timeless_bind (timeless_gets _ fun _ _ => rfl) fun _ => timeless_bind (timeless_cpuRead _) fun _ =>
        timeless_bind (timeless_modRegs _) fun _ => timeless_pure _
  · exact timeless_bind (timeless_rol2 _ _ _) fun _ => timeless_bind (timeless_gets _ fun _ _ => rfl) fun _ =>
      timeless_bind (timeless_gets _ fun _ _ => rfl) fun _ => timeless_bind (timeless_lift _) fun _ =>
      timeless_bind (timeless_cpuWrite _ _) fun _ => timeless_bind (timeless_setSp _) fun _ => timeless_pc (fun _ => _)
  · refine timeless_bind (timeless_rol1 _ _) fun _ => timeless_bind (timeless_rol1 _ _) fun _ => timeless_ite ?_ ?_
    · exact timeless_bind (timeless_gets _ fun _ _ => rfl) fun _ => timeless_writeReg _ _
    · exact timeless_bind (timeless_hwInfo _ _) fun _ => timeless_writeReg _ _
  · next e => exact absurd e h1D
  · exact timeless_modify _ fun s c => ⟨c, rfl⟩
  · refine timeless_bind (timeless_rol1 _ _) fun m => timeless_bind (timeless_resetDevs _) fun _ => timeless_ite ?_ (timeless_pure _)
    exact timeless_modify _ fun s c => ⟨0, rfl⟩
  · exfalso; simp only [imp_false] at *; omega

theorem execWord_later {s t : Machine D} {w : Word} (h : Later s t) (hc : opcode w ≠ 0x1D) :
    SameOutcomeButTime (execWord pf w s) (execWord pf w t) := by
  obtain ⟨c, rfl⟩ := h
  have key := timeless_runInstr (D := D) (pf := pf) (fieldsOf w)
    (by rw [fieldsOf_opcode]; unfold opcode; omega)
    (fun e => hc (by rw [← fieldsOf_opcode]; exact e))
    { s with changedPc := false } { s with cycles := c, changedPc := false } ⟨c, rfl⟩
  unfold execWord
  dsimp only
  generalize runInstr pf (fieldsOf w) { s with changedPc := false } = o1 at key ⊢
  generalize runInstr pf (fieldsOf w) { s with cycles := c, changedPc := false } = o2 at key ⊢
  cases o1 <;> cases o2 <;> try exact key.elim
  · obtain ⟨-, k, rfl⟩ := key
    dsimp only
    split <;> exact ⟨rfl, rfl, rfl, rfl, rfl, rfl⟩
  · obtain ⟨k, rfl⟩ := key
    exact ⟨rfl, rfl, rfl, rfl, rfl, rfl⟩
  · trivial

/-- One step of machines that differ by time only. -/
theorem next_sameButTime {s t : Machine D} (h : SameButTime s t)
    (hc : ∀ w devs, Fetches pf s w devs → opcode w ≠ 0x1D) : SameOutcomeButTime (next pf s) (next pf t) := by
  have ht : t = { s with cycles := t.cycles, changedPc := t.changedPc } := by
    cases s; cases t; obtain ⟨h1, h2, h3, h4, h5, h6⟩ := h
    simp only at h1 h2 h3 h4 h5 h6; subst h1 h2 h3 h4 h5 h6; rfl
  generalize t.cycles = c at ht
  generalize t.changedPc = b at ht
  subst ht
  unfold next
  dsimp only
  by_cases hh : s.halted = true
  · rw [if_pos hh, if_pos hh]
    exact ⟨rfl, rfl, rfl, rfl, rfl, rfl⟩
  · rw [if_neg hh, if_neg hh, cpuExec_eq, cpuExec_eq]
    dsimp only
    cases ha : accRead pf s.regs s.mappings s.devs s.regs.pc with
    | panic => trivial
    | fault k d devs => exact ⟨rfl, rfl, rfl, rfl, rfl, rfl⟩
    | done w devs =>
      have hf : Fetches pf s w devs := ⟨by simpa using hh, by rw [cpuExec_eq]; dsimp only; rw [ha]; rfl⟩
      have hw := hc w devs hf
      have e : execWord pf w ({ s with cycles := c + 1, changedPc := b, devs := devs } : Machine D) =
        execWord pf w { s with cycles := c + 1, devs := devs } := rfl
      show SameOutcomeButTime (execWord pf w { s with cycles := s.cycles + 1, devs := devs })
        (execWord pf w { s with cycles := c + 1, changedPc := b, devs := devs })
      rw [e]
      exact execWord_later ⟨c + 1, rfl⟩ hw

/-- The machine at another time. -/
def Machine.atTime (s : Machine D) (c : U128) (b : Bool) : Machine D := { s with cycles := c, changedPc := b }

theorem sameButTime_atTime (s : Machine D) (c : U128) (b : Bool) : SameButTime s (s.atTime c b) :=
  ⟨rfl, rfl, rfl, rfl, rfl, rfl⟩

theorem atTime_of {s t : Machine D} (h : SameButTime s t) : t = s.atTime t.cycles t.changedPc := by
  cases s; cases t; obtain ⟨h1, h2, h3, h4, h5, h6⟩ := h
  simp only at h1 h2 h3 h4 h5 h6; subst h1 h2 h3 h4 h5 h6; rfl

theorem internalMap_atTime (s : Machine D) (c : U128) (b : Bool) (start : Word) (stop? : Option Word) (id : Nat) :
    internalMap pf (s.atTime c b) start stop? id =
      (internalMap pf s start stop? id).map fun p => (p.1, p.2.atTime c b) := by
  rw [internalMap_eq, internalMap_eq]
  show (match s.memCache[id]? with | none => _ | some cache => _) = _
  cases s.memCache[id]? with
  | none => rfl
  | some cache =>
    dsimp only
    cases dfltEnd pf start cache.size with
    | none => rfl
    | some d =>
      dsimp only
      unfold mapDecide
      rw [show (s.atTime c b).mappings = s.mappings from rfl]
      repeat' split
      all_goals first
        | rfl
        | simp_all

theorem contigLoop_atTime (c : U128) (b : Bool) (ids : List Nat) : ∀ (acc : ContigAcc) (s : Machine D),
    contigLoop pf acc (s.atTime c b) ids = (contigLoop pf acc s ids).map fun p => (p.1, p.2.atTime c b) := by
  induction ids with
  | nil => intro acc s; rfl
  | cons id ids ih =>
    intro acc s
    have h1 : contigStep pf acc (s.atTime c b) id = (contigStep pf acc s id).map fun p => (p.1, p.2.atTime c b) := by
      unfold contigStep Lrvm.map
      rw [internalMap_atTime]
      cases internalMap pf s acc.lastAddr none id with
      | none => rfl
      | some p =>
        obtain ⟨r, u⟩ := p
        simp only [Option.map_some, Option.bind_eq_bind, Option.bind_some]
        have : ∀ x : Res ContigAcc, (x.bind fun acc' => match (u.atTime c b).memCache[id]? with
              | none => panicked
              | some cache => some ({ acc' with auxMapping := acc'.auxMapping ++ [(⟨id, cache.hwId, cache.name, r⟩ : AuxMappingStatus)] }, u.atTime c b)) =
            (x.bind fun acc' => match u.memCache[id]? with
              | none => panicked
              | some cache => some ({ acc' with auxMapping := acc'.auxMapping ++ [(⟨id, cache.hwId, cache.name, r⟩ : AuxMappingStatus)] }, u)).map
              fun p => (p.1, p.2.atTime c b) := by
          intro x
          cases x with
          | none => rfl
          | some a =>
            show (match u.memCache[id]? with | none => _ | some cache => _) = _
            simp only [Option.bind_some]
            cases u.memCache[id]? <;> rfl
        exact this _
    unfold contigLoop
    rw [h1]
    cases contigStep pf acc s id with
    | none => rfl
    | some p =>
      simp only [Option.map_some, Option.bind_eq_bind, Option.bind_some]
      exact ih _ _

theorem mapContiguous_atTime (s : Machine D) (c : U128) (b : Bool) (a : Word) (ids : List Nat) :
    mapContiguous pf (s.atTime c b) a ids = (mapContiguous pf s a ids).map fun p => (p.1, p.2.atTime c b) := by
  unfold mapContiguous
  rw [contigLoop_atTime]
  cases contigLoop pf ⟨[], [], a, a⟩ s ids <;> rfl

theorem sameOutcome_map {x : Res (α × Machine D)} {c : U128} {b : Bool} :
    SameOutcomeButTime (x.map (·.2)) ((x.map fun p => (p.1, p.2.atTime c b)).map (·.2)) := by
  cases x with
  | none => trivial
  | some p => exact sameButTime_atTime _ _ _

theorem hostStep_sameButTime {s t : Machine D} (h : SameButTime s t) (op : HostOp)
    (hc : op = .next → ∀ w devs, Fetches pf s w devs → opcode w ≠ 0x1D) :
    SameOutcomeButTime (hostStep pf s op) (hostStep pf t op) := by
  cases op with
  | next => exact next_sameButTime h (hc rfl)
  | cpuReset => rw [atTime_of h]; exact ⟨rfl, rfl, rfl, rfl, rfl, rfl⟩
  | setRegs f => rw [atTime_of h]; exact ⟨rfl, rfl, rfl, rfl, rfl, rfl⟩
  | map a i => rw [atTime_of h]; simp only [hostStep, Lrvm.map]; rw [internalMap_atTime]; exact sameOutcome_map
  | mapAbs a e i => rw [atTime_of h]; simp only [hostStep, Lrvm.mapAbs]; rw [internalMap_atTime]; exact sameOutcome_map
  | mapContiguous a is => rw [atTime_of h]; simp only [hostStep]; rw [mapContiguous_atTime]; exact sameOutcome_map
  | memRead a ex =>
    rw [atTime_of h]
    simp only [hostStep]
    rw [memRead_eq, memRead_eq]
    show SameOutcomeButTime ((devRead pf s.mappings s.devs a ex).map _ |>.map _) ((devRead pf s.mappings s.devs a ex).map _ |>.map _)
    cases devRead pf s.mappings s.devs a ex with
    | none => trivial
    | some p => exact ⟨rfl, rfl, rfl, rfl, rfl, rfl⟩
  | memWrite a w ex =>
    rw [atTime_of h]
    simp only [hostStep]
    rw [memWrite_eq, memWrite_eq]
    show SameOutcomeButTime ((devWrite pf s.mappings s.devs a w ex).map _ |>.map _) ((devWrite pf s.mappings s.devs a w ex).map _ |>.map _)
    cases devWrite pf s.mappings s.devs a w ex with
    | none => trivial
    | some p => exact ⟨rfl, rfl, rfl, rfl, rfl, rfl⟩
  | reset =>
    rw [atTime_of h]
    show SameOutcomeButTime (boardReset s) (boardReset _)
    unfold boardReset
    show SameOutcomeButTime (resetAll s.devs >>= _) (resetAll s.devs >>= _)
    cases resetAll s.devs with
    | none => trivial
    | some ds => exact ⟨rfl, rfl, rfl, rfl, rfl, rfl⟩

end Lrvm
