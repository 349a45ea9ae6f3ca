import Verif.Lemmas.Frame
import Verif.Lemmas.RegFile

/-!
# Two executions of the same userland program

Two machines that differ only in their components, when the components are related in a way userland accesses preserve, stay so
while they execute userland instructions other than RESET.
-/

namespace Lrvm

variable {D : Type} [Bus D] {pf : Profile}

/-- Both accesses panic, or end the same way with related components. -/
def accTwin (P : List D → List D → Prop) : Acc D α → Acc D α → Prop
  | .done a ds, .done b es => a = b ∧ P ds es
  | .fault c d ds, .fault c' d' es => c = c' ∧ d = d' ∧ P ds es
  | .panic, .panic => True
  | _, _ => False

/-- Userland accesses, with the MMU configured by `mtt` and `pda`, keep the relation `P` and do not distinguish related components. -/
structure Confined (pf : Profile) (maps : List Mapping) (mtt pda : Word) (P : List D → List D → Prop) : Prop where
  len : ∀ {ds es}, P ds es → ds.length = es.length
  read : ∀ {r : Regs} {ds es : List D} (v : Word), r.smt = 0 → r.mtt = mtt → r.pda = pda → P ds es →
    accTwin P (accRead pf r maps ds v) (accRead pf r maps es v)
  write : ∀ {r : Regs} {ds es : List D} (v w : Word), r.smt = 0 → r.mtt = mtt → r.pda = pda → P ds es →
    accTwin P (accWrite pf r maps ds v w) (accWrite pf r maps es v w)

/-- The machines differ only by their components, which are related. -/
structure Twin (P : List D → List D → Prop) (s t : Machine D) : Prop where
  regs : s.regs = t.regs
  hwb : s.hwbCache = t.hwbCache
  mem : s.memCache = t.memCache
  maps : s.mappings = t.mappings
  cycles : s.cycles = t.cycles
  halted : s.halted = t.halted
  changedPc : s.changedPc = t.changedPc
  devs : P s.devs t.devs

/-- The machine is in userland with the given memory configuration. -/
def InUser (maps : List Mapping) (mtt pda : Word) (s : Machine D) : Prop :=
  s.mappings = maps ∧ s.regs.smt = 0 ∧ s.regs.mtt = mtt ∧ s.regs.pda = pda

/-- Outcomes of the two executions. -/
def outTwin (P : List D → List D → Prop) (maps : List Mapping) (mtt pda : Word) : Out (Machine D) α → Out (Machine D) α → Prop
  | .ok a s, .ok b t => a = b ∧ Twin P s t ∧ InUser maps mtt pda s
  | .ex s, .ex t => Twin P s t
  | .panic, .panic => True
  | _, _ => False

/-- The action keeps two machines in userland twins. -/
def ActTwin (P : List D → List D → Prop) (maps : List Mapping) (mtt pda : Word) (m : M D α) : Prop :=
  ∀ s t, Twin P s t → InUser maps mtt pda s → outTwin P maps mtt pda (m s) (m t)

variable {P : List D → List D → Prop} {maps : List Mapping} {mtt pda : Word}

section
omit [Bus D]

theorem tw_pure (a : α) : ActTwin P maps mtt pda (pure a : M D α) := fun _ _ h hu => ⟨rfl, h, hu⟩

theorem tw_bind {m : M D α} {f : α → M D β} (h : ActTwin P maps mtt pda m)
    (hf : ∀ a, ActTwin P maps mtt pda (f a)) : ActTwin P maps mtt pda (m >>= f) := by
  intro s t hst hu
  show outTwin P maps mtt pda (M.bind m f s) (M.bind m f t)
  unfold M.bind
  have := h s t hst hu
  revert this
  cases m s <;> cases m t <;> intro h
  · obtain ⟨rfl, h, hu⟩ := h; exact hf _ _ _ h hu
  · exact h.elim
  · exact h.elim
  · exact h.elim
  · exact h
  · exact h.elim
  · exact h.elim
  · exact h.elim
  · trivial

theorem tw_getM {f : Machine D → M D β}
    (hf : ∀ s t, Twin P s t → InUser maps mtt pda s → outTwin P maps mtt pda (f s s) (f t t)) : ActTwin P maps mtt pda (getM >>= f) :=
  fun s t h hu => hf s t h hu

theorem tw_getsM {f : Machine D → α} (hf : ∀ s t, Twin P s t → f s = f t) :
    ActTwin P maps mtt pda (getsM f) := fun s t h hu => ⟨hf s t h, h, hu⟩

theorem tw_lift (r : Res α) : ActTwin P maps mtt pda (liftRes r : M D α) := by
  intro s t h hu
  cases r
  · trivial
  · exact ⟨rfl, h, hu⟩

theorem Twin.withRegs {s t : Machine D} (h : Twin P s t) (f : Regs → Regs) :
    Twin P { s with regs := f s.regs } { t with regs := f t.regs } :=
  ⟨by rw [h.regs], h.hwb, h.mem, h.maps, h.cycles, h.halted, h.changedPc, h.devs⟩

theorem tw_regs (f : Regs → Regs) (hf : ∀ r, (f r).smt = r.smt ∧ (f r).mtt = r.mtt ∧ (f r).pda = r.pda) :
    ActTwin P maps mtt pda (modRegs f : M D Unit) :=
  fun s _ h hu => ⟨rfl, h.withRegs f, hu.1, (hf s.regs).1.trans hu.2.1, (hf s.regs).2.1.trans hu.2.2.1,
    (hf s.regs).2.2.trans hu.2.2.2⟩

theorem Twin.exception {s t : Machine D} (h : Twin P s t) (c : U8) (d : U16) :
    Twin P (s.exception c d) (t.exception c d) :=
  ⟨by unfold Machine.exception Machine.svMode; simp only; rw [h.regs], h.hwb, h.mem, h.maps, h.cycles, h.halted, rfl, h.devs⟩

theorem tw_raise (c : U8) (d : U16) : ActTwin P maps mtt pda (raise c d : M D α) :=
  fun _ _ h _ => h.exception c d

theorem Twin.sv {s t : Machine D} (h : Twin P s t) : s.svMode = t.svMode := by
  unfold Machine.svMode; rw [h.regs]

theorem InUser.sv {s : Machine D} (h : InUser maps mtt pda s) : s.svMode = false := by
  unfold Machine.svMode; rw [h.2.1]; rfl

theorem tw_readReg (c : U8) : ActTwin P maps mtt pda (readReg c : M D Word) := by
  intro s t h hu
  unfold readReg
  rw [← h.sv]
  split
  · exact h.exception _ _
  · rw [← h.regs]
    cases s.regs.read c with
    | none => exact h.exception _ _
    | some w => exact ⟨rfl, h, hu⟩

theorem tw_writeReg (c : U8) (w : Word) : ActTwin P maps mtt pda (writeReg c w : M D Unit) := by
  intro s t h hu
  unfold writeReg
  rw [← h.sv]
  split
  · exact h.exception _ _
  next hc =>
  split
  · exact h.exception _ _
  have hlow : c.toNat < 0x17 := by
    rcases Decidable.not_and_iff_or_not.mp hc with h1 | h1
    · exact BitVec.not_le.mp h1
    · exact absurd hu.sv h1
  have h1 : Twin P (if c = 0x16#8 then { s with changedPc := true } else s)
      (if c = 0x16#8 then { t with changedPc := true } else t) := by
    split
    · exact ⟨h.regs, h.hwb, h.mem, h.maps, h.cycles, h.halted, rfl, h.devs⟩
    · exact h
  have hu1 : InUser maps mtt pda (if c = 0x16#8 then { s with changedPc := true } else s) := by
    split
    · exact hu
    · exact hu
  dsimp only
  rw [← h1.regs]
  split
  · next r hw =>
    refine ⟨rfl, ⟨rfl, h1.hwb, h1.mem, h1.maps, h1.cycles, h1.halted, h1.changedPc, h1.devs⟩, hu1.1, ?_⟩
    obtain ⟨hlt, hr⟩ := write_setReg hw
    subst hr
    have e1 := Spec.reg_setReg_ne (if c = 0x16#8 then { s with changedPc := true } else s).regs c.toNat 0x1F w hlt (by decide) (by omega)
    have e2 := Spec.reg_setReg_ne (if c = 0x16#8 then { s with changedPc := true } else s).regs c.toNat 0x1D w hlt (by decide) (by omega)
    have e3 := Spec.reg_setReg_ne (if c = 0x16#8 then { s with changedPc := true } else s).regs c.toNat 0x1E w hlt (by decide) (by omega)
    exact ⟨e1.trans hu1.2.1, e2.trans hu1.2.2.1, e3.trans hu1.2.2.2⟩
  · exact h1.exception _ _

theorem tw_compute (a b : Word) (op : Op) : ActTwin P maps mtt pda (compute a b op : M D Word) := by
  unfold compute
  split
  · exact tw_raise _ _
  · exact tw_bind (tw_regs _ fun _ => ⟨rfl, rfl, rfl⟩) fun _ => tw_pure _

theorem tw_lit1 (r : Bool) (p : U8) : ActTwin P maps mtt pda (regOrLit1 r p : M D Word) := by
  unfold regOrLit1
  split
  · exact tw_readReg _
  · exact tw_pure _

theorem tw_lit2 (r : Bool) (p q : U8) : ActTwin P maps mtt pda (regOrLit2 r p q : M D Word) := by
  unfold regOrLit2
  split
  · exact tw_readReg _
  · exact tw_pure _

theorem tw_hwInfo (i : Word) (id : Nat) : ActTwin P maps mtt pda (getHwInfo pf i id : M D Word) := by
  intro s t h hu
  have hm : t.getMapping id = s.getMapping id := by unfold Machine.getMapping; rw [h.maps]
  unfold getHwInfo
  rw [← h.hwb, hm]
  split
  · exact h.exception _ _
  · dsimp only
    split
    all_goals first
      | exact ⟨rfl, h, hu⟩
      | skip
    · split
      · exact h.exception _ _
      · exact ⟨rfl, h, hu⟩
    · split
      · exact h.exception _ _
      · exact tw_lift _ _ _ h hu
    · split
      · exact ⟨rfl, h, hu⟩
      · exact h.exception _ _

theorem Twin.withDevs {s t : Machine D} (h : Twin P s t) {ds es : List D}
    (hd : P ds es) : Twin P { s with devs := ds } { t with devs := es } :=
  ⟨h.regs, h.hwb, h.mem, h.maps, h.cycles, h.halted, h.changedPc, hd⟩

theorem tw_acc {s t : Machine D} (h : Twin P s t) (hu : InUser maps mtt pda s) {x y : Acc D α} (ha : accTwin P x y) :
    outTwin P maps mtt pda (x.toOut s) (y.toOut t) := by
  cases x <;> cases y
  all_goals first | exact ha.elim | skip
  · exact ⟨ha.1, h.withDevs ha.2, hu⟩
  · obtain ⟨rfl, rfl, hp⟩ := ha
    exact (h.withDevs hp).exception _ _
  · trivial

theorem tw_setSp (v : Word) : ActTwin P maps mtt pda (setSp v : M D Unit) := by
  intro s t h hu
  have hs : (setSp v : M D Unit) s = .ok () { s with regs := { s.regs with usp := v } } := by
    show Out.ok () (if s.svMode then _ else _) = _
    rw [hu.sv]; rfl
  have ht : (setSp v : M D Unit) t = .ok () { t with regs := { t.regs with usp := v } } := by
    show Out.ok () (if t.svMode then _ else _) = _
    rw [← h.sv, hu.sv]; rfl
  rw [hs, ht]
  exact ⟨rfl, h.withRegs fun r => { r with usp := v }, hu⟩

end

theorem tw_read (hi : Confined pf maps mtt pda P) (v : Word) : ActTwin P maps mtt pda (cpuRead pf v : M D Word) := by
  intro s t h hu
  rw [cpuRead_eq, cpuRead_eq, ← h.regs, ← h.maps, hu.1]
  exact tw_acc h hu (hi.read v hu.2.1 hu.2.2.1 hu.2.2.2 h.devs)

theorem tw_exec (hi : Confined pf maps mtt pda P) (v : Word) : ActTwin P maps mtt pda (cpuExec pf v : M D Word) := by
  intro s t h hu
  rw [cpuExec_eq, cpuExec_eq, ← h.regs, ← h.maps, hu.1]
  exact tw_acc h hu (hi.read v hu.2.1 hu.2.2.1 hu.2.2.2 h.devs)

theorem tw_write (hi : Confined pf maps mtt pda P) (v w : Word) : ActTwin P maps mtt pda (cpuWrite pf v w : M D Unit) := by
  intro s t h hu
  rw [cpuWrite_eq, cpuWrite_eq, ← h.regs, ← h.maps, hu.1]
  exact tw_acc h hu (hi.write v w hu.2.1 hu.2.2.1 hu.2.2.2 h.devs)

/-- Outcomes of an instruction: as `outTwin`, but the mode may have changed. -/
def endTwin (P : List D → List D → Prop) : Out (Machine D) α → Out (Machine D) α → Prop
  | .ok a s, .ok b t => a = b ∧ Twin P s t
  | .ex s, .ex t => Twin P s t
  | .panic, .panic => True
  | _, _ => False

omit [Bus D] in
theorem ActTwin.ends {m : M D α} (h : ActTwin P maps mtt pda m) {s t : Machine D} (hst : Twin P s t) (hu : InUser maps mtt pda s) :
    endTwin P (m s) (m t) := by
  have := h s t hst hu
  revert this
  cases m s <;> cases m t <;> intro h
  all_goals first | exact h.elim | exact ⟨h.1, h.2.1⟩ | exact h

theorem tw_runInstr (hi : Confined pf maps mtt pda P) (f : Fields) (h31 : f.opcode.toNat ≠ 0x1F) {s t : Machine D}
    (hst : Twin P s t) (hu : InUser maps mtt pda s) :
    endTwin P (runInstr pf f s) (runInstr pf f t) := by
  have alu : ActTwin P maps mtt pda (execAlu f : M D Unit) :=
    tw_bind (tw_lit2 _ _ _) fun _ => tw_bind (tw_readReg _) fun _ => tw_bind (tw_compute _ _ _) fun _ => tw_writeReg _ _
  have div : ∀ mk, ActTwin P maps mtt pda (execDiv mk f : M D Unit) := fun mk =>
    tw_bind (tw_lit1 _ _) fun _ => tw_bind (tw_lit1 _ _) fun _ => tw_bind (tw_readReg _) fun _ =>
      tw_bind (tw_compute _ _ _) fun _ => tw_writeReg _ _
  have skip : ActTwin P maps mtt pda (skipNext : M D Unit) := tw_regs _ fun _ => ⟨rfl, rfl, rfl⟩
  have cond : ∀ b, ActTwin P maps mtt pda (execIf b f : M D Unit) := fun b => by
    refine tw_bind (tw_lit1 _ _) fun flag => ?_
    split
    · exact tw_raise _ _
    · refine tw_getM fun s t h hu => ?_
      rw [← h.regs]
      have key : ∀ c : Bool, ActTwin P maps mtt pda (if c = true then skipNext else pure () : M D Unit) := by
        intro c
        cases c
        · exact tw_pure _
        · exact skip
      exact key _ s t h hu
  have cpy : ActTwin P maps mtt pda (execCpy f : M D Unit) :=
    tw_bind (tw_lit2 _ _ _) fun _ => tw_writeReg _ _
  have ex : ActTwin P maps mtt pda (execEx f : M D Unit) :=
    tw_bind (tw_readReg _) fun _ => tw_bind (tw_readReg _) fun _ => tw_bind (tw_writeReg _ _) fun _ => tw_writeReg _ _
  have cmp : ActTwin P maps mtt pda (execCmp f : M D Unit) :=
    tw_bind (tw_lit2 _ _ _) fun _ => tw_bind (tw_readReg _) fun _ => tw_bind (tw_compute _ _ _) fun _ => tw_pure _
  have jpr : ActTwin P maps mtt pda (execJpr f : M D Unit) :=
    tw_bind (tw_lit2 _ _ _) fun v => fun s t h hu =>
      ⟨rfl, ⟨by simp only; rw [h.regs], h.hwb, h.mem, h.maps, h.cycles, h.halted, rfl, h.devs⟩, hu⟩
  have lsm : ActTwin P maps mtt pda (execLsm f : M D Unit) := by
    intro s t h hu
    unfold execLsm
    rw [getsM_bind, getsM_bind, ← h.sv, hu.sv]
    exact h.exception _ _
  have if2 : ActTwin P maps mtt pda (execIf2 pf f : M D Unit) := by
    refine tw_bind (tw_lit1 _ _) fun _ => tw_bind (tw_lit1 _ _) fun _ => tw_bind (tw_lit1 _ _) fun _ => ?_
    refine tw_getM fun s t h hu => ?_
    rw [← h.regs]
    refine tw_bind (tw_lift _) (fun _ => tw_bind (tw_lift _) fun _ => ?_) _ _ h hu
    split
    · exact tw_raise _ _
    · split
      · exact skip
      · exact tw_pure _
  have lsa : ActTwin P maps mtt pda (execLsa pf f : M D Unit) :=
    tw_bind (tw_lit1 _ _) fun _ => tw_bind (tw_lit1 _ _) fun _ => tw_bind (tw_read hi _) fun _ => tw_writeReg _ _
  have lea : ActTwin P maps mtt pda (execLea pf f : M D Unit) :=
    tw_bind (tw_lit1 _ _) fun _ => tw_bind (tw_lit1 _ _) fun _ => tw_bind (tw_lit1 _ _) fun _ =>
      tw_bind (tw_read hi _) fun _ => tw_regs _ fun _ => ⟨rfl, rfl, rfl⟩
  have wsa : ActTwin P maps mtt pda (execWsa pf f : M D Unit) :=
    tw_bind (tw_lit1 _ _) fun _ => tw_bind (tw_lit1 _ _) fun _ => tw_bind (tw_lit1 _ _) fun _ => tw_write hi _ _
  have wea : ActTwin P maps mtt pda (execWea pf f : M D Unit) :=
    tw_bind (tw_lit1 _ _) fun _ => tw_bind (tw_lit1 _ _) fun _ => tw_bind (tw_lit1 _ _) fun _ =>
      tw_bind (tw_getsM fun s t h => by rw [h.regs]) fun _ => tw_write hi _ _
  have srm : ActTwin P maps mtt pda (execSrm pf f : M D Unit) :=
    tw_bind (tw_lit1 _ _) fun _ => tw_bind (tw_lit1 _ _) fun _ => tw_bind (tw_lift _) fun _ =>
      tw_bind (tw_read hi _) fun _ => tw_bind (tw_readReg _) fun _ => tw_bind (tw_lift _) fun _ =>
      tw_bind (tw_write hi _ _) fun _ => tw_writeReg _ _
  have getSp : ActTwin P maps mtt pda (getsM (·.sp) : M D Word) :=
    tw_getsM fun s t h => by unfold Machine.sp; rw [h.sv, h.regs]
  have push : ActTwin P maps mtt pda (execPush pf f : M D Unit) :=
    tw_bind (tw_lit2 _ _ _) fun _ => tw_bind getSp fun _ => tw_bind (tw_write hi _ _) fun _ => tw_setSp _
  have pop : ActTwin P maps mtt pda (execPop pf f : M D Unit) := by
    refine tw_bind (tw_getsM fun s t h => h.sv) fun sv => ?_
    refine tw_bind ?_ fun _ => tw_writeReg _ _
    split
    · exact tw_bind (tw_getsM fun s t h => by rw [h.regs]) fun _ => tw_bind (tw_read hi _) fun _ =>
        tw_bind (tw_regs _ fun _ => ⟨rfl, rfl, rfl⟩) fun _ => tw_pure _
    · exact tw_bind (tw_getsM fun s t h => by rw [h.regs]) fun _ => tw_bind (tw_read hi _) fun _ =>
        tw_bind (tw_regs _ fun _ => ⟨rfl, rfl, rfl⟩) fun _ => tw_pure _
  have call : ActTwin P maps mtt pda (execCall pf f : M D Unit) :=
    tw_bind (tw_lit2 _ _ _) fun _ => tw_bind getSp fun _ => tw_bind (tw_getsM fun s t h => by rw [h.regs]) fun _ =>
      tw_bind (tw_lift _) fun _ => tw_bind (tw_write hi _ _) fun _ => tw_bind (tw_setSp _) fun _ =>
      fun s t h hu =>
        ⟨rfl, ⟨by simp only; rw [h.regs], h.hwb, h.mem, h.maps, h.cycles, h.halted, rfl, h.devs⟩, hu⟩
  have hwd : ActTwin P maps mtt pda (execHwd pf f : M D Unit) := by
    refine tw_bind (tw_lit1 _ _) fun _ => tw_bind (tw_lit1 _ _) fun _ => ?_
    split
    · exact tw_bind (tw_getsM fun s t h => by show s.devs.length = t.devs.length; exact hi.len h.devs) fun _ => tw_writeReg _ _
    · exact tw_bind (tw_hwInfo _ _) fun _ => tw_writeReg _ _
  have cyc : ActTwin P maps mtt pda (execCycles f : M D Unit) :=
    tw_bind (tw_getsM fun s t h => h.cycles) fun _ => tw_writeReg _ _
  have halt : ActTwin P maps mtt pda (execHalt : M D Unit) :=
    fun s t h hu => ⟨rfl, ⟨h.regs, h.hwb, h.mem, h.maps, h.cycles, rfl, h.changedPc, h.devs⟩, hu⟩
  have itr : endTwin P (execItr f s) (execItr f t) := by
    have := tw_lit1 (P := P) (maps := maps) (mtt := mtt) (pda := pda) f.r0 f.p0 s t hst hu
    show endTwin P (M.bind _ _ s) (M.bind _ _ t)
    unfold M.bind
    revert this
    cases (regOrLit1 f.r0 f.p0 : M D Word) s <;> cases (regOrLit1 f.r0 f.p0 : M D Word) t <;> intro h
    all_goals first | exact h.elim | skip
    · obtain ⟨rfl, h, _⟩ := h
      exact ⟨rfl, h.exception _ _⟩
    · exact h
    · trivial
  unfold runInstr
  revert h31
  generalize f.opcode.toNat = n
  intro h31
  match n with
  | 0 => exact (tw_raise _ _).ends hst hu
  | 1 => exact cpy.ends hst hu
  | 2 => exact ex.ends hst hu
  | 3 => exact alu.ends hst hu
  | 4 => exact alu.ends hst hu
  | 5 => exact alu.ends hst hu
  | 6 => exact (div _).ends hst hu
  | 7 => exact (div _).ends hst hu
  | 8 => exact alu.ends hst hu
  | 9 => exact alu.ends hst hu
  | 10 => exact alu.ends hst hu
  | 11 => exact alu.ends hst hu
  | 12 => exact alu.ends hst hu
  | 13 => exact cmp.ends hst hu
  | 14 => exact jpr.ends hst hu
  | 15 => exact lsm.ends hst hu
  | 16 => exact itr
  | 17 => exact (cond _).ends hst hu
  | 18 => exact (cond _).ends hst hu
  | 19 => exact if2.ends hst hu
  | 20 => exact lsa.ends hst hu
  | 21 => exact lea.ends hst hu
  | 22 => exact wsa.ends hst hu
  | 23 => exact wea.ends hst hu
  | 24 => exact srm.ends hst hu
  | 25 => exact push.ends hst hu
  | 26 => exact pop.ends hst hu
  | 27 => exact call.ends hst hu
  | 28 => exact hwd.ends hst hu
  | 29 => exact cyc.ends hst hu
  | 30 => exact halt.ends hst hu
  | 31 => exact absurd rfl h31
  | _ + 32 => trivial

/-- One step of the two machines. -/
theorem next_twin (hi : Confined pf maps mtt pda P) {s t : Machine D} (h : Twin P s t) (hu : InUser maps mtt pda s)
    (hr : ∀ w devs, Spec.Fetches pf s w devs → Spec.opcode w ≠ 0x1F) :
    (next pf s = none ∧ next pf t = none) ∨ ∃ s' t', next pf s = some s' ∧ next pf t = some t' ∧ Twin P s' t' := by
  by_cases hh : s.halted = true
  · right
    refine ⟨s, t, ?_, ?_, h⟩
    · unfold next; rw [if_pos hh]
    · unfold next; rw [if_pos (h.halted ▸ hh)]
  · have h1 : Twin P { s with cycles := s.cycles + 1 } { t with cycles := t.cycles + 1 } :=
      ⟨h.regs, h.hwb, h.mem, h.maps, by simp only; rw [h.cycles], h.halted, h.changedPc, h.devs⟩
    have h2 := tw_exec (pf := pf) hi s.regs.pc _ _ h1 hu
    have key : ∀ (x y : Out (Machine D) Word), cpuExec pf s.regs.pc { s with cycles := s.cycles + 1 } = x →
        outTwin P maps mtt pda x y →
        ((match x with
          | .panic => none
          | .ex s => some s
          | .ok w s => execWord pf w s) = none ∧
         (match y with
          | .panic => none
          | .ex s => some s
          | .ok w s => execWord pf w s) = none) ∨ ∃ s' t',
        (match x with
          | .panic => none
          | .ex s => some s
          | .ok w s => execWord pf w s) = some s' ∧
        (match y with
          | .panic => none
          | .ex s => some s
          | .ok w s => execWord pf w s) = some t' ∧ Twin P s' t' := by
      intro x y hx h2
      cases x <;> cases y
      all_goals first | exact h2.elim | skip
      · next w s1 _ t1 =>
        obtain ⟨rfl, h2, hu2⟩ := h2
        have hop : (fieldsOf w).opcode.toNat ≠ 0x1F := by
          rw [fieldsOf_opcode]
          refine hr w s1.devs ⟨by simpa using hh, ?_⟩
          rw [hx]
          rw [cpuExec_eq] at hx
          obtain ⟨d, h3, h4⟩ := toOut_ok hx
          rw [h4]
        have h3 := tw_runInstr (pf := pf) hi (fieldsOf w) hop (s := { s1 with changedPc := false }) (t := { t1 with changedPc := false })
          ⟨h2.regs, h2.hwb, h2.mem, h2.maps, h2.cycles, h2.halted, rfl, h2.devs⟩ hu2
        have key2 : ∀ (x y : Out (Machine D) Unit), endTwin P x y →
            ((match x with
              | .panic => (none : Res (Machine D))
              | .ex s => some s
              | .ok () s => if s.changedPc then some s else some { s with regs := { s.regs with pc := s.regs.pc + 4 } }) = none ∧
             (match y with
              | .panic => (none : Res (Machine D))
              | .ex s => some s
              | .ok () s => if s.changedPc then some s else some { s with regs := { s.regs with pc := s.regs.pc + 4 } }) = none) ∨
            ∃ s' t', (match x with
              | .panic => (none : Res (Machine D))
              | .ex s => some s
              | .ok () s => if s.changedPc then some s else some { s with regs := { s.regs with pc := s.regs.pc + 4 } }) = some s' ∧
             (match y with
              | .panic => (none : Res (Machine D))
              | .ex s => some s
              | .ok () s => if s.changedPc then some s else some { s with regs := { s.regs with pc := s.regs.pc + 4 } }) = some t' ∧
             Twin P s' t' := by
          intro x y h4
          cases x <;> cases y
          all_goals first | exact h4.elim | skip
          · obtain ⟨_, h4⟩ := h4
            dsimp only
            rw [← h4.changedPc]
            right
            split
            · exact ⟨_, _, rfl, rfl, h4⟩
            · exact ⟨_, _, rfl, rfl, by simp only; rw [h4.regs], h4.hwb, h4.mem, h4.maps, h4.cycles, h4.halted, rfl, h4.devs⟩
          · exact .inr ⟨_, _, rfl, rfl, h4⟩
          · exact .inl ⟨rfl, rfl⟩
        exact key2 _ _ h3
      · exact .inr ⟨_, _, rfl, rfl, h2⟩
      · exact .inl ⟨rfl, rfl⟩
    unfold next
    rw [if_neg hh, if_neg (h.halted ▸ hh)]
    refine key _ _ rfl ?_
    show outTwin P maps mtt pda (cpuExec pf s.regs.pc _) (cpuExec pf t.regs.pc _)
    rw [show t.regs.pc = s.regs.pc by rw [h.regs]]
    exact h2

end Lrvm
