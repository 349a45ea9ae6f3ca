import Verif.Lemmas.Confine
import Verif.Lemmas.Table
import Verif.Spec.Wiring

/-!
# Two machines whose memories behave alike

As `Lemmas/Confine`, for two machines with different mapping tables, in any mode, but without HWD and RESET.
-/

namespace Lrvm

open Spec

variable {D : Type} [Bus D] {pf : Profile}

/-- Both accesses panic, or give the same answer with related components. -/
def resLinked (P : List D → List D → Prop) : Res (α × List D) → Res (α × List D) → Prop
  | some (a, ds), some (b, es) => a = b ∧ P ds es
  | none, none => True
  | _, _ => False

/-- As `resLinked`, with the exception variable. -/
def resLinked3 (P : List D → List D → Prop) : Res (α × U16 × List D) → Res (α × U16 × List D) → Prop
  | some (a, x, ds), some (b, y, es) => a = b ∧ x = y ∧ P ds es
  | none, none => True
  | _, _ => False

/-- Accesses keep the relation `P` and do not distinguish related components. -/
structure Linked (pf : Profile) (maps maps' : List Mapping) (P : List D → List D → Prop) : Prop where
  read : ∀ {r : Regs} {ds es : List D} (v : Word), P ds es →
    accTwin P (accRead pf r maps ds v) (accRead pf r maps' es v)
  write : ∀ {r : Regs} {ds es : List D} (v w : Word), P ds es →
    accTwin P (accWrite pf r maps ds v w) (accWrite pf r maps' es v w)

/-- The machines differ only by their components and mapping tables, which are related. -/
structure Peer (P : List D → List D → Prop) (maps maps' : List Mapping) (s t : Machine D) : Prop where
  regs : s.regs = t.regs
  maps : s.mappings = maps
  maps' : t.mappings = maps'
  cycles : s.cycles = t.cycles
  halted : s.halted = t.halted
  changedPc : s.changedPc = t.changedPc
  devs : P s.devs t.devs

/-- Outcomes of the two executions. -/
def outPeer (P : List D → List D → Prop) (maps maps' : List Mapping) : Out (Machine D) α → Out (Machine D) α → Prop
  | .ok a s, .ok b t => a = b ∧ Peer P maps maps' s t
  | .ex s, .ex t => Peer P maps maps' s t
  | .panic, .panic => True
  | _, _ => False

/-- The action keeps two machines peers. -/
def ActPeer (P : List D → List D → Prop) (maps maps' : List Mapping) (m : M D α) : Prop :=
  ∀ s t, Peer P maps maps' s t → outPeer P maps maps' (m s) (m t)

variable {P : List D → List D → Prop} {maps maps' : List Mapping}

section
omit [Bus D]

theorem pe_pure (a : α) : ActPeer P maps maps' (pure a : M D α) := fun _ _ h => ⟨rfl, h⟩

theorem pe_bind {m : M D α} {f : α → M D β} (h : ActPeer P maps maps' m)
    (hf : ∀ a, ActPeer P maps maps' (f a)) : ActPeer P maps maps' (m >>= f) := by
  intro s t hst
  show outPeer P maps maps' (M.bind m f s) (M.bind m f t)
  unfold M.bind
  have := h s t hst
  revert this
  cases m s <;> cases m t <;> intro h
  · obtain ⟨rfl, h⟩ := h; exact hf _ _ _ h
  · exact h.elim
  · exact h.elim
  · exact h.elim
  · exact h
  · exact h.elim
  · exact h.elim
  · exact h.elim
  · trivial

theorem pe_getM {f : Machine D → M D β} (hf : ∀ s t, Peer P maps maps' s t → outPeer P maps maps' (f s s) (f t t)) :
    ActPeer P maps maps' (getM >>= f) := fun s t h => hf s t h

theorem pe_getsM {f : Machine D → α} (hf : ∀ s t, Peer P maps maps' s t → f s = f t) :
    ActPeer P maps maps' (getsM f) := fun s t h => ⟨hf s t h, h⟩

theorem pe_lift (r : Res α) : ActPeer P maps maps' (liftRes r : M D α) := by
  intro s t h
  cases r
  · trivial
  · exact ⟨rfl, h⟩

theorem Peer.withRegs {s t : Machine D} (h : Peer P maps maps' s t) (f : Regs → Regs) :
    Peer P maps maps' { s with regs := f s.regs } { t with regs := f t.regs } :=
  ⟨by rw [h.regs], h.maps, h.maps', h.cycles, h.halted, h.changedPc, h.devs⟩

theorem pe_regs (f : Regs → Regs) : ActPeer P maps maps' (modRegs f : M D Unit) := fun _ _ h => ⟨rfl, h.withRegs f⟩

theorem Peer.exception {s t : Machine D} (h : Peer P maps maps' s t) (c : U8) (d : U16) :
    Peer P maps maps' (s.exception c d) (t.exception c d) :=
  ⟨by unfold Machine.exception Machine.svMode; simp only; rw [h.regs], h.maps, h.maps', h.cycles, h.halted, rfl, h.devs⟩

theorem pe_raise (c : U8) (d : U16) : ActPeer P maps maps' (raise c d : M D α) := fun _ _ h => h.exception c d

theorem Peer.sv {s t : Machine D} (h : Peer P maps maps' s t) : s.svMode = t.svMode := by
  unfold Machine.svMode; rw [h.regs]

theorem pe_readReg (c : U8) : ActPeer P maps maps' (readReg c : M D Word) := by
  intro s t h
  unfold readReg
  rw [← h.sv]
  split
  · exact h.exception _ _
  · rw [← h.regs]
    cases s.regs.read c with
    | none => exact h.exception _ _
    | some w => exact ⟨rfl, h⟩

theorem pe_writeReg (c : U8) (w : Word) : ActPeer P maps maps' (writeReg c w : M D Unit) := by
  intro s t h
  unfold writeReg
  rw [← h.sv]
  split
  · exact h.exception _ _
  split
  · exact h.exception _ _
  have h1 : Peer P maps maps' (if c = 0x16#8 then { s with changedPc := true } else s)
      (if c = 0x16#8 then { t with changedPc := true } else t) := by
    split
    · exact ⟨h.regs, h.maps, h.maps', h.cycles, h.halted, rfl, h.devs⟩
    · exact h
  dsimp only
  rw [← h1.regs]
  split
  · exact ⟨rfl, ⟨rfl, h1.maps, h1.maps', h1.cycles, h1.halted, h1.changedPc, h1.devs⟩⟩
  · exact h1.exception _ _

theorem pe_compute (a b : Word) (op : Op) : ActPeer P maps maps' (compute a b op : M D Word) := by
  unfold compute
  split
  · exact pe_raise _ _
  · exact pe_bind (pe_regs _) fun _ => pe_pure _

theorem pe_lit1 (r : Bool) (p : U8) : ActPeer P maps maps' (regOrLit1 r p : M D Word) := by
  unfold regOrLit1
  split
  · exact pe_readReg _
  · exact pe_pure _

theorem pe_lit2 (r : Bool) (p q : U8) : ActPeer P maps maps' (regOrLit2 r p q : M D Word) := by
  unfold regOrLit2
  split
  · exact pe_readReg _
  · exact pe_pure _

theorem Peer.withDevs {s t : Machine D} (h : Peer P maps maps' s t) {ds es : List D}
    (hd : P ds es) : Peer P maps maps' { s with devs := ds } { t with devs := es } :=
  ⟨h.regs, h.maps, h.maps', h.cycles, h.halted, h.changedPc, hd⟩

theorem pe_acc {s t : Machine D} (h : Peer P maps maps' s t) {x y : Acc D α} (ha : accTwin P x y) :
    outPeer P maps maps' (x.toOut s) (y.toOut t) := by
  cases x <;> cases y
  all_goals first | exact ha.elim | skip
  · exact ⟨ha.1, h.withDevs ha.2⟩
  · obtain ⟨rfl, rfl, hp⟩ := ha
    exact (h.withDevs hp).exception _ _
  · trivial

theorem pe_setSp (v : Word) : ActPeer P maps maps' (setSp v : M D Unit) := by
  intro s t h
  show outPeer P maps maps' (Out.ok () (if s.svMode then _ else _)) (Out.ok () (if t.svMode then _ else _))
  rw [← h.sv]
  refine ⟨rfl, ?_⟩
  split
  · exact h.withRegs fun r => { r with ssp := v }
  · exact h.withRegs fun r => { r with usp := v }

end

theorem pe_read (hi : Linked pf maps maps' P) (v : Word) : ActPeer P maps maps' (cpuRead pf v : M D Word) := by
  intro s t h
  rw [cpuRead_eq, cpuRead_eq, ← h.regs, h.maps, h.maps']
  exact pe_acc h (hi.read v h.devs)

theorem pe_exec (hi : Linked pf maps maps' P) (v : Word) : ActPeer P maps maps' (cpuExec pf v : M D Word) := by
  intro s t h
  rw [cpuExec_eq, cpuExec_eq, ← h.regs, h.maps, h.maps']
  exact pe_acc h (hi.read v h.devs)

theorem pe_write (hi : Linked pf maps maps' P) (v w : Word) : ActPeer P maps maps' (cpuWrite pf v w : M D Unit) := by
  intro s t h
  rw [cpuWrite_eq, cpuWrite_eq, ← h.regs, h.maps, h.maps']
  exact pe_acc h (hi.write v w h.devs)

theorem pe_runInstr (hi : Linked pf maps maps' P) (f : Fields) (h28 : f.opcode.toNat ≠ 0x1C) (h31 : f.opcode.toNat ≠ 0x1F) :
    ActPeer P maps maps' (runInstr pf f : M D Unit) := by
  have alu : ActPeer P maps maps' (execAlu f : M D Unit) :=
    pe_bind (pe_lit2 _ _ _) fun _ => pe_bind (pe_readReg _) fun _ => pe_bind (pe_compute _ _ _) fun _ => pe_writeReg _ _
  have div : ∀ mk, ActPeer P maps maps' (execDiv mk f : M D Unit) := fun mk =>
    pe_bind (pe_lit1 _ _) fun _ => pe_bind (pe_lit1 _ _) fun _ => pe_bind (pe_readReg _) fun _ =>
      pe_bind (pe_compute _ _ _) fun _ => pe_writeReg _ _
  have skip : ActPeer P maps maps' (skipNext : M D Unit) := pe_regs _
  have cond : ∀ b, ActPeer P maps maps' (execIf b f : M D Unit) := fun b => by
    refine pe_bind (pe_lit1 _ _) fun flag => ?_
    split
    · exact pe_raise _ _
    · refine pe_getM fun s t h => ?_
      rw [← h.regs]
      have key : ∀ c : Bool, ActPeer P maps maps' (if c = true then skipNext else pure () : M D Unit) := by
        intro c
        cases c
        · exact pe_pure _
        · exact skip
      exact key _ s t h
  have cpy : ActPeer P maps maps' (execCpy f : M D Unit) :=
    pe_bind (pe_lit2 _ _ _) fun _ => pe_writeReg _ _
  have ex : ActPeer P maps maps' (execEx f : M D Unit) :=
    pe_bind (pe_readReg _) fun _ => pe_bind (pe_readReg _) fun _ => pe_bind (pe_writeReg _ _) fun _ => pe_writeReg _ _
  have cmp : ActPeer P maps maps' (execCmp f : M D Unit) :=
    pe_bind (pe_lit2 _ _ _) fun _ => pe_bind (pe_readReg _) fun _ => pe_bind (pe_compute _ _ _) fun _ => pe_pure _
  have jpr : ActPeer P maps maps' (execJpr f : M D Unit) :=
    pe_bind (pe_lit2 _ _ _) fun v => fun s t h =>
      ⟨rfl, ⟨by simp only; rw [h.regs], h.maps, h.maps', h.cycles, h.halted, rfl, h.devs⟩⟩
  have lsm : ActPeer P maps maps' (execLsm f : M D Unit) := by
    refine pe_bind (pe_getsM fun s t h => h.sv) fun sv => ?_
    split
    · exact pe_bind (pe_lit2 _ _ _) fun _ => pe_bind (pe_regs _) fun _ => pe_regs _
    · exact pe_raise _ _
  have if2 : ActPeer P maps maps' (execIf2 pf f : M D Unit) := by
    refine pe_bind (pe_lit1 _ _) fun _ => pe_bind (pe_lit1 _ _) fun _ => pe_bind (pe_lit1 _ _) fun _ => ?_
    refine pe_getM fun s t h => ?_
    rw [← h.regs]
    refine pe_bind (pe_lift _) (fun _ => pe_bind (pe_lift _) fun _ => ?_) _ _ h
    split
    · exact pe_raise _ _
    · split
      · exact skip
      · exact pe_pure _
  have lsa : ActPeer P maps maps' (execLsa pf f : M D Unit) :=
    pe_bind (pe_lit1 _ _) fun _ => pe_bind (pe_lit1 _ _) fun _ => pe_bind (pe_read hi _) fun _ => pe_writeReg _ _
  have lea : ActPeer P maps maps' (execLea pf f : M D Unit) :=
    pe_bind (pe_lit1 _ _) fun _ => pe_bind (pe_lit1 _ _) fun _ => pe_bind (pe_lit1 _ _) fun _ =>
      pe_bind (pe_read hi _) fun _ => pe_regs _
  have wsa : ActPeer P maps maps' (execWsa pf f : M D Unit) :=
    pe_bind (pe_lit1 _ _) fun _ => pe_bind (pe_lit1 _ _) fun _ => pe_bind (pe_lit1 _ _) fun _ => pe_write hi _ _
  have wea : ActPeer P maps maps' (execWea pf f : M D Unit) :=
    pe_bind (pe_lit1 _ _) fun _ => pe_bind (pe_lit1 _ _) fun _ => pe_bind (pe_lit1 _ _) fun _ =>
      pe_bind (pe_getsM fun s t h => by rw [h.regs]) fun _ => pe_write hi _ _
  have srm : ActPeer P maps maps' (execSrm pf f : M D Unit) :=
    pe_bind (pe_lit1 _ _) fun _ => pe_bind (pe_lit1 _ _) fun _ => pe_bind (pe_lift _) fun _ =>
      pe_bind (pe_read hi _) fun _ => pe_bind (pe_readReg _) fun _ => pe_bind (pe_lift _) fun _ =>
      pe_bind (pe_write hi _ _) fun _ => pe_writeReg _ _
  have getSp : ActPeer P maps maps' (getsM (·.sp) : M D Word) :=
    pe_getsM fun s t h => by unfold Machine.sp; rw [h.sv, h.regs]
  have push : ActPeer P maps maps' (execPush pf f : M D Unit) :=
    pe_bind (pe_lit2 _ _ _) fun _ => pe_bind getSp fun _ => pe_bind (pe_write hi _ _) fun _ => pe_setSp _
  have pop : ActPeer P maps maps' (execPop pf f : M D Unit) := by
    refine pe_bind (pe_getsM fun s t h => h.sv) fun sv => ?_
    refine pe_bind ?_ fun _ => pe_writeReg _ _
    split
    · exact pe_bind (pe_getsM fun s t h => by rw [h.regs]) fun _ => pe_bind (pe_read hi _) fun _ =>
        pe_bind (pe_regs _) fun _ => pe_pure _
    · exact pe_bind (pe_getsM fun s t h => by rw [h.regs]) fun _ => pe_bind (pe_read hi _) fun _ =>
        pe_bind (pe_regs _) fun _ => pe_pure _
  have call : ActPeer P maps maps' (execCall pf f : M D Unit) :=
    pe_bind (pe_lit2 _ _ _) fun _ => pe_bind getSp fun _ => pe_bind (pe_getsM fun s t h => by rw [h.regs]) fun _ =>
      pe_bind (pe_lift _) fun _ => pe_bind (pe_write hi _ _) fun _ => pe_bind (pe_setSp _) fun _ =>
      fun s t h =>
        ⟨rfl, ⟨by simp only; rw [h.regs], h.maps, h.maps', h.cycles, h.halted, rfl, h.devs⟩⟩
  have cyc : ActPeer P maps maps' (execCycles f : M D Unit) :=
    pe_bind (pe_getsM fun s t h => h.cycles) fun _ => pe_writeReg _ _
  have halt : ActPeer P maps maps' (execHalt : M D Unit) :=
    fun s t h => ⟨rfl, ⟨h.regs, h.maps, h.maps', h.cycles, rfl, h.changedPc, h.devs⟩⟩
  have itr : ActPeer P maps maps' (execItr f : M D Unit) :=
    pe_bind (pe_lit1 _ _) fun _ => fun _ _ h => ⟨rfl, h.exception _ _⟩
  unfold runInstr
  intro s t hst
  revert h28 h31
  generalize f.opcode.toNat = n
  intro h28 h31
  match n with
  | 0 => exact (pe_raise _ _) s t hst
  | 1 => exact cpy s t hst
  | 2 => exact ex s t hst
  | 3 => exact alu s t hst
  | 4 => exact alu s t hst
  | 5 => exact alu s t hst
  | 6 => exact (div _) s t hst
  | 7 => exact (div _) s t hst
  | 8 => exact alu s t hst
  | 9 => exact alu s t hst
  | 10 => exact alu s t hst
  | 11 => exact alu s t hst
  | 12 => exact alu s t hst
  | 13 => exact cmp s t hst
  | 14 => exact jpr s t hst
  | 15 => exact lsm s t hst
  | 16 => exact itr s t hst
  | 17 => exact (cond _) s t hst
  | 18 => exact (cond _) s t hst
  | 19 => exact if2 s t hst
  | 20 => exact lsa s t hst
  | 21 => exact lea s t hst
  | 22 => exact wsa s t hst
  | 23 => exact wea s t hst
  | 24 => exact srm s t hst
  | 25 => exact push s t hst
  | 26 => exact pop s t hst
  | 27 => exact call s t hst
  | 28 => exact absurd rfl h28
  | 29 => exact cyc s t hst
  | 30 => exact halt s t hst
  | 31 => exact absurd rfl h31
  | _ + 32 => trivial

/-- One step of the two machines. -/
theorem next_peer (hi : Linked pf maps maps' P) {s t : Machine D} (h : Peer P maps maps' s t)
    (hr : Unnumbered pf s) :
    (next pf s = none ∧ next pf t = none) ∨ ∃ s' t', next pf s = some s' ∧ next pf t = some t' ∧ Peer P maps maps' s' t' := by
  by_cases hh : s.halted = true
  · right
    refine ⟨s, t, ?_, ?_, h⟩
    · unfold next; rw [if_pos hh]
    · unfold next; rw [if_pos (h.halted ▸ hh)]
  · have h1 : Peer P maps maps' { s with cycles := s.cycles + 1 } { t with cycles := t.cycles + 1 } :=
      ⟨h.regs, h.maps, h.maps', by simp only; rw [h.cycles], h.halted, h.changedPc, h.devs⟩
    have h2 := pe_exec (pf := pf) hi s.regs.pc _ _ h1
    have key : ∀ (x y : Out (Machine D) Word), cpuExec pf s.regs.pc { s with cycles := s.cycles + 1 } = x →
        outPeer P maps maps' x y →
        ((match x with
          | .panic => none
          | .ex s => some s
          | .ok w s => execWord pf w s) = none ∧
         (match y with
          | .panic => none
          | .ex s => some s
          | .ok w s => execWord pf w s) = none) ∨ ∃ s' t',
        (match x with
          | .panic => none
          | .ex s => some s
          | .ok w s => execWord pf w s) = some s' ∧
        (match y with
          | .panic => none
          | .ex s => some s
          | .ok w s => execWord pf w s) = some t' ∧ Peer P maps maps' s' t' := by
      intro x y hx h2
      cases x <;> cases y
      all_goals first | exact h2.elim | skip
      · next w s1 _ t1 =>
        obtain ⟨rfl, h2⟩ := h2
        have hop : (fieldsOf w).opcode.toNat ≠ 0x1C ∧ (fieldsOf w).opcode.toNat ≠ 0x1F := by
          rw [fieldsOf_opcode]
          refine hr w s1.devs ⟨by simpa using hh, ?_⟩
          rw [hx]
          rw [cpuExec_eq] at hx
          obtain ⟨d, h3, h4⟩ := toOut_ok hx
          rw [h4]
        have h3 := pe_runInstr (pf := pf) hi (fieldsOf w) hop.1 hop.2 { s1 with changedPc := false } { t1 with changedPc := false }
          ⟨h2.regs, h2.maps, h2.maps', h2.cycles, h2.halted, rfl, h2.devs⟩
        have key2 : ∀ (x y : Out (Machine D) Unit), outPeer P maps maps' x y →
            ((match x with
              | .panic => (none : Res (Machine D))
              | .ex s => some s
              | .ok () s => if s.changedPc then some s else some { s with regs := { s.regs with pc := s.regs.pc + 4 } }) = none ∧
             (match y with
              | .panic => (none : Res (Machine D))
              | .ex s => some s
              | .ok () s => if s.changedPc then some s else some { s with regs := { s.regs with pc := s.regs.pc + 4 } }) = none) ∨
            ∃ s' t', (match x with
              | .panic => (none : Res (Machine D))
              | .ex s => some s
              | .ok () s => if s.changedPc then some s else some { s with regs := { s.regs with pc := s.regs.pc + 4 } }) = some s' ∧
             (match y with
              | .panic => (none : Res (Machine D))
              | .ex s => some s
              | .ok () s => if s.changedPc then some s else some { s with regs := { s.regs with pc := s.regs.pc + 4 } }) = some t' ∧
             Peer P maps maps' s' t' := by
          intro x y h4
          cases x <;> cases y
          all_goals first | exact h4.elim | skip
          · obtain ⟨_, h4⟩ := h4
            dsimp only
            rw [← h4.changedPc]
            right
            split
            · exact ⟨_, _, rfl, rfl, h4⟩
            · exact ⟨_, _, rfl, rfl, by simp only; rw [h4.regs], h4.maps, h4.maps', h4.cycles, h4.halted, rfl, h4.devs⟩
          · exact .inr ⟨_, _, rfl, rfl, h4⟩
          · exact .inl ⟨rfl, rfl⟩
        exact key2 _ _ h3
      · exact .inr ⟨_, _, rfl, rfl, h2⟩
      · exact .inl ⟨rfl, rfl⟩
    unfold next
    rw [if_neg hh, if_neg (h.halted ▸ hh)]
    refine key _ _ rfl ?_
    show outPeer P maps maps' (cpuExec pf s.regs.pc _) (cpuExec pf t.regs.pc _)
    rw [show t.regs.pc = s.regs.pc by rw [h.regs]]
    exact h2

/-! ## Components plugged in elsewhere -/

/-- The components `ds` are the `n` first ones, those in `es` at `σ`; the others are those of `es0`. -/
structure Moved (σ : Nat → Nat) (n : Nat) (es0 ds es : List D) : Prop where
  len : ds.length = n
  moved : ∀ i d, ds[i]? = some d → es[σ i]? = some d
  others : ∀ j, (∀ i, i < n → σ i ≠ j) → es[j]? = es0[j]?

omit [Bus D] in
theorem Moved.set {σ : Nat → Nat} {n : Nat} {es0 ds es : List D} (h : Moved σ n es0 ds es)
    (hi : ∀ i j, i < n → j < n → σ i = σ j → i = j) {k : Nat} (hk : k < n) (d : D) :
    Moved σ n es0 (ds.set k d) (es.set (σ k) d) where
  len := by rw [List.length_set]; exact h.len
  moved i e he := by
    by_cases hik : i = k
    · subst hik
      rw [List.getElem?_set_self (by rw [h.len]; exact hk)] at he
      obtain ⟨x, hx⟩ : ∃ x, ds[i]? = some x := ⟨_, List.getElem?_eq_getElem (by rw [h.len]; exact hk)⟩
      rw [List.getElem?_set_self (List.getElem?_eq_some_iff.mp (h.moved i x hx)).1]
      exact he
    · rw [List.getElem?_set_ne (Ne.symm hik)] at he
      have hin : i < n := by
        have := (List.getElem?_eq_some_iff.mp he).1
        rwa [h.len] at this
      rw [List.getElem?_set_ne fun hh => hik (hi i k hin hk hh.symm)]
      exact h.moved i e he
  others j hj := by
    rw [List.getElem?_set_ne (hj k hk)]
    exact h.others j hj

/-- The two tables map the same ranges. -/
structure Rewired (pf : Profile) (σ : Nat → Nat) (n : Nat) (maps maps' : List Mapping) : Prop where
  apart : ∀ i j, i < n → j < n → σ i = σ j → i = j
  mappings : ∀ m, m ∈ maps' ↔ ∃ k ∈ maps, m = { k with auxId := σ k.auxId }
  known : ∀ m ∈ maps, m.auxId < n
  table : TableOk pf maps ∧ TableOk pf maps'

section
variable {σ : Nat → Nat} {n : Nat} {es0 : List D}

/-- The mapping that covers an address. -/
theorem covering (maps : List Mapping) (a : Word) : (∃ m ∈ maps, covers m a) ∨ ∀ m ∈ maps, ¬ covers m a := by
  by_cases h : ∃ m ∈ maps, covers m a
  · exact .inl h
  · exact .inr fun m hm hc => h ⟨m, hm, hc⟩

theorem moved_read (hw : Rewired pf σ n maps maps') {ds es : List D} (h : Moved σ n es0 ds es) (a : Word) (ex : U16) :
    resLinked3 (Moved σ n es0) (devRead pf maps ds a ex) (devRead pf maps' es a ex) := by
  by_cases ha : a.toNat % 4 = 0
  · rcases covering maps a with ⟨m, hm, hc⟩ | hn
    · have hk := hw.known m hm
      obtain ⟨d, hd⟩ : ∃ d, ds[m.auxId]? = some d := ⟨_, List.getElem?_eq_getElem (by rw [h.len]; exact hk)⟩
      rw [devRead_hit hw.table.1 hm hc ha hd,
        devRead_hit (m := { m with auxId := σ m.auxId }) hw.table.2 ((hw.mappings _).mpr ⟨m, hm, rfl⟩) hc ha (h.moved _ _ hd)]
      cases Bus.read d (a - m.addr) ex with
      | none => trivial
      | some p => exact ⟨rfl, rfl, h.set hw.apart hk _⟩
    · have hn' : ∀ m ∈ maps', ¬ covers m a := by
        intro m hm hc
        obtain ⟨k, hk, rfl⟩ := (hw.mappings m).mp hm
        exact hn k hk hc
      rw [devRead_miss hw.table.1.ranges hn ha, devRead_miss hw.table.2.ranges hn' ha]
      exact ⟨rfl, rfl, h⟩
  · unfold devRead
    rw [assert_unaligned ha]
    trivial

theorem moved_write (hw : Rewired pf σ n maps maps') {ds es : List D} (h : Moved σ n es0 ds es) (a w : Word) (ex : U16) :
    resLinked (Moved σ n es0) (devWrite pf maps ds a w ex) (devWrite pf maps' es a w ex) := by
  by_cases ha : a.toNat % 4 = 0
  · rcases covering maps a with ⟨m, hm, hc⟩ | hn
    · have hk := hw.known m hm
      obtain ⟨d, hd⟩ : ∃ d, ds[m.auxId]? = some d := ⟨_, List.getElem?_eq_getElem (by rw [h.len]; exact hk)⟩
      rw [devWrite_hit hw.table.1 hm hc ha hd,
        devWrite_hit (m := { m with auxId := σ m.auxId }) hw.table.2 ((hw.mappings _).mpr ⟨m, hm, rfl⟩) hc ha (h.moved _ _ hd)]
      cases Bus.write d (a - m.addr) w ex with
      | none => trivial
      | some p => exact ⟨rfl, h.set hw.apart hk _⟩
    · have hn' : ∀ m ∈ maps', ¬ covers m a := by
        intro m hm hc
        obtain ⟨k, hk, rfl⟩ := (hw.mappings m).mp hm
        exact hn k hk hc
      rw [devWrite_miss hw.table.1.ranges hn ha, devWrite_miss hw.table.2.ranges hn' ha]
      exact ⟨rfl, h⟩
  · unfold devWrite
    rw [assert_unaligned ha]
    trivial

theorem moved_transl (hw : Rewired pf σ n maps maps') {ds es : List D} (h : Moved σ n es0 ds es) (r : Regs) (v : Word) :
    resLinked (Moved σ n es0) (transl pf r maps ds v) (transl pf r maps' es v) := by
  unfold transl
  by_cases hm : r.mtt = 0
  · rw [if_pos hm, if_pos hm]; exact ⟨rfl, h⟩
  rw [if_neg hm, if_neg hm]
  cases entryAddr pf r.pda v with
  | none => trivial
  | some a =>
    have := moved_read hw h a 0
    simp only [Option.bind_eq_bind, Option.bind_some]
    revert this
    cases devRead pf maps ds a 0 <;> cases devRead pf maps' es a 0 <;> intro h
    · trivial
    · exact h.elim
    · exact h.elim
    · next p q =>
      obtain ⟨e, ex, ds'⟩ := p
      obtain ⟨e', ex', es'⟩ := q
      obtain ⟨rfl, rfl, h⟩ := h
      simp only [Option.bind_some]
      split
      · exact ⟨rfl, h⟩
      · split
        · exact ⟨rfl, h⟩
        · exact ⟨rfl, h⟩

theorem moved_acc (hw : Rewired pf σ n maps maps') {ds es : List D} (h : Moved σ n es0 ds es) (r : Regs) (v : Word)
    {f g : List D → Word → Res (α × U16 × List D)}
    (hfg : ∀ ds es p, Moved σ n es0 ds es → resLinked3 (Moved σ n es0) (f ds p) (g es p)) :
    accTwin (Moved σ n es0) (accDo pf r maps ds v f) (accDo pf r maps' es v g) := by
  unfold accDo
  split
  · exact ⟨rfl, rfl, h⟩
  have := moved_transl hw h r v
  revert this
  cases transl pf r maps ds v <;> cases transl pf r maps' es v <;> intro h
  · trivial
  · exact h.elim
  · exact h.elim
  · next p q =>
    obtain ⟨a, ds'⟩ := p
    obtain ⟨a', es'⟩ := q
    obtain ⟨rfl, h⟩ := h
    cases a with
    | error o =>
      cases o with
      | none => exact ⟨rfl, rfl, h⟩
      | some x => exact ⟨rfl, rfl, h⟩
    | ok p =>
      have := hfg ds' es' p h
      dsimp only
      revert this
      cases f ds' p <;> cases g es' p <;> intro h
      · trivial
      · exact h.elim
      · exact h.elim
      · next u v =>
        obtain ⟨a, x, ds'⟩ := u
        obtain ⟨a', x', es'⟩ := v
        obtain ⟨rfl, rfl, h⟩ := h
        dsimp only
        split
        · exact ⟨rfl, rfl, h⟩
        · exact ⟨rfl, h⟩

theorem moved_linked (hw : Rewired pf σ n maps maps') : Linked pf maps maps' (Moved σ n es0) where
  read {r _ _} v h := moved_acc hw h r v fun _ _ p h => moved_read hw h p 0
  write {r _ _} v w h := moved_acc hw h r v fun ds es p h => by
    have := moved_write hw h p w 0
    revert this
    cases devWrite pf maps ds p w 0 <;> cases devWrite pf maps' es p w 0 <;> intro h
    · trivial
    · exact h.elim
    · exact h.elim
    · exact ⟨rfl, h.1, h.2⟩

end

end Lrvm
