import Verif.Lemmas.Next

/-!
# Frame facts about effects and exceptions
-/

namespace Lrvm

open Spec

variable {D : Type} [Bus D] {pf : Profile} {f : Fields}

theorem Eff.hw {t u : Machine D} (h : Eff pf f t u) :
    u.devs.length = t.devs.length ∧ u.mappings = t.mappings ∧ u.hwbCache = t.hwbCache ∧
      u.memCache = t.memCache := by
  cases h with
  | busRead _ hr =>
    have h1 := memRead_frame hr
    exact ⟨memRead_length hr, by rw [h1], by rw [h1], by rw [h1]⟩
  | busWrite _ hr =>
    have h1 := memWrite_frame hr
    exact ⟨memWrite_length hr, by rw [h1], by rw [h1], by rw [h1]⟩
  | devReset _ hr => exact ⟨bridgeReset_length hr, rfl, rfl, rfl⟩
  | sp v _ => unfold Machine.setSp; split <;> exact ⟨rfl, rfl, rfl, rfl⟩
  | _ => exact ⟨rfl, rfl, rfl, rfl⟩

theorem Effs.hw {t u : Machine D} (h : Effs pf f t u) :
    u.devs.length = t.devs.length ∧ u.mappings = t.mappings ∧ u.hwbCache = t.hwbCache ∧
      u.memCache = t.memCache :=
  h.inv (P := fun u => u.devs.length = t.devs.length ∧ u.mappings = t.mappings ∧
      u.hwbCache = t.hwbCache ∧ u.memCache = t.memCache) ⟨rfl, rfl, rfl, rfl⟩ fun _ _ ih he => by
    have := he.hw
    exact ⟨this.1.trans ih.1, this.2.1.trans ih.2.1, this.2.2.1.trans ih.2.2.1,
      this.2.2.2.trans ih.2.2.2⟩

theorem Eff.cycles {t u : Machine D} (h : Eff pf f t u) (hop : f.opcode.toNat ≠ 0x1F) :
    u.cycles = t.cycles ∧ (f.opcode.toNat ≠ 0x1E → u.halted = t.halted) := by
  cases h with
  | busRead _ hr => have h1 := memRead_frame hr; exact ⟨by rw [h1], fun _ => by rw [h1]⟩
  | busWrite _ hr => have h1 := memWrite_frame hr; exact ⟨by rw [h1], fun _ => by rw [h1]⟩
  | devReset h _ => exact absurd h hop
  | cpuReset h => exact absurd h hop
  | sp v _ => unfold Machine.setSp; split <;> exact ⟨rfl, fun _ => rfl⟩
  | halt h => exact ⟨rfl, fun hn => absurd h hn⟩
  | _ => exact ⟨rfl, fun _ => rfl⟩

theorem Effs.cycles {t u : Machine D} (h : Effs pf f t u) (hop : f.opcode.toNat ≠ 0x1F) :
    u.cycles = t.cycles ∧ (f.opcode.toNat ≠ 0x1E → u.halted = t.halted) :=
  h.inv (P := fun u => u.cycles = t.cycles ∧ (f.opcode.toNat ≠ 0x1E → u.halted = t.halted))
    ⟨rfl, fun _ => rfl⟩ fun _ _ ih he => by
      have := he.cycles hop
      exact ⟨this.1.trans ih.1, fun hn => (this.2 hn).trans (ih.2 hn)⟩

theorem write_setReg {r r' : Regs} {c : U8} {w : Word} (h : r.write c w = some r') :
    c.toNat < 32 ∧ r' = setReg r c.toNat w := by
  rw [Regs.write_eq] at h
  split at h
  · next hlt => exact ⟨hlt, (Option.some.inj h).symm⟩
  · cases h

/-- Registers no instruction writes directly. -/
theorem Eff.hidden {t u : Machine D} (h : Eff pf f t u) (hop : f.opcode.toNat ≠ 0x1F)
    (hop' : f.opcode.toNat ≠ 0x10) :
    u.regs.era = t.regs.era ∧ u.regs.et = t.regs.et ∧
    (f.opcode.toNat ∉ [3,4,5,6,7,8,9,10,11,12,13] → u.regs.af = t.regs.af) := by
  cases h with
  | busRead _ hr => have h1 := memRead_frame hr; rw [h1]; exact ⟨rfl, rfl, fun _ => rfl⟩
  | busWrite _ hr => have h1 := memWrite_frame hr; rw [h1]; exact ⟨rfl, rfl, fun _ => rfl⟩
  | devReset h _ => exact absurd h hop
  | cpuReset h => exact absurd h hop
  | itr _ h => exact absurd h hop'
  | sp v _ => unfold Machine.setSp; split <;> exact ⟨rfl, rfl, fun _ => rfl⟩
  | flags r c o h => exact ⟨rfl, rfl, fun hn => absurd h hn⟩
  | regWrite hd hu h17 h1A h1B hw =>
    obtain ⟨hlt, hr⟩ := write_setReg hw
    rw [Ne, BitVec.toNat_eq] at h17 h1A h1B
    subst hr
    refine ⟨?_, ?_, fun _ => ?_⟩
    · exact reg_setReg_ne _ _ 0x1B _ hlt (by decide) h1B
    · exact reg_setReg_ne _ _ 0x1A _ hlt (by decide) h1A
    · exact reg_setReg_ne _ _ 0x17 _ hlt (by decide) h17
  | _ => exact ⟨rfl, rfl, fun _ => rfl⟩

theorem Effs.hidden {t u : Machine D} (h : Effs pf f t u) (hop : f.opcode.toNat ≠ 0x1F)
    (hop' : f.opcode.toNat ≠ 0x10) :
    u.regs.era = t.regs.era ∧ u.regs.et = t.regs.et ∧
    (f.opcode.toNat ∉ [3,4,5,6,7,8,9,10,11,12,13] → u.regs.af = t.regs.af) :=
  h.inv (P := fun u => u.regs.era = t.regs.era ∧ u.regs.et = t.regs.et ∧
    (f.opcode.toNat ∉ [3,4,5,6,7,8,9,10,11,12,13] → u.regs.af = t.regs.af))
    ⟨rfl, rfl, fun _ => rfl⟩ fun _ _ ih he => by
      have := he.hidden hop hop'
      exact ⟨this.1.trans ih.1, this.2.1.trans ih.2.1, fun hn => (this.2.2 hn).trans (ih.2.2 hn)⟩

/-- Userland effects leave the supervisor's registers alone. -/
theorem Eff.user {t u : Machine D} (h : Eff pf f t u) (hop : f.opcode.toNat ≠ 0x1F)
    (hop' : f.opcode.toNat ≠ 0x10) (hu : t.svMode = false) :
    u.regs.smt = t.regs.smt ∧ u.regs.ssp = t.regs.ssp ∧ u.regs.ev = t.regs.ev ∧
    u.regs.mtt = t.regs.mtt ∧ u.regs.pda = t.regs.pda ∧
    (f.opcode.toNat ∉ [0x19, 0x1A, 0x1B] → u.regs.usp = t.regs.usp) := by
  cases h with
  | busRead _ hr =>
    have h1 := memRead_frame hr; rw [h1]; exact ⟨rfl, rfl, rfl, rfl, rfl, fun _ => rfl⟩
  | busWrite _ hr =>
    have h1 := memWrite_frame hr; rw [h1]; exact ⟨rfl, rfl, rfl, rfl, rfl, fun _ => rfl⟩
  | devReset h _ => exact absurd h hop
  | cpuReset h => exact absurd h hop
  | itr _ h => exact absurd h hop'
  | lsm v _ hs => rw [hu] at hs; cases hs
  | sp v hm =>
    unfold Machine.setSp
    rw [if_neg (by simp [hu])]
    exact ⟨rfl, rfl, rfl, rfl, rfl, fun hn => absurd hm hn⟩
  | regWrite hd hcu h17 h1A h1B hw =>
    obtain ⟨hlt, hr⟩ := write_setReg hw
    have hc := hcu hu
    rw [BitVec.lt_def] at hc
    change _ < 23 at hc
    subst hr
    refine ⟨?_, ?_, ?_, ?_, ?_, fun _ => ?_⟩
    · exact reg_setReg_ne _ _ 0x1F _ hlt (by decide) (by omega)
    · exact reg_setReg_ne _ _ 0x18 _ hlt (by decide) (by omega)
    · exact reg_setReg_ne _ _ 0x1C _ hlt (by decide) (by omega)
    · exact reg_setReg_ne _ _ 0x1D _ hlt (by decide) (by omega)
    · exact reg_setReg_ne _ _ 0x1E _ hlt (by decide) (by omega)
    · exact reg_setReg_ne _ _ 0x19 _ hlt (by decide) (by omega)
  | _ => exact ⟨rfl, rfl, rfl, rfl, rfl, fun _ => rfl⟩

theorem Effs.user {t u : Machine D} (h : Effs pf f t u) (hop : f.opcode.toNat ≠ 0x1F)
    (hop' : f.opcode.toNat ≠ 0x10) (hu : t.svMode = false) :
    u.regs.smt = t.regs.smt ∧ u.regs.ssp = t.regs.ssp ∧ u.regs.ev = t.regs.ev ∧
    u.regs.mtt = t.regs.mtt ∧ u.regs.pda = t.regs.pda ∧
    (f.opcode.toNat ∉ [0x19, 0x1A, 0x1B] → u.regs.usp = t.regs.usp) :=
  h.inv (P := fun u => u.regs.smt = t.regs.smt ∧ u.regs.ssp = t.regs.ssp ∧ u.regs.ev = t.regs.ev ∧
    u.regs.mtt = t.regs.mtt ∧ u.regs.pda = t.regs.pda ∧
    (f.opcode.toNat ∉ [0x19, 0x1A, 0x1B] → u.regs.usp = t.regs.usp))
    ⟨rfl, rfl, rfl, rfl, rfl, fun _ => rfl⟩ fun v u ih he => by
      have := he.user hop hop' (by unfold Machine.svMode; rw [ih.1]; exact hu)
      exact ⟨this.1.trans ih.1, this.2.1.trans ih.2.1, this.2.2.1.trans ih.2.2.1,
        this.2.2.2.1.trans ih.2.2.2.1, this.2.2.2.2.1.trans ih.2.2.2.2.1,
        fun hn => (this.2.2.2.2.2 hn).trans (ih.2.2.2.2.2 hn)⟩

/-- Registers at startup. -/
theorem cpuReset_regs (s : Machine D) : s.cpuReset.regs = { Regs.zero with smt := 1 } := rfl

/-- The effects of RESET on everything but the components. -/
theorem Effs.reset {t u : Machine D} (h : Effs pf f t u) (hop : f.opcode.toNat = 0x1F) :
    u = { t with devs := u.devs } ∨
    u = { t.cpuReset with devs := u.devs } :=
  h.inv (P := fun u => u = { t with devs := u.devs } ∨ u = { t.cpuReset with devs := u.devs })
    (.inl rfl) fun v u ih he => by
      cases he with
      | devReset _ _ =>
        rcases ih with ih | ih
        · left; rw [ih]
        · right; rw [ih]
      | cpuReset _ =>
        rcases ih with ih | ih <;> (right; rw [ih]; rfl)
      | regWrite hd => simp [destRegs, hop] at hd
      | flags _ _ _ h => simp [hop] at h
      | jump _ h => simp [hop] at h
      | lsm _ h => simp [hop] at h
      | skip h => simp [hop] at h
      | itr _ h => simp [hop] at h
      | avr _ h => simp [hop] at h
      | sp _ h => simp [hop] at h
      | busRead h => simp [hop, memOps] at h
      | busWrite h => simp [hop, storeOps] at h
      | halt h => simp [hop] at h

/-- ITR, exactly. -/
theorem execItr_eq (s : Machine D) (f : Fields) :
    (∃ v, Val1 s.regs f.r0 f.p0 v ∧ execItr f s = .ok () (s.exception 0xF0 (v.setWidth 16))) ∨
    (f.r0 = true ∧ mayRead (supervisor s.regs) f.p0.toNat = false ∧
      execItr f s = .ex (s.exception (readFault (supervisor s.regs)) (f.p0.setWidth 16))) := by
  unfold execItr
  cases hr : f.r0 with
  | false =>
    left
    refine ⟨BitVec.ofNat 32 f.p0.toNat, ?_, ?_⟩
    · simp [Val1]
    · have h1 : regOrLit1 false f.p0 s = .ok _ s :=
        regOrLit1_val (v := BitVec.ofNat 32 f.p0.toNat) (by simp [Val1])
      rw [M.bind_ok h1]; rfl
  | true =>
    cases hm : mayRead (supervisor s.regs) f.p0.toNat with
    | true =>
      left
      refine ⟨reg s.regs f.p0.toNat, ?_, ?_⟩
      · simp [Val1, hm]
      · have h1 : regOrLit1 true f.p0 s = .ok _ s :=
          regOrLit1_val (v := reg s.regs f.p0.toNat) (by simp [Val1, hm])
        rw [M.bind_ok h1]; rfl
    | false =>
      right
      refine ⟨rfl, rfl, ?_⟩
      have h1 : regOrLit1 true f.p0 s =
          .ex (s.exception (readFault (supervisor s.regs)) (f.p0.setWidth 16)) := by
        show readReg f.p0 s = _
        rw [readReg_eq, hm]; rfl
      rw [M.bind_ex h1]

/-! ### Exceptions leave most registers alone -/

/-- What an instruction with opcode `op` may have changed before raising an exception. -/
def Kept (op : Nat) (s t : Machine D) : Prop :=
  (∀ n < 32, n ∉ [0x17, 0x18, 0x19] → reg t.regs n = reg s.regs n) ∧
  (op ∉ [3,4,5,6,7,8,9,10,11,12,13] → t.regs.af = s.regs.af) ∧
  (op ≠ 0x1A → t.regs.ssp = s.regs.ssp ∧ t.regs.usp = s.regs.usp)

theorem Kept.refl (op : Nat) (s : Machine D) : Kept op s s :=
  ⟨fun _ _ _ => rfl, fun _ => rfl, fun _ => ⟨rfl, rfl⟩⟩

theorem Kept.trans {op : Nat} {s t u : Machine D} (h : Kept op s t) (h' : Kept op t u) : Kept op s u :=
  ⟨fun n hn hm => (h'.1 n hn hm).trans (h.1 n hn hm), fun ha => (h'.2.1 ha).trans (h.2.1 ha),
    fun ho => ⟨(h'.2.2 ho).1.trans (h.2.2 ho).1, (h'.2.2 ho).2.trans (h.2.2 ho).2⟩⟩

/-- Successful runs keep. -/
def Keeps (op : Nat) (m : M D α) : Prop := ∀ s a t, m s = .ok a t → Kept op s t

/-- Runs that raise an exception keep until the exception. -/
def FaultKeeps (op : Nat) (m : M D α) : Prop :=
  ∀ s t, m s = .ex t → ∃ u c d, Kept op s u ∧ t = u.exception c d

variable {op : Nat}

theorem fk_bind {m : M D α} {k : α → M D β} (h1 : Keeps op m) (h2 : FaultKeeps op m)
    (h3 : ∀ a, FaultKeeps op (k a)) : FaultKeeps op (m >>= k) := by
  intro s t h
  rw [M.bind_def] at h
  cases hm : m s with
  | ok a s1 =>
    rw [hm] at h
    obtain ⟨u, c, d, hk, ht⟩ := h3 a s1 t h
    exact ⟨u, c, d, (h1 s a s1 hm).trans hk, ht⟩
  | ex s1 => rw [hm] at h; injection h with h; subst h; exact h2 s s1 hm
  | panic => rw [hm] at h; cases h

theorem k_bind {m : M D α} {k : α → M D β} (h1 : Keeps op m) (h3 : ∀ a, Keeps op (k a)) :
    Keeps op (m >>= k) := by
  intro s b t h
  rw [M.bind_def] at h
  cases hm : m s with
  | ok a s1 => rw [hm] at h; exact (h1 s a s1 hm).trans (h3 a s1 b t h)
  | ex s1 => rw [hm] at h; cases h
  | panic => rw [hm] at h; cases h

theorem fk_raise (c : U8) (d : U16) : FaultKeeps op (raise c d : M D α) := by
  intro s t h; injection h with h; exact ⟨s, c, d, .refl _ _, h.symm⟩

theorem fk_modify (g : Machine D → Machine D) : FaultKeeps op (modifyM g) := by intro s t h; cases h

theorem k_gets (g : Machine D → α) : Keeps op (getsM g) := by
  intro s a t h; injection h with _ h; subst h; exact .refl _ _

theorem fk_gets (g : Machine D → α) : FaultKeeps op (getsM g) := by intro s t h; cases h

theorem k_getM : Keeps op (getM : M D (Machine D)) := by
  intro s a t h; injection h with _ h; subst h; exact .refl _ _

theorem fk_getM : FaultKeeps op (getM : M D (Machine D)) := by intro s t h; cases h

theorem k_liftRes (r : Res α) : Keeps op (liftRes r : M D α) := by
  intro s a t h
  cases r with
  | none => cases h
  | some x => injection h with _ h; subst h; exact .refl _ _

theorem fk_liftRes (r : Res α) : FaultKeeps op (liftRes r : M D α) := by
  intro s t h; cases r <;> cases h

theorem fk_pure (a : α) : FaultKeeps op (pure a : M D α) := by intro s t h; cases h

theorem fk_ite {c : Prop} [Decidable c] {m n : M D α} (h1 : FaultKeeps op m) (h2 : FaultKeeps op n) :
    FaultKeeps op (if c then m else n) := by split <;> assumption

theorem k_readReg (c : U8) : Keeps op (readReg c : M D Word) := by
  intro s a t h; rw [(readReg_ok h).1]; exact .refl _ _

theorem fk_readReg (c : U8) : FaultKeeps op (readReg c : M D Word) := by
  intro s t h
  rw [readReg_eq] at h
  split at h
  · cases h
  · injection h with h; exact ⟨s, _, _, .refl _ _, h.symm⟩

theorem k_rol1 (b : Bool) (c : U8) : Keeps op (regOrLit1 b c : M D Word) := by
  intro s a t h; rw [regOrLit1_ok h]; exact .refl _ _

theorem k_rol2 (b : Bool) (c d : U8) : Keeps op (regOrLit2 b c d : M D Word) := by
  intro s a t h; rw [regOrLit2_ok h]; exact .refl _ _

theorem fk_rol1 (b : Bool) (c : U8) : FaultKeeps op (regOrLit1 b c : M D Word) := by
  cases b
  · exact fk_pure _
  · exact fk_readReg c

theorem fk_rol2 (b : Bool) (c d : U8) : FaultKeeps op (regOrLit2 b c d : M D Word) := by
  cases b
  · exact fk_pure _
  · exact fk_readReg c

theorem fk_writeReg (c : U8) (w : Word) : FaultKeeps op (writeReg c w : M D Unit) := by
  intro s t h
  cases hm : mayWrite (supervisor s.regs) c.toNat with
  | true => rw [writeReg_val w hm] at h; cases h
  | false =>
    rw [writeReg_fault w hm] at h
    injection h with h
    exact ⟨s, _, _, .refl _ _, h.symm⟩

theorem k_acc (acc : Machine D → Acc D α) : Keeps op (fun s => (acc s).toOut s) := by
  intro s a t h
  obtain ⟨devs, _, h2⟩ := toOut_ok h
  subst h2; exact ⟨fun _ _ _ => rfl, fun _ => rfl, fun _ => ⟨rfl, rfl⟩⟩

theorem fk_acc (acc : Machine D → Acc D α) : FaultKeeps op (fun s => (acc s).toOut s) := by
  intro s t h
  dsimp only at h
  cases ha : acc s with
  | done a d => rw [ha] at h; cases h
  | panic => rw [ha] at h; cases h
  | fault c d devs =>
    rw [ha] at h; injection h with h
    exact ⟨{ s with devs := devs }, c, d, ⟨fun _ _ _ => rfl, fun _ => rfl, fun _ => ⟨rfl, rfl⟩⟩, h.symm⟩

theorem cpuRead_fun (v : Word) : (cpuRead pf v : M D Word) =
    fun s => (accRead pf s.regs s.mappings s.devs v).toOut s := funext fun s => cpuRead_eq pf v s

theorem cpuWrite_fun (v w : Word) : (cpuWrite pf v w : M D Unit) =
    fun s => (accWrite pf s.regs s.mappings s.devs v w).toOut s := funext fun s => cpuWrite_eq pf v w s

theorem k_cpuRead (v : Word) : Keeps op (cpuRead pf v : M D Word) := by
  rw [cpuRead_fun]; exact k_acc _
theorem fk_cpuRead (v : Word) : FaultKeeps op (cpuRead pf v : M D Word) := by
  rw [cpuRead_fun]; exact fk_acc _
theorem k_cpuWrite (v w : Word) : Keeps op (cpuWrite pf v w : M D Unit) := by
  rw [cpuWrite_fun]; exact k_acc _
theorem fk_cpuWrite (v w : Word) : FaultKeeps op (cpuWrite pf v w : M D Unit) := by
  rw [cpuWrite_fun]; exact fk_acc _

/-- Changing `af` only. -/
theorem kept_af {s : Machine D} (w : Word) (h : op ∈ [3,4,5,6,7,8,9,10,11,12,13]) :
    Kept op s { s with regs := { s.regs with af := w } } := by
  refine ⟨?_, fun hn => absurd h hn, fun _ => ⟨rfl, rfl⟩⟩
  intro n hn hm
  exact reg_setReg_ne s.regs 0x17 n w (by decide) hn (by rintro rfl; simp at hm)

theorem k_compute (x y : Word) (o : Op) (h : op ∈ [3,4,5,6,7,8,9,10,11,12,13]) :
    Keeps op (compute x y o : M D Word) := by
  intro s a t hc
  unfold compute at hc
  cases hcc : computeCore x y o with
  | error c => rw [hcc] at hc; cases hc
  | ok p => rw [hcc] at hc; injection hc with _ hc; subst hc; exact kept_af _ h

theorem fk_compute (x y : Word) (o : Op) : FaultKeeps op (compute x y o : M D Word) := by
  unfold compute
  split
  · exact fk_raise _ _
  · intro s t h; cases h

theorem fk_popSv (f : Fields) : FaultKeeps 0x1A (execPop pf f : M D Unit) := by
  unfold execPop
  refine fk_bind (k_gets _) (fk_gets _) fun sv => fk_bind ?_ ?_ fun _ => fk_writeReg _ _
  · cases sv
    · refine k_bind (k_gets _) fun _ => k_bind (k_cpuRead _) fun w => ?_
      intro s a t h
      injection h with _ h; subst h
      refine ⟨?_, fun _ => rfl, fun h => absurd rfl h⟩
      intro n hn hm
      exact reg_setReg_ne s.regs 0x19 n _ (by decide) hn (by rintro rfl; simp at hm)
    · refine k_bind (k_gets _) fun _ => k_bind (k_cpuRead _) fun w => ?_
      intro s a t h
      injection h with _ h; subst h
      refine ⟨?_, fun _ => rfl, fun h => absurd rfl h⟩
      intro n hn hm
      exact reg_setReg_ne s.regs 0x18 n _ (by decide) hn (by rintro rfl; simp at hm)
  · cases sv
    · exact fk_bind (k_gets _) (fk_gets _) fun _ => fk_bind (k_cpuRead _) (fk_cpuRead _) fun w s t h => by
        cases h
    · exact fk_bind (k_gets _) (fk_gets _) fun _ => fk_bind (k_cpuRead _) (fk_cpuRead _) fun w s t h => by
        cases h

theorem fk_getHwInfo (i : Word) (id : Nat) : FaultKeeps op (getHwInfo pf i id : M D Word) := by
  intro s t h
  unfold getHwInfo at h
  cases hm : s.hwbCache[id]? with
  | none => rw [hm] at h; first | (injection h with h; exact ⟨s, _, _, .refl _ _, h.symm⟩) | cases h
  | some cache =>
  rw [hm] at h
  dsimp only at h
  repeat' split at h
  all_goals first
    | (injection h with h; exact ⟨s, _, _, .refl _ _, h.symm⟩)
    | exact fk_liftRes _ s t h
    | cases h

theorem k_getHwInfo (i : Word) (id : Nat) : Keeps op (getHwInfo pf i id : M D Word) := by
  intro s a t h
  unfold getHwInfo at h
  cases hm : s.hwbCache[id]? with
  | none => rw [hm] at h; first | (injection h with h; exact ⟨s, _, _, .refl _ _, h.symm⟩) | cases h
  | some cache =>
  rw [hm] at h
  dsimp only at h
  repeat' split at h
  all_goals first
    | (injection h with _ h; subst h; exact .refl _ _)
    | exact k_liftRes _ s a t h
    | cases h

theorem k_resetDevs (m : Nat) : Keeps op (resetDevs m : M D Unit) := by
  intro s a t h
  unfold resetDevs at h
  rw [getM_bind] at h
  split at h
  · cases hl : resetLoop (fun _ => true) 0 s.devs.length s.devs with
    | none => rw [hl] at h; cases h
    | some d => rw [hl] at h; injection h with _ h; subst h
                exact ⟨fun _ _ _ => rfl, fun _ => rfl, fun _ => ⟨rfl, rfl⟩⟩
  · cases hl : bridgeReset s.devs s.regs.avr.toNat with
    | none => rw [hl] at h; cases h
    | some o =>
      rw [hl] at h
      cases o with
      | none => cases h
      | some d => injection h with _ h; subst h
                  exact ⟨fun _ _ _ => rfl, fun _ => rfl, fun _ => ⟨rfl, rfl⟩⟩
  iterate 3
    · cases hl : resetLoop (resetTest _ s.regs.avr.toNat) 0 s.devs.length s.devs with
      | none => rw [hl] at h; cases h
      | some d => rw [hl] at h; injection h with _ h; subst h
                  exact ⟨fun _ _ _ => rfl, fun _ => rfl, fun _ => ⟨rfl, rfl⟩⟩
  · injection h with _ h; subst h; exact .refl _ _

theorem fk_resetDevs (m : Nat) : FaultKeeps op (resetDevs m : M D Unit) := by
  unfold resetDevs
  refine fk_bind k_getM fk_getM fun s => ?_
  split
  · exact fk_bind (k_liftRes _) (fk_liftRes _) fun _ => fk_modify _
  · refine fk_bind (k_liftRes _) (fk_liftRes _) fun o => ?_
    cases o
    · exact fk_raise _ _
    · exact fk_modify _
  · exact fk_bind (k_liftRes _) (fk_liftRes _) fun _ => fk_modify _
  · exact fk_bind (k_liftRes _) (fk_liftRes _) fun _ => fk_modify _
  · exact fk_bind (k_liftRes _) (fk_liftRes _) fun _ => fk_modify _
  · exact fk_pure _

/-- An instruction other than EX that raises an exception had changed nothing but, for arithmetic
instructions, `af`, and, for POP, a stack pointer. -/
theorem runInstr_faultKeeps (hop : f.opcode.toNat ≠ 0x02) :
    FaultKeeps f.opcode.toNat (runInstr pf f : M D Unit) := by
  by_cases hbig : 32 ≤ f.opcode.toNat
  · rw [runInstr_big hbig]; intro s t h; cases h
  have fkAlu : f.opcode.toNat ∈ [3,4,5,6,7,8,9,10,11,12,13] →
      FaultKeeps f.opcode.toNat (execAlu f : M D Unit) := fun h =>
    fk_bind (k_rol2 _ _ _) (fk_rol2 _ _ _) fun _ => fk_bind (k_readReg _) (fk_readReg _) fun _ =>
      fk_bind (k_compute _ _ _ h) (fk_compute _ _ _) fun _ => fk_writeReg _ _
  have fkDiv : f.opcode.toNat ∈ [3,4,5,6,7,8,9,10,11,12,13] → ∀ mk,
      FaultKeeps f.opcode.toNat (execDiv mk f : M D Unit) := fun h mk =>
    fk_bind (k_rol1 _ _) (fk_rol1 _ _) fun _ => fk_bind (k_rol1 _ _) (fk_rol1 _ _) fun _ =>
      fk_bind (k_readReg _) (fk_readReg _) fun _ =>
      fk_bind (k_compute _ _ _ h) (fk_compute _ _ _) fun _ => fk_writeReg _ _
  have fkIf : ∀ b, FaultKeeps f.opcode.toNat (execIf b f : M D Unit) := fun b =>
    fk_bind (k_rol1 _ _) (fk_rol1 _ _) fun _ => fk_ite (fk_raise _ _)
      (fk_bind k_getM fk_getM fun _ => fk_ite (fk_modify _) (fk_pure _))
  unfold runInstr
  split
  · exact fk_raise _ _
  · exact fk_bind (k_rol2 _ _ _) (fk_rol2 _ _ _) fun _ => fk_writeReg _ _
  · next h => exact absurd h hop
  · next h => exact fkAlu (by simp [h])
  · next h => exact fkAlu (by simp [h])
  · next h => exact fkAlu (by simp [h])
  · next h => exact fkDiv (by simp [h]) _
  · next h => exact fkDiv (by simp [h]) _
  · next h => exact fkAlu (by simp [h])
  · next h => exact fkAlu (by simp [h])
  · next h => exact fkAlu (by simp [h])
  · next h => exact fkAlu (by simp [h])
  · next h => exact fkAlu (by simp [h])
  · next h =>
    exact fk_bind (k_rol2 _ _ _) (fk_rol2 _ _ _) fun _ => fk_bind (k_readReg _) (fk_readReg _) fun _ =>
      fk_bind (k_compute _ _ _ (by simp [h])) (fk_compute _ _ _) fun _ => fk_pure _
  · exact fk_bind (k_rol2 _ _ _) (fk_rol2 _ _ _) fun _ => fk_modify _
  · refine fk_bind (k_gets _) (fk_gets _) fun b => ?_
    exact fk_ite (fk_bind (k_rol2 _ _ _) (fk_rol2 _ _ _) fun _ => fun s t h => by cases h)
      (fk_raise _ _)
  · exact fk_bind (k_rol1 _ _) (fk_rol1 _ _) fun _ => fk_modify _
  · exact fkIf _
  · exact fkIf _
  · refine fk_bind (k_rol1 _ _) (fk_rol1 _ _) fun _ => fk_bind (k_rol1 _ _) (fk_rol1 _ _) fun _ =>
      fk_bind (k_rol1 _ _) (fk_rol1 _ _) fun _ => fk_bind k_getM fk_getM fun _ =>
      fk_bind (k_liftRes _) (fk_liftRes _) fun _ => fk_bind (k_liftRes _) (fk_liftRes _) fun _ => ?_
    split
    · exact fk_raise _ _
    · exact fk_ite (fk_modify _) (fk_pure _)
  · exact fk_bind (k_rol1 _ _) (fk_rol1 _ _) fun _ => fk_bind (k_rol1 _ _) (fk_rol1 _ _) fun _ =>
      fk_bind (k_cpuRead _) (fk_cpuRead _) fun _ => fk_writeReg _ _
  · exact fk_bind (k_rol1 _ _) (fk_rol1 _ _) fun _ => fk_bind (k_rol1 _ _) (fk_rol1 _ _) fun _ =>
      fk_bind (k_rol1 _ _) (fk_rol1 _ _) fun _ =>
      fk_bind (k_cpuRead _) (fk_cpuRead _) fun _ => fk_modify _
  · exact fk_bind (k_rol1 _ _) (fk_rol1 _ _) fun _ => fk_bind (k_rol1 _ _) (fk_rol1 _ _) fun _ =>
      fk_bind (k_rol1 _ _) (fk_rol1 _ _) fun _ => fk_cpuWrite _ _
  · exact fk_bind (k_rol1 _ _) (fk_rol1 _ _) fun _ => fk_bind (k_rol1 _ _) (fk_rol1 _ _) fun _ =>
      fk_bind (k_rol1 _ _) (fk_rol1 _ _) fun _ => fk_bind (k_gets _) (fk_gets _) fun _ => fk_cpuWrite _ _
  · exact fk_bind (k_rol1 _ _) (fk_rol1 _ _) fun _ => fk_bind (k_rol1 _ _) (fk_rol1 _ _) fun _ =>
      fk_bind (k_liftRes _) (fk_liftRes _) fun _ => fk_bind (k_cpuRead _) (fk_cpuRead _) fun _ =>
      fk_bind (k_readReg _) (fk_readReg _) fun _ => fk_bind (k_liftRes _) (fk_liftRes _) fun _ =>
      fk_bind (k_cpuWrite _ _) (fk_cpuWrite _ _) fun _ => fk_writeReg _ _
  · exact fk_bind (k_rol2 _ _ _) (fk_rol2 _ _ _) fun _ => fk_bind (k_gets _) (fk_gets _) fun _ =>
      fk_bind (k_cpuWrite _ _) (fk_cpuWrite _ _) fun _ => fk_modify _
  · next h => rw [h]; exact fk_popSv f
  · exact fk_bind (k_rol2 _ _ _) (fk_rol2 _ _ _) fun _ => fk_bind (k_gets _) (fk_gets _) fun _ =>
      fk_bind (k_gets _) (fk_gets _) fun _ => fk_bind (k_liftRes _) (fk_liftRes _) fun _ =>
      fk_bind (k_cpuWrite _ _) (fk_cpuWrite _ _) fun _ => fun s t h => by
        rw [M.bind_def] at h; cases h
  · exact fk_bind (k_rol1 _ _) (fk_rol1 _ _) fun _ => fk_bind (k_rol1 _ _) (fk_rol1 _ _) fun _ =>
      fk_ite (fk_bind (k_gets _) (fk_gets _) fun _ => fk_writeReg _ _)
        (fk_bind (k_getHwInfo _ _) (fk_getHwInfo _ _) fun _ => fk_writeReg _ _)
  · exact fk_bind (k_gets _) (fk_gets _) fun _ => fk_writeReg _ _
  · exact fk_modify _
  · exact fk_bind (k_rol1 _ _) (fk_rol1 _ _) fun _ => fk_bind (k_resetDevs _) (fk_resetDevs _) fun _ =>
      fk_ite (fk_modify _) (fk_pure _)
  · exfalso; simp only [imp_false] at *; omega

end Lrvm
