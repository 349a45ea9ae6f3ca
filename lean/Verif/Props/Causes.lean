import Verif.Lemmas.CausesInv
import Verif.Props.Stack
import Verif.Props.Hardware

/-!
# The exception register tells the cause: C113
-/

namespace Lrvm

open Spec

variable {D : Type} [Bus D] {pf : Profile}

section
variable {s u : Machine D} {devs : List D} {i : Parts}

theorem op_ne {n m : Nat} (h : i.op = BitVec.ofNat 5 n) (hne : BitVec.ofNat 5 n ≠ BitVec.ofNat 5 m) : i.op ≠ BitVec.ofNat 5 m := by
  rw [h]; exact hne

theorem and15 (w : Word) : (w &&& 0x0F#32).toNat = w.toNat % 16 := by
  rw [BitVec.toNat_and]
  exact Nat.and_two_pow_sub_one_eq_mod w.toNat 4

theorem bridgeReset_none {devs : List D} {k : Nat} (h : bridgeReset devs k = some none) : devs.length ≤ k := by
  unfold bridgeReset at h
  cases hd : devs[k]? with
  | none => exact List.getElem?_eq_none_iff.1 hd
  | some d =>
    rw [hd] at h
    cases hb : Bus.reset d with
    | none => simp [hb] at h
    | some d' => simp [hb] at h

theorem resetDevs_unknown {t : Machine D} (h : resetDevs 1 t = .ex u) : t.devs.length ≤ t.regs.avr.toNat := by
  unfold resetDevs at h
  rw [getM_bind] at h
  cases hl : bridgeReset t.devs t.regs.avr.toNat with
  | none => rw [hl] at h; cases h
  | some o =>
    rw [hl] at h
    cases o with
    | none => exact bridgeReset_none hl
    | some d => cases h

/-- An output without value. -/
def Out.noValue {σ α β : Type} : Out σ α → Out σ β
  | .ok _ t => .ex t
  | .ex t => .ex t
  | .panic => .panic

theorem bind_not {α β : Type} {m : M D α} {k : α → M D β} {s : Machine D} {o : Out (Machine D) α} (h : m s = o)
    (ho : ∀ a t, o ≠ .ok a t) : (m >>= k) s = o.noValue := by
  rw [M.bind_def, h]
  cases o with
  | ok a t => exact absurd rfl (ho a t)
  | ex t => rfl
  | panic => rfl

theorem pop_not {f : Fields} {o : Out (Machine D) Word} (h : cpuRead pf (stackPtr s.regs) (atExec s devs) = o)
    (ho : ∀ a t, o ≠ .ok a t) : execPop pf f (atExec s devs) = o.noValue := by
  have hn : ∀ a t, (o.noValue : Out (Machine D) Word) ≠ .ok a t := by
    intro a t; cases o <;> intro h <;> cases h
  have h2 : ∀ {β : Type}, ((o.noValue : Out (Machine D) Word).noValue : Out (Machine D) β) = o.noValue := by
    intro β; cases o <;> rfl
  unfold execPop
  rw [getsM_bind]
  unfold stackPtr at h
  rw [svMode_eq, show (atExec s devs).regs = s.regs from rfl]
  cases hsv : supervisor s.regs with
  | true =>
    rw [hsv] at h
    simp only [if_true] at h ⊢
    refine (bind_not (o := o.noValue) ?_ hn).trans h2
    rw [getsM_bind]
    exact bind_not h ho
  | false =>
    rw [hsv] at h
    simp only [Bool.false_eq_true, if_false] at h ⊢
    refine (bind_not (o := o.noValue) ?_ hn).trans h2
    rw [getsM_bind]
    exact bind_not h ho

/-- Every exception raised by an instruction has a documented cause. -/
theorem raised_of_ex (h : runInstr pf i.fields (atExec s devs) = .ex u) : InException pf s devs i u := by
  have hlt := i.op.isLt
  have no : ∀ {n : Nat}, i.op.toNat = n → n ≠ 0x0F → i.op = 0x0F → supervisor s.regs = true := by
    intro n h hn h'
    rw [h'] at h
    exact absurd h.symm hn
  match ho : i.op.toNat with
  | 0x00 =>
    have hop : i.op = 0x00 := op_eq ho
    obtain ⟨op, r0, r1, r2, p0, p1, p2⟩ := i
    dsimp only at hop; subst hop
    injection h with h; subst h
    exact .exc rfl rfl (.notInstr rfl)
  | 0x01 =>
    rw [run_cpy (op_eq ho)] at h
    refine raised_split (no ho (by decide)) h fun hr h => ?_
    exact raised_write h (.dest (by rw [ho]; decide) hr)
  | 0x02 =>
    rw [run_ex (op_eq ho)] at h
    refine raised_split (no ho (by decide)) h fun hr h => ?_
    rcases M.bind_ex_inv h with h | ⟨_, t, h1, h⟩
    · exact raised_write h (.exFirst (op_eq ho) hr)
    · cases hm : mayWrite (supervisor s.regs) i.p0.toNat with
      | false => rw [writeReg_fault (s := atExec s devs) _ hm] at h1; cases h1
      | true =>
        rw [writeReg_val (s := atExec s devs) _ hm] at h1
        injection h1 with _ h1; subst h1
        obtain ⟨h1, h2, h3⟩ := writeReg_ex_inv h
        exact .of (.exSecond (op_eq ho) hr hm rfl h1) h2 h3
  | 0x03 | 0x04 | 0x05 | 0x08 | 0x09 | 0x0A | 0x0B | 0x0C =>
    obtain ⟨y, hy⟩ := run_alu (pf := pf) (s := atExec s devs) (i := i) (by rw [ho]; decide)
    rw [hy] at h
    refine raised_split (no ho (by decide)) h fun hr h => ?_
    obtain ⟨⟨r, cf, of⟩, hp⟩ := aluOp_ok (reg (atExec s devs).regs i.p0.toNat) y i.op.toNat
    rw [M.bind_ok (compute_ok hp)] at h
    exact raised_computed (by omega) hr h (.dest (by rw [ho]; decide) hr)
  | 0x06 =>
    rw [run_div (op_eq ho)] at h
    refine raised_split (no ho (by decide)) h fun hr h => ?_
    exact raised_div true (.inl (op_eq ho)) hr (fun _ _ => rfl) h
  | 0x07 =>
    rw [run_mod (op_eq ho)] at h
    refine raised_split (no ho (by decide)) h fun hr h => ?_
    exact raised_div false (.inr (op_eq ho)) hr (fun _ _ => rfl) h
  | 0x0D =>
    obtain ⟨y, hy⟩ := run_cmp (pf := pf) (s := atExec s devs) (i := i) (op_eq ho)
    rw [hy] at h
    refine raised_split (no ho (by decide)) h fun hr h => ?_
    rw [M.bind_ok (compute_ok rfl)] at h
    cases h
  | 0x0E =>
    rw [run_jpr (op_eq ho)] at h
    exact raised_split (no ho (by decide)) h fun hr h => by cases h
  | 0x0F =>
    have hop : i.op = 0x0F := op_eq ho
    cases hs : supervisor s.regs with
    | false =>
      have : runInstr pf i.fields (atExec s devs) = .ex ((atExec s devs).exception 0x09 0x0F) := by
        obtain ⟨op, r0, r1, r2, p0, p1, p2⟩ := i
        dsimp only at hop; subst hop
        show execLsm _ _ = _
        unfold execLsm
        rw [getsM_bind, svMode_eq, show supervisor (atExec s devs).regs = false from hs]
        rfl
      rw [this] at h
      injection h with h; subst h
      exact .exc rfl rfl (.reserved hop hs)
    | true =>
      have : runInstr pf i.fields (atExec s devs) = match i.refused s.regs with
          | some n => .ex (refusal (atExec s devs) n)
          | none => (modRegs (fun r => { r with pc := operand2 s.regs i.r0 i.p0 i.p1 }) >>= fun _ =>
              modRegs (fun r => { r with smt := 0 })) (atExec s devs) := by
        obtain ⟨op, r0, r1, r2, p0, p1, p2⟩ := i
        dsimp only at hop; subst hop
        show execLsm _ _ = _
        unfold execLsm
        rw [getsM_bind, svMode_eq, show supervisor (atExec s devs).regs = true from hs]
        rw [if_pos rfl, bind_regOrLit2]
        rfl
      rw [this] at h
      exact raised_split (fun _ => hs) h fun hr h => by cases h
  | 0x10 =>
    rw [run_itr (op_eq ho)] at h
    exact raised_split (no ho (by decide)) h fun hr h => by cases h
  | 0x11 =>
    rw [run_if (op_eq ho)] at h
    refine raised_split (no ho (by decide)) h fun hr h => ?_
    split at h
    · next hf =>
      injection h with h; subst h
      exact .exc rfl (u8_code _) (.flag (.inl (op_eq ho)) hr hf)
    · unfold ifTail at h
      rw [getM_bind] at h
      split at h <;> cases h
  | 0x12 =>
    rw [run_ifn (op_eq ho)] at h
    refine raised_split (no ho (by decide)) h fun hr h => ?_
    split at h
    · next hf =>
      injection h with h; subst h
      exact .exc rfl (u8_code _) (.flag (.inr (op_eq ho)) hr hf)
    · unfold ifTail at h
      rw [getM_bind] at h
      split at h <;> cases h
  | 0x13 =>
    rw [run_if2 (op_eq ho)] at h
    refine raised_split (no ho (by decide)) h fun hr h => ?_
    cases h1 : flagTest pf (atExec s devs).regs.af (operand1 (atExec s devs).regs i.r0 i.p0) with
    | none => rw [h1] at h; cases h
    | some a =>
      rw [h1, liftRes_some_bind] at h
      cases h2 : flagTest pf (atExec s devs).regs.af (operand1 (atExec s devs).regs i.r1 i.p1) with
      | none => rw [h2] at h; cases h
      | some b =>
        rw [h2, liftRes_some_bind] at h
        cases h3 : if2Cond (operand1 (atExec s devs).regs i.r2 i.p2) a b with
        | some r =>
          rw [h3] at h
          cases r <;> cases h
        | none =>
          rw [h3] at h
          injection h with h; subst h
          exact .exc rfl (u8_code _) (.condition (op_eq ho) hr
            (fun hd => ⟨flagTest_some h1 hd, flagTest_some h2 hd⟩) (if2Cond_none.1 h3))
  | 0x14 =>
    rw [run_lsa (op_eq ho)] at h
    refine raised_split (no ho (by decide)) h fun hr h => ?_
    have hf : i.loadsFrom s.regs = some (operand1 s.regs i.r1 i.p1 + operand1 s.regs i.r2 i.p2) := by
      unfold Parts.loadsFrom; rw [ho]; rfl
    rcases M.bind_ex_inv h with h | ⟨w, t, h1, h⟩
    · obtain ⟨c, d, h1, h2⟩ := load_ex_inv (devs1 := devs) h
      exact .of (.load hr (adds_triv (op_ne (op_eq ho) (by decide)) (op_ne (op_eq ho) (by decide))) hf h1) h2 rfl
    · obtain ⟨devs', hl, rfl⟩ := load_ok_inv (devs1 := devs) h1
      obtain ⟨h2, h3, h4⟩ := writeReg_ex_inv h
      exact .of (.loadDest (op_eq ho) hr hf hl h2) h3 h4
  | 0x15 =>
    rw [run_lea (op_eq ho)] at h
    refine raised_split (no ho (by decide)) h fun hr h => ?_
    rcases M.bind_ex_inv h with h | ⟨w, t, h1, h⟩
    · obtain ⟨c, d, h1, h2⟩ := load_ex_inv (devs1 := devs) h
      exact .of (.load hr (adds_triv (op_ne (op_eq ho) (by decide)) (op_ne (op_eq ho) (by decide)))
        (by unfold Parts.loadsFrom; rw [ho]; rfl) h1) h2 rfl
    · cases h
  | 0x16 =>
    rw [run_wsa (op_eq ho)] at h
    refine raised_split (no ho (by decide)) h fun hr h => ?_
    obtain ⟨c, d, h1, h2⟩ := store_ex_inv (devs1 := devs) h
    exact .of (.store hr (adds_triv (op_ne (op_eq ho) (by decide)) (op_ne (op_eq ho) (by decide)))
      (by unfold Parts.storesTo; rw [ho]; rfl) h1) h2 rfl
  | 0x17 =>
    rw [run_wea (op_eq ho)] at h
    refine raised_split (no ho (by decide)) h fun hr h => ?_
    obtain ⟨c, d, h1, h2⟩ := store_ex_inv (devs1 := devs) h
    exact .of (.store hr (adds_triv (op_ne (op_eq ho) (by decide)) (op_ne (op_eq ho) (by decide)))
      (by unfold Parts.storesTo; rw [ho]; rfl) h1) h2 rfl
  | 0x18 =>
    rw [run_srm (op_eq ho)] at h
    refine raised_split (no ho (by decide)) h fun hr h => ?_
    cases ha : pf.add (operand1 (atExec s devs).regs i.r0 i.p0) (operand1 (atExec s devs).regs i.r1 i.p1) with
    | none => rw [ha] at h; cases h
    | some a =>
      rw [ha, liftRes_some_bind] at h
      obtain ⟨hadd, rfl⟩ := adds_some (s := s) (i := i) (op_eq ho) ha
      have hf : i.loadsFrom s.regs = some (operand1 s.regs i.r0 i.p0 + operand1 s.regs i.r1 i.p1) := by
        unfold Parts.loadsFrom; rw [ho]; rfl
      rcases M.bind_ex_inv h with h | ⟨w, t, h1, h⟩
      · obtain ⟨c, d, h1, h2⟩ := load_ex_inv (devs1 := devs) h
        exact .of (.load hr hadd hf h1) h2 rfl
      · obtain ⟨devs', hl, rfl⟩ := load_ok_inv (devs1 := devs) h1
        cases hm : mayRead (supervisor s.regs) i.p2.toNat with
        | false =>
          have hb := (readReg_eq i.p2 { atExec s devs with devs := devs' }).trans
            (if_neg fun h => Bool.false_ne_true (hm.symm.trans h))
          have h := (M.bind_ex hb).symm.trans h
          injection h with h; subst h
          refine .of (.swapSource (op_eq ho) hr hadd hf hl hm) ?_ rfl
          rw [exception_regs, noRead_eq, u8_data]
          rfl
        | true =>
          have hb := (readReg_eq i.p2 { atExec s devs with devs := devs' }).trans (if_pos hm)
          have h := (M.bind_ok hb).symm.trans h
          rw [liftRes_some_bind] at h
          rcases M.bind_ex_inv h with h | ⟨_, t, h2, h⟩
          · obtain ⟨c, d, h2, h3⟩ := store_ex_inv (devs1 := devs) h
            exact .of (.swapStore (op_eq ho) hr hadd hf hl hm h2) h3 rfl
          · obtain ⟨devs'', hs, rfl⟩ := store_ok_inv (devs1 := devs) h2
            obtain ⟨h3, h4, h5⟩ := writeReg_ex_inv h
            exact .of (.swapDest (op_eq ho) hr hadd hf hl hm hs h3) h4 h5
  | 0x19 =>
    rw [run_push (op_eq ho)] at h
    refine raised_split (no ho (by decide)) h fun hr h => ?_
    rcases M.bind_ex_inv h with h | ⟨w, t, h1, h⟩
    · obtain ⟨c, d, h1, h2⟩ := store_ex_inv (devs1 := devs) h
      refine .of (.store hr (adds_triv (op_ne (op_eq ho) (by decide)) (op_ne (op_eq ho) (by decide)))
        ?_ h1) h2 rfl
      unfold Parts.storesTo; rw [ho]; rfl
    · unfold setSp at h; cases h
  | 0x1A =>
    have hop : i.op = 0x1A := op_eq ho
    have hr : i.refused s.regs = none := by unfold Parts.refused Parts.sources; rw [ho]; rfl
    have hf : i.loadsFrom s.regs = some (stackPtr s.regs) := by unfold Parts.loadsFrom; rw [ho]; rfl
    have hp : runInstr pf i.fields (atExec s devs) = execPop pf i.fields (atExec s devs) := by
      obtain ⟨op, r0, r1, r2, p0, p1, p2⟩ := i
      dsimp only at hop; subst hop
      rfl
    rw [hp] at h
    cases hc : cpuRead pf (stackPtr s.regs) (atExec s devs) with
    | ok w t =>
      obtain ⟨devs', hl, rfl⟩ := load_ok_inv (devs1 := devs) hc
      rw [pop_eval hl] at h
      obtain ⟨h3, h4, h5⟩ := writeReg_ex_inv h
      refine .of (.popDest hop hf hl (by rw [← supervisor_withStackPtr]; exact h3)) ?_ h5
      rw [h4]
      unfold noWrite
      simp only [supervisor_withStackPtr]
      rfl
    | ex t =>
      rw [pop_not hc (fun _ _ => by simp)] at h
      injection h with h; subst h
      obtain ⟨c, d, h1, h2⟩ := load_ex_inv (devs1 := devs) hc
      exact .of (.load hr (adds_triv (op_ne (op_eq ho) (by decide)) (op_ne (op_eq ho) (by decide))) hf h1) h2 rfl
    | panic =>
      rw [pop_not hc (fun _ _ => by simp)] at h
      cases h
  | 0x1B =>
    rw [run_call (op_eq ho)] at h
    refine raised_split (no ho (by decide)) h fun hr h => ?_
    cases ha : pf.add (atExec s devs).regs.pc 4 with
    | none => rw [ha] at h; cases h
    | some a =>
      rw [ha, liftRes_some_bind] at h
      obtain ⟨hadd, rfl⟩ := adds_call (s := s) (i := i) (op_eq ho) ha
      rcases M.bind_ex_inv h with h | ⟨w, t, h1, h⟩
      · obtain ⟨c, d, h1, h2⟩ := store_ex_inv (devs1 := devs) h
        refine .of (.store hr hadd ?_ h1) h2 rfl
        unfold Parts.storesTo; rw [ho]; rfl
      · unfold setSp at h; cases h
  | 0x1C =>
    rw [run_hwd (op_eq ho)] at h
    refine raised_split (no ho (by decide)) h fun hr h => ?_
    split at h
    · next hz =>
      rw [getsM_bind] at h
      refine raised_write h (.hwDest (op_eq ho) hr (.inl ⟨congrArg BitVec.toNat hz.1, congrArg BitVec.toNat hz.2⟩) ?_)
      intro hi
      rw [show i.hwInfo s.regs = 0 from congrArg BitVec.toNat hz.2] at hi
      cases hi
    · next hz =>
      have hnc : ¬ i.hwCount s.regs := fun hc => hz ⟨BitVec.eq_of_toNat_eq hc.1, BitVec.eq_of_toNat_eq hc.2⟩
      rcases getHwInfo_split (pf := pf) (s := s) (i := i) (operand1 s.regs i.r2 i.p2) _ (atExec s devs) rfl rfl rfl rfl with
        ⟨c, d, hc, hg⟩ | ⟨hn, ⟨w, hg, he⟩ | ⟨hg, _⟩⟩
      · have h := (M.bind_ex hg).symm.trans h
        injection h with h; subst h
        exact .exc rfl rfl (.hw (op_eq ho) hr hnc hc)
      · have h := (M.bind_ok hg).symm.trans h
        exact raised_write h (.hwDest (op_eq ho) hr (.inr hn) he)
      · have h := (bind_not hg (fun _ _ h => by cases h)).symm.trans h
        cases h
  | 0x1D =>
    have hop : i.op = 0x1D := op_eq ho
    have hp : runInstr pf i.fields (atExec s devs) = writeReg i.p0 ((atExec s devs).cycles.setWidth 32) (atExec s devs) := by
      obtain ⟨op, r0, r1, r2, p0, p1, p2⟩ := i
      dsimp only at hop; subst hop
      rfl
    rw [hp] at h
    exact raised_write h (.dest (by rw [ho]; decide) (by unfold Parts.refused Parts.sources; rw [ho]; rfl))
  | 0x1E =>
    have hop : i.op = 0x1E := op_eq ho
    obtain ⟨op, r0, r1, r2, p0, p1, p2⟩ := i
    dsimp only at hop; subst hop
    cases h
  | 0x1F =>
    rw [run_reset (op_eq ho)] at h
    refine raised_split (no ho (by decide)) h fun hr h => ?_
    rcases M.bind_ex_inv h with h | ⟨_, t, h1, h⟩
    · obtain ⟨rfl, hm⟩ := resetDevs_ex h
      refine .exc rfl (u16_data _) (.reset (op_eq ho) hr ?_ ?_)
      · rw [← and15]; exact hm
      · exact resetDevs_unknown (by rw [← hm]; exact h)
    · split at h <;> cases h
  | k + 32 => omega

/-! ### A cause is always reported -/

/-- The instruction raises the exception `c` with data `d`. -/
def Runs (pf : Profile) (s : Machine D) (devs : List D) (i : Parts) (r : Regs) (c d : Nat) (devs' : List D) : Prop :=
  ∃ (c' : U8) (d' : U16) (cp : Bool), trap r c'.toNat d'.toNat = trap r c d ∧
    runInstr pf i.fields (atExec s devs) =
      .ex ({ atExec s devs with regs := r, devs := devs', changedPc := cp }.exception c' d')

theorem Runs.mk (c' : U8) (d' : U16) {r : Regs} {c d : Nat} {devs' : List D} {cp : Bool} (hc : c'.toNat = c) (hd : d'.toNat = d)
    (h : runInstr pf i.fields (atExec s devs) =
      .ex ({ atExec s devs with regs := r, devs := devs', changedPc := cp }.exception c' d')) : Runs pf s devs i r c d devs' :=
  ⟨c', d', cp, by rw [hc, hd], h⟩

theorem runs_write {r : Regs} {devs' : List D} {p : U8} {w : Word} {cp : Bool}
    (h : runInstr pf i.fields (atExec s devs) = writeReg p w { atExec s devs with regs := r, devs := devs', changedPc := cp })
    (hm : mayWrite (supervisor r) p.toNat = false) : Runs pf s devs i r (noWrite r p.toNat) p.toNat devs' := by
  rw [writeReg_fault (s := { atExec s devs with regs := r, devs := devs', changedPc := cp }) w hm] at h
  exact .mk _ _ (noWrite_eq _ _) (u8_data _) h

theorem runs_none {o : Out (Machine D) Unit}
    (h : runInstr pf i.fields (atExec s devs) = match i.refused s.regs with
      | some n => .ex (refusal (atExec s devs) n)
      | none => o) (hr : i.refused s.regs = none) : runInstr pf i.fields (atExec s devs) = o := by
  rw [hr] at h; exact h

theorem runs_source {o : Out (Machine D) Unit} {n : Nat}
    (h : runInstr pf i.fields (atExec s devs) = match i.refused s.regs with
      | some n => .ex (refusal (atExec s devs) n)
      | none => o) (hr : i.refused s.regs = some n) : Runs pf s devs i s.regs (noRead s.regs) n devs := by
  rw [hr] at h
  refine .mk (cp := false) _ _ (noRead_eq _) ?_ h
  rw [BitVec.toNat_ofNat, Nat.mod_eq_of_lt]
  have := refused_lt hr
  omega

theorem runs_lsm (hop : i.op = 0x0F) (hs : supervisor s.regs = true) : runInstr pf i.fields (atExec s devs) =
    match i.refused s.regs with
    | some n => .ex (refusal (atExec s devs) n)
    | none => (modRegs (fun r => { r with pc := operand2 s.regs i.r0 i.p0 i.p1 }) >>= fun _ =>
        modRegs (fun r => { r with smt := 0 })) (atExec s devs) := by
  obtain ⟨op, r0, r1, r2, p0, p1, p2⟩ := i
  dsimp only at hop; subst hop
  show execLsm _ _ = _
  unfold execLsm
  rw [getsM_bind, svMode_eq, show supervisor (atExec s devs).regs = true from hs]
  rw [if_pos rfl, bind_regOrLit2]
  rfl

theorem refused_zero {n : Nat} {r : Regs} (ho : i.op.toNat = 0x00 ∨ i.op.toNat = 0x1A ∨ i.op.toNat = 0x1D ∨ i.op.toNat = 0x1E)
    (h : i.refused r = some n) : False := by
  unfold Parts.refused Parts.sources at h
  rcases ho with ho | ho | ho | ho <;> rw [ho] at h <;> cases h

/-- An operand that may not be read is reported. -/
theorem cause_source {n : Nat} (hl : i.op = 0x0F → supervisor s.regs = true) (h : i.refused s.regs = some n) :
    Runs pf s devs i s.regs (noRead s.regs) n devs := by
  have hlt := i.op.isLt
  match ho : i.op.toNat with
  | 0x00 => exact (refused_zero (.inl ho) h).elim
  | 0x01 => exact runs_source (run_cpy (op_eq ho)) h
  | 0x02 => exact runs_source (run_ex (op_eq ho)) h
  | 0x03 | 0x04 | 0x05 | 0x08 | 0x09 | 0x0A | 0x0B | 0x0C =>
    obtain ⟨y, hy⟩ := run_alu (pf := pf) (s := atExec s devs) (i := i) (by rw [ho]; decide)
    exact runs_source hy h
  | 0x06 => exact runs_source (run_div (op_eq ho)) h
  | 0x07 => exact runs_source (run_mod (op_eq ho)) h
  | 0x0D =>
    obtain ⟨y, hy⟩ := run_cmp (pf := pf) (s := atExec s devs) (i := i) (op_eq ho)
    exact runs_source hy h
  | 0x0E => exact runs_source (run_jpr (op_eq ho)) h
  | 0x0F => exact runs_source (runs_lsm (op_eq ho) (hl (op_eq ho))) h
  | 0x10 => exact runs_source (run_itr (op_eq ho)) h
  | 0x11 => exact runs_source (run_if (op_eq ho)) h
  | 0x12 => exact runs_source (run_ifn (op_eq ho)) h
  | 0x13 => exact runs_source (run_if2 (op_eq ho)) h
  | 0x14 => exact runs_source (run_lsa (op_eq ho)) h
  | 0x15 => exact runs_source (run_lea (op_eq ho)) h
  | 0x16 => exact runs_source (run_wsa (op_eq ho)) h
  | 0x17 => exact runs_source (run_wea (op_eq ho)) h
  | 0x18 => exact runs_source (run_srm (op_eq ho)) h
  | 0x19 => exact runs_source (run_push (op_eq ho)) h
  | 0x1A => exact (refused_zero (.inr (.inl ho)) h).elim
  | 0x1B => exact runs_source (run_call (op_eq ho)) h
  | 0x1C => exact runs_source (run_hwd (op_eq ho)) h
  | 0x1D => exact (refused_zero (.inr (.inr (.inl ho))) h).elim
  | 0x1E => exact (refused_zero (.inr (.inr (.inr ho))) h).elim
  | 0x1F => exact runs_source (run_reset (op_eq ho)) h
  | k + 32 => omega

theorem Runs.steps {r : Regs} {c d : Nat} {devs' : List D} (h : Runs pf s devs i r c d devs')
    (hf : Fetches pf s i.word devs) : Steps pf s (trap r c d) devs' := by
  obtain ⟨c', d', cp, ht, h⟩ := h
  rw [← ht]
  exact steps_ex hf h

/-- The step that a cause leads to. -/
def Reports (pf : Profile) (s : Machine D) (i : Parts) (r : Regs) (c d : Nat) (devs' : List D) : Prop :=
  ∃ af, (af = r.af ∨ i.computed s.regs c) ∧ Steps pf s (trap { r with af := af } c d) devs'

theorem Runs.reports {r : Regs} {c d : Nat} {devs' : List D} (h : Runs pf s devs i r c d devs')
    (hf : Fetches pf s i.word devs) : Reports pf s i r c d devs' := ⟨r.af, .inl rfl, h.steps hf⟩

theorem runs_computed {af : Word} {p : U8} {w : Word} (hf : Fetches pf s i.word devs) (h3 : 0x03 ≤ i.op.toNat ∧ i.op.toNat ≤ 0x0C)
    (hr : i.refused s.regs = none)
    (h : runInstr pf i.fields (atExec s devs) = writeReg p w { atExec s devs with regs := { s.regs with af := af } })
    (hm : mayWrite (supervisor s.regs) p.toNat = false) : Reports pf s i s.regs (noWrite s.regs p.toNat) p.toNat devs := by
  refine ⟨af, .inr ⟨h3, hr, noWrite_codes _ _⟩, ?_⟩
  exact (runs_write (r := { s.regs with af := af }) (devs' := devs) (cp := false) h hm).steps hf

theorem runs_loadFault {v : Word} {c d : Nat} {devs1 devs' : List D} {k : Word → M D Unit}
    (h : runInstr pf i.fields (atExec s devs) = (cpuRead pf v >>= k) { atExec s devs with devs := devs1 })
    (hl : LoadFaults pf s devs1 v c d devs') : Runs pf s devs i s.regs c d devs' := by
  obtain ⟨c', d', hx, ht⟩ := loadFault_at (devs1 := devs) hl
  exact ⟨c', d', false, ht, h.trans (M.bind_ex hx)⟩

theorem runs_storeFault {v w : Word} {c d : Nat} {devs1 devs' : List D} {o : Out (Machine D) Unit}
    (h : runInstr pf i.fields (atExec s devs) = o)
    (ho : ∀ t, cpuWrite pf v w { atExec s devs with devs := devs1 } = .ex t → o = .ex t)
    (hl : StoreFaults pf s devs1 v w c d devs') : Runs pf s devs i s.regs c d devs' := by
  obtain ⟨c', d', hx, ht⟩ := storeFault_at (devs1 := devs) hl
  exact ⟨c', d', false, ht, h.trans (ho _ hx)⟩

theorem add_of_adds (hp : i.op = 0x18) (h : i.adds pf s.regs) :
    pf.add (operand1 s.regs i.r0 i.p0) (operand1 s.regs i.r1 i.p1) = some (operand1 s.regs i.r0 i.p0 + operand1 s.regs i.r1 i.p1) := by
  cases pf with
  | release => rfl
  | debug => exact if_pos ((h rfl).1 hp)

theorem run_pop (hop : i.op = 0x1A) : runInstr pf i.fields (atExec s devs) = execPop pf i.fields (atExec s devs) := by
  obtain ⟨op, r0, r1, r2, p0, p1, p2⟩ := i
  dsimp only at hop; subst hop
  rfl

theorem run_cycles (hop : i.op = 0x1D) :
    runInstr pf i.fields (atExec s devs) = writeReg i.p0 ((atExec s devs).cycles.setWidth 32) (atExec s devs) := by
  obtain ⟨op, r0, r1, r2, p0, p1, p2⟩ := i
  dsimp only at hop; subst hop
  rfl

/-- The beginning of SRM. -/
theorem run_srm_load {v w : Word} {devs' : List D} (ho : i.op = 0x18) (hr : i.refused s.regs = none) (ha : i.adds pf s.regs)
    (hv : i.loadsFrom s.regs = some v) (hl : Loads pf s devs v w devs') :
    runInstr pf i.fields (atExec s devs) = (readReg i.p2 >>= fun x => cpuWrite pf v x >>= fun _ => writeReg i.p2 w)
      { atExec s devs with devs := devs' } := by
  have hf : i.loadsFrom s.regs = some (operand1 s.regs i.r0 i.p0 + operand1 s.regs i.r1 i.p1) := by
    unfold Parts.loadsFrom; rw [ho]; rfl
  rw [hf] at hv
  cases hv
  have h := runs_none (run_srm (pf := pf) (s := atExec s devs) ho) hr
  rw [show pf.add (operand1 (atExec s devs).regs i.r0 i.p0) (operand1 (atExec s devs).regs i.r1 i.p1) = some _ from
    add_of_adds ho ha, liftRes_some_bind] at h
  exact h.trans (M.bind_ok (load_at (devs1 := devs) hl))

theorem hwRefusal_unique {c d c' d' : Nat} (h : HwRefusal s i c d) (h' : HwRefusal s i c' d') : c = c' ∧ d = d' := by
  have ha : ∀ n, n = 0xA1 ∨ n = 0xA2 → n ∈ hwInfos := by
    rintro n (rfl | rfl) <;> decide
  cases h with
  | unknown h =>
    cases h' with
    | unknown h' => exact ⟨rfl, rfl⟩
    | info h' => omega
    | unmapped h' => omega
  | info h h1 =>
    cases h' with
    | unknown h' => omega
    | info h' => exact ⟨rfl, rfl⟩
    | unmapped h' h2 => exact absurd (ha _ h2) h1
  | unmapped h h1 =>
    cases h' with
    | unknown h' => omega
    | info h' h2 => exact absurd (ha _ h1) h2
    | unmapped h' => exact ⟨rfl, rfl⟩

/-- Every documented cause is reported. -/
theorem reports_of_cause {r : Regs} {c d : Nat} {devs' : List D} (hf : Fetches pf s i.word devs)
    (h : Cause pf s devs i r c d devs') : Reports pf s i r c d devs' := by
  cases h with
  | notInstr hop =>
    refine Runs.reports (.mk (cp := false) 0x01 0 rfl rfl ?_) hf
    obtain ⟨op, r0, r1, r2, p0, p1, p2⟩ := i
    dsimp only at hop; subst hop
    rfl
  | reserved hop hs =>
    refine Runs.reports (.mk (cp := false) 0x09 0x0F rfl rfl ?_) hf
    obtain ⟨op, r0, r1, r2, p0, p1, p2⟩ := i
    dsimp only at hop; subst hop
    show execLsm _ _ = _
    unfold execLsm
    rw [getsM_bind, svMode_eq, show supervisor (atExec s devs).regs = false from hs]
    rfl
  | source hl h => exact (cause_source hl h).reports hf
  | divByZero ho hr hz =>
    refine Runs.reports (.mk (cp := false) 0x0A 0 rfl rfl ?_) hf
    have key : ∀ b, divCore b ((operand1 s.regs i.r2 i.p2).setWidth 8) (reg s.regs i.p0.toNat) (operand1 s.regs i.r1 i.p1) = .error 0x0A := by
      intro b
      rcases divCore_split b (operand1 s.regs i.r2 i.p2) (reg s.regs i.p0.toNat) (operand1 s.regs i.r1 i.p1) with
        ⟨_, _, h⟩ | ⟨h, _⟩ | ⟨h, _⟩
      · exact h
      · rw [show operand1 s.regs i.r1 i.p1 = 0 from hz.1] at h
        exact absurd h.1 (by decide)
      · exact absurd hz h
    rcases ho with ho | ho
    · exact (runs_none (run_div (pf := pf) (s := atExec s devs) ho) hr).trans (M.bind_ex (compute_error (key true)))
    · exact (runs_none (run_mod (pf := pf) (s := atExec s devs) ho) hr).trans (M.bind_ex (compute_error (key false)))
  | divOverflow ho hr hz =>
    refine Runs.reports (.mk (cp := false) 0x0B 0 rfl rfl ?_) hf
    have key : ∀ b, divCore b ((operand1 s.regs i.r2 i.p2).setWidth 8) (reg s.regs i.p0.toNat) (operand1 s.regs i.r1 i.p1) = .error 0x0B := by
      intro b
      rcases divCore_split b (operand1 s.regs i.r2 i.p2) (reg s.regs i.p0.toNat) (operand1 s.regs i.r1 i.p1) with
        ⟨h, _, _⟩ | ⟨_, h⟩ | ⟨_, h, _⟩
      · have := hz.1
        rw [show i.divisor s.regs = 0 from h] at this
        exact absurd this (by decide)
      · exact h
      · exact absurd hz h
    rcases ho with ho | ho
    · exact (runs_none (run_div (pf := pf) (s := atExec s devs) ho) hr).trans (M.bind_ex (compute_error (key true)))
    · exact (runs_none (run_mod (pf := pf) (s := atExec s devs) ho) hr).trans (M.bind_ex (compute_error (key false)))
  | interruption ho hr =>
    refine ⟨s.regs.af, .inl rfl, ?_⟩
    have h := runs_none (run_itr (pf := pf) (s := atExec s devs) ho) hr
    have := steps_ok (cp := true) (devs' := devs) (r := trap s.regs 0xF0 ((operand1 s.regs i.r0 i.p0).toNat % 2 ^ 16)) hf
      (h.trans (by
        rw [← u16_data]
        exact congrArg (fun r => Out.ok () { atExec s devs with regs := r, changedPc := true })
          (exception_regs (atExec s devs) 0xF0 ((operand1 s.regs i.r0 i.p0).setWidth 16))))
    exact this
  | flag ho hr hn =>
    refine Runs.reports (.mk (cp := false) 0x0C _ rfl (u8_code _) ?_) hf
    have hlt : 7#32 < operand1 s.regs i.r0 i.p0 := BitVec.lt_def.2 hn
    rcases ho with ho | ho
    · exact (runs_none (run_if (pf := pf) (s := atExec s devs) ho) hr).trans ((ite_apply_M _ _ _).trans (if_pos hlt))
    · exact (runs_none (run_ifn (pf := pf) (s := atExec s devs) ho) hr).trans ((ite_apply_M _ _ _).trans (if_pos hlt))
  | condition ho hr hd hn =>
    refine Runs.reports (.mk (cp := false) 0x0D _ rfl (u8_code _) ?_) hf
    obtain ⟨a, ha⟩ := flagTest_ok (pf := pf) (af := (atExec s devs).regs.af) (f := operand1 (atExec s devs).regs i.r0 i.p0)
      (fun h => (hd h).1)
    obtain ⟨b, hb⟩ := flagTest_ok (pf := pf) (af := (atExec s devs).regs.af) (f := operand1 (atExec s devs).regs i.r1 i.p1)
      (fun h => (hd h).2)
    have hc : if2Cond (operand1 (atExec s devs).regs i.r2 i.p2) a b = none := if2Cond_none.2 hn
    refine (runs_none (run_if2 (pf := pf) (s := atExec s devs) ho) hr).trans ?_
    rw [ha, liftRes_some_bind, hb, liftRes_some_bind, hc]
    rfl
  | load hr ha hv hl =>
    refine Runs.reports ?_ hf
    unfold Parts.loadsFrom at hv
    split at hv
    · next ho =>
      cases hv
      exact runs_loadFault (devs1 := devs) (runs_none (run_lsa (pf := pf) (s := atExec s devs) (op_eq ho)) hr) hl
    · next ho =>
      cases hv
      exact runs_loadFault (devs1 := devs) (runs_none (run_lea (pf := pf) (s := atExec s devs) (op_eq ho)) hr) hl
    · next ho =>
      cases hv
      have h := runs_none (run_srm (pf := pf) (s := atExec s devs) (op_eq ho)) hr
      rw [show pf.add (operand1 (atExec s devs).regs i.r0 i.p0) (operand1 (atExec s devs).regs i.r1 i.p1) = some _ from
        add_of_adds (op_eq ho) ha, liftRes_some_bind] at h
      exact runs_loadFault (devs1 := devs) h hl
    · next ho =>
      cases hv
      obtain ⟨c', d', hx, ht⟩ := loadFault_at (devs1 := devs) hl
      exact ⟨c', d', false, ht, (run_pop (op_eq ho)).trans (pop_not hx (fun _ _ h => by cases h))⟩
    · cases hv
  | store hr ha hv hl =>
    refine Runs.reports ?_ hf
    unfold Parts.storesTo at hv
    split at hv
    · next ho =>
      cases hv
      exact runs_storeFault (devs1 := devs) (runs_none (run_wsa (pf := pf) (s := atExec s devs) (op_eq ho)) hr) (fun _ h => h) hl
    · next ho =>
      cases hv
      exact runs_storeFault (devs1 := devs) (runs_none (run_wea (pf := pf) (s := atExec s devs) (op_eq ho)) hr) (fun _ h => h) hl
    · next ho =>
      cases hv
      exact runs_storeFault (devs1 := devs) (runs_none (run_push (pf := pf) (s := atExec s devs) (op_eq ho)) hr)
        (fun _ h => M.bind_ex h) hl
    · next ho =>
      cases hv
      have h := runs_none (run_call (pf := pf) (s := atExec s devs) (op_eq ho)) hr
      rw [show pf.add (atExec s devs).regs.pc 4 = some _ from retAddr (fun h => (ha h).2 (op_eq ho)), liftRes_some_bind] at h
      exact runs_storeFault (devs1 := devs) h (fun _ h => M.bind_ex h) hl
    · cases hv
  | swapSource ho hr ha hv hl hm =>
    refine Runs.reports (.mk (cp := false) _ _ (noRead_eq _) (u8_data _) ?_) hf
    refine (run_srm_load ho hr ha hv hl).trans (M.bind_ex ?_)
    exact (readReg_eq i.p2 { atExec s devs with devs := devs' }).trans (if_neg fun h => Bool.false_ne_true (hm.symm.trans h))
  | swapStore ho hr ha hv hl hm hs =>
    refine (runs_storeFault (run_srm_load ho hr ha hv hl) (fun t ht => ?_) hs).reports hf
    exact (M.bind_ok ((readReg_eq i.p2 { atExec s devs with devs := _ }).trans (if_pos hm))).trans (M.bind_ex ht)
  | @swapDest v w devs1 _ ho hr ha hv hl hm hs hw =>
    have h : (readReg i.p2 >>= fun x => cpuWrite pf v x >>= fun _ => writeReg i.p2 w) { atExec s devs with devs := devs1 } =
        writeReg i.p2 w { atExec s devs with devs := devs' } :=
      (M.bind_ok ((readReg_eq i.p2 { atExec s devs with devs := devs1 }).trans (if_pos hm))).trans
        (M.bind_ok (store_at (devs1 := devs) hs))
    exact (runs_write (cp := false) ((run_srm_load ho hr ha hv hl).trans h) hw).reports hf
  | dest ho hr hm =>
    have halu : i.op.toNat ∈ [0x03, 0x04, 0x05, 0x08, 0x09, 0x0A, 0x0B, 0x0C] →
        Reports pf s i s.regs (noWrite s.regs i.p0.toNat) i.p0.toNat devs := by
      intro ho
      obtain ⟨y, hy⟩ := run_alu (pf := pf) (s := atExec s devs) (i := i) ho
      obtain ⟨⟨w, cf, of⟩, hp⟩ := aluOp_ok (reg (atExec s devs).regs i.p0.toNat) y i.op.toNat
      refine runs_computed hf ?_ hr ((runs_none hy hr).trans (M.bind_ok (compute_ok hp))) hm
      simp only [List.mem_cons, List.not_mem_nil, or_false] at ho
      omega
    simp only [List.mem_cons, List.not_mem_nil, or_false] at ho
    rcases ho with ho | ho | ho | ho | ho | ho | ho | ho | ho | ho
    · exact (runs_write (cp := false) (runs_none (run_cpy (pf := pf) (s := atExec s devs) (op_eq ho)) hr) hm).reports hf
    iterate 8
      · exact halu (by rw [ho]; decide)
    · exact (runs_write (cp := false) (run_cycles (op_eq ho)) hm).reports hf
  | divDest ho hr h0 hv hm =>
    have key : ∀ b, ∃ p, divCore b ((operand1 s.regs i.r2 i.p2).setWidth 8) (reg s.regs i.p0.toNat) (operand1 s.regs i.r1 i.p1) = .ok p := by
      intro b
      rcases divCore_split b (operand1 s.regs i.r2 i.p2) (reg s.regs i.p0.toNat) (operand1 s.regs i.r1 i.p1) with
        ⟨h1, h2, _⟩ | ⟨h, _⟩ | ⟨_, _, h⟩
      · exact absurd ⟨h1, h2⟩ h0
      · exact absurd h hv
      · exact h
    have h3 : 0x03 ≤ i.op.toNat ∧ i.op.toNat ≤ 0x0C := by rcases ho with h | h <;> rw [h] <;> decide
    rcases ho with ho | ho
    · obtain ⟨⟨w, cf, of⟩, hp⟩ := key true
      exact runs_computed hf h3 hr ((runs_none (run_div (pf := pf) (s := atExec s devs) ho) hr).trans (M.bind_ok (compute_ok hp))) hm
    · obtain ⟨⟨w, cf, of⟩, hp⟩ := key false
      exact runs_computed hf h3 hr ((runs_none (run_mod (pf := pf) (s := atExec s devs) ho) hr).trans (M.bind_ok (compute_ok hp))) hm
  | loadDest ho hr hv hl hm =>
    have hl0 : i.loadsFrom s.regs = some (operand1 s.regs i.r1 i.p1 + operand1 s.regs i.r2 i.p2) := by
      unfold Parts.loadsFrom; rw [ho]; rfl
    rw [hl0] at hv
    cases hv
    exact (runs_write (cp := false) ((runs_none (run_lsa (pf := pf) (s := atExec s devs) ho) hr).trans
      (M.bind_ok (load_at (devs1 := devs) hl))) hm).reports hf
  | popDest ho hv hl hm =>
    have hl0 : i.loadsFrom s.regs = some (stackPtr s.regs) := by unfold Parts.loadsFrom; rw [ho]; rfl
    rw [hl0] at hv
    cases hv
    have hw : noWrite s.regs i.p0.toNat = noWrite (withStackPtr s.regs (stackPtr s.regs + 4)) i.p0.toNat := by
      unfold noWrite; rw [supervisor_withStackPtr]
    rw [hw]
    exact (runs_write (cp := false) ((run_pop ho).trans (pop_eval hl)) (by rw [supervisor_withStackPtr]; exact hm)).reports hf
  | exFirst ho hr hm =>
    refine Runs.reports (.mk (cp := false) _ _ (noWrite_eq _ _) (u8_data _)
      ((runs_none (run_ex (pf := pf) (s := atExec s devs) ho) hr).trans (M.bind_ex (writeReg_fault (s := atExec s devs) _ hm)))) hf
  | exSecond ho hr hm he hm2 =>
    subst he
    exact (runs_write ((runs_none (run_ex (pf := pf) (s := atExec s devs) ho) hr).trans
      (M.bind_ok (writeReg_val (s := atExec s devs) _ hm))) hm2).reports hf
  | hw ho hr hn hx =>
    have hz : ¬ (operand1 s.regs i.r1 i.p1 = 0 ∧ operand1 s.regs i.r2 i.p2 = 0) :=
      fun hz => hn ⟨congrArg BitVec.toNat hz.1, congrArg BitVec.toNat hz.2⟩
    have h := (runs_none (run_hwd (pf := pf) (s := atExec s devs) ho) hr).trans ((ite_apply_M _ _ _).trans (if_neg hz))
    rcases getHwInfo_split (pf := pf) (s := s) (i := i) (operand1 s.regs i.r2 i.p2) _ (atExec s devs) rfl rfl rfl rfl with
      ⟨c', d', hc, hg⟩ | ⟨hno, _⟩
    · obtain ⟨h1, h2⟩ := hwRefusal_unique hc hx
      exact Runs.reports (.mk (cp := false) c' d' h1 h2 (h.trans (M.bind_ex hg))) hf
    · exact absurd hx (hno _ _)
  | hwDest ho hr hn he hm =>
    by_cases hz : operand1 s.regs i.r1 i.p1 = 0 ∧ operand1 s.regs i.r2 i.p2 = 0
    · have h := (runs_none (run_hwd (pf := pf) (s := atExec s devs) ho) hr).trans ((ite_apply_M _ _ _).trans (if_pos hz))
      exact (runs_write (cp := false) (w := BitVec.ofNat 32 devs.length) h hm).reports hf
    · have h := (runs_none (run_hwd (pf := pf) (s := atExec s devs) ho) hr).trans ((ite_apply_M _ _ _).trans (if_neg hz))
      have hn : ∀ c d, ¬ HwRefusal s i c d := by
        rcases hn with hn | hn
        · exact absurd ⟨BitVec.eq_of_toNat_eq hn.1, BitVec.eq_of_toNat_eq hn.2⟩ hz
        · exact hn
      rcases getHwInfo_split (pf := pf) (s := s) (i := i) (operand1 s.regs i.r2 i.p2) _ (atExec s devs) rfl rfl rfl rfl with
        ⟨c', d', hc, hg⟩ | ⟨_, ⟨w, hg, _⟩ | ⟨_, hi, m, hm', hne⟩⟩
      · exact absurd hc (hn _ _)
      · exact (runs_write (cp := false) (h.trans (M.bind_ok hg)) hm).reports hf
      · exact absurd (he hi m hm') hne
  | reset ho hr hm hl =>
    refine Runs.reports (.mk (cp := false) 0x10 _ rfl (u16_data _) ?_) hf
    refine (runs_none (run_reset (pf := pf) (s := atExec s devs) ho) hr).trans (M.bind_ex ?_)
    rw [show (operand1 (atExec s devs).regs i.r0 i.p0 &&& 0x0F#32).toNat = 1 from (and15 _).trans hm]
    unfold resetDevs
    rw [getM_bind]
    have hb : bridgeReset (atExec s devs).devs (atExec s devs).regs.avr.toNat = some none := by
      unfold bridgeReset
      rw [List.getElem?_eq_none (show (atExec s devs).devs.length ≤ (atExec s devs).regs.avr.toNat from hl)]
    show (liftRes (bridgeReset (atExec s devs).devs (atExec s devs).regs.avr.toNat) >>= _) _ = _
    rw [hb, liftRes_some_bind]
    rfl

/-- **C113**, causes are reported: an instruction that meets a documented cause of exception (the first in the order in
which it looks at its operands) raises the exception that this cause deserves, with the data that describes it: the number of
the refused register, the component, the flag... Only the operations on numbers have then updated the flags. -/
theorem C113_reported {r : Regs} {c d : Nat} {devs' : List D} (hf : Fetches pf s i.word devs)
    (h : Cause pf s devs i r c d devs') :
    ∃ af, (af = r.af ∨ i.computed s.regs c) ∧ Steps pf s (trap { r with af := af } c d) devs' := reports_of_cause hf h

theorem Spec.Parts.exists_word (w : Word) : ∃ i : Parts, w = i.word := by
  obtain ⟨op, r0, r1, r2, p0, p1, p2, h⟩ := exists_instrWord w
  exact ⟨⟨op, r0, r1, r2, p0, p1, p2⟩, h⟩

/-- **C113**, exceptions have causes: after the fetch of a word, either the cycle raised the exception of a documented cause,
or there was no such cause and the exception register has not been written (or the CPU has been reset by RESET). -/
theorem C113_explained {s' : Machine D} {w : Word} (hf : Fetches pf s w devs) (hn : next pf s = some s') :
    ∃ i : Parts, w = i.word ∧
      ((∃ r c d devs' af, Cause pf s devs i r c d devs' ∧ (af = r.af ∨ i.computed s.regs c) ∧
          s'.regs = trap { r with af := af } c d ∧ s'.devs = devs') ∨
        (∀ r c d devs', ¬ Cause pf s devs i r c d devs') ∧
          (s'.regs.et = s.regs.et ∨ i.op = 0x1F ∧ s'.regs = startup)) := by
  obtain ⟨i, rfl⟩ := Spec.Parts.exists_word w
  refine ⟨i, rfl, ?_⟩
  by_cases hc : ∃ r c d devs', Cause pf s devs i r c d devs'
  · obtain ⟨r, c, d, devs', hc⟩ := hc
    obtain ⟨af, ha, t, ht, h1, h2, _⟩ := reports_of_cause hf hc
    rw [hn] at ht
    cases ht
    exact .inl ⟨r, c, d, devs', af, hc, ha, h1, h2⟩
  · have hc : ∀ r c d devs', ¬ Cause pf s devs i r c d devs' := fun r c d devs' h => hc ⟨r, c, d, devs', h⟩
    refine .inr ⟨hc, ?_⟩
    have hfields : fieldsOf i.word = i.fields := fieldsOf_instrWord ..
    rcases next_inv hn hf.1 with ⟨devs', c, d, _, ha, _, _⟩ | ⟨w', devs', hf', _, hr⟩
    · have := (fetches_iff.1 hf).2
      rw [ha] at this
      cases this
    · obtain ⟨rfl, rfl⟩ := fetches_unique hf hf'
      rw [hfields] at hr
      rcases hr with ⟨t, c, d, hrun, _, _, _⟩ | ⟨t, hrun, he, rfl⟩
      · obtain ⟨r, c, d, devs', af, h, _⟩ := raised_of_ex hrun
        exact absurd h (hc _ _ _ _)
      · have hop : i.fields.opcode.toNat = i.op.toNat := by
          show (i.op.setWidth 8).toNat = _
          have := i.op.isLt
          rw [BitVec.toNat_setWidth, Nat.mod_eq_of_lt (by omega)]
        have h10 : i.fields.opcode.toNat ≠ 0x10 := by
          intro h
          rw [hop] at h
          cases hr : i.refused s.regs with
          | none => exact hc _ _ _ _ (.interruption (op_eq h) hr)
          | some n => exact hc _ _ _ _ (.source (fun h' => by rw [h'] at h; exact absurd h (by decide)) hr)
        by_cases h1F : i.fields.opcode.toNat = 0x1F
        · rw [runInstr_reset h1F] at hrun
          obtain ⟨v, _, ⟨_, ht⟩ | ⟨_, ht⟩⟩ := execReset_ok hrun
          · have hcp : t.changedPc = true := by rw [ht]; rfl
            rw [if_pos hcp, ht]
            exact .inr ⟨op_eq (hop.symm.trans h1F), rfl⟩
          · left
            split <;> (rw [ht]; rfl)
        · left
          have := (he.hidden h1F h10).2.1
          split
          · exact this
          · exact this

/-- **C113**, at most one exception: two causes of one instruction deserve the same exception, with the same data. -/
theorem C113_unique {r r' : Regs} {c c' d d' : Nat} {devs' devs'' : List D} (hf : Fetches pf s i.word devs)
    (h : Cause pf s devs i r c d devs') (h' : Cause pf s devs i r' c' d' devs'') :
    (trap r c d).et = (trap r' c' d').et ∧ devs' = devs'' := by
  obtain ⟨af, _, t, ht, h1, h2, _⟩ := reports_of_cause hf h
  obtain ⟨af', _, t', ht', h1', h2', _⟩ := reports_of_cause hf h'
  rw [ht] at ht'
  cases ht'
  have h := congrArg Regs.et (h1.symm.trans h1')
  exact ⟨h, h2.symm.trans h2'⟩

end

/-- In userland, `ADD ssp, a0` is refused for its source operand (0x03), not its destination; `SUB af, 1` for its destination
(0x04) after the flags have been updated; register 0x40 does not exist but is reported as protected. In supervisor mode
(registers as the CPU starts) `DIV a0, 0, DIV_ZRO_FRB` is a division by zero, and HWD on a component that does not exist is 0x10. -/
example :
    Cause .debug (Demo.user [0]) [] ⟨0x03, false, true, false, 0x18, 0x00, 0⟩ (Demo.user [0]).regs 0x03 0x18 [] ∧
    Cause .debug (Demo.user [0]) [] ⟨0x04, false, false, false, 0x17, 0x00, 1⟩ (Demo.user [0]).regs 0x04 0x17 [] ∧
    Cause .debug (Demo.user [0]) [] ⟨0x01, false, true, false, 0x00, 0x40, 0⟩ (Demo.user [0]).regs 0x03 0x40 [] ∧
    Cause .debug (Demo.start [0]) [] ⟨0x06, false, false, false, 0x00, 0x00, 0x00⟩ (Demo.start [0]).regs 0x0A 0 [] ∧
    Cause .debug (Demo.start [0]) [] ⟨0x1C, false, false, false, 0x00, 0x09, 0x01⟩ (Demo.start [0]).regs 0x10 9 [] := by
  refine ⟨.source (n := 0x18) (by decide) (by decide +kernel), .dest (by decide) (by decide +kernel) (by decide +kernel),
    .source (n := 0x40) (by decide) (by decide +kernel), .divByZero (by decide) (by decide +kernel) ⟨by decide +kernel, by decide +kernel⟩,
    .hw (by decide) (by decide +kernel) ?_ (.unknown ?_)⟩
  · exact fun h => absurd h.1 (by decide +kernel)
  · decide +kernel

/-- A whole step: in userland `ADD ssp, a0` raises 0x03 about register 0x18. -/
example : ∃ devs s', Fetches .debug (Demo.user [instrWord 0x03 false true false 0x18 0x00 0]) (instrWord 0x03 false true false 0x18 0x00 0) devs ∧
    next .debug (Demo.user [instrWord 0x03 false true false 0x18 0x00 0]) = some s' ∧
    s'.regs.et = 0x00030018 :=
  ⟨_, _, ⟨rfl, rfl⟩, rfl, by decide +kernel⟩

end Lrvm
