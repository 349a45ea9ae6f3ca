import Verif.Props.Steps

/-!
# Supervisor and userland: C11, C12, C13, C14, C15
-/

namespace Lrvm

open Spec

variable {D : Type} [Bus D] {pf : Profile}

theorem fetches_unique {s : Machine D} {w w' : Word} {devs devs' : List D}
    (hf : Fetches pf s w devs) (hf' : Fetches pf s w' devs') : w' = w ∧ devs' = devs := by
  rw [fetches_iff] at hf hf'
  rw [hf.2] at hf'
  have := hf'.2
  injection this with h1 h2; exact ⟨h1.symm, h2.symm⟩

/-- A userland machine: user stack at `0x60`, exception vector at `0x20`. -/
def Demo.user (prog : List Word) : Machine Demo.Dev :=
  { Demo.start prog with regs := { Regs.zero with usp := 0x60, ev := 0x20, ssp := 0x80 } }

/-! ## C11, C12 -/

theorem bits4_eq (v : Word) : v &&& 0xF0#32 = 0 ↔ v.toNat / 16 % 16 = 0 := by
  have h : v &&& 0xF0#32 = BitVec.ofNat 32 (v.toNat / 16 % 16 * 16) := by
    apply BitVec.eq_of_getLsbD_eq
    intro i hi
    have hr : (BitVec.ofNat 32 (v.toNat / 16 % 16 * 16)).getLsbD i =
        (decide (i < 32) && (decide (i ≥ 4) && (decide (i - 4 < 4) && v.getLsbD (4 + (i - 4))))) := by
      rw [BitVec.getLsbD_ofNat, show v.toNat / 16 % 16 * 16 = (v.toNat >>> 4 % 2 ^ 4) <<< 4 by
        rw [Nat.shiftLeft_eq, Nat.shiftRight_eq_div_pow], Nat.testBit_shiftLeft, Nat.testBit_mod_two_pow, Nat.testBit_shiftRight,
        BitVec.testBit_toNat]
    rw [BitVec.getLsbD_and, hr]
    have hk : (0xF0#32).getLsbD i = (decide (4 ≤ i) && decide (i - 4 < 4)) := by
      clear hr; revert i; decide
    rw [hk]
    by_cases h4 : 4 ≤ i
    · rw [show 4 + (i - 4) = i by omega]; simp [hi, h4, Bool.and_comm]
    · simp [h4]
  rw [h]
  constructor
  · intro h0
    have := congrArg BitVec.toNat h0
    rw [BitVec.toNat_ofNat] at this
    have h1 : (0 : Word).toNat = 0 := rfl
    omega
  · intro h0; rw [h0]; rfl

/-- The exceptions of RESET are documented ones. -/
theorem execReset_ex_doc {f : Fields} {s t : Machine D} (h : execReset f s = .ex t) :
    ∃ c d, c.toNat ∈ exceptionCodes ∧ t = s.exception c d := by
  unfold execReset at h
  rw [M.bind_def] at h
  cases hv : regOrLit1 f.r0 f.p0 s with
  | ex s1 =>
    rw [hv] at h; injection h with h; subst h
    cases hr : f.r0 with
    | false => rw [hr] at hv; cases hv
    | true =>
      rw [hr] at hv
      change readReg f.p0 s = _ at hv
      rw [readReg_eq] at hv
      split at hv
      · cases hv
      · injection hv with hv
        exact ⟨_, _, by unfold readFault; split <;> decide, hv.symm⟩
  | panic => rw [hv] at h; cases h
  | ok v s1 =>
    rw [hv] at h
    obtain ⟨rfl, hval⟩ := regOrLit1_inv hv
    dsimp only at h
    rw [M.bind_def] at h
    cases hd : resetDevs (v &&& 0x0F#32).toNat s1 with
    | ex s2 => rw [hd] at h; injection h with h; subst h; exact ⟨_, _, by decide, (resetDevs_ex hd).1⟩
    | panic => rw [hd] at h; cases h
    | ok u s2 =>
      rw [hd] at h
      dsimp only at h
      split at h <;> cases h

/-- What a userland step that does not reset the processor does to the supervisor's registers. -/
theorem userland_step {s s' : Machine D} (hu : supervisor s.regs = false) (h : next pf s = some s')
    (hr : ∀ w devs, Fetches pf s w devs → ¬ ResetsCpu s.regs w) :
    (s'.regs.ssp = s.regs.ssp ∧ s'.regs.ev = s.regs.ev ∧ s'.regs.mtt = s.regs.mtt ∧
      s'.regs.pda = s.regs.pda ∧ s'.regs.era = s.regs.era) ∧
    (s'.regs.usp = s.regs.usp ∨ ∃ w devs, Fetches pf s w devs ∧ opcode w ∈ [0x19, 0x1A, 0x1B]) ∧
    ((s'.regs.smt = s.regs.smt ∧ s'.regs.et = s.regs.et) ∨
      (s'.regs.smt = 1 ∧ s'.regs.pc = s.regs.ev ∧
        ∃ c d, c ∈ exceptionCodes ∧ d < 65536 ∧ s'.regs.et.toNat = c * 2 ^ 16 + d)) := by
  cases hh : s.halted with
  | true =>
    unfold next at h; rw [if_pos hh] at h; injection h with h; subst h
    exact ⟨⟨rfl, rfl, rfl, rfl, rfl⟩, .inl rfl, .inl ⟨rfl, rfl⟩⟩
  | false =>
    have exc : ∀ (t : Machine D) (c : U8) (d : U16), c.toNat ∈ exceptionCodes →
        t.regs.smt = s.regs.smt → t.regs.ev = s.regs.ev →
        ((t.exception c d).regs.smt = 1 ∧ (t.exception c d).regs.pc = s.regs.ev ∧
          ∃ c' d', c' ∈ exceptionCodes ∧ d' < 65536 ∧
            (t.exception c d).regs.et.toNat = c' * 2 ^ 16 + d') := by
      intro t c d hc hsm hev
      refine ⟨rfl, hev, c.toNat, d.toNat, hc, d.isLt, ?_⟩
      rw [exception_regs, trap_et _ hc d.isLt]
      have : supervisor t.regs = false := by unfold supervisor at hu ⊢; rw [hsm]; exact hu
      rw [this]; simp
    rcases next_inv h hh with ⟨devs, c, d, hc, _, hl, rfl⟩ | ⟨w, devs, hf, hl, hi⟩
    · exact ⟨⟨rfl, rfl, rfl, rfl, rfl⟩, .inl rfl, .inr (exc _ c d (fetchCodes_doc c hc) rfl rfl)⟩
    · by_cases h1F : (fieldsOf w).opcode.toNat = 0x1F
      · rcases hi with ⟨t, c, d, hrun, _⟩ | ⟨t, hrun, he, rfl⟩
        · rw [runInstr_reset h1F] at hrun
          obtain ⟨c, d, hc, rfl⟩ := execReset_ex_doc hrun
          exact ⟨⟨rfl, rfl, rfl, rfl, rfl⟩, .inl rfl, .inr (exc _ c d hc rfl rfl)⟩
        · rw [runInstr_reset h1F] at hrun
          obtain ⟨v, hv, ⟨hz, _⟩ | ⟨_, ht⟩⟩ := execReset_ok hrun
          · obtain ⟨op, r0, r1, r2, p0, p1, p2, rfl⟩ := exists_instrWord w
            rw [fields_opcode] at h1F
            have hop : op = 0x1F#5 := BitVec.eq_of_toNat_eq h1F
            subst hop
            rw [fieldsOf_instrWord] at hv
            exact absurd ⟨r0, r1, r2, p0, p1, p2, v, rfl, hv, (bits4_eq v).mp hz⟩ (hr _ devs hf)
          · have key : t.regs = s.regs := by rw [ht]; rfl
            split
            · rw [key]; exact ⟨⟨rfl, rfl, rfl, rfl, rfl⟩, .inl rfl, .inl ⟨rfl, rfl⟩⟩
            · rw [key]; exact ⟨⟨rfl, rfl, rfl, rfl, rfl⟩, .inl rfl, .inl ⟨rfl, rfl⟩⟩
      by_cases h10 : (fieldsOf w).opcode.toNat = 0x10
      · rcases execItr_eq (atExec s devs) (fieldsOf w) with ⟨v, _, hv⟩ | ⟨_, _, hv⟩
        · rcases hi with ⟨t, c, d, hrun, _⟩ | ⟨t, hrun, he, rfl⟩
          · rw [runInstr_itr h10, hv] at hrun; cases hrun
          · rw [runInstr_itr h10, hv] at hrun
            injection hrun with _ hrun
            have hcp : t.changedPc = true := by rw [← hrun]; rfl
            rw [if_pos hcp, ← hrun]
            exact ⟨⟨rfl, rfl, rfl, rfl, rfl⟩, .inl rfl, .inr (exc _ 0xF0 _ (by decide) rfl rfl)⟩
        · rcases hi with ⟨t, c, d, hrun, _, hc, hs⟩ | ⟨t, hrun, he, rfl⟩
          · rw [runInstr_itr h10, hv] at hrun
            injection hrun with hrun
            rw [← hrun]
            refine ⟨⟨rfl, rfl, rfl, rfl, rfl⟩, .inl rfl, .inr (exc _ _ _ ?_ rfl rfl)⟩
            unfold readFault; split <;> decide
          · rw [runInstr_itr h10, hv] at hrun; cases hrun
      · have key : ∀ t, Effs pf (fieldsOf w) (atExec s devs) t → _ := fun t he =>
          And.intro (he.user h1F h10 hu) (he.hidden h1F h10)
        have husp : ∀ x : Word, ((fieldsOf w).opcode.toNat ∉ [0x19, 0x1A, 0x1B] → x = s.regs.usp) →
            (x = s.regs.usp ∨ ∃ w devs, Fetches pf s w devs ∧ opcode w ∈ [0x19, 0x1A, 0x1B]) := by
          intro x hx
          by_cases hm : (fieldsOf w).opcode.toNat ∈ [0x19, 0x1A, 0x1B]
          · rw [fieldsOf_opcode] at hm; exact .inr ⟨w, devs, hf, hm⟩
          · exact .inl (hx hm)
        rcases hi with ⟨t, c, d, _, he, hc, rfl⟩ | ⟨t, hrun, he, rfl⟩
        · obtain ⟨⟨h1, h2, h3, h4, h5, h6⟩, h7, h8, _⟩ := key t he
          exact ⟨⟨h2, h3, h4, h5, h7⟩, husp _ h6, .inr (exc t c d (faultCodes_doc c hc) h1 h3)⟩
        · obtain ⟨⟨h1, h2, h3, h4, h5, h6⟩, h7, h8, _⟩ := key t he
          split
          · exact ⟨⟨h2, h3, h4, h5, h7⟩, husp _ h6, .inl ⟨h1, h8⟩⟩
          · exact ⟨⟨h2, h3, h4, h5, h7⟩, husp _ h6, .inl ⟨h1, h8⟩⟩

/-- **C11**, partial. A userland step that is not a RESET with processor mode 0 never changes `ssp`, `ev`, `mtt`, `pda` or `era`,
and changes `usp` only when it executes PUSH, POP or CALL. Missing: that RESET, which the code lets userland
execute (`C11_reset_refuted`, `C11_reset_does`). -/
theorem C11_userland_keeps_supervisor_state_partial {s s' : Machine D}
    (hu : supervisor s.regs = false) (h : next pf s = some s')
    (hr : ∀ w devs, Fetches pf s w devs → ¬ ResetsCpu s.regs w) :
    s'.regs.ssp = s.regs.ssp ∧ s'.regs.ev = s.regs.ev ∧ s'.regs.mtt = s.regs.mtt ∧
    s'.regs.pda = s.regs.pda ∧ s'.regs.era = s.regs.era ∧
    (s'.regs.usp = s.regs.usp ∨ ∃ w devs, Fetches pf s w devs ∧ opcode w ∈ [0x19, 0x1A, 0x1B]) := by
  obtain ⟨⟨h1, h2, h3, h4, h5⟩, h6, _⟩ := userland_step hu h hr
  exact ⟨h1, h2, h3, h4, h5, h6⟩

/-- The full claim is false of the code: a userland program erases the exception vector with RESET. -/
theorem C11_reset_refuted : ∃ s s' : Machine Demo.Dev, supervisor s.regs = false ∧
    next .debug s = some s' ∧ s'.regs.ev ≠ s.regs.ev := by
  refine ⟨Demo.user [instrWord 0x1F false false false 0x0F 0 0], _, rfl, rfl, ?_⟩
  decide

/-- What the missing RESET does, exactly: in any mode, a RESET with processor mode 0 raises a documented exception, after which only
`pc`, `et`, `era` and `smt` may have changed, or leaves every register as at startup, so in supervisor mode at address 0. -/
theorem C11_reset_does {s s' : Machine D} {w : Word} {devs : List D} (hf : Fetches pf s w devs) (hw : ResetsCpu s.regs w)
    (h : next pf s = some s') :
    (∃ c d, c ∈ exceptionCodes ∧ d < 65536 ∧ s'.regs = trap s.regs c d) ∨ (s'.regs = startup ∧ s'.cycles = 0) := by
  obtain ⟨r0, r1, r2, p0, p1, p2, mode, rfl, hv, hz⟩ := hw
  have h1F : (fieldsOf (instrWord 0x1F r0 r1 r2 p0 p1 p2)).opcode.toNat = 0x1F := by rw [fields_opcode]; rfl
  rcases next_inv h hf.1 with ⟨ds, c, d, _, hx, _⟩ | ⟨w', ds, hf', _, hi⟩
  · have := (fetches_iff.mp hf).2
    rw [hx] at this; cases this
  · obtain ⟨rfl, rfl⟩ := fetches_unique hf hf'
    rcases hi with ⟨t, c, d, hrun, _⟩ | ⟨t, hrun, _, rfl⟩
    · rw [runInstr_reset h1F] at hrun
      obtain ⟨c, d, hc, rfl⟩ := execReset_ex_doc hrun
      refine .inl ⟨c.toNat, d.toNat, hc, d.isLt, ?_⟩
      rw [exception_regs]; rfl
    · rw [runInstr_reset h1F] at hrun
      obtain ⟨v, hv', ⟨_, ht⟩ | ⟨hn, _⟩⟩ := execReset_ok hrun
      · right
        have hcp : t.changedPc = true := by rw [ht]; rfl
        rw [if_pos hcp, ht]
        exact ⟨rfl, rfl⟩
      · rw [fieldsOf_instrWord] at hv'
        have : v = mode := by
          change Val1 s.regs r0 p0 v at hv'
          unfold Val1 at hv hv'
          cases r0
          · simp at hv hv'; rw [hv, hv']
          · simp at hv hv'; rw [hv.2, hv'.2]
        subst this
        exact absurd ((bits4_eq v).mpr hz) hn

/-- Two userland RESETs: of the processor only (0x0F), and of the components only (0x10), which keeps the registers. -/
example : ∃ s' t' : Machine Demo.Dev,
    ResetsCpu (Demo.user [instrWord 0x1F false false false 0x0F 0 0]).regs (instrWord 0x1F false false false 0x0F 0 0) ∧
    next .debug (Demo.user [instrWord 0x1F false false false 0x0F 0 0]) = some s' ∧ s'.regs = startup ∧
    ¬ ResetsCpu (Demo.user [instrWord 0x1F false false false 0x10 0 0]).regs (instrWord 0x1F false false false 0x10 0 0) ∧
    next .debug (Demo.user [instrWord 0x1F false false false 0x10 0 0]) = some t' ∧ t'.regs.ev = 0x20 := by
  refine ⟨_, _, ⟨_, _, _, _, _, _, _, rfl, rfl, by decide⟩, rfl, rfl, ?_, rfl, rfl⟩
  rintro ⟨r0, r1, r2, p0, p1, p2, mode, e, hv, hz⟩
  have hf := congrArg fieldsOf e
  rw [fieldsOf_instrWord, fieldsOf_instrWord] at hf
  injection hf with _ h1 _ _ h2 _ _
  subst h1; subst h2
  have hv : mode = BitVec.ofNat 32 (0x10#8).toNat := hv
  subst hv
  revert hz; decide

/-- **C12**, partial. If a step starts in userland, is not a RESET with processor mode 0, and ends in supervisor mode, then the
CPU is at the exception vector and `et` records a userland exception with a documented code. Missing:
that RESET (`C12_reset_refuted`). -/
theorem C12_supervisor_only_by_exception_partial {s s' : Machine D}
    (hu : supervisor s.regs = false) (h : next pf s = some s')
    (hr : ∀ w devs, Fetches pf s w devs → ¬ ResetsCpu s.regs w) (hs : supervisor s'.regs = true) :
    s'.regs.pc = s.regs.ev ∧
    ∃ c d, c ∈ exceptionCodes ∧ d < 65536 ∧ s'.regs.et.toNat = c * 2 ^ 16 + d := by
  obtain ⟨_, _, h1 | h1⟩ := userland_step hu h hr
  · unfold supervisor at hu hs; rw [h1.1, hu] at hs; cases hs
  · exact ⟨h1.2.1, h1.2.2⟩

/-- The full claim is false of the code: a userland RESET gives supervisor mode at address 0 with no
exception recorded. -/
theorem C12_reset_refuted : ∃ s s' : Machine Demo.Dev, supervisor s.regs = false ∧
    next .debug s = some s' ∧ supervisor s'.regs = true ∧ s'.regs.pc ≠ s.regs.ev ∧
    s'.regs.et = 0 := by
  refine ⟨Demo.user [instrWord 0x1F false false false 0x0F 0 0], _, rfl, rfl, rfl, ?_, rfl⟩
  decide

/-- A userland step that raises an exception: reading `et` (register `0x1A`). -/
example : ∃ s', supervisor (Demo.user [instrWord 0x01 false true false 0 0x1A 0]).regs = false ∧
    next .debug (Demo.user [instrWord 0x01 false true false 0 0x1A 0]) = some s' ∧
    supervisor s'.regs = true ∧ s'.regs.et = 0x0003001A := ⟨_, rfl, rfl, rfl, rfl⟩

example : ∀ w devs, Fetches .debug (Demo.user [instrWord 0x01 false true false 0 0x1A 0]) w devs →
    opcode w ≠ 0x1F := by
  intro w devs hf
  have h1 : Fetches .debug (Demo.user [instrWord 0x01 false true false 0 0x1A 0])
      (instrWord 0x01 false true false 0 0x1A 0) _ := ⟨rfl, rfl⟩
  rw [(fetches_unique h1 hf).1]
  decide

/-! ## C14, C15 -/

/-- **C14**, partial. LSM executed in userland raises exception `0x09` with the opcode and does nothing
else. Missing: CYCLES, HALT and RESET, documented as reserved to supervisor mode, are executed in userland
by the code (`C14_halt_refuted`, `C14_cycles_refuted`, `C14_reset_refuted`). -/
theorem C14_lsm_refused_partial {s : Machine D} {devs : List D} {r0 r1 r2 : Bool} {p0 p1 p2 : U8}
    (hf : Fetches pf s (instrWord 0x0F r0 r1 r2 p0 p1 p2) devs) (hu : supervisor s.regs = false) :
    Steps pf s (trap s.regs 0x09 0x0F) devs := by
  refine steps_ex (c := 0x09) (d := 0x0F) (r := s.regs) (devs' := devs) (cp := false) hf ?_
  show execLsm _ _ = _
  unfold execLsm
  rw [getsM_bind]
  have : (atExec s devs).svMode = false := hu
  rw [this]
  rfl

/-- HALT stops the machine in userland. -/
theorem C14_halt_refuted : ∃ s s' : Machine Demo.Dev, supervisor s.regs = false ∧
    Fetches .debug s (instrWord 0x1E false false false 0 0 0) s.devs ∧
    next .debug s = some s' ∧ s'.halted = true ∧ s'.regs.et = 0 :=
  ⟨Demo.user [instrWord 0x1E false false false 0 0 0], _, rfl, ⟨rfl, rfl⟩, rfl, rfl, rfl⟩

/-- CYCLES gives the cycle counter to userland. -/
theorem C14_cycles_refuted : ∃ s s' : Machine Demo.Dev, supervisor s.regs = false ∧
    Fetches .debug s (instrWord 0x1D false false false 0 0 0) s.devs ∧
    next .debug s = some s' ∧ reg s'.regs 0 = 1 ∧ s'.regs.et = 0 :=
  ⟨Demo.user [instrWord 0x1D false false false 0 0 0], _, rfl, ⟨rfl, rfl⟩, rfl, rfl, rfl⟩

/-- RESET resets the processor from userland. -/
theorem C14_reset_refuted : ∃ s s' : Machine Demo.Dev, supervisor s.regs = false ∧
    Fetches .debug s (instrWord 0x1F false false false 0x0F 0 0) s.devs ∧
    next .debug s = some s' ∧ s'.regs = startup :=
  ⟨Demo.user [instrWord 0x1F false false false 0x0F 0 0], _, rfl, ⟨rfl, rfl⟩, rfl, rfl⟩

/-- **C15**, partial. In supervisor mode LSM leaves supervisor mode and nothing but `smt` and `pc` changes;
but the CPU continues at the given address plus 4, not at the address (`C15_lsm_refuted`). -/
theorem C15_lsm_partial {s : Machine D} {devs : List D} {r0 r1 r2 : Bool} {p0 p1 p2 : U8} {v : Word}
    (hf : Fetches pf s (instrWord 0x0F r0 r1 r2 p0 p1 p2) devs) (hs : supervisor s.regs = true)
    (hv : Val2 s.regs r0 p0 p1 v) :
    Steps pf s { s.regs with pc := v + 4, smt := 0 } devs := by
  refine steps_ok (cp := false) (r := { s.regs with pc := v, smt := 0 }) (devs' := devs) hf ?_
  show execLsm _ _ = _
  unfold execLsm
  rw [getsM_bind]
  have : (atExec s devs).svMode = true := hs
  rw [this, if_pos rfl, M.bind_ok (regOrLit2_val (s := atExec s devs) hv)]
  rfl

/-- Non-vacuity: `LSM 0x10` at startup. -/
example : Fetches .debug (Demo.start [instrWord 0x0F false false false 0 0x10 0])
      (instrWord 0x0F false false false 0 0x10 0) (Demo.devices [instrWord 0x0F false false false 0 0x10 0]) ∧
    supervisor (Demo.start [instrWord 0x0F false false false 0 0x10 0]).regs = true ∧
    Val2 (Demo.start [instrWord 0x0F false false false 0 0x10 0]).regs false 0 0x10 0x10 := ⟨⟨rfl, rfl⟩, rfl, rfl⟩

/-- The documented claim ("jumps to the given address") is false of the code. -/
theorem C15_lsm_refuted : ∃ (s s' : Machine Demo.Dev) (v : Word),
    Fetches .debug s (instrWord 0x0F false false false 0x00 0x10 0) s.devs ∧
    supervisor s.regs = true ∧ Val2 s.regs false 0x00 0x10 v ∧ next .debug s = some s' ∧
    s'.regs.smt = 0 ∧ s'.regs.pc ≠ v := by
  refine ⟨Demo.start [instrWord 0x0F false false false 0x00 0x10 0], _, 0x10, ⟨rfl, rfl⟩, rfl, rfl, rfl,
    rfl, ?_⟩
  decide

example : Fetches .debug (Demo.user [instrWord 0x0F false false false 0x00 0x10 0])
    (instrWord 0x0F false false false 0x00 0x10 0)
    (Demo.devices [instrWord 0x0F false false false 0x00 0x10 0]) ∧
    supervisor (Demo.user [instrWord 0x0F false false false 0x00 0x10 0]).regs = false :=
  ⟨⟨rfl, rfl⟩, rfl⟩

end Lrvm
