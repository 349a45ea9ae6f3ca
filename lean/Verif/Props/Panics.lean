import Verif.Lemmas.Total
import Verif.Props.Hardware

/-!
# A guest program cannot crash the host: C42
-/

namespace Lrvm

open Spec

variable {D : Type} [Bus D] {pf : Profile} {P : Nat → D → Prop} {size : Nat → Nat}

theorem regOrLit1_cases (b : Bool) (p : U8) (s : Machine D) :
    (∃ v, Val1 s.regs b p v ∧ regOrLit1 b p s = .ok v s) ∨ ∃ t, regOrLit1 b p s = .ex t := by
  cases h : regOrLit1 b p s with
  | ok v t => obtain ⟨rfl, hv⟩ := regOrLit1_inv h; exact .inl ⟨v, hv, rfl⟩
  | ex t => exact .inr ⟨t, rfl⟩
  | panic =>
    exfalso
    cases b with
    | false => cases h
    | true =>
      have h : readReg p s = .panic := h
      rw [readReg_eq] at h
      split at h <;> cases h

theorem flagTest_total {af v : Word} (h : pf = .debug → v.toNat ≤ 7) : ∃ b, flagTest pf af v = some b := by
  cases pf with
  | release => exact ⟨_, rfl⟩
  | debug =>
    have h := h rfl
    unfold flagTest
    rw [sub_total (pf := .debug) (show v.toNat ≤ (7 : Word).toNat from h)]
    have h7 : ((7 : Word) - v).toNat = 7 - v.toNat := offset_nat (show v.toNat ≤ (7 : Word).toNat from h)
    have : Profile.debug.oneShl (7 - v) = some (1#32 <<< (7 - v).toNat) := if_pos (by rw [h7]; omega)
    simp only [this, Option.bind_eq_bind, Option.bind_some]
    exact ⟨_, rfl⟩

theorem add_total {a b : Word} (h : pf = .debug → a.toNat + b.toNat < 2 ^ 32) : pf.add a b = some (a + b) := by
  cases pf with
  | release => rfl
  | debug => exact if_pos (h rfl)

theorem ne_if2 {s : Machine D} {f : Fields} (hs : Good pf P size s)
    (h1 : pf = .debug → ∀ v, Val1 s.regs f.r0 f.p0 v → v.toNat ≤ 7)
    (h2 : pf = .debug → ∀ v, Val1 s.regs f.r1 f.p1 v → v.toNat ≤ 7) : execIf2 pf f s ≠ .panic := by
  unfold execIf2
  rcases regOrLit1_cases f.r0 f.p0 s with ⟨a, ha, ea⟩ | ⟨t, e⟩
  · rw [M.bind_ok ea]
    rcases regOrLit1_cases f.r1 f.p1 s with ⟨b, hb, eb⟩ | ⟨t, e⟩
    · rw [M.bind_ok eb]
      rcases regOrLit1_cases f.r2 f.p2 s with ⟨c, hc, ec⟩ | ⟨t, e⟩
      · rw [M.bind_ok ec, getM_bind]
        obtain ⟨x, hx⟩ := flagTest_total (pf := pf) (af := s.regs.af) (fun h => h1 h a ha)
        obtain ⟨y, hy⟩ := flagTest_total (pf := pf) (af := s.regs.af) (fun h => h2 h b hb)
        rw [hx, liftRes_some_bind, hy, liftRes_some_bind]
        cases if2Cond c x y with
        | none => simp
        | some r => dsimp only; rw [ite_apply_M]; split <;> simp [skipNext]
      · rw [M.bind_ex e]; simp
    · rw [M.bind_ex e]; simp
  · rw [M.bind_ex e]; simp

theorem ne_srm {s : Machine D} {f : Fields} (hs : Good pf P size s)
    (h : pf = .debug → ∀ a b, Val1 s.regs f.r0 f.p0 a → Val1 s.regs f.r1 f.p1 b → a.toNat + b.toNat < 2 ^ 32) :
    execSrm pf f s ≠ .panic := by
  unfold execSrm
  rcases regOrLit1_cases f.r0 f.p0 s with ⟨a, ha, ea⟩ | ⟨t, e⟩
  · rw [M.bind_ok ea]
    rcases regOrLit1_cases f.r1 f.p1 s with ⟨b, hb, eb⟩ | ⟨t, e⟩
    · rw [M.bind_ok eb, add_total (fun hd => h hd a b ha hb), liftRes_some_bind]
      refine ne_bind (np_cpuRead _) (fun w => ne_bind (np_readReg _) fun u => ?_) s hs
      intro t ht
      rw [liftRes_some_bind]
      exact ne_bind (np_cpuWrite _ _) (fun _ => ne_writeReg _ _) t ht
    · rw [M.bind_ex e]; simp
  · rw [M.bind_ex e]; simp

theorem ne_call {s : Machine D} {f : Fields} (hs : Good pf P size s)
    (h : pf = .debug → s.regs.pc.toNat + 4 < 2 ^ 32) : execCall pf f s ≠ .panic := by
  unfold execCall
  rw [M.bind_def]
  cases hv : regOrLit2 f.r0 f.p0 f.p1 s with
  | panic => exact absurd hv ((np_regOrLit2 (P := P) (size := size) _ _ _) s hs).1
  | ex t => simp
  | ok v t =>
    obtain ⟨rfl, _⟩ := regOrLit2_inv hv
    dsimp only
    rw [getsM_bind, getsM_bind, add_total (show pf = .debug → t.regs.pc.toNat + (4 : Word).toNat < 2 ^ 32 from h),
      liftRes_some_bind]
    exact ne_bind (np_cpuWrite _ _) (fun _ => ne_bind (np_setSp _) fun _ => ne_modifyM _) t hs

theorem ne_pop (f : Fields) : NE pf P size (execPop pf f : M D Unit) := by
  unfold execPop
  refine ne_bind (np_getsM _) fun sv => ne_bind ?_ fun w => ne_writeReg _ _
  split
  · exact np_bind (np_getsM _) fun _ => np_bind (np_cpuRead _) fun _ =>
      np_bind (np_modRegs _ (fun _ => rfl) (fun _ => rfl)) fun _ => np_pure _
  · exact np_bind (np_getsM _) fun _ => np_bind (np_cpuRead _) fun _ =>
      np_bind (np_modRegs _ (fun _ => rfl) (fun _ => rfl)) fun _ => np_pure _

/-- No instruction panics on a good machine, save the overflowing ones. -/
theorem runInstr_total {s : Machine D} {op : BitVec 5} {r0 r1 r2 : Bool} {p0 p1 p2 : U8} (hs : Good pf P size s)
    (hov : pf = .debug → ¬ Overflows s.regs (instrWord op r0 r1 r2 p0 p1 p2))
    (hcall : pf = .debug → op = 0x1B → s.regs.pc.toNat + 4 < 2 ^ 32) :
    runInstr pf ⟨op.setWidth 8, r0, r1, r2, p0, p1, p2⟩ s ≠ .panic := by
  have hlt : (op.setWidth 8).toNat < 32 := by rw [BitVec.toNat_setWidth]; have := op.isLt; omega
  have hop : ∀ k, (op.setWidth 8).toNat = k → op = BitVec.ofNat 5 k := by
    intro k hk
    apply BitVec.eq_of_toNat_eq
    rw [BitVec.toNat_setWidth] at hk
    rw [BitVec.toNat_ofNat, ← hk]
    have := op.isLt
    omega
  have alu : NE pf P size (execAlu ⟨op.setWidth 8, r0, r1, r2, p0, p1, p2⟩ : M D Unit) :=
    ne_bind (np_regOrLit2 _ _ _) fun _ => ne_bind (np_readReg _) fun _ => ne_bind (np_compute _ _ _) fun _ => ne_writeReg _ _
  have div : ∀ mk, NE pf P size (execDiv mk ⟨op.setWidth 8, r0, r1, r2, p0, p1, p2⟩ : M D Unit) := fun mk =>
    ne_bind (np_regOrLit1 _ _) fun _ => ne_bind (np_regOrLit1 _ _) fun _ => ne_bind (np_readReg _) fun _ =>
      ne_bind (np_compute _ _ _) fun _ => ne_writeReg _ _
  have cond : ∀ b, NE pf P size (execIf b ⟨op.setWidth 8, r0, r1, r2, p0, p1, p2⟩ : M D Unit) := fun b => by
    refine ne_bind (np_regOrLit1 _ _) fun v => ?_
    intro t _
    rw [ite_apply_M]
    split
    · simp
    · rw [getM_bind, ite_apply_M]; split <;> simp [skipNext]
  unfold runInstr
  dsimp only
  generalize hn : (op.setWidth 8).toNat = n at hlt hop ⊢
  split
  · exact (np_raise (pf := pf) (P := P) (size := size) _ _ s hs).1
  · exact ne_bind (np_regOrLit2 _ _ _) (fun _ => ne_writeReg _ _) s hs
  · refine ne_bind (np_readReg _) (fun _ => ne_bind (np_readReg _) fun _ => ?_) s hs
    intro t _
    rw [M.bind_def]
    cases hw : writeReg p0 _ t with
    | panic => exact absurd hw (writeReg_no_panic _ _ _)
    | ex u => simp
    | ok a u => exact writeReg_no_panic _ _ _
  all_goals first
    | exact alu s hs
    | exact div _ s hs
    | exact cond _ s hs
    | exact ne_pop _ s hs
    | skip
  · exact ne_bind (np_regOrLit2 _ _ _) (fun _ => ne_bind (np_readReg _) fun _ => ne_bind (np_compute _ _ _) fun _ =>
      (np_pure _).ne) s hs
  · exact ne_bind (np_regOrLit2 _ _ _) (fun _ => ne_modifyM _) s hs
  · refine ne_bind (np_getsM _) (fun b => ?_) s hs
    split
    · exact ne_bind (np_regOrLit2 _ _ _) fun _ => ne_bind (np_modRegs _ (fun _ => rfl) (fun _ => rfl)) fun _ => ne_modifyM _
    · exact (np_raise _ _).ne
  · exact ne_bind (np_regOrLit1 _ _) (fun _ => ne_modifyM _) s hs
  · have := hop _ rfl
    refine ne_if2 hs ?_ ?_
    · intro hd v hv
      apply Nat.le_of_not_lt; intro hlt
      exact hov hd ⟨r0, r1, r2, p0, p1, p2, .inl ⟨by rw [this]; rfl, v, .inl hv, hlt⟩⟩
    · intro hd v hv
      apply Nat.le_of_not_lt; intro hlt
      exact hov hd ⟨r0, r1, r2, p0, p1, p2, .inl ⟨by rw [this]; rfl, v, .inr hv, hlt⟩⟩
  · exact ne_bind (np_regOrLit1 _ _) (fun _ => ne_bind (np_regOrLit1 _ _) fun _ => ne_bind (np_cpuRead _) fun _ =>
      ne_writeReg _ _) s hs
  · exact ne_bind (np_regOrLit1 _ _) (fun _ => ne_bind (np_regOrLit1 _ _) fun _ => ne_bind (np_regOrLit1 _ _) fun _ =>
      ne_bind (np_cpuRead _) fun _ => ne_modifyM _) s hs
  · exact ne_bind (np_regOrLit1 _ _) (fun _ => ne_bind (np_regOrLit1 _ _) fun _ => ne_bind (np_regOrLit1 _ _) fun _ =>
      (np_cpuWrite _ _).ne) s hs
  · exact ne_bind (np_regOrLit1 _ _) (fun _ => ne_bind (np_regOrLit1 _ _) fun _ => ne_bind (np_regOrLit1 _ _) fun _ =>
      ne_bind (np_getsM _) fun _ => (np_cpuWrite _ _).ne) s hs
  · have := hop _ rfl
    refine ne_srm hs ?_
    intro hd a b ha hb
    apply Nat.lt_of_not_le; intro hle
    exact hov hd ⟨r0, r1, r2, p0, p1, p2, .inr ⟨by rw [this]; rfl, a, b, ha, hb, hle⟩⟩
  · exact ne_bind (np_regOrLit2 _ _ _) (fun _ => ne_bind (np_getsM _) fun _ => ne_bind (np_cpuWrite _ _) fun _ =>
      (np_setSp _).ne) s hs
  · have := hop _ rfl
    exact ne_call hs fun hd => hcall hd this
  · refine ne_bind (np_regOrLit1 _ _) (fun _ => ne_bind (np_regOrLit1 _ _) fun _ => ?_) s hs
    split
    · exact ne_bind (np_getsM _) fun _ => ne_writeReg _ _
    · exact ne_bind (np_getHwInfo _ _) fun _ => ne_writeReg _ _
  · exact ne_bind (np_getsM _) (fun _ => ne_writeReg _ _) s hs
  · exact ne_modifyM _ s hs
  · refine ne_bind (np_regOrLit1 _ _) (fun _ => ne_resetDevs _ ?_) s hs
    intro a t
    rw [ite_apply_M]; split <;> simp
  · clear hov alu div cond hop hn; exfalso; simp only [imp_false] at *; omega

/-- In a build with overflow checks, nothing is ever mapped at the last word of the address space. -/
theorem last_word {maps : List Mapping} {r : Regs} {devs devs' : List D} {w : Word}
    (hf : ∀ m ∈ maps, m.size.toNat % 4 = 0 ∧ m.addr.toNat % 4 = 0 ∧ m.addr.toNat + m.size.toNat < 2 ^ 32)
    (hpc : 2 ^ 32 ≤ r.pc.toNat + 4) (h : accRead .debug r maps devs r.pc = .done w devs') : w = 0 := by
  have hnone : ∀ a : Word, a.toNat = 2 ^ 32 - 4 → ∀ o, findMapping .debug maps a = some o → o = none := by
    intro a ha o ho
    cases o with
    | none => rfl
    | some m =>
      obtain ⟨h1, h2, e, h3, h4⟩ := findMapping_some ho
      obtain ⟨f1, f2, f3⟩ := hf m h1
      unfold Mapping.endAddr at h3
      simp only [Option.bind_eq_bind, Option.bind_eq_some_iff] at h3
      obtain ⟨t, g1, g2⟩ := h3
      obtain ⟨rfl, _⟩ := add_inv g1
      obtain ⟨rfl, g3⟩ := sub_inv g2
      have g3 := g3 rfl
      rw [BitVec.toNat_sub_of_le g3, BitVec.toNat_add, Nat.mod_eq_of_lt f3] at h4
      have : (1 : Word).toNat = 1 := rfl
      omega
  have hlt := r.pc.isLt
  unfold accRead accDo at h
  split at h
  · cases h
  · next hal =>
    have hal : r.pc.toNat % 4 = 0 := mod4_nat.mp (Decidable.not_not.mp hal)
    split at h
    · cases h
    · next p devs1 ht =>
      have hp : p = r.pc := by
        unfold transl at ht
        split at ht
        · injection ht with ht; injection ht with ht _; injection ht with ht; exact ht.symm
        · simp only [Option.bind_eq_bind, Option.bind_eq_some_iff] at ht
          obtain ⟨_, _, ⟨e, ex, d⟩, _, ht⟩ := ht
          dsimp only at ht
          repeat' split at ht
          all_goals (injection ht with ht; injection ht with ht _; cases ht; try rfl)
      subst hp
      split at h
      · cases h
      · next w' ex d2 hr =>
        split at h
        · cases h
        · injection h with h1 _
          subst h1
          unfold devRead at hr
          simp only [Option.bind_eq_bind, Option.bind_eq_some_iff] at hr
          obtain ⟨_, _, o, ho, hr⟩ := hr
          have := hnone _ (by omega) o ho
          subst this
          injection hr with hr; injection hr with hr _; exact hr.symm
    · cases h
    · cases h

/-- One cycle of a good machine does not panic. -/
theorem next_total {s : Machine D} (hs : Good pf P size s) (hal : ∀ m ∈ s.mappings, m.size.toNat % 4 = 0)
    (hov : pf = .debug → ∀ w devs, Fetches pf s w devs → ¬ Overflows s.regs w) : ∃ s', next pf s = some s' := by
  cases hh : s.halted with
  | true => exact ⟨s, by unfold next; rw [if_pos hh]⟩
  | false =>
    have hs' : Good pf P size { s with cycles := s.cycles + 1 } :=
      ⟨hs.contract, hs.placed, hs.devs, hs.fit, hs.mmu⟩
    obtain ⟨h1, h2⟩ := np_cpuExec s.regs.pc _ hs'
    cases hx : cpuExec pf s.regs.pc { s with cycles := s.cycles + 1 } with
    | panic => exact absurd hx h1
    | ex t => exact ⟨t, by unfold next; rw [if_neg (by simp [hh])]; dsimp only; rw [hx]⟩
    | ok w t =>
      have hg := h2 w t hx
      rw [cpuExec_eq] at hx
      obtain ⟨devs, hacc, rfl⟩ := toOut_ok hx
      have hf : Fetches pf s w devs := fetches_iff.mpr ⟨hh, hacc⟩
      obtain ⟨op, r0, r1, r2, p0, p1, p2, rfl⟩ := exists_instrWord w
      rw [next_of_fetch hf, execWord_instr]
      have hge : Good pf P size (atExec s devs) := ⟨hg.contract, hg.placed, hg.devs, hg.fit, hg.mmu⟩
      have hnp := runInstr_total (op := op) (r0 := r0) (r1 := r1) (r2 := r2) (p0 := p0) (p1 := p1) (p2 := p2) hge
        (fun hd => hov hd _ _ hf) (by
          intro hd hop
          apply Nat.lt_of_not_le
          intro hle
          subst hd
          have h0 := last_word (fun m hm => ⟨hal m hm, (hs.placed m hm).1, hs.fit rfl m hm⟩) hle (fetches_iff.mp hf).2
          have h0 := congrArg opcode h0
          rw [opcode_instrWord, hop] at h0
          revert h0; decide)
      cases hr : runInstr pf ⟨op.setWidth 8, r0, r1, r2, p0, p1, p2⟩ (atExec s devs) with
      | panic => exact absurd hr hnp
      | ex u => exact ⟨u, rfl⟩
      | ok a u =>
        cases a
        dsimp only
        split <;> exact ⟨_, rfl⟩

/-- Along any history, mapped sizes are multiples of 4, and in builds with overflow checks no range reaches the end of
the address space. -/
theorem internalMap_range {s s' : Machine D} {start : Word} {stop? : Option Word} {auxId : Nat}
    {r : Except MappingError MappingRange} (h : internalMap pf s start stop? auxId = some (r, s')) :
    ∀ m ∈ s'.mappings, m ∈ s.mappings ∨ (m.size.toNat % 4 = 0 ∧ (pf = .debug → m.addr.toNat + m.size.toNat < 2 ^ 32)) := by
  rw [internalMap_eq] at h
  cases hc : s.memCache[auxId]? with
  | none => rw [hc] at h; injection h with h; injection h with h1 h2; subst h2; exact fun m hm => .inl hm
  | some cache =>
    rw [hc] at h
    dsimp only at h
    cases hd : dfltEnd pf start cache.size with
    | none => rw [hd] at h; cases h
    | some d =>
      rw [hd] at h
      dsimp only at h
      unfold mapDecide at h
      by_cases h1 : start % 4 ≠ 0
      · rw [if_pos h1] at h; injection h with h; injection h with h1 h2; subst h2; exact fun m hm => .inl hm
      rw [if_neg h1] at h
      by_cases h2 : cache.size = 0
      · rw [if_pos h2] at h; injection h with h; injection h with h1 h2; subst h2; exact fun m hm => .inl hm
      rw [if_neg h2] at h
      by_cases h3 : cache.size % 4 ≠ 0
      · rw [if_pos h3] at h; injection h with h; injection h with h1 h2; subst h2; exact fun m hm => .inl hm
      rw [if_neg h3] at h
      have hfit : pf = .debug → start.toNat + cache.size.toNat < 2 ^ 32 := by
        unfold dfltEnd at hd
        simp only [Option.bind_eq_bind, Option.bind_eq_some_iff] at hd
        obtain ⟨t, g1, g2⟩ := hd
        exact (add_inv g1).2
      have h4 : cache.size.toNat % 4 = 0 := mod4_nat.mp (Decidable.not_not.mp h3)
      repeat' split at h
      all_goals first
        | (cases h; done)
        | (injection h with h; injection h with h1 h2; subst h2
           first
             | exact fun m hm => .inl hm
             | (intro m hm
                rcases List.mem_append.mp hm with hm | hm
                · exact .inl hm
                · rw [List.mem_singleton] at hm; subst hm; exact .inr ⟨h4, hfit⟩))

theorem hostRun_ranges {devs : List D} {s0 s : Machine D} {ops : List HostOp}
    (hb : newBoard pf devs = some s0) (hrun : hostRun pf ops s0 = some s) :
    ∀ m ∈ s.mappings, m.size.toNat % 4 = 0 ∧ (pf = .debug → m.addr.toNat + m.size.toNat < 2 ^ 32) := by
  refine hostRun_inv (P := fun t => ∀ m ∈ t.mappings, m.size.toNat % 4 = 0 ∧
    (pf = .debug → m.addr.toNat + m.size.toNat < 2 ^ 32)) hrun ?_ ?_
  · rw [(newBoard_inv hb).2.2.2.1]; simp
  · intro op hin t u ht hst
    by_cases h1 : ∃ a i, op = .map a i
    · obtain ⟨a, i, rfl⟩ := h1
      simp only [hostStep, Option.map_eq_some_iff] at hst
      obtain ⟨⟨r, v⟩, hm, rfl⟩ := hst
      exact fun m hmm => (internalMap_range hm m hmm).elim (ht m) id
    · by_cases h2 : ∃ a e i, op = .mapAbs a e i
      · obtain ⟨a, e, i, rfl⟩ := h2
        simp only [hostStep, Option.map_eq_some_iff] at hst
        obtain ⟨⟨r, v⟩, hm, rfl⟩ := hst
        exact fun m hmm => (internalMap_range hm m hmm).elim (ht m) id
      · by_cases h3 : ∃ a is, op = .mapContiguous a is
        · obtain ⟨a, is, rfl⟩ := h3
          simp only [hostStep, Option.map_eq_some_iff, mapContiguous, Option.bind_eq_bind, Option.bind_eq_some_iff] at hst
          obtain ⟨⟨r, v⟩, ⟨⟨a1, s1⟩, hl, hm⟩, rfl⟩ := hst
          injection hm with hm; injection hm with _ hm; subst hm
          clear h1 h2 hin
          revert hl
          generalize (⟨[], [], a, a⟩ : ContigAcc) = acc
          induction is generalizing acc t with
          | nil => intro hl; simp only [contigLoop, Option.some.injEq, Prod.mk.injEq] at hl; rw [← hl.2]; exact ht
          | cons i is ih =>
            intro h
            simp only [contigLoop, Option.bind_eq_bind, Option.bind_eq_some_iff] at h
            obtain ⟨⟨a1, s1⟩, hst, h⟩ := h
            simp only [contigStep, Option.bind_eq_bind, Option.bind_eq_some_iff] at hst
            obtain ⟨⟨r2, s2⟩, hm2, a2, _, hst⟩ := hst
            split at hst
            · cases hst
            · injection hst with hst; injection hst with _ hst; subst hst
              exact ih _ (fun m hmm => (internalMap_range hm2 m hmm).elim (ht m) id) _ h
        · have := hostStep_mappings hst (fun a i e => h1 ⟨a, i, e⟩) (fun a e i h => h2 ⟨a, e, i, h⟩)
            (fun a i e => h3 ⟨a, i, e⟩)
          rw [this]; exact ht

/-- **C42**, the part that holds. On a board of components that honour their contract (an invariant `P` true of the
components the board was built with), after any history of host calls and instructions, `next` returns normally, as
long as the MMU is off or has an aligned table, and, in builds with overflow checks, that table lies within the address
space and the instruction is not an IF2 or SRM whose arithmetic overflows. Missing: those cases, which do panic
(`C42_if2_refuted` and following). -/
theorem C42_no_panic_partial {devs : List D} {s0 s : Machine D} {ops : List HostOp}
    (hc : Contract P (advertised pf devs)) (hP : AllDev P devs)
    (hb : newBoard pf devs = some s0) (hrun : hostRun pf ops s0 = some s)
    (hmmu : MmuSafe pf s.regs)
    (hov : pf = .debug → ∀ w devs', Fetches pf s w devs' → ¬ Overflows s.regs w) :
    ∃ s', next pf s = some s' := by
  obtain ⟨hcc, hh, hd, hm, _⟩ := newBoard_inv hb
  obtain ⟨hl, hg⟩ := createCaches_get hcc
  have hsize : ∀ id c, s0.memCache[id]? = some c → id < devs.length ∧ c.size.toNat = advertised pf devs id := by
    intro id c h
    have hlt : id < devs.length := by rw [← hl]; exact (List.getElem?_eq_some_iff.mp h).1
    have hdi : devs[id]? = some devs[id] := List.getElem?_eq_getElem hlt
    obtain ⟨c', md, g1, g2, g3, g4, _⟩ := hg _ _ hdi
    rw [h] at g1; injection g1 with g1; subst g1
    refine ⟨hlt, ?_⟩
    unfold advertised
    rw [hdi, Option.bind_some, g2, g4]; rfl
  have hinv : DevInv P s0.memCache := by
    have sz : ∀ {id a}, InRange s0.memCache id a → a.toNat % 4 = 0 ∧ a.toNat < advertised pf devs id := by
      rintro id a ⟨h1, c, h2, h3⟩
      exact ⟨h1, by rw [← (hsize id c h2).2]; exact h3⟩
    refine ⟨?_, ?_, ?_⟩
    · intro id d a ex d' w ex' hp hi hr
      obtain ⟨d1, w1, e1, h1, h2⟩ := hc.read id d a ex hp (sz hi).1 (sz hi).2
      rw [h1] at hr; injection hr with hr; injection hr with hr; subst hr; exact h2
    · intro id d a w ex d' ex' hp hi hr
      obtain ⟨d1, e1, h1, h2⟩ := hc.write id d a w ex hp (sz hi).1 (sz hi).2
      rw [h1] at hr; injection hr with hr; injection hr with hr; subst hr; exact h2
    · intro id d d' hp hr
      obtain ⟨d1, h1, h2⟩ := hc.reset id d hp
      rw [h1] at hr; injection hr with hr; subst hr; exact h2
  obtain ⟨k1, k2, k3⟩ := hostRun_devInv hinv (by rw [hm]; intro m hm; simp at hm) (by rw [hd]; exact hP) hrun
  obtain ⟨l1, _, _⟩ := hostRun_keeps hrun
  have hm' := hostRun_ranges hb hrun
  refine next_total (P := P) (size := advertised pf devs) ⟨hc, ?_, k3, fun hd m hm => (hm' m hm).2 hd, hmmu⟩
    (fun m hm => (hm' m hm).1) hov
  intro m hmm
  obtain ⟨q1, q2, c, q3, q4⟩ := k2 m hmm
  obtain ⟨r1, r2⟩ := hsize _ _ q3
  exact ⟨q1, q2, by rw [l1, hd]; exact r1, by rw [q4, r2]⟩

/-! ### The hypotheses are met -/

/-- Invariant of the example boards' components: the ROM's recorded length is within its storage, the RAM's storage
covers the size `size id`. -/
def Demo.Sound (size : Nat → Nat) (id : Nat) : Demo.Dev → Prop
  | .inl rom => rom.len.toNat ≤ rom.storage.length
  | .inr ram => size id ≤ 4 * ram.storage.length

theorem Demo.contract (size : Nat → Nat) : Contract (Demo.Sound size) size where
  read id d a ex hp ha hs := by
    cases d with
    | inl rom =>
      have hp : rom.len.toNat ≤ rom.storage.length := hp
      show ∃ d' w ex', (Bus.read rom a ex).map _ = _ ∧ _
      by_cases h : a / 4 < rom.len
      · have h' : (a / 4).toNat < rom.storage.length := Nat.lt_of_lt_of_le h hp
        refine ⟨.inl rom, rom.storage[(a / 4).toNat], ex, ?_, hp⟩
        have : Bus.read rom a ex = some (rom, rom.storage[(a / 4).toNat], ex) := by
          show (if a / 4 < rom.len then _ else _) = _
          rw [if_pos h, List.getElem?_eq_getElem h']
          rfl
        rw [this]; rfl
      · refine ⟨.inl rom, 0, ex, ?_, hp⟩
        have : Bus.read rom a ex = some (rom, 0, ex) := if_neg h
        rw [this]; rfl
    | inr ram =>
      have hp : size id ≤ 4 * ram.storage.length := hp
      have h' : a.toNat / 4 < ram.storage.length := by omega
      refine ⟨.inr ram, ram.storage[a.toNat / 4], ex, ?_, hp⟩
      have : Bus.read ram a ex = some (ram, ram.storage[a.toNat / 4], ex) := by
        show (vecRead ram.storage a).bind _ = _
        unfold vecRead
        rw [List.getElem?_eq_getElem h']
        rfl
      show (Bus.read ram a ex).map _ = _
      rw [this]; rfl
  write id d a w ex hp ha hs := by
    cases d with
    | inl rom => exact ⟨.inl rom, _, rfl, hp⟩
    | inr ram =>
      have hp : size id ≤ 4 * ram.storage.length := hp
      have h' : a.toNat / 4 < ram.storage.length := by omega
      refine ⟨.inr { ram with storage := ram.storage.set (a.toNat / 4) w }, ex, ?_, ?_⟩
      · have : Bus.write ram a w ex = some ({ ram with storage := ram.storage.set (a.toNat / 4) w }, ex) := by
          show (vecWrite ram.storage a w).bind _ = _
          unfold vecWrite
          rw [if_pos h']
          rfl
        show (Bus.write ram a w ex).map _ = _
        rw [this]; rfl
      · show size id ≤ 4 * (ram.storage.set _ w).length
        rw [List.length_set]; exact hp
  reset id d hp := by
    cases d with
    | inl rom => exact ⟨.inl rom, rfl, hp⟩
    | inr ram =>
      have hp : size id ≤ 4 * ram.storage.length := hp
      refine ⟨.inr { ram with storage := List.replicate ram.storage.length 0 }, rfl, ?_⟩
      show size id ≤ 4 * (List.replicate ram.storage.length (0 : Word)).length
      rw [List.length_replicate]; exact hp

/-- A board meeting the hypotheses of `C42_no_panic_partial`, with a program that divides by zero. -/
example : ∃ s0 s : Machine Demo.Dev,
    Contract (Demo.Sound (advertised .debug (Demo.devices [0x32000014]))) (advertised .debug (Demo.devices [0x32000014])) ∧
    AllDev (Demo.Sound (advertised .debug (Demo.devices [0x32000014]))) (Demo.devices [0x32000014]) ∧
    newBoard .debug (Demo.devices [0x32000014]) = some s0 ∧
    hostRun .debug [.mapContiguous 0 [0, 1], .reset] s0 = some s ∧ MmuSafe .debug s.regs ∧
    s.halted = false ∧ (∃ devs, Fetches .debug s 0x32000014 devs) ∧ ¬ Overflows s.regs 0x32000014 := by
  refine ⟨_, Demo.start [0x32000014], Demo.contract _, ?_, rfl, rfl, .inl rfl, rfl, ⟨_, rfl, rfl⟩, ?_⟩
  · intro id d h
    match id, h with
    | 0, h => injection h with h; subst h; show (_ : Nat) ≤ _; decide
    | 1, h => injection h with h; subst h; show (_ : Nat) ≤ _; decide
    | n + 2, h => exact absurd h (by simp [Demo.devices, BootRom.withSize, Ram.fromWithSize])
  · rintro ⟨r0, r1, r2, p0, p1, p2, h⟩
    have hop : ∀ op : BitVec 5, (0x32000014 : Word) = instrWord op r0 r1 r2 p0 p1 p2 → op = 6 := by
      intro op h
      have h := congrArg opcode h
      rw [opcode_instrWord] at h
      exact BitVec.eq_of_toNat_eq h.symm
    rcases h with ⟨h, _⟩ | ⟨h, _⟩ <;> exact absurd (hop _ h) (by decide)

/-! ### What is missing: guest programs that crash the host -/

/-- IF2 with flag number 8 crashes a build with overflow checks. -/
theorem C42_if2_refuted : Demo.board [instrWord 0x13 false false false 8 0 1] =
      some (Demo.start [instrWord 0x13 false false false 8 0 1]) ∧
    next .debug (Demo.start [instrWord 0x13 false false false 8 0 1]) = none := ⟨rfl, rfl⟩

/-- `CPY a0, 4; SUB a0, 8; SRM a0, 4, a1`. -/
def Demo.srmProgram : List Word :=
  [instrWord 0x01 false false false 0 0 4, instrWord 0x04 false false false 0 0 8, instrWord 0x18 true false false 0 4 1]

/-- SRM with an address sum of 2^32 crashes a build with overflow checks. -/
theorem C42_srm_refuted : Demo.board Demo.srmProgram = some (Demo.start Demo.srmProgram) ∧
    (nextN .debug 2 (Demo.start Demo.srmProgram)).isSome ∧ nextN .debug 3 (Demo.start Demo.srmProgram) = none :=
  ⟨rfl, rfl, rfl⟩

/-- `CPY pda, 2; CPY mtt, 1`. -/
def Demo.tableProgram : List Word :=
  [instrWord 0x01 false false false 0x1E 0 2, instrWord 0x01 false false false 0x1D 0 1]

/-- Turning the MMU on with an unaligned table crashes every build. -/
theorem C42_unaligned_table_refuted (pf : Profile) :
    Demo.board Demo.tableProgram = some (Demo.start Demo.tableProgram) ∧
    (nextN pf 2 (Demo.start Demo.tableProgram)).isSome ∧ nextN pf 3 (Demo.start Demo.tableProgram) = none := by
  cases pf <;> exact ⟨rfl, rfl, rfl⟩

/-- `CPY pda, 8; SUB pda, 12; CPY mtt, 1; ` -/
def Demo.highTableProgram : List Word :=
  [instrWord 0x01 false false false 0x1E 0 8, instrWord 0x04 false false false 0x1E 0 12,
    instrWord 0x01 false false false 0x1D 0 1]

/-- Turning the MMU on with a table at the end of the address space crashes a build with overflow checks. -/
theorem C42_high_table_refuted : Demo.board Demo.highTableProgram = some (Demo.start Demo.highTableProgram) ∧
    (nextN .debug 3 (Demo.start Demo.highTableProgram)).isSome ∧
    nextN .debug 4 (Demo.start Demo.highTableProgram) = none := ⟨rfl, rfl, rfl⟩

end Lrvm
