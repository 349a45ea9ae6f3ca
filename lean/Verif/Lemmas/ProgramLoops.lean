import Verif.Lemmas.ProgramCalls
import Verif.Lemmas.ProgramRuns

/-!
# Following programs that do not end, and IF2
-/

namespace Lrvm.Prog

open Spec Lrvm

variable {D : Type} [Bus D] {pf : Profile} {fx : Fixed} {s : Machine D} {R : Nat → Word} {devs devs' : List D} {cyc : U128}
  {a : Word} {P : Machine D → Word → Prop}

/-- `s` becomes `t` in `n` cycles without exceptions, running before each of them. -/
inductive Goes (pf : Profile) : Nat → Machine D → Machine D → Prop
  | stay {s : Machine D} : Goes pf 0 s s
  | step {n : Nat} {s s' t : Machine D} : s.halted = false → next pf s = some s' → s'.regs.et = 0 → Goes pf n s' t → Goes pf (n + 1) s t

/-- After some cycles, `Q` holds. -/
def Leads (pf : Profile) (Q : Machine D → Prop) (s : Machine D) (_ : Word) : Prop := ∃ n t, Goes pf n s t ∧ Q t

theorem Leads.closed {Q : Machine D → Prop} : Closed pf (Leads pf Q) := by
  rintro s s' a h1 h2 h3 ⟨n, t, h4, h5⟩
  exact ⟨n + 1, t, .step h1 h2 h3 h4, h5⟩

theorem Goes.trans {m n : Nat} {s t u : Machine D} (h : Goes pf m s t) (h' : Goes pf n t u) : Goes pf (m + n) s u := by
  induction h with
  | stay => rw [Nat.zero_add]; exact h'
  | step h1 h2 h3 _ ih => rw [Nat.add_right_comm]; exact .step h1 h2 h3 (ih h')

/-- The first cycles of a run. -/
theorem Goes.take {n : Nat} {s t : Machine D} (h : Goes pf n s t) : ∀ {m : Nat}, m < n →
    ∃ u, Goes pf m s u ∧ u.halted = false := by
  induction h with
  | stay => intro m hm; omega
  | step h1 h2 h3 _ ih =>
    intro m hm
    cases m with
    | zero => exact ⟨_, .stay, h1⟩
    | succ m =>
      obtain ⟨u, h4, h5⟩ := ih (Nat.lt_of_succ_lt_succ hm)
      exact ⟨u, .step h1 h2 h3 h4, h5⟩

theorem Goes.det {n : Nat} {s t u : Machine D} (h : Goes pf n s t) (h' : Goes pf n s u) : t = u := by
  induction h with
  | stay => cases h'; rfl
  | step h1 h2 h3 _ ih =>
    cases h' with
    | step g1 g2 g3 g4 =>
      rw [h2] at g2; cases g2
      exact ih g4

/-- A machine that can run for any number of cycles without exceptions is never finished with. -/
theorem no_result {cfg : RunConfig} (hl : cfg.cyclesLimit = none) {s : Machine D}
    (h : ∀ n, ∃ t, Goes pf n s t ∧ t.halted = false) : ∀ r, ¬ RunVm pf cfg s r := by
  have loop : ∀ {s : Machine D} {a : Word} {ls : List Text} {r}, RunLoop pf cfg s a ls r →
      (∀ n, ∃ t, Goes pf n s t ∧ t.halted = false) → False := by
    intro s a ls r hr
    have turn : ∀ {s : Machine D}, (∀ n, ∃ t, Goes pf n s t ∧ t.halted = false) →
        ∃ s', next pf s = some s' ∧ runTurn pf cfg s = .again s' (cycleLine cfg s) ∧
          ∀ n, ∃ t, Goes pf n s' t ∧ t.halted = false := by
      intro s h
      obtain ⟨t, h1, h2⟩ := h 1
      cases h1 with
      | @step _ _ s' _ g1 g2 g3 g4 =>
        refine ⟨s', g2, ?_, ?_⟩
        · rw [runTurn_not_over (by
            rintro (h | ⟨l, h, _⟩)
            · rw [g1] at h; cases h
            · rw [hl] at h; cases h), g2]
          simp only
          rw [if_neg (by simp [g3])]
        · intro n
          obtain ⟨t, h1, h2⟩ := h (n + 1)
          cases h1 with
          | step k1 k2 k3 k4 =>
            rw [g2] at k2; cases k2
            exact ⟨t, k4, h2⟩
    induction hr with
    | exit h => intro hs; obtain ⟨s', _, h2, _⟩ := turn hs; rw [h2] at h; cases h
    | again h _ ih => intro hs; obtain ⟨s', _, h2, h3⟩ := turn hs; rw [h2] at h; cases h; exact ih h3
    | stop h => intro hs; obtain ⟨s', _, h2, _⟩ := turn hs; rw [h2] at h; cases h
    | panic h => intro hs; obtain ⟨s', _, h2, _⟩ := turn hs; rw [h2] at h; cases h
  intro r hr
  obtain ⟨x, hx, _⟩ := hr
  exact loop hx h

/-- IF2 on ZF and CF with OR. -/
theorem Go.ifZeroOrCarry (hP : Closed pf P) (h : Shows fx s R devs cyc)
    (hf : Fetched pf fx R devs (instrWord 0x13 false false false 0 1 1))
    (hk : ∀ s', Shows fx s' (skipUnless R (flag (R 23) 0 || flag (R 23) 1)) devs (cyc + 1) → P s' (R 22)) : P s a := by
  have hst := C22_if2_partial (hf.fetches h) (h.val1 hf.plain (isReg := false) (p := 0) (by simp))
    (h.val1 hf.plain (isReg := false) (p := 1) (by simp)) (h.val1 hf.plain (isReg := false) (p := 1) (by simp))
    (by show 0 ≤ 6; decide) (by show 1 ≤ 6; decide)
  have haf : s.regs.af = R 23 := h.regs 23 (by decide)
  change Steps pf s (match condition 1 (flag s.regs.af 0) (flag s.regs.af 1) with
      | some b => runNextIf s.regs b
      | none => trap s.regs 0x0D (1 % 256)) devs at hst
  rw [haf] at hst
  have hc : condition 1 (flag (R 23) 0) (flag (R 23) 1) = some (flag (R 23) 0 || flag (R 23) 1) := by
    generalize flag (R 23) 0 = x
    generalize flag (R 23) 1 = y
    revert x y; decide
  rw [hc] at hst
  dsimp only at hst
  refine Go.of_steps hP h hst ?_ ?_ hk
  · intro n hn
    unfold runNextIf skipUnless
    cases (flag (R 23) 0 || flag (R 23) 1) with
    | true =>
      simp only [if_true, reg_advance _ hn, h.regs 22 (by decide), h.regs n hn]; rfl
    | false =>
      rw [if_neg (by decide), if_neg (by decide), reg_advance _ hn, reg_advance _ hn, reg_advance _ (by decide),
        h.regs 22 (by decide), h.regs n hn]
      unfold pass Prog.jump
      split <;> rfl
  · unfold skipUnless
    split <;> exact hf.plain.et

theorem cmpFlags_carry (x y : Word) : flag (cmpFlags x y) 1 = decide (x.toNat < y.toNat) := by
  unfold cmpFlags
  rw [flagsFor_carry]

end Lrvm.Prog
