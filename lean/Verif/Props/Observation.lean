import Verif.Lemmas.Hidden
import Verif.Props.Hardware

/-!
# What userland can observe: C13
-/

namespace Lrvm

open Spec

variable {D : Type} [Bus D] {pf : Profile}

/-- How the results of the same step of two machines correspond: nothing but the hidden registers differs, or both
raised the same exception, or both were reset, or both panicked. -/
inductive StepCorr (h : Hide) : Option (Machine D) → Option (Machine D) → Prop
  | same {u : Machine D} (hu : u.svMode = false) : StepCorr h (some u) (some (h.on u))
  | exn {t : Machine D} (c : U8) (d : U16) (ht : t.svMode = false) :
      StepCorr h (some (t.exception c d)) (some ((h.on t).exception c d))
  | reset (u : Machine D) : StepCorr h (some u.cpuReset) (some u.cpuReset)
  | panic : StepCorr h none none

theorem blind_resetDevs (h : Hide) (m : Nat) : Blind h (resetDevs m : M D Unit) := by
  unfold resetDevs
  have hdevs : ∀ devs : List D, Blind h (modifyM (fun s => { s with devs := devs }) : M D Unit) := fun devs =>
    blind_modify _ fun s hs => ⟨rfl, hs⟩
  refine blind_get fun s hs => ?_
  split
  · exact blind_bind (blind_lift _) (fun devs => hdevs devs) s hs
  · refine blind_bind (blind_lift (bridgeReset s.devs s.regs.avr.toNat)) (fun o => ?_) s hs
    cases o with
    | none => exact blind_raise _ _
    | some devs => exact hdevs devs
  · exact blind_bind (blind_lift _) (fun devs => hdevs devs) s hs
  · exact blind_bind (blind_lift _) (fun devs => hdevs devs) s hs
  · exact blind_bind (blind_lift _) (fun devs => hdevs devs) s hs
  · exact blind_pure _ s hs

/-- The end of a cycle, once the instruction has run. -/
def finish : Out (Machine D) Unit → Option (Machine D)
  | .panic => none
  | .ex s => some s
  | .ok () s => if s.changedPc then some s else some { s with regs := { s.regs with pc := s.regs.pc + 4 } }

theorem execWord_finish (w : Word) (s : Machine D) :
    execWord pf w s = finish (runInstr pf (fieldsOf w) { s with changedPc := false }) := rfl

theorem execWord_finish' (h : Hide) (w : Word) (s : Machine D) :
    execWord pf w (h.on s) = finish (runInstr pf (fieldsOf w) (h.on { s with changedPc := false })) := rfl

theorem corr_execWord (h : Hide) (w : Word) {s : Machine D} (hs : s.svMode = false) :
    StepCorr h (execWord pf w s) (execWord pf w (h.on s)) := by
  have fin : ∀ {o o' : Out (Machine D) Unit}, Corr h o o' → StepCorr h
      (finish o)
      (finish o') := by
    intro o o' hc
    cases o <;> cases o' <;> try exact hc.elim
    · rename_i a u b v
      obtain ⟨_, hu, rfl⟩ := hc
      cases hcp : u.changedPc with
      | true =>
        have hcp' : (h.on u).changedPc = true := hcp
        unfold finish
        dsimp only
        rw [if_pos hcp, if_pos hcp']
        exact .same hu
      | false =>
        have e1 : ¬ u.changedPc = true := by rw [hcp]; exact Bool.false_ne_true
        have e2 : ¬ (h.on u).changedPc = true := e1
        unfold finish
        dsimp only
        rw [if_neg e1, if_neg e2]
        exact .same (u := { u with regs := { u.regs with pc := u.regs.pc + 4 } }) hu
    · obtain ⟨t, c, d, ht, rfl, rfl⟩ := hc
      exact .exn c d ht
    · exact .panic
  have hlt : (fieldsOf w).opcode.toNat < 32 := by
    rw [fieldsOf_opcode]; unfold opcode; have := w.isLt; omega
  by_cases h10 : (fieldsOf w).opcode.toNat = 0x10
  · rw [execWord_finish, execWord_finish', runInstr_itr h10]
    unfold execItr
    rw [M.bind_def, M.bind_def]
    have key := blind_rol1 (h := h) (D := D) (fieldsOf w).r0 (fieldsOf w).p0 { s with changedPc := false } hs
    cases e1 : regOrLit1 (fieldsOf w).r0 (fieldsOf w).p0 { s with changedPc := false } <;>
      cases e2 : regOrLit1 (fieldsOf w).r0 (fieldsOf w).p0 (h.on { s with changedPc := false }) <;>
      rw [e1, e2] at key <;> try exact key.elim
    · obtain ⟨rfl, hu, rfl⟩ := key
      exact .exn _ _ hu
    · obtain ⟨t, c, d, ht, rfl, rfl⟩ := key
      exact .exn c d ht
    · exact .panic
  · by_cases h1F : (fieldsOf w).opcode.toNat = 0x1F
    · have e : ∀ u : Machine D, runInstr pf (fieldsOf w) u = execReset (fieldsOf w) u := by
        intro u; unfold runInstr; rw [h1F]; rfl
      rw [execWord_finish, execWord_finish', e, e]
      unfold execReset
      rw [M.bind_def, M.bind_def]
      have key := blind_rol1 (h := h) (D := D) (fieldsOf w).r0 (fieldsOf w).p0 { s with changedPc := false } hs
      cases e1 : regOrLit1 (fieldsOf w).r0 (fieldsOf w).p0 { s with changedPc := false } <;>
        cases e2 : regOrLit1 (fieldsOf w).r0 (fieldsOf w).p0 (h.on { s with changedPc := false }) <;>
        rw [e1, e2] at key <;> try exact key.elim
      · rename_i a u b v
        obtain ⟨rfl, hu, rfl⟩ := key
        dsimp only
        rw [M.bind_def, M.bind_def]
        have key := blind_resetDevs h (a &&& 0x0F#32).toNat u hu
        cases e3 : resetDevs (a &&& 0x0F#32).toNat u <;> cases e4 : resetDevs (a &&& 0x0F#32).toNat (h.on u) <;>
          rw [e3, e4] at key <;> try exact key.elim
        · rename_i x u' y v'
          obtain ⟨_, hu', rfl⟩ := key
          dsimp only
          by_cases hm : a &&& 0xF0#32 = 0
          · rw [if_pos hm]; exact .reset u'
          · rw [if_neg hm]; exact fin (o := .ok () u') (o' := .ok () (h.on u')) ⟨rfl, hu', rfl⟩
        · obtain ⟨t, c, d, ht, rfl, rfl⟩ := key
          exact .exn c d ht
        · exact .panic
      · obtain ⟨t, c, d, ht, rfl, rfl⟩ := key
        exact .exn c d ht
      · exact .panic
    · exact fin (blind_runInstr (h := h) (pf := pf) (D := D) (fieldsOf w) hlt h10 h1F { s with changedPc := false } hs)

theorem corr_next (h : Hide) {s : Machine D} (hs : s.svMode = false) : StepCorr h (next pf s) (next pf (h.on s)) := by
  cases hh : s.halted with
  | true =>
    have hh' : (h.on s).halted = true := hh
    unfold next
    rw [if_pos hh, if_pos hh']
    exact .same hs
  | false =>
    have e1 : ¬ s.halted = true := by rw [hh]; exact Bool.false_ne_true
    have e2 : ¬ (h.on s).halted = true := e1
    unfold next
    rw [if_neg e1, if_neg e2]
    dsimp only
    have key := blind_cpuExec (h := h) (pf := pf) (D := D) s.regs.pc { s with cycles := s.cycles + 1 } hs
    show StepCorr h _ (match cpuExec pf s.regs.pc (h.on { s with cycles := s.cycles + 1 }) with | .panic => _ | .ex s => _ | .ok w s => _)
    cases e1 : cpuExec pf s.regs.pc { s with cycles := s.cycles + 1 } <;>
      cases e2 : cpuExec pf s.regs.pc (h.on { s with cycles := s.cycles + 1 }) <;>
      rw [e1, e2] at key <;> try exact key.elim
    · obtain ⟨rfl, hu, rfl⟩ := key
      exact corr_execWord h _ hu
    · obtain ⟨t, c, d, ht, rfl, rfl⟩ := key
      exact .exn c d ht
    · exact .panic

/-- **C13.** Take a machine in userland, and the same with any other values in `ssp`, `et`, `era` and `ev`. If the first
completes a step, so does the second, with the same effect on the components, the mappings, the cycle counter and the
running state, and either both are still in userland with the same registers except those four, which are unchanged; or
both raised the same exception, from registers that only differed in those four; or both CPUs were reset. -/
theorem C13_unobservable {s s' : Machine D} (hu : supervisor s.regs = false) (h : next pf s = some s')
    (ssp et era ev : Word) :
    ∃ t', next pf { s with regs := withHidden s.regs ssp et era ev } = some t' ∧ SameAround s' t' ∧
      ((supervisor s'.regs = false ∧ t'.regs = withHidden s'.regs ssp et era ev) ∨
       (∃ r c d, supervisor r = false ∧ s'.regs = trap r c d ∧ t'.regs = trap (withHidden r ssp et era ev) c d) ∨
       (s'.regs = startup ∧ t'.regs = startup)) := by
  have key := corr_next (pf := pf) ⟨ssp, et, era, ev⟩ (s := s) hu
  rw [h] at key
  generalize ho : next pf (Hide.on ⟨ssp, et, era, ev⟩ s) = o at key
  cases key with
  | same hs => exact ⟨_, ho, ⟨rfl, rfl, rfl, rfl, rfl, rfl⟩, .inl ⟨hs, rfl⟩⟩
  | exn c d ht =>
    refine ⟨_, ho, ⟨rfl, rfl, rfl, rfl, rfl, rfl⟩, .inr (.inl ⟨_, c.toNat, d.toNat, ht, exception_regs _ _ _, ?_⟩)⟩
    exact exception_regs _ _ _
  | reset u => exact ⟨_, ho, ⟨rfl, rfl, rfl, rfl, rfl, rfl⟩, .inr (.inr ⟨rfl, rfl⟩)⟩

/-- **C13**, crashes: nor do those registers decide whether the step panics. -/
theorem C13_same_panic {s : Machine D} (hu : supervisor s.regs = false) (ssp et era ev : Word) :
    next pf s = none ↔ next pf { s with regs := withHidden s.regs ssp et era ev } = none := by
  have key := corr_next (pf := pf) ⟨ssp, et, era, ev⟩ (s := s) hu
  show _ ↔ next pf (Hide.on ⟨ssp, et, era, ev⟩ s) = none
  generalize next pf (Hide.on ⟨ssp, et, era, ev⟩ s) = o at key
  generalize next pf s = o' at key
  cases key <;> simp

/-- **C13**, whole runs: as long as the machine stays in userland, any number of steps give the same result in both
machines. -/
theorem C13_run {s : Machine D} (n : Nat) (ssp et era ev : Word) {s' : Machine D}
    (hu : ∀ k, k ≤ n → ∀ t, nextN pf k s = some t → supervisor t.regs = false) (h : nextN pf n s = some s') :
    nextN pf n { s with regs := withHidden s.regs ssp et era ev } =
      some { s' with regs := withHidden s'.regs ssp et era ev } := by
  induction n generalizing s with
  | zero => injection h with h; subst h; rfl
  | succ n ih =>
    have hs : supervisor s.regs = false := hu 0 (Nat.zero_le _) s rfl
    simp only [nextN, Option.bind_eq_bind, Option.bind_eq_some_iff] at h
    obtain ⟨t, ht, h⟩ := h
    have hu' : ∀ k, k ≤ n → ∀ v, nextN pf k t = some v → supervisor v.regs = false := by
      intro k hk v hv
      refine hu (k + 1) (by omega) v ?_
      simp only [nextN, Option.bind_eq_bind]
      rw [ht]; exact hv
    have hut : t.svMode = false := hu' 0 (Nat.zero_le _) t rfl
    have key := corr_next (pf := pf) ⟨ssp, et, era, ev⟩ (s := s) hs
    rw [ht] at key
    have : next pf { s with regs := withHidden s.regs ssp et era ev } =
        some { t with regs := withHidden t.regs ssp et era ev } := by
      show next pf (Hide.on ⟨ssp, et, era, ev⟩ s) = _
      generalize next pf (Hide.on ⟨ssp, et, era, ev⟩ s) = o at key
      cases key with
      | same _ => rfl
      | exn c d _ => cases hut
      | reset u => cases hut
    simp only [nextN, Option.bind_eq_bind]
    rw [this]
    exact ih hu' h

/-- A userland program: `PUSH 7; POP a1; ADD a1, 1`. -/
def Demo.userProgram : List Word :=
  [instrWord 0x19 false false false 0 7 0, instrWord 0x1A false false false 1 0 0,
    instrWord 0x03 false false false 1 0 1]

/-- The hypotheses of `C13_run` are met by that program, which does leave 8 in `a1`. -/
example : (∀ k, k ≤ 3 → ∀ t, nextN .debug k (Demo.user Demo.userProgram) = some t → supervisor t.regs = false) ∧
    (nextN .debug 3 (Demo.user Demo.userProgram)).map (fun t => t.regs.a[1]) = some 8 := by
  refine ⟨?_, by decide +kernel⟩
  intro k hk t ht
  have : ∀ k ≤ 3, (nextN .debug k (Demo.user Demo.userProgram)).all (fun t => !supervisor t.regs) = true := by
    intro k hk
    match k, hk with
    | 0, _ => decide +kernel
    | 1, _ => decide +kernel
    | 2, _ => decide +kernel
    | 3, _ => decide +kernel
  have := this k hk
  rw [ht] at this
  simpa using this

end Lrvm
