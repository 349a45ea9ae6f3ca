import Verif.Lemmas.Replug
import Verif.Spec.SameMemory

/-!
# Two machines whose memories give the same answers
-/

namespace Lrvm

open Spec

variable {D : Type} [Bus D] {pf : Profile} {maps maps' : List Mapping} {P : List D → List D → Prop}

/-- Direct accesses keep `P` and give the same answers. -/
structure DevLinked (pf : Profile) (maps maps' : List Mapping) (P : List D → List D → Prop) : Prop where
  read : ∀ {ds es : List D} (a : Word), P ds es → resLinked3 P (devRead pf maps ds a 0) (devRead pf maps' es a 0)
  write : ∀ {ds es : List D} (a w : Word), P ds es → resLinked P (devWrite pf maps ds a w 0) (devWrite pf maps' es a w 0)

theorem linked_transl (hi : DevLinked pf maps maps' P) {ds es : List D} (h : P ds es) (r : Regs) (v : Word) :
    resLinked P (transl pf r maps ds v) (transl pf r maps' es v) := by
  unfold transl
  by_cases hm : r.mtt = 0
  · rw [if_pos hm, if_pos hm]; exact ⟨rfl, h⟩
  rw [if_neg hm, if_neg hm]
  cases entryAddr pf r.pda v with
  | none => trivial
  | some a =>
    have := hi.read a h
    simp only [Option.bind_eq_bind, Option.bind_some]
    revert this
    cases devRead pf maps ds a 0 <;> cases devRead pf maps' es a 0 <;> intro h
    · trivial
    · exact h.elim
    · exact h.elim
    · next p q =>
      obtain ⟨e, ex, ds'⟩ := p
      obtain ⟨e', ex', es'⟩ := q
      obtain ⟨rfl, rfl, h⟩ := h
      simp only [Option.bind_some]
      split
      · exact ⟨rfl, h⟩
      · split
        · exact ⟨rfl, h⟩
        · exact ⟨rfl, h⟩

theorem linked_acc (hi : DevLinked pf maps maps' P) {ds es : List D} (h : P ds es) (r : Regs) (v : Word)
    {f g : List D → Word → Res (α × U16 × List D)} (hfg : ∀ ds es p, P ds es → resLinked3 P (f ds p) (g es p)) :
    accTwin P (accDo pf r maps ds v f) (accDo pf r maps' es v g) := by
  unfold accDo
  split
  · exact ⟨rfl, rfl, h⟩
  have := linked_transl hi h r v
  revert this
  cases transl pf r maps ds v <;> cases transl pf r maps' es v <;> intro h
  · trivial
  · exact h.elim
  · exact h.elim
  · next p q =>
    obtain ⟨a, ds'⟩ := p
    obtain ⟨a', es'⟩ := q
    obtain ⟨rfl, h⟩ := h
    cases a with
    | error o =>
      cases o with
      | none => exact ⟨rfl, rfl, h⟩
      | some x => exact ⟨rfl, rfl, h⟩
    | ok p =>
      have := hfg ds' es' p h
      dsimp only
      revert this
      cases f ds' p <;> cases g es' p <;> intro h
      · trivial
      · exact h.elim
      · exact h.elim
      · next u v =>
        obtain ⟨a, x, ds'⟩ := u
        obtain ⟨a', x', es'⟩ := v
        obtain ⟨rfl, rfl, h⟩ := h
        dsimp only
        split
        · exact ⟨rfl, rfl, h⟩
        · exact ⟨rfl, h⟩

theorem linked_of_dev (hi : DevLinked pf maps maps' P) : Linked pf maps maps' P where
  read {r _ _} v h := linked_acc hi h r v fun _ _ p h => hi.read p h
  write {r _ _} v w h := linked_acc hi h r v fun ds es p h => by
    have := hi.write p w h
    revert this
    cases devWrite pf maps ds p w 0 <;> cases devWrite pf maps' es p w 0 <;> intro h
    · trivial
    · exact h.elim
    · exact h.elim
    · exact ⟨rfl, h.1, h.2⟩

/-! ## The relation of machines that answer alike -/

/-- One access, on the components. -/
def devAccess (pf : Profile) (maps : List Mapping) (ds : List D) : Access → Res (List D × Word × U16)
  | .read a => (devRead pf maps ds a 0).map fun p => (p.2.2, p.1, p.2.1)
  | .write a w => (devWrite pf maps ds a w 0).map fun p => (p.2, 0, p.1)

/-- A sequence of accesses, on the components. -/
def devAccesses (pf : Profile) (maps : List Mapping) : List D → List Access → Res (List D × List (Word × U16))
  | ds, [] => some (ds, [])
  | ds, x :: xs => (devAccess pf maps ds x).bind fun p => (devAccesses pf maps p.1 xs).map fun q => (q.1, p.2 :: q.2)

theorem access_eq (s : Machine D) (x : Access) :
    access pf s x = (devAccess pf s.mappings s.devs x).map fun p => ({ s with devs := p.1 }, p.2) := by
  cases x with
  | read a =>
    show (memRead pf s a 0).map _ = ((devRead pf s.mappings s.devs a 0).map _).map _
    rw [memRead_eq]
    cases devRead pf s.mappings s.devs a 0 <;> rfl
  | write a w =>
    show (memWrite pf s a w 0).map _ = ((devWrite pf s.mappings s.devs a w 0).map _).map _
    rw [memWrite_eq]
    cases devWrite pf s.mappings s.devs a w 0 <;> rfl

theorem accesses_eq (s : Machine D) (l : List Access) :
    accesses pf s l = (devAccesses pf s.mappings s.devs l).map fun p => ({ s with devs := p.1 }, p.2) := by
  induction l generalizing s with
  | nil => rfl
  | cons x xs ih =>
    simp only [accesses, devAccesses, access_eq]
    cases devAccess pf s.mappings s.devs x with
    | none => rfl
    | some p =>
      simp only [Option.map_some, Option.bind_eq_bind, Option.bind_some, ih]
      cases devAccesses pf s.mappings p.1 xs <;> rfl

/-- Same answers, on the components. -/
def DevSame (pf : Profile) (maps maps' : List Mapping) (ds es : List D) : Prop :=
  ∀ l : List Access, (devAccesses pf maps ds l).map (·.2) = (devAccesses pf maps' es l).map (·.2)

theorem sameMemory_iff {s t : Machine D} : SameMemory pf s t ↔ DevSame pf s.mappings t.mappings s.devs t.devs := by
  unfold SameMemory DevSame
  refine forall_congr' fun l => ?_
  rw [accesses_eq, accesses_eq, Option.map_map, Option.map_map]
  rfl

theorem devSame_step {ds es : List D} (h : DevSame pf maps maps' ds es) (x : Access) :
    (devAccess pf maps ds x = none ∧ devAccess pf maps' es x = none) ∨
    ∃ ds' es' r, devAccess pf maps ds x = some (ds', r) ∧ devAccess pf maps' es x = some (es', r) ∧ DevSame pf maps maps' ds' es' := by
  have h1 := h [x]
  simp only [devAccesses] at h1
  cases e1 : devAccess pf maps ds x with
  | none =>
    cases e2 : devAccess pf maps' es x with
    | none => exact .inl ⟨rfl, rfl⟩
    | some q => rw [e1, e2] at h1; cases h1
  | some p =>
    cases e2 : devAccess pf maps' es x with
    | none => rw [e1, e2] at h1; cases h1
    | some q =>
      obtain ⟨ds', r⟩ := p
      obtain ⟨es', r'⟩ := q
      rw [e1, e2] at h1
      simp only [Option.bind_some, Option.map_some, Option.some.injEq, List.cons.injEq, and_true] at h1
      subst h1
      refine .inr ⟨ds', es', r, rfl, rfl, fun l => ?_⟩
      have h2 := h (x :: l)
      simp only [devAccesses, e1, e2, Option.bind_some] at h2
      cases g1 : devAccesses pf maps ds' l with
      | none =>
        cases g2 : devAccesses pf maps' es' l with
        | none => rfl
        | some _ => rw [g1, g2] at h2; cases h2
      | some a =>
        cases g2 : devAccesses pf maps' es' l with
        | none => rw [g1, g2] at h2; cases h2
        | some b =>
          rw [g1, g2] at h2
          simp only [Option.map_some, Option.some.injEq, List.cons.injEq, true_and] at h2 ⊢
          exact h2

theorem devSame_linked : DevLinked (D := D) pf maps maps' (DevSame pf maps maps') where
  read {ds es} a h := by
    have := devSame_step h (.read a)
    simp only [devAccess] at this
    cases e1 : devRead pf maps ds a 0 <;> cases e2 : devRead pf maps' es a 0 <;> rw [e1, e2] at this
    · trivial
    · rcases this with ⟨_, h⟩ | ⟨_, _, _, h, _⟩ <;> cases h
    · rcases this with ⟨h, _⟩ | ⟨_, _, _, _, h, _⟩ <;> cases h
    · rcases this with ⟨h, _⟩ | ⟨_, _, _, h1, h2, h3⟩
      · cases h
      · cases h1
        simp only [Option.map_some, Option.some.injEq, Prod.mk.injEq] at h2
        obtain ⟨rfl, h4, h5⟩ := h2
        exact ⟨h4.symm, h5.symm, h3⟩
  write {ds es} a w h := by
    have := devSame_step h (.write a w)
    simp only [devAccess] at this
    cases e1 : devWrite pf maps ds a w 0 <;> cases e2 : devWrite pf maps' es a w 0 <;> rw [e1, e2] at this
    · trivial
    · rcases this with ⟨_, h⟩ | ⟨_, _, _, h, _⟩ <;> cases h
    · rcases this with ⟨h, _⟩ | ⟨_, _, _, _, h, _⟩ <;> cases h
    · rcases this with ⟨h, _⟩ | ⟨_, _, _, h1, h2, h3⟩
      · cases h
      · cases h1
        simp only [Option.map_some, Option.some.injEq, Prod.mk.injEq] at h2
        obtain ⟨rfl, _, h5⟩ := h2
        exact ⟨h5.symm, h3⟩

/-- A relation that accesses keep, with the same answers, implies the same answers forever. -/
theorem devSame_of_linked (hi : DevLinked pf maps maps' P) {ds es : List D} (h : P ds es) : DevSame pf maps maps' ds es := by
  intro l
  induction l generalizing ds es with
  | nil => rfl
  | cons x xs ih =>
    simp only [devAccesses]
    cases x with
    | read a =>
      have := hi.read a h
      simp only [devAccess]
      cases e1 : devRead pf maps ds a 0 <;> cases e2 : devRead pf maps' es a 0 <;> rw [e1, e2] at this
      · rfl
      · exact this.elim
      · exact this.elim
      · obtain ⟨h1, h2, h3⟩ := this
        have := ih h3
        simp only [Option.map_some, Option.bind_some]
        revert this
        cases devAccesses (D := D) pf maps _ xs <;> cases devAccesses (D := D) pf maps' _ xs <;> intro this
        · rfl
        · cases this
        · cases this
        · simp only [Option.map_some, Option.some.injEq] at this ⊢
          rw [h1, h2, this]
    | write a w =>
      have := hi.write a w h
      simp only [devAccess]
      cases e1 : devWrite pf maps ds a w 0 <;> cases e2 : devWrite pf maps' es a w 0 <;> rw [e1, e2] at this
      · rfl
      · exact this.elim
      · exact this.elim
      · obtain ⟨h1, h3⟩ := this
        have := ih h3
        simp only [Option.map_some, Option.bind_some]
        revert this
        cases devAccesses (D := D) pf maps _ xs <;> cases devAccesses (D := D) pf maps' _ xs <;> intro this
        · rfl
        · cases this
        · cases this
        · simp only [Option.map_some, Option.some.injEq] at this ⊢
          rw [h1, this]

end Lrvm
