import Verif.Props.Devices.History
import Verif.Lemmas.Alike
import Verif.Spec.Alike

/-!
# Components with the same answers are interchangeable: C106
-/

namespace Lrvm

open Spec

variable {D E : Type} [Bus D] [Bus E] {pf : Profile}

/-- One more request. -/
theorem serveAll_snoc {d d' : D} {rs : List Req} {as : List Answer} (h : serveAll d rs = some (d', as)) (q : Req) :
    serveAll d (rs ++ [q]) = (serve d' q).map fun x => (x.1, as ++ [x.2]) := by
  cases hs : serve d' q with
  | none =>
    cases h2 : serveAll d (rs ++ [q]) with
    | none => rfl
    | some p =>
      obtain ⟨d2, as1, as2, g1, g2, _⟩ := serveAll_append_inv h2
      rw [h] at g1; cases g1
      obtain ⟨_, _, _, g3, _⟩ := serveAll_cons_inv g2
      rw [hs] at g3; cases g3
  | some p => exact serveAll_append h (serveAll_cons hs (serveAll_nil p.1))

/-- Requests, one by one, from two components with the same answers so far. -/
theorem serve_same {d0 d : D} {e0 e : E} {rs : List Req} {as as' : List Answer} (hd : serveAll d0 rs = some (d, as))
    (he : serveAll e0 rs = some (e, as')) (q : Req)
    (hs : (serveAll d0 (rs ++ [q])).map (·.2) = (serveAll e0 (rs ++ [q])).map (·.2)) :
    resAlike (fun x y => x.2 = y.2) (serve d q) (serve e q) := by
  rw [serveAll_snoc hd, serveAll_snoc he] at hs
  cases h1 : serve d q with
  | none =>
    cases h2 : serve e q with
    | none => trivial
    | some p => rw [h1, h2] at hs; cases hs
  | some p =>
    cases h2 : serve e q with
    | none => rw [h1, h2] at hs; cases hs
    | some p' =>
      rw [h1, h2] at hs
      simp only [Option.map_some, Option.some.injEq] at hs
      have := (List.append_inj' hs rfl).2
      show p.2 = p'.2
      simpa using this

/-- The relation of components that went through the same history. -/
def Together (ds : List D) (es : List E) (sz : Nat → Nat) (i : Nat) (d : D) (e : E) : Prop :=
  ∃ d0 e0 rs as as', ds[i]? = some d0 ∧ es[i]? = some e0 ∧ (∀ r ∈ rs, r.Within (sz i)) ∧
    serveAll d0 rs = some (d, as) ∧ serveAll e0 rs = some (e, as')

theorem together_step {ds : List D} {es : List E} {sz : Nat → Nat}
    (h : ∀ (i : Nat) (d : D) (e : E), ds[i]? = some d → es[i]? = some e → SameAnswers d e (sz i)) {i : Nat} {d : D} {e : E}
    (ht : Together ds es sz i d e) {q : Req} (hq : q.Within (sz i)) :
    resAlike (fun x y => Together ds es sz i x.1 y.1 ∧ x.2 = y.2) (serve d q) (serve e q) := by
  obtain ⟨d0, e0, rs, as, as', h1, h2, h3, h4, h5⟩ := ht
  have hall : ∀ r ∈ rs ++ [q], r.Within (sz i) := by
    intro r hr
    rcases List.mem_append.mp hr with hr | hr
    · exact h3 r hr
    · rw [List.mem_singleton] at hr; subst hr; exact hq
  have hs := serve_same h4 h5 q (h i d0 e0 h1 h2 _ hall)
  cases g1 : serve d q with
  | none => rw [g1] at hs; cases g2 : serve e q with
    | none => trivial
    | some p => rw [g2] at hs; exact hs
  | some p => rw [g1] at hs; cases g2 : serve e q with
    | none => rw [g2] at hs; exact hs
    | some p' =>
      rw [g2] at hs
      exact ⟨⟨d0, e0, rs ++ [q], _, _, h1, h2, hall, by rw [serveAll_snoc h4, g1]; rfl, by rw [serveAll_snoc h5, g2]; rfl⟩, hs⟩

/-- From requests to the three methods. -/
theorem devAlike_of_serve {R : Nat → D → E → Prop} {cache : List AuxCache}
    (h : ∀ {i d e q}, R i d e → (∀ a, (∃ ex, q = .read a ex) ∨ (∃ w ex, q = .write a w ex) → InRange cache i a) →
      resAlike (fun x y => R i x.1 y.1 ∧ x.2 = y.2) (serve d q) (serve e q)) : DevAlike R cache where
  read := by
    intro i d e a ex hr ha
    have := h (q := .read a ex) hr (by rintro b (⟨_, hb⟩ | ⟨_, _, hb⟩) <;> cases hb; exact ha)
    simp only [serve] at this
    cases h1 : Bus.read d a ex <;> cases h2 : Bus.read e a ex <;> rw [h1, h2] at this
    · trivial
    · exact this
    · exact this
    · obtain ⟨g1, g2⟩ := this
      simp only [Answer.value.injEq] at g2
      exact ⟨g1, Prod.ext g2.1 g2.2⟩
  write := by
    intro i d e a w ex hr ha
    have := h (q := .write a w ex) hr (by rintro b (⟨_, hb⟩ | ⟨_, _, hb⟩) <;> cases hb; exact ha)
    simp only [serve] at this
    cases h1 : Bus.write d a w ex <;> cases h2 : Bus.write e a w ex <;> rw [h1, h2] at this
    · trivial
    · exact this
    · exact this
    · obtain ⟨g1, g2⟩ := this
      simp only [Answer.wrote.injEq] at g2
      exact ⟨g1, g2⟩
  reset := by
    intro i d e hr
    have := h (q := .reset) hr (by rintro b (⟨_, hb⟩ | ⟨_, _, hb⟩) <;> cases hb)
    simp only [serve] at this
    cases h1 : Bus.reset d <;> cases h2 : Bus.reset e <;> rw [h1, h2] at this
    · trivial
    · exact this
    · exact this
    · exact this.1

theorem together_devAlike {ds : List D} {es : List E} {sz : Nat → Nat}
    (h : ∀ (i : Nat) (d : D) (e : E), ds[i]? = some d → es[i]? = some e → SameAnswers d e (sz i)) {cache : List AuxCache}
    (hc : ∀ i a, InRange cache i a → a.toNat % 4 = 0 ∧ a.toNat < sz i) : DevAlike (Together ds es sz) cache :=
  devAlike_of_serve fun {i d e q} hr hq => together_step h hr (by
    cases q with
    | read a ex => exact hc i a (hq a (.inl ⟨ex, rfl⟩))
    | write a w ex => exact hc i a (hq a (.inr ⟨w, ex, rfl⟩))
    | reset => trivial)

theorem Alike.outcome {R : Nat → D → E → Prop} {cache : List AuxCache} (hi : DevAlike R cache) {s : Machine D} {t : Machine E}
    (h : Alike R cache s t) : SameOutcome pf (some s) (some t) := by
  refine ⟨⟨h.regs, h.maps, h.cycles, h.halted, ⟨h.hwb, h.mem.trans h.mem'.symm, h.devs.1⟩, h.changedPc⟩, fun a ex => ?_⟩
  have := memRead_alike (pf := pf) hi h a ex
  cases h1 : memRead pf s a ex <;> cases h2 : memRead pf t a ex <;> rw [h1, h2] at this
  · rfl
  · exact this.elim
  · exact this.elim
  · simp only [Option.map_some]; rw [this.1, this.2.1]

theorem outcome_of_alike {R : Nat → D → E → Prop} {cache : List AuxCache} (hi : DevAlike R cache) {a : Res (Machine D)}
    {b : Res (Machine E)} (h : resAlike (Alike R cache) a b) : SameOutcome pf a b := by
  cases a <;> cases b
  · trivial
  · exact h.elim
  · exact h.elim
  · exact Alike.outcome hi h

/-- **C106**. Take two lists of components, of any kinds, which have one by one the same name, the same metadata and the same
answers to every history of requests within the contract of the size they advertise. Then no host and no program can tell
a board built with the first ones from a board built with the second ones: any sequence of host calls panics on both or
on none, and leaves both with the same registers, mappings, cycle count and state of the CPU, and every direct read of
the memory with the same answer. -/
theorem C106 {ds : List D} {es : List E} (hlen : ds.length = es.length)
    (h : ∀ (i : Nat) (d : D) (e : E), ds[i]? = some d → es[i]? = some e →
      Bus.name d = Bus.name e ∧ Bus.metadata pf d = Bus.metadata pf e ∧
      ∀ md, Bus.metadata pf d = some md → SameAnswers d e md[2].toNat) (ops : List HostOp) :
    SameOutcome pf (newBoard pf ds >>= hostRun pf ops) (newBoard pf es >>= hostRun pf ops) := by
  let sz : Nat → Nat := fun i => match ds[i]? with
    | some d => match Bus.metadata pf d with
      | some md => md[2].toNat
      | none => 0
    | none => 0
  have hsz : ∀ (i : Nat) (d : D) (md : Metadata), ds[i]? = some d → Bus.metadata pf d = some md → sz i = md[2].toNat := by
    intro i d md h1 h2
    simp only [sz, h1, h2]
  have hnew := newBoard_alike (pf := pf) (R := Together ds es sz) hlen fun i d e hd he =>
    ⟨(h i d e hd he).1, (h i d e hd he).2.1, d, e, [], [], [], hd, he, by simp, rfl, rfl⟩
  cases h1 : newBoard pf ds with
  | none =>
    cases h2 : newBoard pf es with
    | none => trivial
    | some t => rw [h1, h2] at hnew; exact hnew.elim
  | some s =>
    cases h2 : newBoard pf es with
    | none => rw [h1, h2] at hnew; exact hnew.elim
    | some t =>
      rw [h1, h2] at hnew
      obtain ⟨hc, _⟩ := newBoard_inv h1
      obtain ⟨hcl, hg⟩ := createCaches_get hc
      have hi : DevAlike (Together ds es sz) s.memCache := by
        refine together_devAlike ?_ ?_
        · intro i d e hd he
          obtain ⟨c, md, _, hmd, _⟩ := hg i d hd
          rw [hsz i d md hd hmd]
          exact (h i d e hd he).2.2 md hmd
        · rintro i a ⟨h4, c, hci, hlt⟩
          have hi : i < ds.length := hcl ▸ (List.getElem?_eq_some_iff.mp hci).1
          obtain ⟨c', md, hc', hmd, _, hs, _⟩ := hg i ds[i] (List.getElem?_eq_getElem hi)
          rw [hci] at hc'; cases hc'
          rw [hsz i _ md (List.getElem?_eq_getElem hi) hmd, ← hs]
          exact ⟨h4, hlt⟩
      exact outcome_of_alike hi (hostRun_alike hi ops hnew)

/-! ### Arrays of words -/

theorem allQuiet_snoc : ∀ {rs : List Req} {as : List Answer} {q : Req} {an : Answer},
    AllQuiet (rs ++ [q]) (as ++ [an]) → rs.length = as.length → Quiet q an := by
  intro rs
  induction rs with
  | nil => intro as q an h hl; cases as with
    | nil => exact h.1
    | cons a as => exact absurd hl (by simp)
  | cons r rs ih => intro as q an h hl; cases as with
    | nil => exact absurd hl (by simp)
    | cons a as => exact ih h.2 (by simpa using hl)

theorem serveAll_length {d d' : D} {rs : List Req} {as : List Answer} (h : serveAll d rs = some (d', as)) :
    rs.length = as.length := by
  induction rs generalizing d as with
  | nil => cases h; rfl
  | cons r rs ih =>
    obtain ⟨_, _, _, _, h2, rfl⟩ := serveAll_cons_inv h
    simp [ih h2]

/-- Two arrays of words with the same size and initial content give the same answers. -/
theorem C106_memory {d : D} {e : E} {size : Nat} {init : Nat → Word} (hd : WordMemory pf d size init)
    (he : WordMemory pf e size init) : SameAnswers d e size := by
  have key : ∀ rev : List Req, (∀ r ∈ rev, r.Within size) →
      (serveAll d rev.reverse).map (·.2) = (serveAll e rev.reverse).map (·.2) := by
    intro rev
    induction rev with
    | nil => intro _; rfl
    | cons q rev ih =>
      intro hw
      have hw' : ∀ r ∈ rev.reverse, r.Within size := fun r hr => hw r (by simp at hr; simp [hr])
      have hwq : ∀ r ∈ rev.reverse ++ [q], r.Within size := fun r hr => hw r (by simp at hr ⊢; exact hr.symm)
      have ih := ih fun r hr => hw r (by simp [hr])
      obtain ⟨d1, as, hd1, _, _⟩ := hd.serves _ hw'
      obtain ⟨e1, as', he1, _, _⟩ := he.serves _ hw'
      rw [hd1, he1] at ih
      simp only [Option.map_some, Option.some.injEq] at ih
      subst ih
      obtain ⟨d2, xs, hd2, _, hqd⟩ := hd.serves _ hwq
      obtain ⟨e2, ys, he2, _, hqe⟩ := he.serves _ hwq
      rw [List.reverse_cons, serveAll_snoc hd1, serveAll_snoc he1]
      rw [serveAll_snoc hd1] at hd2
      rw [serveAll_snoc he1] at he2
      obtain ⟨p, hp, hp'⟩ := Option.map_eq_some_iff.mp hd2
      obtain ⟨r, hr, hr'⟩ := Option.map_eq_some_iff.mp he2
      rw [hp, hr]
      cases hp'; cases hr'
      have hl := serveAll_length hd1
      have qd := allQuiet_snoc hqd hl
      have qe := allQuiet_snoc hqe hl
      have : p.2 = r.2 := by
        obtain ⟨p1, p2⟩ := p
        obtain ⟨r1, r2⟩ := r
        cases q with
        | read a ex =>
          have hq : (Req.read a ex).Within size := hwq _ (by simp)
          have htape : ∀ l : List Req, (l.map fun q => (q, Answer.done)).map (·.1) = l := by
            intro l
            induction l with
            | nil => rfl
            | cons x l ih => exact congrArg (x :: ·) ih
          have g1 := wordMemory_read_after hd (tape := rev.reverse.map fun q => (q, Answer.done)) (by rw [htape]; exact hw')
            (by rw [htape]; exact hd1) hq.1 hq.2 ex
          have g2 := wordMemory_read_after he (tape := rev.reverse.map fun q => (q, Answer.done)) (by rw [htape]; exact hw')
            (by rw [htape]; exact he1) hq.1 hq.2 ex
          simp only [serve, g1, Option.map_some, Option.some.injEq, Prod.mk.injEq] at hp
          simp only [serve, g2, Option.map_some, Option.some.injEq, Prod.mk.injEq] at hr
          exact hp.2.symm.trans hr.2
        | write a w ex =>
          cases p2 with
          | wrote x => cases r2 with
            | wrote y => exact congrArg Answer.wrote (Eq.trans qd (Eq.symm qe))
            | value _ _ => exact qe.elim
            | done => exact qe.elim
          | value _ _ => exact qd.elim
          | done => exact qd.elim
        | reset =>
          cases p2 with
          | done => cases r2 with
            | done => rfl
            | value _ _ => exact qe.elim
            | wrote _ => exact qe.elim
          | value _ _ => exact qd.elim
          | wrote _ => exact qd.elim
      simp only [Option.map_some, this]
  intro rs hr
  have := key rs.reverse (fun r h => hr r (by simpa using h))
  rwa [List.reverse_reverse] at this

/-- Keeping a tape of the requests (`Spec.Taped`) does not change a component's answers. -/
theorem C106_taped (d : D) (size : Nat) : SameAnswers d (blank d) size := by
  have key : ∀ (rs : List Req) (d : D) (tape : List (Req × Answer)),
      (serveAll d rs).map (·.2) = (serveAll (⟨d, tape⟩ : Taped D) rs).map (·.2) := by
    intro rs
    induction rs with
    | nil => intro d tape; rfl
    | cons r rs ih =>
      intro d tape
      have hs : serve (⟨d, tape⟩ : Taped D) r = (serve d r).map fun p => (⟨p.1, tape ++ [(r, p.2)]⟩, p.2) := by
        cases r with
        | read a ex =>
          show ((Bus.read d a ex).map _).map _ = ((Bus.read d a ex).map _).map _
          cases Bus.read d a ex <;> rfl
        | write a w ex =>
          show ((Bus.write d a w ex).map _).map _ = ((Bus.write d a w ex).map _).map _
          cases Bus.write d a w ex <;> rfl
        | reset =>
          show ((Bus.reset d).map _).map _ = ((Bus.reset d).map _).map _
          cases Bus.reset d <;> rfl
      simp only [serveAll, hs]
      cases serve d r with
      | none => rfl
      | some p =>
        have := ih p.1 (tape ++ [(r, p.2)])
        simp only [Option.map_some, Option.bind_eq_bind, Option.bind_some]
        cases h1 : serveAll p.1 rs <;> cases h2 : serveAll (⟨p.1, tape ++ [(r, p.2)]⟩ : Taped D) rs <;> rw [h1, h2] at this
        · rfl
        · cases this
        · cases this
        · simp only [Option.map_some, Option.some.injEq] at this
          simp [this]
  exact fun rs _ => key rs d []

/-- `Ram::new` and `Ram::from_with_size` of no word give RAMs of different host sizes (64 and 16 words), which are
interchangeable; a run that writes and reads ends on both boards. -/
example : ∃ d e : Ram, Ram.new 0x40 0x22 = some d ∧ Ram.fromWithSize [] 0x40 0x22 = some e ∧
    d.storage.length = 64 ∧ e.storage.length = 16 ∧
    (∀ ops, SameOutcome .debug (newBoard .debug [d] >>= hostRun .debug ops) (newBoard .debug [e] >>= hostRun .debug ops)) ∧
    ∃ s, (newBoard .debug [d] >>= hostRun .debug [.map 0 0, .reset, .memWrite 0 0x0F010000 0, .next, .memRead 4 0]) = some s ∧
      s.cycles = 1 := by
  have key : ∃ d e : Ram, Ram.new 0x40 0x22 = some d ∧ Ram.fromWithSize [] 0x40 0x22 = some e ∧
    d.storage.length = 64 ∧ e.storage.length = 16 ∧ Bus.name d = Bus.name e ∧
    Bus.metadata .debug d = Bus.metadata .debug e ∧ (∀ md, Bus.metadata .debug d = some md → md[2].toNat = 0x40) ∧
    ∃ s, (newBoard .debug [d] >>= hostRun .debug [.map 0 0, .reset, .memWrite 0 0x0F010000 0, .next, .memRead 4 0]) = some s ∧
      s.cycles = 1 := ⟨_, _, rfl, rfl, rfl, rfl, rfl, rfl, by intro md h; cases h; rfl, _, rfl, rfl⟩
  obtain ⟨d, e, h1, h2, h3, h4, h5, h6, h7, h8⟩ := key
  refine ⟨d, e, h1, h2, h3, h4, fun ops => ?_, h8⟩
  have hd : WordMemory .debug d 0x40 (fun _ => 0) := C64_new h1
  have he : WordMemory .debug e 0x40 (fun i => (([] : List Word)[i]?).getD 0) := C64_from_with_size h2
  refine C106 (ds := [d]) (es := [e]) rfl (fun i x y hx hy => ?_) ops
  cases i with
  | zero =>
    cases hx; cases hy
    exact ⟨h5, h6, fun md hmd => by rw [h7 md hmd]; exact C106_memory hd he⟩
  | succ i => cases hx

end Lrvm
