import Verif.Lemmas.Alike

/-!
# Two boards, as long as the components of the first one do what those of the second one would do

`G` is a property of the components of the first board that, once lost, stays lost. The second board follows the first one as long as
`G` holds of the components of the first one at the end.
-/

namespace Lrvm

variable {D E : Type} [Bus D] [Bus E] {pf : Profile}

/-- Components related by `R` answer in-range requests alike, as long as `G` holds at the end; `G` does not come back. -/
structure DevRep (G : Nat → D → Prop) (R : Nat → D → E → Prop) (cache : List AuxCache) : Prop where
  backRead : ∀ {id d a ex d' w ex'}, Bus.read d a ex = some (d', w, ex') → G id d' → G id d
  backWrite : ∀ {id d a w ex d' ex'}, Bus.write d a w ex = some (d', ex') → G id d' → G id d
  backReset : ∀ {id d d'}, Bus.reset d = some d' → G id d' → G id d
  read : ∀ {id d e a ex d' w ex'}, R id d e → InRange cache id a → Bus.read d a ex = some (d', w, ex') → G id d' →
    ∃ e', Bus.read e a ex = some (e', w, ex') ∧ R id d' e'
  write : ∀ {id d e a w ex d' ex'}, R id d e → InRange cache id a → Bus.write d a w ex = some (d', ex') → G id d' →
    ∃ e', Bus.write e a w ex = some (e', ex') ∧ R id d' e'
  reset : ∀ {id d e d'}, R id d e → Bus.reset d = some d' → G id d' → ∃ e', Bus.reset e = some e' ∧ R id d' e'

variable {G : Nat → D → Prop} {R : Nat → D → E → Prop} {cache : List AuxCache}

omit [Bus D] in
theorem AllDev.back {ds : List D} {i : Nat} {d d' : D} (hd : ds[i]? = some d) (hback : G i d' → G i d)
    (h : AllDev G (ds.set i d')) : AllDev G ds := by
  intro j x hx
  by_cases hij : i = j
  · subst hij
    rw [hd] at hx; cases hx
    refine hback (h i d' ?_)
    rw [List.getElem?_set, if_pos rfl, if_pos]
    exact (List.getElem?_eq_some_iff.mp hd).1
  · exact h j x (by rw [List.getElem?_set, if_neg hij]; exact hx)

omit [Bus D] in
theorem AllDev.at_set {ds : List D} {i : Nat} {d d' : D} (hd : ds[i]? = some d) (h : AllDev G (ds.set i d')) : G i d' :=
  h i d' (by rw [List.getElem?_set, if_pos rfl, if_pos]; exact (List.getElem?_eq_some_iff.mp hd).1)

/-! ## Memory -/

theorem bridgeRead_rep (hi : DevRep G R cache) {ds ds' : List D} {id : Nat} {a w : Word} {ex ex' : U16}
    (h : bridgeRead ds id a ex = some (some (w, ex', ds'))) (hg : AllDev G ds') :
    AllDev G ds ∧ ∀ es : List E, DevsAlike R ds es → (assert (a % 4 == 0) = some () → InRange cache id a) →
      ∃ es', bridgeRead es id a ex = some (some (w, ex', es')) ∧ DevsAlike R ds' es' := by
  unfold bridgeRead at h ⊢
  simp only [Option.bind_eq_bind, Option.bind_eq_some_iff] at h
  obtain ⟨⟨⟩, h4, h⟩ := h
  cases hd : ds[id]? with
  | none => rw [hd] at h; cases h
  | some d =>
    rw [hd] at h
    simp only [Option.bind_eq_some_iff] at h
    obtain ⟨⟨d', w', ex''⟩, hr, h⟩ := h
    simp only [Option.some.injEq, Prod.mk.injEq] at h
    obtain ⟨rfl, rfl, rfl⟩ := h
    refine ⟨hg.back hd (hi.backRead hr), fun es hes ha => ?_⟩
    rcases hes.get id with ⟨h1, _⟩ | ⟨d1, e, h1, h2, hR⟩
    · rw [hd] at h1; cases h1
    · rw [hd] at h1; cases h1
      obtain ⟨e', he, hR'⟩ := hi.read hR (ha h4) hr (hg.at_set hd)
      refine ⟨es.set id e', ?_, hes.set hR'⟩
      simp only [h4, h2, he, Option.bind_eq_bind, Option.bind_some]

theorem bridgeWrite_rep (hi : DevRep G R cache) {ds ds' : List D} {id : Nat} {a w : Word} {ex ex' : U16}
    (h : bridgeWrite ds id a w ex = some (some (ex', ds'))) (hg : AllDev G ds') :
    AllDev G ds ∧ ∀ es : List E, DevsAlike R ds es → (assert (a % 4 == 0) = some () → InRange cache id a) →
      ∃ es', bridgeWrite es id a w ex = some (some (ex', es')) ∧ DevsAlike R ds' es' := by
  unfold bridgeWrite at h ⊢
  simp only [Option.bind_eq_bind, Option.bind_eq_some_iff] at h
  obtain ⟨⟨⟩, h4, h⟩ := h
  cases hd : ds[id]? with
  | none => rw [hd] at h; cases h
  | some d =>
    rw [hd] at h
    simp only [Option.bind_eq_some_iff] at h
    obtain ⟨⟨d', ex''⟩, hr, h⟩ := h
    simp only [Option.some.injEq, Prod.mk.injEq] at h
    obtain ⟨rfl, rfl⟩ := h
    refine ⟨hg.back hd (hi.backWrite hr), fun es hes ha => ?_⟩
    rcases hes.get id with ⟨h1, _⟩ | ⟨d1, e, h1, h2, hR⟩
    · rw [hd] at h1; cases h1
    · rw [hd] at h1; cases h1
      obtain ⟨e', he, hR'⟩ := hi.write hR (ha h4) hr (hg.at_set hd)
      refine ⟨es.set id e', ?_, hes.set hR'⟩
      simp only [h4, h2, he, Option.bind_eq_bind, Option.bind_some]

theorem bridgeReset_rep (hi : DevRep G R cache) {ds : List D} {id : Nat} {o : Option (List D)}
    (h : bridgeReset ds id = some o) (hg : ∀ ds', o = some ds' → AllDev G ds') :
    (∀ ds', o = some ds' → AllDev G ds) ∧ ∀ es : List E, DevsAlike R ds es →
      ∃ o', bridgeReset es id = some o' ∧ ((o = none ∧ o' = none) ∨ ∃ ds' es', o = some ds' ∧ o' = some es' ∧ DevsAlike R ds' es') := by
  unfold bridgeReset at h ⊢
  cases hd : ds[id]? with
  | none =>
    rw [hd] at h
    injection h with h
    subst h
    refine ⟨fun _ h => (by cases h), fun es hes => ?_⟩
    rcases hes.get id with ⟨_, h2⟩ | ⟨d, e, h1, _, _⟩
    · exact ⟨none, by rw [h2], .inl ⟨rfl, rfl⟩⟩
    · rw [hd] at h1; cases h1
  | some d =>
    rw [hd] at h
    simp only [Option.bind_eq_bind, Option.bind_eq_some_iff] at h
    obtain ⟨d', hr, h⟩ := h
    injection h with h
    subst h
    have hg := hg _ rfl
    refine ⟨fun _ _ => hg.back hd (hi.backReset hr), fun es hes => ?_⟩
    rcases hes.get id with ⟨h1, _⟩ | ⟨d1, e, h1, h2, hR⟩
    · rw [hd] at h1; cases h1
    · rw [hd] at h1; cases h1
      obtain ⟨e', he, hR'⟩ := hi.reset hR hr (hg.at_set hd)
      refine ⟨some (es.set id e'), ?_, .inr ⟨_, _, rfl, rfl, hes.set hR'⟩⟩
      rw [h2]
      simp only [he, Option.bind_eq_bind, Option.bind_some]

theorem memRead_rep (hi : DevRep G R cache) {s s' : Machine D} {a w : Word} {ex ex' : U16}
    (h : memRead pf s a ex = some (w, ex', s')) (hg : AllDev G s'.devs) :
    AllDev G s.devs ∧ ∀ t : Machine E, Alike R cache s t → ∃ t', memRead pf t a ex = some (w, ex', t') ∧ Alike R cache s' t' := by
  unfold memRead at h ⊢
  simp only [Option.bind_eq_bind, Option.bind_eq_some_iff] at h
  obtain ⟨u, hu, o, ho, h⟩ := h
  cases o with
  | none =>
    simp only [Option.some.injEq, Prod.mk.injEq] at h
    obtain ⟨rfl, rfl, rfl⟩ := h
    refine ⟨hg, fun t ht => ⟨t, ?_, ht⟩⟩
    simp only [hu, ← ht.maps, ho, Option.bind_eq_bind, Option.bind_some]
  | some m =>
    simp only [Option.bind_eq_some_iff] at h
    obtain ⟨off, hoff, r, hr, h⟩ := h
    cases r with
    | none => cases h
    | some r =>
      obtain ⟨w1, ex1, ds'⟩ := r
      simp only [Option.some.injEq, Prod.mk.injEq] at h
      obtain ⟨rfl, rfl, rfl⟩ := h
      obtain ⟨h1, h2⟩ := bridgeRead_rep (E := E) (R := R) hi hr hg
      refine ⟨h1, fun t ht => ?_⟩
      obtain ⟨es', h3, h4⟩ := h2 t.devs ht.devs fun h4 => inRange_of_find ht.placed h4 ho hoff
      refine ⟨{ t with devs := es' }, ?_, ⟨ht.regs, ht.hwb, ht.mem, ht.mem', ht.maps, ht.cycles, ht.halted, ht.changedPc, ht.placed, h4⟩⟩
      simp only [hu, ← ht.maps, ho, hoff, h3, Option.bind_eq_bind, Option.bind_some]

theorem memWrite_rep (hi : DevRep G R cache) {s s' : Machine D} {a w : Word} {ex ex' : U16}
    (h : memWrite pf s a w ex = some (ex', s')) (hg : AllDev G s'.devs) :
    AllDev G s.devs ∧ ∀ t : Machine E, Alike R cache s t → ∃ t', memWrite pf t a w ex = some (ex', t') ∧ Alike R cache s' t' := by
  unfold memWrite at h ⊢
  simp only [Option.bind_eq_bind, Option.bind_eq_some_iff] at h
  obtain ⟨u, hu, o, ho, h⟩ := h
  cases o with
  | none =>
    simp only [Option.some.injEq, Prod.mk.injEq] at h
    obtain ⟨rfl, rfl⟩ := h
    refine ⟨hg, fun t ht => ⟨t, ?_, ht⟩⟩
    simp only [hu, ← ht.maps, ho, Option.bind_eq_bind, Option.bind_some]
  | some m =>
    simp only [Option.bind_eq_some_iff] at h
    obtain ⟨off, hoff, r, hr, h⟩ := h
    cases r with
    | none => cases h
    | some r =>
      obtain ⟨ex1, ds'⟩ := r
      simp only [Option.some.injEq, Prod.mk.injEq] at h
      obtain ⟨rfl, rfl⟩ := h
      obtain ⟨h1, h2⟩ := bridgeWrite_rep (E := E) (R := R) hi hr hg
      refine ⟨h1, fun t ht => ?_⟩
      obtain ⟨es', h3, h4⟩ := h2 t.devs ht.devs fun h4 => inRange_of_find ht.placed h4 ho hoff
      refine ⟨{ t with devs := es' }, ?_, ⟨ht.regs, ht.hwb, ht.mem, ht.mem', ht.maps, ht.cycles, ht.halted, ht.changedPc, ht.placed, h4⟩⟩
      simp only [hu, ← ht.maps, ho, hoff, h3, Option.bind_eq_bind, Option.bind_some]

theorem decodeEntry_rep (hi : DevRep G R cache) {s s' : Machine D} {a : Word} {act : MemAction} {r : EntryDecodingResult}
    (h : decodeEntry pf s a act = some (r, s')) (hg : AllDev G s'.devs) :
    AllDev G s.devs ∧ ∀ t : Machine E, Alike R cache s t → ∃ t', decodeEntry pf t a act = some (r, t') ∧ Alike R cache s' t' := by
  unfold decodeEntry at h ⊢
  simp only [Option.bind_eq_bind, Option.bind_eq_some_iff] at h
  obtain ⟨⟨w, ex, s1⟩, h1, h⟩ := h
  have hs : s1 = s' := by
    dsimp only at h
    split at h <;> (injection h with h; exact congrArg Prod.snd h)
  subst hs
  obtain ⟨h2, h3⟩ := memRead_rep (E := E) (R := R) hi h1 hg
  refine ⟨h2, fun t ht => ?_⟩
  obtain ⟨t', h4, h5⟩ := h3 t ht
  refine ⟨t', ?_, h5⟩
  simp only [h4, Option.bind_eq_bind, Option.bind_some]
  dsimp only at h
  rw [← ht.regs]
  split at h
  · next hc => rw [if_pos hc]; injection h with h; cases h; rfl
  · next hc => rw [if_neg hc]; injection h with h; cases h; rfl

theorem translate_rep (hi : DevRep G R cache) {s s' : Machine D} {a : Word} {act : MemAction} {r : Except (Option U16) Word}
    (h : translate pf s a act = some (r, s')) (hg : AllDev G s'.devs) :
    AllDev G s.devs ∧ ∀ t : Machine E, Alike R cache s t → ∃ t', translate pf t a act = some (r, t') ∧ Alike R cache s' t' := by
  unfold translate at h ⊢
  by_cases hm : s.regs.mtt = 0
  · rw [if_pos hm] at h
    simp only [Option.some.injEq, Prod.mk.injEq] at h
    obtain ⟨rfl, rfl⟩ := h
    exact ⟨hg, fun t ht => ⟨t, by rw [← ht.regs, if_pos hm], ht⟩⟩
  · rw [if_neg hm] at h
    simp only [Option.bind_eq_bind, Option.bind_eq_some_iff] at h
    obtain ⟨x, hx, y, hy, ⟨r1, s1⟩, h1, h⟩ := h
    cases r1 with
    | passThrough =>
      simp only [Option.some.injEq, Prod.mk.injEq] at h
      obtain ⟨rfl, rfl⟩ := h
      obtain ⟨h2, h3⟩ := decodeEntry_rep (E := E) (R := R) hi h1 hg
      refine ⟨h2, fun t ht => ?_⟩
      obtain ⟨t', h4, h5⟩ := h3 t ht
      refine ⟨t', ?_, h5⟩
      rw [← ht.regs, if_neg hm]
      simp only [hx, hy, h4, Option.bind_eq_bind, Option.bind_some]
    | permissionNotSet =>
      simp only [Option.some.injEq, Prod.mk.injEq] at h
      obtain ⟨rfl, rfl⟩ := h
      obtain ⟨h2, h3⟩ := decodeEntry_rep (E := E) (R := R) hi h1 hg
      refine ⟨h2, fun t ht => ?_⟩
      obtain ⟨t', h4, h5⟩ := h3 t ht
      refine ⟨t', ?_, h5⟩
      rw [← ht.regs, if_neg hm]
      simp only [hx, hy, h4, Option.bind_eq_bind, Option.bind_some]
    | hwException ex =>
      simp only [Option.some.injEq, Prod.mk.injEq] at h
      obtain ⟨rfl, rfl⟩ := h
      obtain ⟨h2, h3⟩ := decodeEntry_rep (E := E) (R := R) hi h1 hg
      refine ⟨h2, fun t ht => ?_⟩
      obtain ⟨t', h4, h5⟩ := h3 t ht
      refine ⟨t', ?_, h5⟩
      rw [← ht.regs, if_neg hm]
      simp only [hx, hy, h4, Option.bind_eq_bind, Option.bind_some]
    | decoded v =>
      simp only [Option.bind_eq_some_iff] at h
      obtain ⟨p1, hp1, p2, hp2, p3, hp3, ⟨r2, s2⟩, h2, h⟩ := h
      have hs : s2 = s' := by
        cases r2 with
        | decoded q =>
          simp only [Option.bind_eq_some_iff, Option.some.injEq, Prod.mk.injEq] at h
          obtain ⟨_, _, _, _, _, h⟩ := h
          exact h
        | _ => injection h with h; exact congrArg Prod.snd h
      subst hs
      obtain ⟨g1, g2⟩ := decodeEntry_rep (E := E) (R := R) hi h2 hg
      obtain ⟨g3, g4⟩ := decodeEntry_rep (E := E) (R := R) hi h1 g1
      refine ⟨g3, fun t ht => ?_⟩
      obtain ⟨t1, g5, g6⟩ := g4 t ht
      obtain ⟨t2, g7, g8⟩ := g2 t1 g6
      refine ⟨t2, ?_, g8⟩
      rw [← ht.regs, if_neg hm]
      simp only [hx, hy, g5, hp1, hp2, hp3, g7, Option.bind_eq_bind, Option.bind_some]
      cases r2 with
      | decoded q =>
        simp only [Option.bind_eq_some_iff, Option.some.injEq, Prod.mk.injEq] at h
        obtain ⟨x, hx, y, hy, rfl, _⟩ := h
        simp only [hx, hy, Option.bind_some]
      | _ => injection h with h; cases h; rfl

/-! ## CPU actions -/

/-- The action did not panic, and `G` holds of the components at the end. -/
def EndsIn (G : Nat → D → Prop) : Out (Machine D) α → Prop
  | .ok _ s => AllDev G s.devs
  | .ex s => AllDev G s.devs
  | .panic => False

/-- The second action follows the first one. -/
structure ActRep (G : Nat → D → Prop) (R : Nat → D → E → Prop) (cache : List AuxCache) (m : M D α) (n : M E α) : Prop where
  back : ∀ s, EndsIn G (m s) → AllDev G s.devs
  sim : ∀ s t, Alike R cache s t → EndsIn G (m s) → outAlike R cache (m s) (n t)

section
omit [Bus D] [Bus E]

theorem rep_pure (a : α) : ActRep G R cache (pure a : M D α) (pure a : M E α) := ⟨fun _ h => h, fun _ _ h _ => ⟨rfl, h⟩⟩

theorem rep_panic : ActRep G R cache (fun _ => .panic : M D α) (fun _ => .panic : M E α) :=
  ⟨fun _ h => h.elim, fun _ _ _ h => h.elim⟩

theorem rep_bind {m : M D α} {n : M E α} {f : α → M D β} {g : α → M E β} (h : ActRep G R cache m n)
    (hf : ∀ a, ActRep G R cache (f a) (g a)) : ActRep G R cache (m >>= f) (n >>= g) := by
  constructor
  · intro s hs
    change EndsIn G (M.bind m f s) at hs
    unfold M.bind at hs
    have hb := h.back s
    revert hs hb
    cases m s <;> intro hs hb
    · exact hb ((hf _).back _ hs)
    · exact hb hs
    · exact hs.elim
  · intro s t hst hs
    change EndsIn G (M.bind m f s) at hs
    show outAlike R cache (M.bind m f s) (M.bind n g t)
    unfold M.bind at hs ⊢
    have hb := h.sim s t hst
    revert hs hb
    cases m s <;> intro hs hb
    · have := hb ((hf _).back _ hs)
      revert this
      cases n t <;> intro this
      · obtain ⟨rfl, h'⟩ := this; exact (hf _).sim _ _ h' hs
      · exact this.elim
      · exact this.elim
    · have := hb hs
      revert this
      cases n t <;> intro this
      · exact this.elim
      · exact this
      · exact this.elim
    · exact hs.elim

theorem rep_getsM {f : Machine D → α} {g : Machine E → α} (hf : ∀ s t, Alike R cache s t → f s = g t) :
    ActRep G R cache (getsM f) (getsM g) := ⟨fun _ h => h, fun s t h _ => ⟨hf s t h, h⟩⟩

theorem rep_getAf {k : Word → M D β} {k' : Word → M E β} (h : ∀ af, ActRep G R cache (k af) (k' af)) :
    ActRep G R cache (getM >>= fun s => k s.regs.af) (getM >>= fun s => k' s.regs.af) :=
  ⟨fun s hs => (h s.regs.af).back s hs, fun s t hst hs => by
    have := (h s.regs.af).sim s t hst hs
    show outAlike R cache (k s.regs.af s) (k' t.regs.af t)
    rwa [← hst.regs]⟩

theorem rep_modify {f : Machine D → Machine D} {g : Machine E → Machine E} (hd : ∀ s, (f s).devs = s.devs)
    (hf : ∀ s t, Alike R cache s t → Alike R cache (f s) (g t)) : ActRep G R cache (modifyM f) (modifyM g) :=
  ⟨fun s h => by rw [← hd s]; exact h, fun s t h _ => ⟨rfl, hf s t h⟩⟩

theorem rep_lift (r : Res α) : ActRep G R cache (liftRes r : M D α) (liftRes r : M E α) := by
  cases r
  · exact rep_panic
  · exact rep_pure _

/-- An action that leaves the components alone and keeps machines alike. -/
theorem rep_of_act {m : M D α} {n : M E α} (hd : ∀ s, EndsIn G (m s) → AllDev G s.devs) (h : ActAlike R cache m n) :
    ActRep G R cache m n := ⟨hd, fun s t hst _ => h s t hst⟩

theorem rep_regs (f : Regs → Regs) : ActRep G R cache (modRegs f : M D Unit) (modRegs f : M E Unit) :=
  rep_modify (fun _ => rfl) fun _ _ h => h.withRegs f

theorem rep_raise (c : U8) (d : U16) : ActRep G R cache (raise c d : M D α) (raise c d : M E α) :=
  ⟨fun _ h => h, fun _ _ h _ => h.exception c d⟩

theorem rep_readReg (c : U8) : ActRep G R cache (readReg c : M D Word) (readReg c : M E Word) := by
  refine rep_of_act (fun s h => ?_) (act_readReg c)
  unfold readReg at h
  split at h
  · exact h
  · revert h
    cases s.regs.read c <;> exact fun h => h

theorem rep_writeReg (c : U8) (w : Word) : ActRep G R cache (writeReg c w : M D Unit) (writeReg c w : M E Unit) := by
  refine rep_of_act (fun s h => ?_) (act_writeReg c w)
  unfold writeReg at h
  split at h
  · exact h
  split at h
  · exact h
  have e : (if c = 0x16#8 then { s with changedPc := true } else s).devs = s.devs := by split <;> rfl
  dsimp only at h
  split at h
  · change AllDev G (if c = 0x16#8 then { s with changedPc := true } else s).devs at h
    rwa [e] at h
  · change AllDev G (if c = 0x16#8 then { s with changedPc := true } else s).devs at h
    rwa [e] at h

theorem rep_compute (a b : Word) (op : Op) : ActRep G R cache (compute a b op : M D Word) (compute a b op : M E Word) := by
  unfold compute
  split
  · exact rep_raise _ _
  · exact rep_bind (rep_regs _) fun _ => rep_pure _

theorem rep_aligned (a : Word) : ActRep G R cache (ensureAligned a : M D Word) (ensureAligned a : M E Word) := by
  unfold ensureAligned
  split
  · exact rep_raise _ _
  · exact rep_pure _

theorem rep_lit1 (r : Bool) (p : U8) : ActRep G R cache (regOrLit1 r p : M D Word) (regOrLit1 r p : M E Word) := by
  unfold regOrLit1
  split
  · exact rep_readReg _
  · exact rep_pure _

theorem rep_lit2 (r : Bool) (p q : U8) : ActRep G R cache (regOrLit2 r p q : M D Word) (regOrLit2 r p q : M E Word) := by
  unfold regOrLit2
  split
  · exact rep_readReg _
  · exact rep_pure _

theorem rep_hwInfo (i : Word) (id : Nat) : ActRep G R cache (getHwInfo pf i id : M D Word) (getHwInfo pf i id : M E Word) := by
  refine rep_of_act (fun s h => ?_) (act_hwInfo i id)
  unfold getHwInfo at h
  split at h
  · exact h
  · dsimp only at h
    split at h
    all_goals first
      | exact h
      | skip
    · split at h
      · exact h
      · exact h
    · split at h
      · exact h
      · exact (rep_lift (R := fun _ _ _ => True) (E := D) (cache := []) _).back s h
    · split at h
      · exact h
      · exact h

end

theorem rep_memDo {act : MemAction} {v : Word} (hi : DevRep G R cache)
    {f : Machine D → Word → U16 → Res (α × U16 × Machine D)} {g : Machine E → Word → U16 → Res (α × U16 × Machine E)}
    (hf : ∀ s p ex r ex' s', f s p ex = some (r, ex', s') → AllDev G s'.devs → AllDev G s.devs ∧
      ∀ t, Alike R cache s t → ∃ t', g t p ex = some (r, ex', t') ∧ Alike R cache s' t') :
    ActRep G R cache (memDo pf act v f) (memDo pf act v g) := by
  refine rep_bind (rep_aligned v) fun v => ?_
  -- the whole outcome of the first board
  have key : ∀ s, EndsIn G (match translate pf s v act with
        | none => (.panic : Out (Machine D) α)
        | some (.ok pAddr, s1) =>
          match f s1 pAddr 0 with
          | none => .panic
          | some (ret, ex, s2) => if ex ≠ 0 then raise 0xA0 ex s2 else .ok ret s2
        | some (.error none, s1) => raise 0x06 (v.setWidth 16) s1
        | some (.error (some ex), s1) => raise 0xA0 ex s1) →
      AllDev G s.devs ∧ ∀ t, Alike R cache s t → outAlike R cache (match translate pf s v act with
        | none => (.panic : Out (Machine D) α)
        | some (.ok pAddr, s1) =>
          match f s1 pAddr 0 with
          | none => .panic
          | some (ret, ex, s2) => if ex ≠ 0 then raise 0xA0 ex s2 else .ok ret s2
        | some (.error none, s1) => raise 0x06 (v.setWidth 16) s1
        | some (.error (some ex), s1) => raise 0xA0 ex s1)
       (match translate pf t v act with
        | none => (.panic : Out (Machine E) α)
        | some (.ok pAddr, s1) =>
          match g s1 pAddr 0 with
          | none => .panic
          | some (ret, ex, s2) => if ex ≠ 0 then raise 0xA0 ex s2 else .ok ret s2
        | some (.error none, s1) => raise 0x06 (v.setWidth 16) s1
        | some (.error (some ex), s1) => raise 0xA0 ex s1) := by
    intro s
    cases htr : translate pf s v act with
    | none => exact fun h => h.elim
    | some p =>
      obtain ⟨x, s1⟩ := p
      cases x with
      | error o =>
        intro h
        have hg : AllDev G s1.devs := by cases o <;> exact h
        obtain ⟨h1, h2⟩ := translate_rep (E := E) (R := R) hi htr hg
        refine ⟨h1, fun t ht => ?_⟩
        obtain ⟨t', h3, h4⟩ := h2 t ht
        rw [h3]
        cases o with
        | none => exact Alike.exception h4 _ _
        | some ex => exact Alike.exception h4 _ _
      | ok p =>
        dsimp only
        cases hfr : f s1 p 0 with
        | none => exact fun h => h.elim
        | some q =>
          obtain ⟨ret, ex, s2⟩ := q
          dsimp only
          intro h
          have hg : AllDev G s2.devs := by
            by_cases he : ex ≠ 0
            · rw [if_pos he] at h; exact h
            · rw [if_neg he] at h; exact h
          obtain ⟨h1, h2⟩ := hf _ _ _ _ _ _ hfr hg
          obtain ⟨h3, h4⟩ := translate_rep (E := E) (R := R) hi htr h1
          refine ⟨h3, fun t ht => ?_⟩
          obtain ⟨t1, h5, h6⟩ := h4 t ht
          obtain ⟨t2, h7, h8⟩ := h2 t1 h6
          rw [h5]
          dsimp only
          rw [h7]
          dsimp only
          by_cases he : ex ≠ 0
          · rw [if_pos he, if_pos he]; exact Alike.exception h8 _ _
          · rw [if_neg he, if_neg he]; exact ⟨rfl, h8⟩
  exact ⟨fun s h => (key s h).1, fun s t ht h => (key s h).2 t ht⟩

theorem rep_read (hi : DevRep G R cache) (v : Word) : ActRep G R cache (cpuRead pf v : M D Word) (cpuRead pf v : M E Word) :=
  rep_memDo hi fun _ _ _ _ _ _ h hg => memRead_rep hi h hg

theorem rep_exec (hi : DevRep G R cache) (v : Word) : ActRep G R cache (cpuExec pf v : M D Word) (cpuExec pf v : M E Word) :=
  rep_memDo hi fun _ _ _ _ _ _ h hg => memRead_rep hi h hg

theorem rep_write (hi : DevRep G R cache) (v w : Word) :
    ActRep G R cache (cpuWrite pf v w : M D Unit) (cpuWrite pf v w : M E Unit) := by
  refine rep_memDo hi fun s p ex r ex' s' h hg => ?_
  cases h1 : memWrite pf s p w ex with
  | none => rw [h1] at h; cases h
  | some q =>
  obtain ⟨ex1, s1⟩ := q
  rw [h1] at h
  simp only [Option.some.injEq, Prod.mk.injEq] at h
  obtain ⟨_, rfl, rfl⟩ := h
  obtain ⟨h3, h4⟩ := memWrite_rep (E := E) (R := R) hi h1 hg
  refine ⟨h3, fun t ht => ?_⟩
  obtain ⟨t', h5, h6⟩ := h4 t ht
  exact ⟨t', by rw [h5], h6⟩

theorem rep_setSp (v : Word) : ActRep G R cache (setSp v : M D Unit) (setSp v : M E Unit) :=
  rep_modify (fun s => by dsimp only; split <;> rfl) fun s t h => by
    rw [← h.sv]
    split
    · exact h.withRegs fun r => { r with ssp := v }
    · exact h.withRegs fun r => { r with usp := v }

theorem resetLoop_rep (hi : DevRep G R cache) (test : Nat → Bool) (n : Nat) : ∀ (id : Nat) {ds ds' : List D},
    resetLoop test id n ds = some ds' → AllDev G ds' → AllDev G ds ∧
      ∀ es : List E, DevsAlike R ds es → ∃ es', resetLoop test id n es = some es' ∧ DevsAlike R ds' es' := by
  induction n with
  | zero => intro id ds ds' h hg; injection h with h; subst h; exact ⟨hg, fun es hes => ⟨es, rfl, hes⟩⟩
  | succ n ih =>
    intro id ds ds' h hg
    unfold resetLoop at h ⊢
    by_cases ht : test id = true
    · rw [if_pos ht] at h
      cases hb : bridgeReset ds id with
      | none => rw [hb] at h; cases h
      | some o =>
        rw [hb] at h
        cases o with
        | none => cases h
        | some ds1 =>
          obtain ⟨h1, h2⟩ := ih _ h hg
          obtain ⟨h3, h4⟩ := bridgeReset_rep (E := E) (R := R) hi hb fun x hx => by cases hx; exact h1
          refine ⟨h3 _ rfl, fun es hes => ?_⟩
          obtain ⟨o', h5, h6⟩ := h4 es hes
          rcases h6 with ⟨h6, _⟩ | ⟨x, es1, hx, rfl, h6⟩
          · cases h6
          · cases hx
            obtain ⟨es', h7, h8⟩ := h2 es1 h6
            exact ⟨es', by rw [if_pos ht, h5]; exact h7, h8⟩
    · rw [if_neg ht] at h
      obtain ⟨h1, h2⟩ := ih _ h hg
      refine ⟨h1, fun es hes => ?_⟩
      obtain ⟨es', h7, h8⟩ := h2 es hes
      exact ⟨es', by rw [if_neg ht]; exact h7, h8⟩

theorem rep_resetDevs (hi : DevRep G R cache) (n : Nat) :
    ActRep G R cache (resetDevs n : M D Unit) (resetDevs n : M E Unit) := by
  have loop : ∀ (test : Nat → Bool) (s : Machine D),
      EndsIn G ((liftRes (resetLoop test 0 s.devs.length s.devs) >>= fun devs => modifyM fun s => { s with devs := devs } : M D Unit) s) →
      AllDev G s.devs ∧ ∀ t test', Alike R cache s t → test' = test → outAlike R cache
        ((liftRes (resetLoop test 0 s.devs.length s.devs) >>= fun devs => modifyM fun s => { s with devs := devs } : M D Unit) s)
        ((liftRes (resetLoop test' 0 t.devs.length t.devs) >>= fun devs => modifyM fun s => { s with devs := devs } : M E Unit) t) := by
    intro test s
    cases h : resetLoop test 0 s.devs.length s.devs with
    | none => exact fun h => h.elim
    | some ds' =>
      intro hg
      obtain ⟨h1, h2⟩ := resetLoop_rep (E := E) (R := R) hi test _ 0 h hg
      refine ⟨h1, fun t test' hst e => ?_⟩
      obtain ⟨es', h3, h4⟩ := h2 t.devs hst.devs
      rw [e, ← hst.devs.1, h3]
      exact ⟨rfl, hst.withDevs h4⟩
  have key : ∀ s, EndsIn G (resetDevs n s) → AllDev G s.devs ∧ ∀ t, Alike R cache s t → outAlike R cache (resetDevs n s) (resetDevs n t) := by
    intro s hg
    by_cases e0 : n = 0
    · subst e0; exact (loop _ s hg).imp id fun hx t ht => hx t _ ht rfl
    by_cases e1 : n = 1
    · subst e1
      change EndsIn G ((liftRes (bridgeReset s.devs s.regs.avr.toNat) >>= fun o => match o with
        | none => raise 0x10 (s.regs.avr.setWidth 16)
        | some devs => modifyM (fun s => { s with devs := devs }) : M D Unit) s) at hg
      show _ ∧ ∀ t : Machine E, Alike R cache s t → outAlike R cache ((liftRes (bridgeReset s.devs s.regs.avr.toNat) >>= fun o => match o with
        | none => raise 0x10 (s.regs.avr.setWidth 16)
        | some devs => modifyM (fun s => { s with devs := devs }) : M D Unit) s)
        ((liftRes (bridgeReset t.devs t.regs.avr.toNat) >>= fun o => match o with
        | none => raise 0x10 (t.regs.avr.setWidth 16)
        | some devs => modifyM (fun s => { s with devs := devs }) : M E Unit) t)
      cases h : bridgeReset s.devs s.regs.avr.toNat with
      | none => rw [h] at hg; exact hg.elim
      | some o =>
        rw [h] at hg
        cases o with
        | none =>
          refine ⟨hg, fun t hst => ?_⟩
          obtain ⟨_, h2⟩ := bridgeReset_rep (E := E) (R := R) hi h fun _ hx => by cases hx
          obtain ⟨o', h3, h4⟩ := h2 t.devs hst.devs
          rcases h4 with ⟨_, rfl⟩ | ⟨_, _, hx, _⟩
          · rw [← hst.regs, h3]; exact hst.exception _ _
          · cases hx
        | some ds' =>
          obtain ⟨h1, h2⟩ := bridgeReset_rep (E := E) (R := R) hi h fun _ hx => by cases hx; exact hg
          refine ⟨h1 _ rfl, fun t hst => ?_⟩
          obtain ⟨o', h3, h4⟩ := h2 t.devs hst.devs
          rcases h4 with ⟨hx, _⟩ | ⟨_, es', hx, rfl, h5⟩
          · cases hx
          · cases hx
            rw [← hst.regs, h3]; exact ⟨rfl, hst.withDevs h5⟩
    by_cases e2 : n = 2
    · subst e2
      exact (loop _ s hg).imp id fun hx t ht => hx t _ ht (by rw [ht.regs])
    by_cases e3 : n = 3
    · subst e3
      exact (loop _ s hg).imp id fun hx t ht => hx t _ ht (by rw [ht.regs])
    by_cases e4 : n = 4
    · subst e4
      exact (loop _ s hg).imp id fun hx t ht => hx t _ ht (by rw [ht.regs])
    obtain ⟨k, rfl⟩ : ∃ k, n = k + 5 := ⟨n - 5, by omega⟩
    exact ⟨hg, fun t ht => ⟨rfl, ht⟩⟩
  exact ⟨fun s h => (key s h).1, fun s t ht h => (key s h).2 t ht⟩

theorem rep_runInstr (hi : DevRep G R cache) (f : Fields) :
    ActRep G R cache (runInstr pf f : M D Unit) (runInstr pf f : M E Unit) := by
  have alu : ActRep G R cache (execAlu f : M D Unit) (execAlu f : M E Unit) :=
    rep_bind (rep_lit2 _ _ _) fun _ => rep_bind (rep_readReg _) fun _ => rep_bind (rep_compute _ _ _) fun _ => rep_writeReg _ _
  have div : ∀ mk, ActRep G R cache (execDiv mk f : M D Unit) (execDiv mk f : M E Unit) := fun mk =>
    rep_bind (rep_lit1 _ _) fun _ => rep_bind (rep_lit1 _ _) fun _ => rep_bind (rep_readReg _) fun _ =>
      rep_bind (rep_compute _ _ _) fun _ => rep_writeReg _ _
  have cond : ∀ b, ActRep G R cache (execIf b f : M D Unit) (execIf b f : M E Unit) := fun b => by
    refine rep_bind (rep_lit1 _ _) fun flag => ?_
    split
    · exact rep_raise _ _
    · refine rep_getAf (k := fun af => if (af &&& (1#32 <<< (7 - flag.toNat)) != 0) != b then skipNext else pure ())
        (k' := fun af => if (af &&& (1#32 <<< (7 - flag.toNat)) != 0) != b then skipNext else pure ()) fun af => ?_
      split
      · exact rep_regs _
      · exact rep_pure _
  have cpy : ActRep G R cache (execCpy f : M D Unit) (execCpy f : M E Unit) :=
    rep_bind (rep_lit2 _ _ _) fun _ => rep_writeReg _ _
  have ex : ActRep G R cache (execEx f : M D Unit) (execEx f : M E Unit) :=
    rep_bind (rep_readReg _) fun _ => rep_bind (rep_readReg _) fun _ => rep_bind (rep_writeReg _ _) fun _ => rep_writeReg _ _
  have cmp : ActRep G R cache (execCmp f : M D Unit) (execCmp f : M E Unit) :=
    rep_bind (rep_lit2 _ _ _) fun _ => rep_bind (rep_readReg _) fun _ => rep_bind (rep_compute _ _ _) fun _ => rep_pure _
  have jpr : ActRep G R cache (execJpr f : M D Unit) (execJpr f : M E Unit) :=
    rep_bind (rep_lit2 _ _ _) fun v => rep_modify (fun _ => rfl) fun s t h =>
      ⟨by simp only; rw [h.regs], h.hwb, h.mem, h.mem', h.maps, h.cycles, h.halted, rfl, h.placed, h.devs⟩
  have lsm : ActRep G R cache (execLsm f : M D Unit) (execLsm f : M E Unit) := by
    refine rep_bind (rep_getsM fun s t h => h.sv) fun sv => ?_
    split
    · exact rep_bind (rep_lit2 _ _ _) fun _ => rep_bind (rep_regs _) fun _ => rep_regs _
    · exact rep_raise _ _
  have itr : ActRep G R cache (execItr f : M D Unit) (execItr f : M E Unit) :=
    rep_bind (rep_lit1 _ _) fun _ => rep_modify (fun _ => rfl) fun s t h => h.exception _ _
  have if2 : ActRep G R cache (execIf2 pf f : M D Unit) (execIf2 pf f : M E Unit) := by
    refine rep_bind (rep_lit1 _ _) fun fa => rep_bind (rep_lit1 _ _) fun fb => rep_bind (rep_lit1 _ _) fun c => ?_
    refine rep_getAf (k := fun af => liftRes (flagTest pf af fa) >>= fun a => liftRes (flagTest pf af fb) >>= fun b =>
        match if2Cond c a b with
        | none => raise 0x0D ((c.setWidth 8).setWidth 16)
        | some result => if !result then skipNext else pure ())
      (k' := fun af => liftRes (flagTest pf af fa) >>= fun a => liftRes (flagTest pf af fb) >>= fun b =>
        match if2Cond c a b with
        | none => raise 0x0D ((c.setWidth 8).setWidth 16)
        | some result => if !result then skipNext else pure ()) fun af => ?_
    refine rep_bind (rep_lift _) fun _ => rep_bind (rep_lift _) fun _ => ?_
    split
    · exact rep_raise _ _
    · split
      · exact rep_regs _
      · exact rep_pure _
  have lsa : ActRep G R cache (execLsa pf f : M D Unit) (execLsa pf f : M E Unit) :=
    rep_bind (rep_lit1 _ _) fun _ => rep_bind (rep_lit1 _ _) fun _ => rep_bind (rep_read hi _) fun _ => rep_writeReg _ _
  have lea : ActRep G R cache (execLea pf f : M D Unit) (execLea pf f : M E Unit) :=
    rep_bind (rep_lit1 _ _) fun _ => rep_bind (rep_lit1 _ _) fun _ => rep_bind (rep_lit1 _ _) fun _ =>
      rep_bind (rep_read hi _) fun _ => rep_regs _
  have wsa : ActRep G R cache (execWsa pf f : M D Unit) (execWsa pf f : M E Unit) :=
    rep_bind (rep_lit1 _ _) fun _ => rep_bind (rep_lit1 _ _) fun _ => rep_bind (rep_lit1 _ _) fun _ => rep_write hi _ _
  have wea : ActRep G R cache (execWea pf f : M D Unit) (execWea pf f : M E Unit) :=
    rep_bind (rep_lit1 _ _) fun _ => rep_bind (rep_lit1 _ _) fun _ => rep_bind (rep_lit1 _ _) fun _ =>
      rep_bind (rep_getsM fun s t h => by rw [h.regs]) fun _ => rep_write hi _ _
  have srm : ActRep G R cache (execSrm pf f : M D Unit) (execSrm pf f : M E Unit) :=
    rep_bind (rep_lit1 _ _) fun _ => rep_bind (rep_lit1 _ _) fun _ => rep_bind (rep_lift _) fun _ =>
      rep_bind (rep_read hi _) fun _ => rep_bind (rep_readReg _) fun _ => rep_bind (rep_lift _) fun _ =>
      rep_bind (rep_write hi _ _) fun _ => rep_writeReg _ _
  have getSp : ActRep G R cache (getsM (·.sp) : M D Word) (getsM (·.sp) : M E Word) :=
    rep_getsM fun s t h => by unfold Machine.sp; rw [h.sv, h.regs]
  have push : ActRep G R cache (execPush pf f : M D Unit) (execPush pf f : M E Unit) :=
    rep_bind (rep_lit2 _ _ _) fun _ => rep_bind getSp fun _ => rep_bind (rep_write hi _ _) fun _ => rep_setSp _
  have pop : ActRep G R cache (execPop pf f : M D Unit) (execPop pf f : M E Unit) := by
    refine rep_bind (rep_getsM fun s t h => h.sv) fun sv => ?_
    refine rep_bind ?_ fun _ => rep_writeReg _ _
    split
    · exact rep_bind (rep_getsM fun s t h => by rw [h.regs]) fun _ => rep_bind (rep_read hi _) fun _ =>
        rep_bind (rep_regs _) fun _ => rep_pure _
    · exact rep_bind (rep_getsM fun s t h => by rw [h.regs]) fun _ => rep_bind (rep_read hi _) fun _ =>
        rep_bind (rep_regs _) fun _ => rep_pure _
  have call : ActRep G R cache (execCall pf f : M D Unit) (execCall pf f : M E Unit) :=
    rep_bind (rep_lit2 _ _ _) fun _ => rep_bind getSp fun _ => rep_bind (rep_getsM fun s t h => by rw [h.regs]) fun _ =>
      rep_bind (rep_lift _) fun _ => rep_bind (rep_write hi _ _) fun _ => rep_bind (rep_setSp _) fun _ =>
      rep_modify (fun _ => rfl) fun s t h =>
        ⟨by simp only; rw [h.regs], h.hwb, h.mem, h.mem', h.maps, h.cycles, h.halted, rfl, h.placed, h.devs⟩
  have hwd : ActRep G R cache (execHwd pf f : M D Unit) (execHwd pf f : M E Unit) := by
    refine rep_bind (rep_lit1 _ _) fun _ => rep_bind (rep_lit1 _ _) fun _ => ?_
    split
    · exact rep_bind (rep_getsM fun s t h => h.devs.1) fun _ => rep_writeReg _ _
    · exact rep_bind (rep_hwInfo _ _) fun _ => rep_writeReg _ _
  have cyc : ActRep G R cache (execCycles f : M D Unit) (execCycles f : M E Unit) :=
    rep_bind (rep_getsM fun s t h => h.cycles) fun _ => rep_writeReg _ _
  have halt : ActRep G R cache (execHalt : M D Unit) (execHalt : M E Unit) :=
    rep_modify (fun _ => rfl) fun s t h => ⟨h.regs, h.hwb, h.mem, h.mem', h.maps, h.cycles, rfl, h.changedPc, h.placed, h.devs⟩
  have rst : ActRep G R cache (execReset f : M D Unit) (execReset f : M E Unit) := by
    refine rep_bind (rep_lit1 _ _) fun _ => rep_bind (rep_resetDevs hi _) fun _ => ?_
    split
    · exact rep_modify (fun _ => rfl) fun s t h => h.cpuReset
    · exact rep_pure _
  unfold runInstr
  generalize f.opcode.toNat = n
  match n with
  | 0 => exact rep_raise _ _
  | 1 => exact cpy
  | 2 => exact ex
  | 3 => exact alu
  | 4 => exact alu
  | 5 => exact alu
  | 6 => exact div _
  | 7 => exact div _
  | 8 => exact alu
  | 9 => exact alu
  | 10 => exact alu
  | 11 => exact alu
  | 12 => exact alu
  | 13 => exact cmp
  | 14 => exact jpr
  | 15 => exact lsm
  | 16 => exact itr
  | 17 => exact cond _
  | 18 => exact cond _
  | 19 => exact if2
  | 20 => exact lsa
  | 21 => exact lea
  | 22 => exact wsa
  | 23 => exact wea
  | 24 => exact srm
  | 25 => exact push
  | 26 => exact pop
  | 27 => exact call
  | 28 => exact hwd
  | 29 => exact cyc
  | 30 => exact halt
  | 31 => exact rst
  | _ + 32 => exact rep_panic


theorem execWord_rep (hi : DevRep G R cache) {s s' : Machine D} {w : Word} (h : execWord pf w s = some s') (hg : AllDev G s'.devs) :
    AllDev G s.devs ∧ ∀ t : Machine E, Alike R cache s t → ∃ t', execWord pf w t = some t' ∧ Alike R cache s' t' := by
  have hr := rep_runInstr (E := E) (R := R) (pf := pf) hi (fieldsOf w)
  have hb := hr.back { s with changedPc := false }
  have hsim := hr.sim { s with changedPc := false }
  unfold execWord at h ⊢
  revert h hb hsim
  cases hx : runInstr pf (fieldsOf w) { s with changedPc := false } with
  | panic => intro h; cases h
  | ex u =>
    intro h hb hsim
    simp only [Option.some.injEq] at h
    subst h
    refine ⟨hb hg, fun t ht => ?_⟩
    have := hsim { t with changedPc := false }
      ⟨ht.regs, ht.hwb, ht.mem, ht.mem', ht.maps, ht.cycles, ht.halted, rfl, ht.placed, ht.devs⟩ hg
    revert this
    cases hy : runInstr pf (fieldsOf w) { t with changedPc := false } <;> intro this
    · exact this.elim
    · exact ⟨_, rfl, this⟩
    · exact this.elim
  | ok a u =>
    intro h hb hsim
    have hd : s'.devs = u.devs := by
      dsimp only at h
      split at h <;> (injection h with h; rw [← h])
    rw [hd] at hg
    refine ⟨hb hg, fun t ht => ?_⟩
    have := hsim { t with changedPc := false }
      ⟨ht.regs, ht.hwb, ht.mem, ht.mem', ht.maps, ht.cycles, ht.halted, rfl, ht.placed, ht.devs⟩ hg
    revert this
    cases hy : runInstr pf (fieldsOf w) { t with changedPc := false } <;> intro this
    · obtain ⟨_, h4⟩ := this
      dsimp only at h ⊢
      rw [← h4.changedPc]
      split at h
      · next hc =>
        injection h with h
        subst h
        rw [if_pos hc]
        exact ⟨_, rfl, h4⟩
      · next hc =>
        injection h with h
        subst h
        rw [if_neg hc]
        exact ⟨_, rfl, ⟨by simp only; rw [h4.regs], h4.hwb, h4.mem, h4.mem', h4.maps, h4.cycles, h4.halted, (by first | exact h4.changedPc | rfl), h4.placed, h4.devs⟩⟩
    · exact this.elim
    · exact this.elim

theorem next_rep (hi : DevRep G R cache) {s s' : Machine D} (h : next pf s = some s') (hg : AllDev G s'.devs) :
    AllDev G s.devs ∧ ∀ t : Machine E, Alike R cache s t → ∃ t', next pf t = some t' ∧ Alike R cache s' t' := by
  unfold next at h ⊢
  by_cases hh : s.halted = true
  · rw [if_pos hh] at h
    injection h with h
    subst h
    exact ⟨hg, fun t ht => ⟨t, if_pos (ht.halted ▸ hh), ht⟩⟩
  · rw [if_neg hh] at h
    have hr := rep_exec (E := E) (R := R) (pf := pf) hi s.regs.pc
    have hb := hr.back { s with cycles := s.cycles + 1 }
    have hsim := hr.sim { s with cycles := s.cycles + 1 }
    dsimp only at h
    have alike : ∀ t : Machine E, Alike R cache s t → Alike R cache { s with cycles := s.cycles + 1 } { t with cycles := t.cycles + 1 } :=
      fun t h => ⟨h.regs, h.hwb, h.mem, h.mem', h.maps, by simp only; rw [h.cycles], h.halted, h.changedPc, h.placed, h.devs⟩
    revert h hb hsim
    cases hx : cpuExec pf s.regs.pc { s with cycles := s.cycles + 1 } with
    | panic => intro h; cases h
    | ex u =>
      intro h hb hsim
      simp only [Option.some.injEq] at h
      subst h
      refine ⟨hb hg, fun t ht => ?_⟩
      have := hsim _ (alike t ht) hg
      rw [if_neg (ht.halted ▸ hh)]
      dsimp only
      rw [show t.regs.pc = s.regs.pc by rw [ht.regs]]
      revert this
      cases hy : cpuExec pf s.regs.pc { t with cycles := t.cycles + 1 } <;> intro this
      · exact this.elim
      · exact ⟨_, rfl, this⟩
      · exact this.elim
    | ok w u =>
      intro h hb hsim
      obtain ⟨h1, h2⟩ := execWord_rep (E := E) (R := R) hi h hg
      refine ⟨hb h1, fun t ht => ?_⟩
      have := hsim _ (alike t ht) h1
      rw [if_neg (ht.halted ▸ hh)]
      dsimp only
      rw [show t.regs.pc = s.regs.pc by rw [ht.regs]]
      revert this
      cases hy : cpuExec pf s.regs.pc { t with cycles := t.cycles + 1 } <;> intro this
      · obtain ⟨rfl, h4⟩ := this
        exact h2 _ h4
      · exact this.elim
      · exact this.elim

/-! ## Host calls -/

theorem resetAll_rep (hi : DevRep G R cache) {ds ds' : List D} (h : resetAll ds = some ds') (hg : AllDev G ds') :
    AllDev G ds ∧ ∀ es : List E, DevsAlike R ds es → ∃ es', resetAll es = some es' ∧ DevsAlike R ds' es' := by
  have key : ∀ (ds : List D) (k : Nat) (ds' : List D), resetAll ds = some ds' → AllDev (fun i => G (i + k)) ds' →
      AllDev (fun i => G (i + k)) ds ∧ ∀ es : List E, DevsAlike (fun i => R (i + k)) ds es →
        ∃ es', resetAll es = some es' ∧ DevsAlike (fun i => R (i + k)) ds' es' := by
    intro ds
    induction ds with
    | nil =>
      intro k ds' h hg
      injection h with h
      subst h
      refine ⟨hg, fun es hes => ?_⟩
      cases es with
      | nil => exact ⟨[], rfl, hes⟩
      | cons e es => exact absurd hes.1 (by simp)
    | cons d ds ih =>
      intro k ds' h hg
      simp only [resetAll, Option.bind_eq_bind, Option.bind_eq_some_iff] at h
      obtain ⟨d', h1, ds1, h2, h3⟩ := h
      injection h3 with h3
      subst h3
      have hg1 : AllDev (fun i => G (i + (k + 1))) ds1 := fun i x hx => by
        have := hg (i + 1) x (by simpa using hx)
        simpa [Nat.add_assoc, Nat.add_comm 1 k] using this
      obtain ⟨g1, g2⟩ := ih (k + 1) ds1 h2 hg1
      have hd' : G k d' := by simpa using hg 0 d' rfl
      refine ⟨fun i x hx => ?_, fun es hes => ?_⟩
      · cases i with
        | zero => simp at hx; subst hx; simpa using hi.backReset h1 hd'
        | succ i =>
          have := g1 i x (by simpa using hx)
          simpa [Nat.add_assoc, Nat.add_comm 1 k] using this
      · cases es with
        | nil => exact absurd hes.1 (by simp)
        | cons e es =>
          have hR : R k d e := by simpa using hes.2 0 d e rfl rfl
          obtain ⟨e', h4, h5⟩ := hi.reset hR h1 hd'
          obtain ⟨es', h6, h7⟩ := g2 es ⟨by have := hes.1; simpa using this, fun i x y hx hy => by
            have := hes.2 (i + 1) x y (by simpa using hx) (by simpa using hy)
            simpa [Nat.add_assoc, Nat.add_comm 1 k] using this⟩
          refine ⟨e' :: es', ?_, by simp [h7.1], fun i x y hx hy => ?_⟩
          · simp only [resetAll, h4, h6, Option.bind_eq_bind, Option.bind_some]
            rfl
          · cases i with
            | zero => simp at hx hy; subst hx; subst hy; simpa using h5
            | succ i =>
              have := h7.2 i x y (by simpa using hx) (by simpa using hy)
              simpa [Nat.add_assoc, Nat.add_comm 1 k] using this
  exact key ds 0 ds' h hg

/-- A host call that leaves the components alone. -/
theorem resAlike_follow {α β : Type} {Q : α → β → Prop} {a : Res α} {b : Res β} {x : α} (h : resAlike Q a b) (ha : a = some x) :
    ∃ y, b = some y ∧ Q x y := by
  subst ha
  cases b with
  | none => exact h.elim
  | some y => exact ⟨y, rfl, h⟩

theorem hostStep_rep (hi : DevRep G R cache) {s s' : Machine D} {op : HostOp} (hp : Placed s.memCache s.mappings) (h : hostStep pf s op = some s')
    (hg : AllDev G s'.devs) :
    AllDev G s.devs ∧ ∀ t : Machine E, Alike R cache s t → ∃ t', hostStep pf t op = some t' ∧ Alike R cache s' t' := by
  cases op with
  | next => exact next_rep hi h hg
  | cpuReset =>
    injection h with h
    subst h
    exact ⟨hg, fun t ht => ⟨_, rfl, ht.cpuReset⟩⟩
  | reset =>
    obtain ⟨ds', h1, h2⟩ := Option.bind_eq_some_iff.mp h
    injection h2 with h2
    subst h2
    obtain ⟨g1, g2⟩ := resetAll_rep (E := E) (R := R) hi h1 hg
    refine ⟨g1, fun t ht => ?_⟩
    obtain ⟨es', g3, g4⟩ := g2 _ ht.cpuReset.devs
    exact ⟨_, Option.bind_eq_some_iff.mpr ⟨es', g3, rfl⟩, ht.cpuReset.withDevs g4⟩
  | map a i =>
    have hd : s'.devs = s.devs := by
      have h := h
      simp only [hostStep, Option.map_eq_some_iff] at h
      obtain ⟨⟨r, v⟩, hm, rfl⟩ := h
      exact (internalMap_placed hp hm).1
    exact ⟨hd ▸ hg, fun t ht => resAlike_follow (resAlike_map (internalMap_alike ht _ _ _) fun _ _ h => h.2) h⟩
  | mapAbs a e i =>
    have hd : s'.devs = s.devs := by
      have h := h
      simp only [hostStep, Option.map_eq_some_iff] at h
      obtain ⟨⟨r, v⟩, hm, rfl⟩ := h
      exact (internalMap_placed hp hm).1
    exact ⟨hd ▸ hg, fun t ht => resAlike_follow (resAlike_map (internalMap_alike ht _ _ _) fun _ _ h => h.2) h⟩
  | mapContiguous a is =>
    have hd : s'.devs = s.devs := by
      have h := h
      simp only [hostStep, Option.map_eq_some_iff, mapContiguous, Option.bind_eq_bind, Option.bind_eq_some_iff] at h
      obtain ⟨⟨r, v⟩, ⟨⟨a1, s1⟩, hl, hm⟩, rfl⟩ := h
      injection hm with hm; injection hm with _ hm; subst hm
      exact (contigLoop_placed hp hl).1
    refine ⟨hd ▸ hg, fun t ht => resAlike_follow ?_ h⟩
    refine resAlike_map (Q := fun x y => Alike R cache x.2 y.2) ?_ fun _ _ h => h
    exact resAlike_bind (contigLoop_alike is _ ht) fun x y h => h.2
  | memRead a ex =>
    obtain ⟨⟨w, ex', s1⟩, h1, h2⟩ := Option.map_eq_some_iff.mp h
    dsimp only at h2
    subst h2
    obtain ⟨g1, g2⟩ := memRead_rep (E := E) (R := R) hi h1 hg
    refine ⟨g1, fun t ht => ?_⟩
    obtain ⟨t', g3, g4⟩ := g2 t ht
    exact ⟨t', Option.map_eq_some_iff.mpr ⟨_, g3, rfl⟩, g4⟩
  | memWrite a w ex =>
    obtain ⟨⟨ex', s1⟩, h1, h2⟩ := Option.map_eq_some_iff.mp h
    dsimp only at h2
    subst h2
    obtain ⟨g1, g2⟩ := memWrite_rep (E := E) (R := R) hi h1 hg
    refine ⟨g1, fun t ht => ?_⟩
    obtain ⟨t', g3, g4⟩ := g2 t ht
    exact ⟨t', Option.map_eq_some_iff.mpr ⟨_, g3, rfl⟩, g4⟩
  | setRegs f =>
    injection h with h
    subst h
    exact ⟨hg, fun t ht => ⟨_, rfl, ht.withRegs f⟩⟩

theorem hostRun_rep (hi : DevRep G R cache) (ops : List HostOp) {s s' : Machine D} (hp : Placed s.memCache s.mappings) (h : hostRun pf ops s = some s')
    (hg : AllDev G s'.devs) :
    AllDev G s.devs ∧ ∀ t : Machine E, Alike R cache s t → ∃ t', hostRun pf ops t = some t' ∧ Alike R cache s' t' := by
  induction ops generalizing s with
  | nil => injection h with h; subst h; exact ⟨hg, fun t ht => ⟨t, rfl, ht⟩⟩
  | cons op ops ih =>
    obtain ⟨s1, h1, h2⟩ := Option.bind_eq_some_iff.mp (show (hostStep pf s op).bind (hostRun pf ops) = some s' from h)
    obtain ⟨e1, e2, _⟩ := hostStep_devInv (P := fun _ _ => True) ⟨fun _ _ _ => trivial, fun _ _ _ => trivial, fun _ _ => trivial⟩ hp
      (fun _ _ _ => trivial) h1
    obtain ⟨g1, g2⟩ := ih (by rw [e1]; exact e2) h2
    obtain ⟨g3, g4⟩ := hostStep_rep (E := E) (R := R) hi hp h1 g1
    refine ⟨g3, fun t ht => ?_⟩
    obtain ⟨t1, g5, g6⟩ := g4 t ht
    obtain ⟨t2, g7, g8⟩ := g2 t1 g6
    exact ⟨t2, Option.bind_eq_some_iff.mpr ⟨t1, g5, g7⟩, g8⟩

end Lrvm
