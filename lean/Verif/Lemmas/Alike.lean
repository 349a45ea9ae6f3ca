import Verif.Lemmas.Devices

/-!
# Boards whose components answer alike

Two machines that differ only in their components, when those answer every in-range request alike, stay so.
-/

namespace Lrvm

variable {D E : Type} [Bus D] [Bus E] {pf : Profile}

/-- Both panic, or both end with related results. -/
def resAlike (Q : α → β → Prop) : Res α → Res β → Prop
  | none, none => True
  | some a, some b => Q a b
  | _, _ => False

theorem resAlike_bind {α α' β β' : Type} {Q : α → β → Prop} {Q' : α' → β' → Prop} {a : Res α} {b : Res β}
    {f : α → Res α'} {g : β → Res β'} (h : resAlike Q a b) (hf : ∀ x y, Q x y → resAlike Q' (f x) (g y)) :
    resAlike Q' (a >>= f) (b >>= g) := by
  cases a <;> cases b
  · trivial
  · exact h.elim
  · exact h.elim
  · exact hf _ _ h

theorem resAlike_same {α β γ : Type} {Q : β → γ → Prop} (a : Res α) {f : α → Res β} {g : α → Res γ}
    (hf : ∀ x, resAlike Q (f x) (g x)) : resAlike Q (a >>= f) (a >>= g) := by
  cases a
  · trivial
  · exact hf _

/-- Components related by `R` answer in-range requests alike and stay related. -/
structure DevAlike (R : Nat → D → E → Prop) (cache : List AuxCache) : Prop where
  read : ∀ {id d e a ex}, R id d e → InRange cache id a →
    resAlike (fun x y => R id x.1 y.1 ∧ x.2 = y.2) (Bus.read d a ex) (Bus.read e a ex)
  write : ∀ {id d e a w ex}, R id d e → InRange cache id a →
    resAlike (fun x y => R id x.1 y.1 ∧ x.2 = y.2) (Bus.write d a w ex) (Bus.write e a w ex)
  reset : ∀ {id d e}, R id d e → resAlike (R id) (Bus.reset d) (Bus.reset e)

/-- The components are related one by one. -/
def DevsAlike (R : Nat → D → E → Prop) (ds : List D) (es : List E) : Prop :=
  ds.length = es.length ∧ ∀ i d e, ds[i]? = some d → es[i]? = some e → R i d e

/-- The machines differ only by their components, which are related. -/
structure Alike (R : Nat → D → E → Prop) (cache : List AuxCache) (s : Machine D) (t : Machine E) : Prop where
  regs : s.regs = t.regs
  hwb : s.hwbCache = t.hwbCache
  mem : s.memCache = cache
  mem' : t.memCache = cache
  maps : s.mappings = t.mappings
  cycles : s.cycles = t.cycles
  halted : s.halted = t.halted
  changedPc : s.changedPc = t.changedPc
  placed : Placed cache s.mappings
  devs : DevsAlike R s.devs t.devs

variable {R : Nat → D → E → Prop} {cache : List AuxCache}

omit [Bus D] [Bus E] in
theorem DevsAlike.get {ds : List D} {es : List E} (h : DevsAlike R ds es) (i : Nat) :
    (ds[i]? = none ∧ es[i]? = none) ∨ ∃ d e, ds[i]? = some d ∧ es[i]? = some e ∧ R i d e := by
  by_cases hi : i < ds.length
  · have hj : i < es.length := h.1 ▸ hi
    exact .inr ⟨ds[i], es[i], List.getElem?_eq_getElem hi, List.getElem?_eq_getElem hj,
      h.2 i _ _ (List.getElem?_eq_getElem hi) (List.getElem?_eq_getElem hj)⟩
  · have hj : ¬ i < es.length := h.1 ▸ hi
    exact .inl ⟨List.getElem?_eq_none (by omega), List.getElem?_eq_none (by omega)⟩

omit [Bus D] [Bus E] in
theorem DevsAlike.set {ds : List D} {es : List E} (h : DevsAlike R ds es) {i : Nat} {d : D} {e : E} (hr : R i d e) :
    DevsAlike R (ds.set i d) (es.set i e) := by
  refine ⟨by simp [h.1], ?_⟩
  intro j x y hx hy
  rw [List.getElem?_set] at hx hy
  by_cases hij : i = j
  · rw [if_pos hij] at hx hy
    split at hx
    · split at hy
      · injection hx with hx; injection hy with hy; rw [← hx, ← hy, ← hij]; exact hr
      · cases hy
    · cases hx
  · rw [if_neg hij] at hx hy
    exact h.2 j x y hx hy

/-! ## Memory -/

theorem bridgeRead_alike (hi : DevAlike R cache) {ds : List D} {es : List E} (h : DevsAlike R ds es) {id : Nat} {a : Word}
    (ha : assert (a % 4 == 0) = some () → InRange cache id a) (ex : U16) :
    resAlike (fun x y => (x = none ∧ y = none) ∨ ∃ w ex' ds' es', x = some (w, ex', ds') ∧ y = some (w, ex', es') ∧
      DevsAlike R ds' es') (bridgeRead ds id a ex) (bridgeRead es id a ex) := by
  unfold bridgeRead
  cases h4 : assert (a % 4 == 0) with
  | none => trivial
  | some u =>
    simp only [Option.bind_eq_bind, Option.bind_some]
    rcases h.get id with ⟨h1, h2⟩ | ⟨d, e, h1, h2, hr⟩
    · rw [h1, h2]; exact .inl ⟨rfl, rfl⟩
    · rw [h1, h2]
      refine resAlike_bind (hi.read (ex := ex) hr (ha h4)) ?_
      rintro ⟨d', w, ex'⟩ ⟨e', w', ex''⟩ ⟨hr', he⟩
      cases he
      exact .inr ⟨w, ex', _, _, rfl, rfl, h.set hr'⟩

theorem bridgeWrite_alike (hi : DevAlike R cache) {ds : List D} {es : List E} (h : DevsAlike R ds es) {id : Nat} {a : Word}
    (ha : assert (a % 4 == 0) = some () → InRange cache id a) (w : Word) (ex : U16) :
    resAlike (fun x y => (x = none ∧ y = none) ∨ ∃ ex' ds' es', x = some (ex', ds') ∧ y = some (ex', es') ∧
      DevsAlike R ds' es') (bridgeWrite ds id a w ex) (bridgeWrite es id a w ex) := by
  unfold bridgeWrite
  cases h4 : assert (a % 4 == 0) with
  | none => trivial
  | some u =>
    simp only [Option.bind_eq_bind, Option.bind_some]
    rcases h.get id with ⟨h1, h2⟩ | ⟨d, e, h1, h2, hr⟩
    · rw [h1, h2]; exact .inl ⟨rfl, rfl⟩
    · rw [h1, h2]
      refine resAlike_bind (hi.write (w := w) (ex := ex) hr (ha h4)) ?_
      rintro ⟨d', ex'⟩ ⟨e', ex''⟩ ⟨hr', he⟩
      cases he
      exact .inr ⟨ex', _, _, rfl, rfl, h.set hr'⟩

theorem bridgeReset_alike (hi : DevAlike R cache) {ds : List D} {es : List E} (h : DevsAlike R ds es) (id : Nat) :
    resAlike (fun x y => (x = none ∧ y = none) ∨ ∃ ds' es', x = some ds' ∧ y = some es' ∧ DevsAlike R ds' es')
      (bridgeReset ds id) (bridgeReset es id) := by
  unfold bridgeReset
  rcases h.get id with ⟨h1, h2⟩ | ⟨d, e, h1, h2, hr⟩
  · rw [h1, h2]; exact .inl ⟨rfl, rfl⟩
  · rw [h1, h2]
    refine resAlike_bind (hi.reset hr) ?_
    intro d' e' hr'
    exact .inr ⟨_, _, rfl, rfl, h.set hr'⟩

theorem memRead_alike (hi : DevAlike R cache) {s : Machine D} {t : Machine E} (h : Alike R cache s t) (a : Word) (ex : U16) :
    resAlike (fun x y => x.1 = y.1 ∧ x.2.1 = y.2.1 ∧ Alike R cache x.2.2 y.2.2) (memRead pf s a ex) (memRead pf t a ex) := by
  unfold memRead
  refine resAlike_same _ fun _ => ?_
  rw [← h.maps]
  cases hf : findMapping pf s.mappings a with
  | none => trivial
  | some m? =>
    cases m? with
    | none => exact ⟨rfl, rfl, h⟩
    | some m =>
      simp only [Option.bind_eq_bind, Option.bind_some]
      cases ho : pf.sub a m.addr with
      | none => trivial
      | some off =>
        simp only [Option.bind_some]
        refine resAlike_bind (bridgeRead_alike hi h.devs (fun h4 => inRange_of_find h.placed h4 hf ho) ex) ?_
        rintro x y (⟨rfl, rfl⟩ | ⟨w, ex', ds', es', rfl, rfl, hd⟩)
        · trivial
        · exact ⟨rfl, rfl, ⟨h.regs, h.hwb, h.mem, h.mem', rfl, h.cycles, h.halted, h.changedPc, h.placed, hd⟩⟩

theorem memWrite_alike (hi : DevAlike R cache) {s : Machine D} {t : Machine E} (h : Alike R cache s t) (a w : Word) (ex : U16) :
    resAlike (fun x y => x.1 = y.1 ∧ Alike R cache x.2 y.2) (memWrite pf s a w ex) (memWrite pf t a w ex) := by
  unfold memWrite
  refine resAlike_same _ fun _ => ?_
  rw [← h.maps]
  cases hf : findMapping pf s.mappings a with
  | none => trivial
  | some m? =>
    cases m? with
    | none => exact ⟨rfl, h⟩
    | some m =>
      simp only [Option.bind_eq_bind, Option.bind_some]
      cases ho : pf.sub a m.addr with
      | none => trivial
      | some off =>
        simp only [Option.bind_some]
        refine resAlike_bind (bridgeWrite_alike hi h.devs (fun h4 => inRange_of_find h.placed h4 hf ho) w ex) ?_
        rintro x y (⟨rfl, rfl⟩ | ⟨ex', ds', es', rfl, rfl, hd⟩)
        · trivial
        · exact ⟨rfl, ⟨h.regs, h.hwb, h.mem, h.mem', rfl, h.cycles, h.halted, h.changedPc, h.placed, hd⟩⟩

theorem decodeEntry_alike (hi : DevAlike R cache) {s : Machine D} {t : Machine E} (h : Alike R cache s t) (a : Word)
    (act : MemAction) :
    resAlike (fun x y => x.1 = y.1 ∧ Alike R cache x.2 y.2) (decodeEntry pf s a act) (decodeEntry pf t a act) := by
  unfold decodeEntry
  refine resAlike_bind (memRead_alike hi h a 0) ?_
  rintro ⟨w, ex, s'⟩ ⟨w', ex', t'⟩ ⟨h1, h2, h3⟩
  cases h1; cases h2
  dsimp only
  rw [← h.regs]
  split
  · exact ⟨rfl, h3⟩
  · exact ⟨rfl, h3⟩

theorem translate_alike (hi : DevAlike R cache) {s : Machine D} {t : Machine E} (h : Alike R cache s t) (a : Word)
    (act : MemAction) :
    resAlike (fun x y => x.1 = y.1 ∧ Alike R cache x.2 y.2) (translate pf s a act) (translate pf t a act) := by
  unfold translate
  rw [← h.regs]
  split
  · exact ⟨rfl, h⟩
  · refine resAlike_same _ fun _ => resAlike_same _ fun _ => ?_
    refine resAlike_bind (decodeEntry_alike hi h _ act) ?_
    rintro ⟨r, s1⟩ ⟨r', t1⟩ ⟨h1, h2⟩
    cases h1
    cases r with
    | passThrough => exact ⟨rfl, h2⟩
    | permissionNotSet => exact ⟨rfl, h2⟩
    | hwException ex => exact ⟨rfl, h2⟩
    | decoded v =>
      refine resAlike_same _ fun _ => resAlike_same _ fun _ => resAlike_same _ fun _ => ?_
      refine resAlike_bind (decodeEntry_alike hi h2 _ act) ?_
      rintro ⟨r, s2⟩ ⟨r', t2⟩ ⟨h1, h3⟩
      cases h1
      cases r with
      | passThrough => exact ⟨rfl, h3⟩
      | permissionNotSet => exact ⟨rfl, h3⟩
      | hwException ex => exact ⟨rfl, h3⟩
      | decoded v => exact resAlike_same _ fun _ => resAlike_same _ fun _ => ⟨rfl, h3⟩

/-! ## CPU actions -/

/-- Outcomes alike. -/
def outAlike (R : Nat → D → E → Prop) (cache : List AuxCache) : Out (Machine D) α → Out (Machine E) α → Prop
  | .ok a s, .ok b t => a = b ∧ Alike R cache s t
  | .ex s, .ex t => Alike R cache s t
  | .panic, .panic => True
  | _, _ => False

/-- The two actions keep the machines alike. -/
def ActAlike (R : Nat → D → E → Prop) (cache : List AuxCache) (m : M D α) (n : M E α) : Prop :=
  ∀ s t, Alike R cache s t → outAlike R cache (m s) (n t)

section
omit [Bus D] [Bus E]

theorem act_pure (a : α) : ActAlike R cache (pure a : M D α) (pure a : M E α) := fun _ _ h => ⟨rfl, h⟩

theorem act_bind {m : M D α} {n : M E α} {f : α → M D β} {g : α → M E β} (h : ActAlike R cache m n)
    (hf : ∀ a, ActAlike R cache (f a) (g a)) : ActAlike R cache (m >>= f) (n >>= g) := by
  intro s t hst
  show outAlike R cache (M.bind m f s) (M.bind n g t)
  unfold M.bind
  have := h s t hst
  revert this
  cases m s <;> cases n t <;> intro h
  · obtain ⟨rfl, h⟩ := h; exact hf _ _ _ h
  · exact h.elim
  · exact h.elim
  · exact h.elim
  · exact h
  · exact h.elim
  · exact h.elim
  · exact h.elim
  · trivial

theorem act_getM {f : Machine D → M D β} {g : Machine E → M E β}
    (hf : ∀ s t, Alike R cache s t → ActAlike R cache (f s) (g t)) : ActAlike R cache (getM >>= f) (getM >>= g) :=
  fun s t h => hf s t h s t h

theorem act_getsM {f : Machine D → α} {g : Machine E → α} (hf : ∀ s t, Alike R cache s t → f s = g t) :
    ActAlike R cache (getsM f) (getsM g) := fun s t h => ⟨hf s t h, h⟩

theorem act_modify {f : Machine D → Machine D} {g : Machine E → Machine E}
    (hf : ∀ s t, Alike R cache s t → Alike R cache (f s) (g t)) : ActAlike R cache (modifyM f) (modifyM g) :=
  fun s t h => ⟨rfl, hf s t h⟩

theorem act_lift (r : Res α) : ActAlike R cache (liftRes r : M D α) (liftRes r : M E α) := by
  intro s t h
  cases r
  · trivial
  · exact ⟨rfl, h⟩

theorem Alike.withRegs {s : Machine D} {t : Machine E} (h : Alike R cache s t) (f : Regs → Regs) :
    Alike R cache { s with regs := f s.regs } { t with regs := f t.regs } :=
  ⟨by rw [h.regs], h.hwb, h.mem, h.mem', h.maps, h.cycles, h.halted, h.changedPc, h.placed, h.devs⟩

theorem act_regs (f : Regs → Regs) : ActAlike R cache (modRegs f : M D Unit) (modRegs f : M E Unit) :=
  act_modify fun _ _ h => h.withRegs f

theorem Alike.exception {s : Machine D} {t : Machine E} (h : Alike R cache s t) (c : U8) (d : U16) :
    Alike R cache (s.exception c d) (t.exception c d) :=
  ⟨by unfold Machine.exception Machine.svMode; simp only; rw [h.regs], h.hwb, h.mem, h.mem', h.maps, h.cycles, h.halted, rfl, h.placed, h.devs⟩

theorem act_raise (c : U8) (d : U16) : ActAlike R cache (raise c d : M D α) (raise c d : M E α) :=
  fun _ _ h => h.exception c d

theorem Alike.sv {s : Machine D} {t : Machine E} (h : Alike R cache s t) : s.svMode = t.svMode := by
  unfold Machine.svMode; rw [h.regs]

theorem act_readReg (c : U8) : ActAlike R cache (readReg c : M D Word) (readReg c : M E Word) := by
  intro s t h
  unfold readReg
  rw [← h.sv]
  split
  · exact h.exception _ _
  · rw [← h.regs]
    cases s.regs.read c with
    | none => exact h.exception _ _
    | some w => exact ⟨rfl, h⟩

theorem act_writeReg (c : U8) (w : Word) : ActAlike R cache (writeReg c w : M D Unit) (writeReg c w : M E Unit) := by
  intro s t h
  unfold writeReg
  rw [← h.sv]
  split
  · exact h.exception _ _
  split
  · exact h.exception _ _
  have h1 : Alike R cache (if c = 0x16#8 then { s with changedPc := true } else s)
      (if c = 0x16#8 then { t with changedPc := true } else t) := by
    split
    · exact ⟨h.regs, h.hwb, h.mem, h.mem', h.maps, h.cycles, h.halted, rfl, h.placed, h.devs⟩
    · exact h
  dsimp only
  rw [← h1.regs]
  split
  · exact ⟨rfl, ⟨rfl, h1.hwb, h1.mem, h1.mem', h1.maps, h1.cycles, h1.halted, h1.changedPc, h1.placed, h1.devs⟩⟩
  · exact h1.exception _ _

theorem act_compute (a b : Word) (op : Op) : ActAlike R cache (compute a b op : M D Word) (compute a b op : M E Word) := by
  unfold compute
  split
  · exact act_raise _ _
  · exact act_bind (act_regs _) fun _ => act_pure _

theorem act_aligned (a : Word) : ActAlike R cache (ensureAligned a : M D Word) (ensureAligned a : M E Word) := by
  unfold ensureAligned
  split
  · exact act_raise _ _
  · exact act_pure _

theorem act_lit1 (r : Bool) (p : U8) : ActAlike R cache (regOrLit1 r p : M D Word) (regOrLit1 r p : M E Word) := by
  unfold regOrLit1
  split
  · exact act_readReg _
  · exact act_pure _

theorem act_lit2 (r : Bool) (p q : U8) : ActAlike R cache (regOrLit2 r p q : M D Word) (regOrLit2 r p q : M E Word) := by
  unfold regOrLit2
  split
  · exact act_readReg _
  · exact act_pure _

theorem act_hwInfo (i : Word) (id : Nat) : ActAlike R cache (getHwInfo pf i id : M D Word) (getHwInfo pf i id : M E Word) := by
  intro s t h
  have hm : t.getMapping id = s.getMapping id := by unfold Machine.getMapping; rw [h.maps]
  unfold getHwInfo
  rw [← h.hwb, hm]
  split
  · exact h.exception _ _
  · dsimp only
    split
    all_goals first
      | exact ⟨rfl, h⟩
      | skip
    · split
      · exact h.exception _ _
      · exact ⟨rfl, h⟩
    · split
      · exact h.exception _ _
      · exact act_lift _ _ _ h
    · split
      · exact ⟨rfl, h⟩
      · exact h.exception _ _

end

theorem act_memDo {act : MemAction} {v : Word} (hi : DevAlike R cache)
    {f : Machine D → Word → U16 → Res (α × U16 × Machine D)} {g : Machine E → Word → U16 → Res (α × U16 × Machine E)}
    (hf : ∀ s t p ex, Alike R cache s t → resAlike (fun x y => x.1 = y.1 ∧ x.2.1 = y.2.1 ∧ Alike R cache x.2.2 y.2.2)
      (f s p ex) (g t p ex)) :
    ActAlike R cache (memDo pf act v f) (memDo pf act v g) := by
  refine act_bind (act_aligned v) fun v => ?_
  have key : ∀ (x : Res (Except (Option U16) Word × Machine D)) (y : Res (Except (Option U16) Word × Machine E)),
      resAlike (fun x y => x.1 = y.1 ∧ Alike R cache x.2 y.2) x y →
      outAlike R cache (match x with
        | none => (.panic : Out (Machine D) α)
        | some (.ok pAddr, s1) =>
          match f s1 pAddr 0 with
          | none => .panic
          | some (ret, ex, s2) => if ex ≠ 0 then raise 0xA0 ex s2 else .ok ret s2
        | some (.error none, s1) => raise 0x06 (v.setWidth 16) s1
        | some (.error (some ex), s1) => raise 0xA0 ex s1)
       (match y with
        | none => (.panic : Out (Machine E) α)
        | some (.ok pAddr, s1) =>
          match g s1 pAddr 0 with
          | none => .panic
          | some (ret, ex, s2) => if ex ≠ 0 then raise 0xA0 ex s2 else .ok ret s2
        | some (.error none, s1) => raise 0x06 (v.setWidth 16) s1
        | some (.error (some ex), s1) => raise 0xA0 ex s1) := by
    intro x y h1
    cases x <;> cases y
    · trivial
    · exact h1.elim
    · exact h1.elim
    next x y =>
    obtain ⟨x, s1⟩ := x
    obtain ⟨y, t1⟩ := y
    obtain ⟨h1, h2⟩ := h1
    cases h1
    cases x with
    | error o =>
      cases o with
      | none => exact Alike.exception h2 _ _
      | some ex => exact Alike.exception h2 _ _
    | ok p =>
      have key : ∀ (x : Res (α × U16 × Machine D)) (y : Res (α × U16 × Machine E)),
          resAlike (fun x y => x.1 = y.1 ∧ x.2.1 = y.2.1 ∧ Alike R cache x.2.2 y.2.2) x y →
          outAlike R cache (match x with
            | none => (.panic : Out (Machine D) α)
            | some (ret, ex, s2) => if ex ≠ 0 then raise 0xA0 ex s2 else .ok ret s2)
           (match y with
            | none => (.panic : Out (Machine E) α)
            | some (ret, ex, s2) => if ex ≠ 0 then raise 0xA0 ex s2 else .ok ret s2) := by
        intro x y h3
        cases x <;> cases y
        · trivial
        · exact h3.elim
        · exact h3.elim
        next x y =>
        obtain ⟨x, e, s2⟩ := x
        obtain ⟨y, e', t2⟩ := y
        obtain ⟨h4, h5, h6⟩ := h3
        cases h4; cases h5
        show outAlike R cache (if e ≠ 0 then Out.ex (s2.exception 0xA0 e) else Out.ok x s2)
          (if e ≠ 0 then Out.ex (t2.exception 0xA0 e) else Out.ok x t2)
        split
        · exact Alike.exception h6 _ _
        · exact ⟨rfl, h6⟩
      exact key _ _ (hf s1 t1 p 0 h2)
  exact fun s t h => key _ _ (translate_alike hi h v act)

theorem act_read (hi : DevAlike R cache) (v : Word) : ActAlike R cache (cpuRead pf v : M D Word) (cpuRead pf v : M E Word) :=
  act_memDo hi fun _ _ _ _ h => memRead_alike hi h _ _

theorem act_exec (hi : DevAlike R cache) (v : Word) : ActAlike R cache (cpuExec pf v : M D Word) (cpuExec pf v : M E Word) :=
  act_memDo hi fun _ _ _ _ h => memRead_alike hi h _ _

theorem act_write (hi : DevAlike R cache) (v w : Word) :
    ActAlike R cache (cpuWrite pf v w : M D Unit) (cpuWrite pf v w : M E Unit) := by
  refine act_memDo hi fun s t p ex h => ?_
  have := memWrite_alike (pf := pf) hi h p w ex
  revert this
  cases memWrite pf s p w ex <;> cases memWrite pf t p w ex <;> intro h
  · trivial
  · exact h.elim
  · exact h.elim
  · exact ⟨rfl, h.1, h.2⟩

theorem act_setSp (v : Word) : ActAlike R cache (setSp v : M D Unit) (setSp v : M E Unit) :=
  act_modify fun s t h => by
    rw [← h.sv]
    split
    · exact h.withRegs fun r => { r with ssp := v }
    · exact h.withRegs fun r => { r with usp := v }

theorem resetLoop_alike (hi : DevAlike R cache) (test : Nat → Bool) (n : Nat) : ∀ (id : Nat) {ds : List D} {es : List E},
    DevsAlike R ds es → resAlike (DevsAlike R) (resetLoop test id n ds) (resetLoop test id n es) := by
  induction n with
  | zero => intro id ds es h; exact h
  | succ n ih =>
    intro id ds es h
    unfold resetLoop
    split
    · have := bridgeReset_alike hi h id
      revert this
      cases bridgeReset ds id <;> cases bridgeReset es id <;> intro h
      · trivial
      · exact h.elim
      · exact h.elim
      · rcases h with ⟨rfl, rfl⟩ | ⟨ds', es', rfl, rfl, h⟩
        · trivial
        · exact ih _ h
    · exact ih _ h

theorem Alike.withDevs {s : Machine D} {t : Machine E} (h : Alike R cache s t) {ds : List D} {es : List E}
    (hd : DevsAlike R ds es) : Alike R cache { s with devs := ds } { t with devs := es } :=
  ⟨h.regs, h.hwb, h.mem, h.mem', h.maps, h.cycles, h.halted, h.changedPc, h.placed, hd⟩

theorem act_liftDevs {a : Res (List D)} {b : Res (List E)} (h : resAlike (DevsAlike R) a b) :
    ActAlike R cache (liftRes a >>= fun devs => modifyM fun s => { s with devs := devs } : M D Unit)
      (liftRes b >>= fun devs => modifyM fun s => { s with devs := devs } : M E Unit) := by
  intro s t hst
  cases a <;> cases b
  · trivial
  · exact h.elim
  · exact h.elim
  · exact ⟨rfl, hst.withDevs h⟩

theorem act_resetDevs (hi : DevAlike R cache) (n : Nat) :
    ActAlike R cache (resetDevs n : M D Unit) (resetDevs n : M E Unit) := by
  unfold resetDevs
  refine act_getM fun s t h => ?_
  rw [← h.devs.1, ← h.regs]
  split
  · exact act_liftDevs (resetLoop_alike hi _ _ _ h.devs)
  · have := bridgeReset_alike hi h.devs s.regs.avr.toNat
    revert this
    cases bridgeReset s.devs s.regs.avr.toNat <;> cases bridgeReset t.devs s.regs.avr.toNat <;> intro h
    · exact fun _ _ _ => trivial
    · exact h.elim
    · exact h.elim
    · intro s' t' hst
      rcases h with ⟨rfl, rfl⟩ | ⟨ds', es', rfl, rfl, h⟩
      · exact hst.exception _ _
      · exact ⟨rfl, hst.withDevs h⟩
  · exact act_liftDevs (resetLoop_alike hi _ _ _ h.devs)
  · exact act_liftDevs (resetLoop_alike hi _ _ _ h.devs)
  · exact act_liftDevs (resetLoop_alike hi _ _ _ h.devs)
  · exact act_pure _

omit [Bus D] [Bus E] in
theorem Alike.cpuReset {s : Machine D} {t : Machine E} (h : Alike R cache s t) : Alike R cache s.cpuReset t.cpuReset :=
  ⟨by unfold Machine.cpuReset; simp only; rw [h.regs], h.hwb, h.mem, h.mem', h.maps, rfl, rfl, rfl, h.placed, h.devs⟩

theorem act_runInstr (hi : DevAlike R cache) (f : Fields) :
    ActAlike R cache (runInstr pf f : M D Unit) (runInstr pf f : M E Unit) := by
  have alu : ActAlike R cache (execAlu f : M D Unit) (execAlu f : M E Unit) :=
    act_bind (act_lit2 _ _ _) fun _ => act_bind (act_readReg _) fun _ => act_bind (act_compute _ _ _) fun _ => act_writeReg _ _
  have div : ∀ mk, ActAlike R cache (execDiv mk f : M D Unit) (execDiv mk f : M E Unit) := fun mk =>
    act_bind (act_lit1 _ _) fun _ => act_bind (act_lit1 _ _) fun _ => act_bind (act_readReg _) fun _ =>
      act_bind (act_compute _ _ _) fun _ => act_writeReg _ _
  have cond : ∀ b, ActAlike R cache (execIf b f : M D Unit) (execIf b f : M E Unit) := fun b => by
    refine act_bind (act_lit1 _ _) fun flag => ?_
    split
    · exact act_raise _ _
    · refine act_getM fun s t h => ?_
      rw [← h.regs]
      dsimp only
      split
      · exact act_regs _
      · exact act_pure _
  have cpy : ActAlike R cache (execCpy f : M D Unit) (execCpy f : M E Unit) :=
    act_bind (act_lit2 _ _ _) fun _ => act_writeReg _ _
  have ex : ActAlike R cache (execEx f : M D Unit) (execEx f : M E Unit) :=
    act_bind (act_readReg _) fun _ => act_bind (act_readReg _) fun _ => act_bind (act_writeReg _ _) fun _ => act_writeReg _ _
  have cmp : ActAlike R cache (execCmp f : M D Unit) (execCmp f : M E Unit) :=
    act_bind (act_lit2 _ _ _) fun _ => act_bind (act_readReg _) fun _ => act_bind (act_compute _ _ _) fun _ => act_pure _
  have jpr : ActAlike R cache (execJpr f : M D Unit) (execJpr f : M E Unit) :=
    act_bind (act_lit2 _ _ _) fun v => act_modify fun s t h =>
      ⟨by simp only; rw [h.regs], h.hwb, h.mem, h.mem', h.maps, h.cycles, h.halted, rfl, h.placed, h.devs⟩
  have lsm : ActAlike R cache (execLsm f : M D Unit) (execLsm f : M E Unit) := by
    refine act_bind (act_getsM fun s t h => h.sv) fun sv => ?_
    split
    · exact act_bind (act_lit2 _ _ _) fun _ => act_bind (act_regs _) fun _ => act_regs _
    · exact act_raise _ _
  have itr : ActAlike R cache (execItr f : M D Unit) (execItr f : M E Unit) :=
    act_bind (act_lit1 _ _) fun _ => act_modify fun s t h => h.exception _ _
  have if2 : ActAlike R cache (execIf2 pf f : M D Unit) (execIf2 pf f : M E Unit) := by
    refine act_bind (act_lit1 _ _) fun _ => act_bind (act_lit1 _ _) fun _ => act_bind (act_lit1 _ _) fun _ => ?_
    refine act_getM fun s t h => ?_
    rw [← h.regs]
    refine act_bind (act_lift _) fun _ => act_bind (act_lift _) fun _ => ?_
    split
    · exact act_raise _ _
    · split
      · exact act_regs _
      · exact act_pure _
  have lsa : ActAlike R cache (execLsa pf f : M D Unit) (execLsa pf f : M E Unit) :=
    act_bind (act_lit1 _ _) fun _ => act_bind (act_lit1 _ _) fun _ => act_bind (act_read hi _) fun _ => act_writeReg _ _
  have lea : ActAlike R cache (execLea pf f : M D Unit) (execLea pf f : M E Unit) :=
    act_bind (act_lit1 _ _) fun _ => act_bind (act_lit1 _ _) fun _ => act_bind (act_lit1 _ _) fun _ =>
      act_bind (act_read hi _) fun _ => act_regs _
  have wsa : ActAlike R cache (execWsa pf f : M D Unit) (execWsa pf f : M E Unit) :=
    act_bind (act_lit1 _ _) fun _ => act_bind (act_lit1 _ _) fun _ => act_bind (act_lit1 _ _) fun _ => act_write hi _ _
  have wea : ActAlike R cache (execWea pf f : M D Unit) (execWea pf f : M E Unit) :=
    act_bind (act_lit1 _ _) fun _ => act_bind (act_lit1 _ _) fun _ => act_bind (act_lit1 _ _) fun _ =>
      act_bind (act_getsM fun s t h => by rw [h.regs]) fun _ => act_write hi _ _
  have srm : ActAlike R cache (execSrm pf f : M D Unit) (execSrm pf f : M E Unit) :=
    act_bind (act_lit1 _ _) fun _ => act_bind (act_lit1 _ _) fun _ => act_bind (act_lift _) fun _ =>
      act_bind (act_read hi _) fun _ => act_bind (act_readReg _) fun _ => act_bind (act_lift _) fun _ =>
      act_bind (act_write hi _ _) fun _ => act_writeReg _ _
  have getSp : ActAlike R cache (getsM (·.sp) : M D Word) (getsM (·.sp) : M E Word) :=
    act_getsM fun s t h => by unfold Machine.sp; rw [h.sv, h.regs]
  have push : ActAlike R cache (execPush pf f : M D Unit) (execPush pf f : M E Unit) :=
    act_bind (act_lit2 _ _ _) fun _ => act_bind getSp fun _ => act_bind (act_write hi _ _) fun _ => act_setSp _
  have pop : ActAlike R cache (execPop pf f : M D Unit) (execPop pf f : M E Unit) := by
    refine act_bind (act_getsM fun s t h => h.sv) fun sv => ?_
    refine act_bind ?_ fun _ => act_writeReg _ _
    split
    · exact act_bind (act_getsM fun s t h => by rw [h.regs]) fun _ => act_bind (act_read hi _) fun _ =>
        act_bind (act_regs _) fun _ => act_pure _
    · exact act_bind (act_getsM fun s t h => by rw [h.regs]) fun _ => act_bind (act_read hi _) fun _ =>
        act_bind (act_regs _) fun _ => act_pure _
  have call : ActAlike R cache (execCall pf f : M D Unit) (execCall pf f : M E Unit) :=
    act_bind (act_lit2 _ _ _) fun _ => act_bind getSp fun _ => act_bind (act_getsM fun s t h => by rw [h.regs]) fun _ =>
      act_bind (act_lift _) fun _ => act_bind (act_write hi _ _) fun _ => act_bind (act_setSp _) fun _ =>
      act_modify fun s t h =>
        ⟨by simp only; rw [h.regs], h.hwb, h.mem, h.mem', h.maps, h.cycles, h.halted, rfl, h.placed, h.devs⟩
  have hwd : ActAlike R cache (execHwd pf f : M D Unit) (execHwd pf f : M E Unit) := by
    refine act_bind (act_lit1 _ _) fun _ => act_bind (act_lit1 _ _) fun _ => ?_
    split
    · exact act_bind (act_getsM fun s t h => h.devs.1) fun _ => act_writeReg _ _
    · exact act_bind (act_hwInfo _ _) fun _ => act_writeReg _ _
  have cyc : ActAlike R cache (execCycles f : M D Unit) (execCycles f : M E Unit) :=
    act_bind (act_getsM fun s t h => h.cycles) fun _ => act_writeReg _ _
  have halt : ActAlike R cache (execHalt : M D Unit) (execHalt : M E Unit) :=
    act_modify fun s t h => ⟨h.regs, h.hwb, h.mem, h.mem', h.maps, h.cycles, rfl, h.changedPc, h.placed, h.devs⟩
  have rst : ActAlike R cache (execReset f : M D Unit) (execReset f : M E Unit) := by
    refine act_bind (act_lit1 _ _) fun _ => act_bind (act_resetDevs hi _) fun _ => ?_
    split
    · exact act_modify fun s t h => h.cpuReset
    · exact act_pure _
  unfold runInstr
  generalize f.opcode.toNat = n
  match n with
  | 0 => exact act_raise _ _
  | 1 => exact cpy
  | 2 => exact ex
  | 3 => exact alu
  | 4 => exact alu
  | 5 => exact alu
  | 6 => exact div _
  | 7 => exact div _
  | 8 => exact alu
  | 9 => exact alu
  | 10 => exact alu
  | 11 => exact alu
  | 12 => exact alu
  | 13 => exact cmp
  | 14 => exact jpr
  | 15 => exact lsm
  | 16 => exact itr
  | 17 => exact cond _
  | 18 => exact cond _
  | 19 => exact if2
  | 20 => exact lsa
  | 21 => exact lea
  | 22 => exact wsa
  | 23 => exact wea
  | 24 => exact srm
  | 25 => exact push
  | 26 => exact pop
  | 27 => exact call
  | 28 => exact hwd
  | 29 => exact cyc
  | 30 => exact halt
  | 31 => exact rst
  | _ + 32 => exact fun _ _ _ => trivial

theorem execWord_alike (hi : DevAlike R cache) {s : Machine D} {t : Machine E} (h : Alike R cache s t) (w : Word) :
    resAlike (Alike R cache) (execWord pf w s) (execWord pf w t) := by
  have key : ∀ (x : Out (Machine D) Unit) (y : Out (Machine E) Unit), outAlike R cache x y →
      resAlike (Alike R cache)
        (match x with
          | .panic => none
          | .ex s => some s
          | .ok () s => if s.changedPc then some s else some { s with regs := { s.regs with pc := s.regs.pc + 4 } })
        (match y with
          | .panic => none
          | .ex s => some s
          | .ok () s => if s.changedPc then some s else some { s with regs := { s.regs with pc := s.regs.pc + 4 } }) := by
    intro x y h4
    cases x <;> cases y
    all_goals first | exact h4.elim | skip
    · obtain ⟨_, h4⟩ := h4
      dsimp only
      rw [← h4.changedPc]
      split
      · exact h4
      · exact ⟨by simp only; rw [h4.regs], h4.hwb, h4.mem, h4.mem', h4.maps, h4.cycles, h4.halted, rfl, h4.placed, h4.devs⟩
    · exact h4
    · trivial
  exact key _ _ (act_runInstr hi (fieldsOf w) _ _
    ⟨h.regs, h.hwb, h.mem, h.mem', h.maps, h.cycles, h.halted, rfl, h.placed, h.devs⟩)

theorem next_alike (hi : DevAlike R cache) {s : Machine D} {t : Machine E} (h : Alike R cache s t) :
    resAlike (Alike R cache) (next pf s) (next pf t) := by
  have key : ∀ (x : Out (Machine D) Word) (y : Out (Machine E) Word), outAlike R cache x y →
      resAlike (Alike R cache)
        (match x with
          | .panic => none
          | .ex s => some s
          | .ok w s => execWord pf w s)
        (match y with
          | .panic => none
          | .ex s => some s
          | .ok w s => execWord pf w s) := by
    intro x y h2
    cases x <;> cases y
    all_goals first | exact h2.elim | skip
    · obtain ⟨rfl, h2⟩ := h2
      exact execWord_alike hi h2 _
    · exact h2
    · trivial
  by_cases hh : s.halted = true
  · unfold next
    rw [if_pos hh, if_pos (h.halted ▸ hh)]
    exact h
  · have h1 : Alike R cache { s with cycles := s.cycles + 1 } { t with cycles := t.cycles + 1 } :=
      ⟨h.regs, h.hwb, h.mem, h.mem', h.maps, by simp only; rw [h.cycles], h.halted, h.changedPc, h.placed, h.devs⟩
    have := act_exec (pf := pf) hi s.regs.pc _ _ h1
    unfold next
    rw [if_neg hh, if_neg (h.halted ▸ hh)]
    exact key _ _ (by
      show outAlike R cache (cpuExec pf s.regs.pc _) (cpuExec pf t.regs.pc _)
      rw [show t.regs.pc = s.regs.pc by rw [h.regs]]
      exact this)

/-! ## Host calls -/

theorem resetAll_rel {R R' : Nat → D → E → Prop} (hR : ∀ {id d e}, R id d e → resAlike (R' id) (Bus.reset d) (Bus.reset e))
    {ds : List D} {es : List E} (h : DevsAlike R ds es) : resAlike (DevsAlike R') (resetAll ds) (resetAll es) := by
  induction ds generalizing es R R' with
  | nil =>
    cases es with
    | nil => exact ⟨rfl, fun i d e hd => by simp at hd⟩
    | cons e es => exact absurd h.1 (by simp)
  | cons d ds ih =>
    cases es with
    | nil => exact absurd h.1 (by simp)
    | cons e es =>
      refine resAlike_bind (hR (h.2 0 d e rfl rfl)) fun d' e' hde => ?_
      have ht : DevsAlike (fun i => R (i + 1)) ds es :=
        ⟨by have := h.1; simpa using this, fun i x y hx hy => h.2 (i + 1) x y (by simpa using hx) (by simpa using hy)⟩
      refine resAlike_bind (ih (R := fun i => R (i + 1)) (R' := fun i => R' (i + 1)) (fun {id d e} => hR) ht) fun ds' es' hds => ?_
      refine ⟨by simp [hds.1], fun i x y hx hy => ?_⟩
      cases i with
      | zero => simp at hx hy; subst hx; subst hy; exact hde
      | succ i => simp at hx hy; exact hds.2 i x y hx hy

theorem resetAll_alike {R : Nat → D → E → Prop} (hR : ∀ {id d e}, R id d e → resAlike (R id) (Bus.reset d) (Bus.reset e)) {ds : List D} {es : List E}
    (h : DevsAlike R ds es) : resAlike (DevsAlike R) (resetAll ds) (resetAll es) :=
  resetAll_rel (R := R) (R' := R) (fun {_ _ _} => hR) h

theorem boardReset_alike (hi : DevAlike R cache) {s : Machine D} {t : Machine E} (h : Alike R cache s t) :
    resAlike (Alike R cache) (boardReset s) (boardReset t) :=
  resAlike_bind (resetAll_alike (R := R) (fun hr => hi.reset hr) h.cpuReset.devs) fun _ _ hd => h.cpuReset.withDevs hd

omit [Bus D] [Bus E] in
theorem internalMap_alike {s : Machine D} {t : Machine E} (h : Alike R cache s t) (a : Word) (e? : Option Word) (id : Nat) :
    resAlike (fun x y => x.1 = y.1 ∧ Alike R cache x.2 y.2) (internalMap pf s a e? id) (internalMap pf t a e? id) := by
  unfold internalMap
  rw [h.mem, h.mem']
  cases hc : cache[id]? with
  | none => exact ⟨rfl, h⟩
  | some c =>
    refine resAlike_same _ fun _ => resAlike_same _ fun dflt => ?_
    rw [← h.maps]
    dsimp only
    by_cases h4 : a % 4 ≠ 0
    · rw [if_pos h4, if_pos h4]; exact ⟨rfl, h⟩
    rw [if_neg h4, if_neg h4]
    by_cases h0 : c.size = 0
    · rw [if_pos h0, if_pos h0]; exact ⟨rfl, h⟩
    rw [if_neg h0, if_neg h0]
    split
    · exact ⟨rfl, h⟩
    split
    · exact ⟨rfl, h⟩
    refine resAlike_same _ fun _ => ?_
    split
    · exact ⟨rfl, h⟩
    refine resAlike_same _ fun _ => ?_
    split
    · exact ⟨rfl, h⟩
    split
    · exact ⟨rfl, h⟩
    refine resAlike_same _ fun o => ?_
    cases o with
    | some m => exact ⟨rfl, h⟩
    | none =>
      refine ⟨rfl, ⟨h.regs, h.hwb, rfl, rfl, rfl, h.cycles, h.halted, h.changedPc, ?_, h.devs⟩⟩
      intro m hm
      rcases List.mem_append.mp hm with hm | hm
      · exact h.placed m hm
      · rw [List.mem_singleton] at hm; subst hm
        exact ⟨mod4_nat.mp (Decidable.not_not.mp h4), h0, c, hc, rfl⟩

omit [Bus D] [Bus E] in
theorem contigLoop_alike (ids : List Nat) : ∀ (acc : ContigAcc) {s : Machine D} {t : Machine E}, Alike R cache s t →
    resAlike (fun x y => x.1 = y.1 ∧ Alike R cache x.2 y.2) (contigLoop pf acc s ids) (contigLoop pf acc t ids) := by
  induction ids with
  | nil => intro acc s t h; exact ⟨rfl, h⟩
  | cons i is ih =>
    intro acc s t h
    refine resAlike_bind (Q := fun x y => x.1 = y.1 ∧ Alike R cache x.2 y.2) ?_ ?_
    · refine resAlike_bind (internalMap_alike h _ _ _) ?_
      rintro ⟨r, s'⟩ ⟨r', t'⟩ ⟨h1, h2⟩
      cases h1
      refine resAlike_same _ fun acc' => ?_
      rw [h2.mem, h2.mem']
      split
      · trivial
      · exact ⟨rfl, h2⟩
    · rintro ⟨r, s'⟩ ⟨r', t'⟩ ⟨h1, h2⟩
      cases h1
      exact ih _ h2

theorem resAlike_map {α α' β β' : Type} {Q : α → β → Prop} {Q' : α' → β' → Prop} {a : Res α} {b : Res β}
    {f : α → α'} {g : β → β'} (h : resAlike Q a b) (hf : ∀ x y, Q x y → Q' (f x) (g y)) :
    resAlike Q' (a.map f) (b.map g) := by
  cases a <;> cases b
  · trivial
  · exact h.elim
  · exact h.elim
  · exact hf _ _ h

theorem hostStep_alike (hi : DevAlike R cache) {s : Machine D} {t : Machine E} (h : Alike R cache s t) (op : HostOp) :
    resAlike (Alike R cache) (hostStep pf s op) (hostStep pf t op) := by
  cases op with
  | next => exact next_alike hi h
  | cpuReset => exact h.cpuReset
  | reset => exact boardReset_alike hi h
  | map a i => exact resAlike_map (internalMap_alike h _ _ _) fun _ _ h => h.2
  | mapAbs a e i => exact resAlike_map (internalMap_alike h _ _ _) fun _ _ h => h.2
  | mapContiguous a is =>
    refine resAlike_map (Q := fun x y => Alike R cache x.2 y.2) ?_ fun _ _ h => h
    exact resAlike_bind (contigLoop_alike is _ h) fun x y h => h.2
  | memRead a ex => exact resAlike_map (memRead_alike hi h _ _) fun _ _ h => h.2.2
  | memWrite a w ex => exact resAlike_map (memWrite_alike hi h _ _ _) fun _ _ h => h.2
  | setRegs f => exact h.withRegs f

theorem hostRun_alike (hi : DevAlike R cache) (ops : List HostOp) {s : Machine D} {t : Machine E} (h : Alike R cache s t) :
    resAlike (Alike R cache) (hostRun pf ops s) (hostRun pf ops t) := by
  induction ops generalizing s t with
  | nil => exact h
  | cons op ops ih => exact resAlike_bind (hostStep_alike hi h op) fun _ _ h => ih h

/-- New boards. -/
theorem newBoard_alike {ds : List D} {es : List E} (hlen : ds.length = es.length)
    (h : ∀ (i : Nat) (d : D) (e : E), ds[i]? = some d → es[i]? = some e → Bus.name d = Bus.name e ∧ Bus.metadata pf d = Bus.metadata pf e ∧ R i d e) :
    resAlike (fun s t => Alike R s.memCache s t) (newBoard pf ds) (newBoard pf es) := by
  have key : ∀ (ds : List D) (es : List E) (k : Nat), ds.length = es.length →
      (∀ (i : Nat) (d : D) (e : E), ds[i]? = some d → es[i]? = some e → Bus.name d = Bus.name e ∧ Bus.metadata pf d = Bus.metadata pf e) →
      createCaches pf k ds = createCaches pf k es := by
    intro ds
    induction ds with
    | nil => intro es k hl _; cases es with
      | nil => rfl
      | cons e es => exact absurd hl (by simp)
    | cons d ds ih => intro es k hl hh; cases es with
      | nil => exact absurd hl (by simp)
      | cons e es =>
        obtain ⟨h1, h2⟩ := hh 0 d e rfl rfl
        have := ih es (k + 1) (by simpa using hl) fun i x y hx hy => hh (i + 1) x y (by simpa using hx) (by simpa using hy)
        simp only [createCaches, createCache, h1, h2, this]
  have hc := key ds es 0 hlen fun i d e hd he => ⟨(h i d e hd he).1, (h i d e hd he).2.1⟩
  unfold newBoard
  rw [← hlen, ← hc]
  refine resAlike_same _ fun _ => resAlike_same _ fun mc => resAlike_same _ fun hw => ?_
  exact ⟨rfl, rfl, rfl, rfl, rfl, rfl, rfl, rfl, (by intro m hm; cases hm), hlen, fun i d e hd he => (h i d e hd he).2.2⟩

end Lrvm
