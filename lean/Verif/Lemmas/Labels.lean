import Verif.Lemmas.Alike
import Verif.Lemmas.Reset
import Verif.Lemmas.Next
import Verif.Spec.Labels

/-!
# Boards whose components differ by their names and identifiers

As `Lemmas/Alike`, for machines that differ also by the names and identifiers of their components.
-/

namespace Lrvm

open Spec

variable {D E : Type} [Bus D] [Bus E] {pf : Profile}

/-- The machines differ only by their components, which are related, and by their names and identifiers. -/
structure Akin (R : Nat → D → E → Prop) (cache : List AuxCache) (s : Machine D) (t : Machine E) : Prop where
  regs : s.regs = t.regs
  hwb : s.hwbCache.map (·.metadata[2]) = t.hwbCache.map (·.metadata[2])
  mem : s.memCache = cache
  mem' : t.memCache.map (·.size) = cache.map (·.size)
  maps : s.mappings.map Mapping.place = t.mappings.map Mapping.place
  cycles : s.cycles = t.cycles
  halted : s.halted = t.halted
  changedPc : s.changedPc = t.changedPc
  placed : Placed cache s.mappings
  devs : DevsAlike R s.devs t.devs

variable {R : Nat → D → E → Prop} {cache : List AuxCache}

/-- The same mapping but for the identifier, or none in both lists. -/
def samePlace : Option Mapping → Option Mapping → Prop
  | none, none => True
  | some m, some m' => Mapping.place m = Mapping.place m'
  | _, _ => False

theorem endAddr_place {m m' : Mapping} (h : Mapping.place m = Mapping.place m') : m.endAddr pf = m'.endAddr pf := by
  simp only [Mapping.place, Prod.mk.injEq] at h
  unfold Mapping.endAddr
  rw [h.2.1, h.2.2]

theorem findMapping_akin {ms ms' : List Mapping} (h : ms.map Mapping.place = ms'.map Mapping.place) (a : Word) :
    resAlike samePlace (findMapping pf ms a) (findMapping pf ms' a) := by
  induction ms generalizing ms' with
  | nil => cases ms' with
    | nil => trivial
    | cons m' ms' => simp at h
  | cons m ms ih => cases ms' with
    | nil => simp at h
    | cons m' ms' =>
      simp only [List.map_cons, List.cons.injEq] at h
      unfold findMapping
      rw [← endAddr_place h.1, show m'.addr = m.addr from (Prod.mk.inj (Prod.mk.inj h.1).2).1.symm]
      split
      · refine resAlike_same _ fun e => ?_
        split
        · exact h.1
        · exact ih h.2
      · exact ih h.2

theorem findOverlap_akin {ms ms' : List Mapping} (h : ms.map Mapping.place = ms'.map Mapping.place) (a b : Word) :
    resAlike samePlace (findOverlap pf a b ms) (findOverlap pf a b ms') := by
  induction ms generalizing ms' with
  | nil => cases ms' with
    | nil => trivial
    | cons m' ms' => simp at h
  | cons m ms ih => cases ms' with
    | nil => simp at h
    | cons m' ms' =>
      simp only [List.map_cons, List.cons.injEq] at h
      unfold findOverlap
      rw [← endAddr_place h.1, show m'.addr = m.addr from (Prod.mk.inj (Prod.mk.inj h.1).2).1.symm]
      split
      · refine resAlike_same _ fun e => ?_
        split
        · exact h.1
        · exact ih h.2
      · exact ih h.2

theorem memRead_akin (hi : DevAlike R cache) {s : Machine D} {t : Machine E} (h : Akin R cache s t) (a : Word) (ex : U16) :
    resAlike (fun x y => x.1 = y.1 ∧ x.2.1 = y.2.1 ∧ Akin R cache x.2.2 y.2.2) (memRead pf s a ex) (memRead pf t a ex) := by
  unfold memRead
  refine resAlike_same _ fun _ => ?_
  have hfm := findMapping_akin (pf := pf) h.maps a
  cases hf : findMapping pf s.mappings a with
  | none => cases hg : findMapping pf t.mappings a with
    | none => trivial
    | some m' => rw [hf, hg] at hfm; exact hfm.elim
  | some m? => cases hg : findMapping pf t.mappings a with
    | none => rw [hf, hg] at hfm; exact hfm.elim
    | some m'? =>
    rw [hf, hg] at hfm
    cases m? with
    | none => cases m'? with
      | none => exact ⟨rfl, rfl, h⟩
      | some m' => exact hfm.elim
    | some m => cases m'? with
      | none => exact hfm.elim
      | some m' =>
      have hp : m'.auxId = m.auxId ∧ m'.addr = m.addr :=
        ⟨(Prod.mk.inj hfm).1.symm, (Prod.mk.inj (Prod.mk.inj hfm).2).1.symm⟩
      simp only [Option.bind_eq_bind, Option.bind_some]
      rw [hp.1, hp.2]
      cases ho : pf.sub a m.addr with
      | none => trivial
      | some off =>
        simp only [Option.bind_some]
        refine resAlike_bind (bridgeRead_alike hi h.devs (fun h4 => inRange_of_find h.placed h4 hf ho) ex) ?_
        rintro x y (⟨rfl, rfl⟩ | ⟨w, ex', ds', es', rfl, rfl, hd⟩)
        · trivial
        · exact ⟨rfl, rfl, ⟨h.regs, h.hwb, h.mem, h.mem', h.maps, h.cycles, h.halted, h.changedPc, h.placed, hd⟩⟩

theorem memWrite_akin (hi : DevAlike R cache) {s : Machine D} {t : Machine E} (h : Akin R cache s t) (a w : Word) (ex : U16) :
    resAlike (fun x y => x.1 = y.1 ∧ Akin R cache x.2 y.2) (memWrite pf s a w ex) (memWrite pf t a w ex) := by
  unfold memWrite
  refine resAlike_same _ fun _ => ?_
  have hfm := findMapping_akin (pf := pf) h.maps a
  cases hf : findMapping pf s.mappings a with
  | none => cases hg : findMapping pf t.mappings a with
    | none => trivial
    | some m' => rw [hf, hg] at hfm; exact hfm.elim
  | some m? => cases hg : findMapping pf t.mappings a with
    | none => rw [hf, hg] at hfm; exact hfm.elim
    | some m'? =>
    rw [hf, hg] at hfm
    cases m? with
    | none => cases m'? with
      | none => exact ⟨rfl, h⟩
      | some m' => exact hfm.elim
    | some m => cases m'? with
      | none => exact hfm.elim
      | some m' =>
      have hp : m'.auxId = m.auxId ∧ m'.addr = m.addr :=
        ⟨(Prod.mk.inj hfm).1.symm, (Prod.mk.inj (Prod.mk.inj hfm).2).1.symm⟩
      simp only [Option.bind_eq_bind, Option.bind_some]
      rw [hp.1, hp.2]
      cases ho : pf.sub a m.addr with
      | none => trivial
      | some off =>
        simp only [Option.bind_some]
        refine resAlike_bind (bridgeWrite_alike hi h.devs (fun h4 => inRange_of_find h.placed h4 hf ho) w ex) ?_
        rintro x y (⟨rfl, rfl⟩ | ⟨ex', ds', es', rfl, rfl, hd⟩)
        · trivial
        · exact ⟨rfl, ⟨h.regs, h.hwb, h.mem, h.mem', h.maps, h.cycles, h.halted, h.changedPc, h.placed, hd⟩⟩

theorem decodeEntry_akin (hi : DevAlike R cache) {s : Machine D} {t : Machine E} (h : Akin R cache s t) (a : Word)
    (act : MemAction) :
    resAlike (fun x y => x.1 = y.1 ∧ Akin R cache x.2 y.2) (decodeEntry pf s a act) (decodeEntry pf t a act) := by
  unfold decodeEntry
  refine resAlike_bind (memRead_akin hi h a 0) ?_
  rintro ⟨w, ex, s'⟩ ⟨w', ex', t'⟩ ⟨h1, h2, h3⟩
  cases h1; cases h2
  dsimp only
  rw [← h.regs]
  split
  · exact ⟨rfl, h3⟩
  · exact ⟨rfl, h3⟩

theorem translate_akin (hi : DevAlike R cache) {s : Machine D} {t : Machine E} (h : Akin R cache s t) (a : Word)
    (act : MemAction) :
    resAlike (fun x y => x.1 = y.1 ∧ Akin R cache x.2 y.2) (translate pf s a act) (translate pf t a act) := by
  unfold translate
  rw [← h.regs]
  split
  · exact ⟨rfl, h⟩
  · refine resAlike_same _ fun _ => resAlike_same _ fun _ => ?_
    refine resAlike_bind (decodeEntry_akin hi h _ act) ?_
    rintro ⟨r, s1⟩ ⟨r', t1⟩ ⟨h1, h2⟩
    cases h1
    cases r with
    | passThrough => exact ⟨rfl, h2⟩
    | permissionNotSet => exact ⟨rfl, h2⟩
    | hwException ex => exact ⟨rfl, h2⟩
    | decoded v =>
      refine resAlike_same _ fun _ => resAlike_same _ fun _ => resAlike_same _ fun _ => ?_
      refine resAlike_bind (decodeEntry_akin hi h2 _ act) ?_
      rintro ⟨r, s2⟩ ⟨r', t2⟩ ⟨h1, h3⟩
      cases h1
      cases r with
      | passThrough => exact ⟨rfl, h3⟩
      | permissionNotSet => exact ⟨rfl, h3⟩
      | hwException ex => exact ⟨rfl, h3⟩
      | decoded v => exact resAlike_same _ fun _ => resAlike_same _ fun _ => ⟨rfl, h3⟩

/-! ## CPU actions -/

/-- Outcomes alike. -/
def outAkin (R : Nat → D → E → Prop) (cache : List AuxCache) : Out (Machine D) α → Out (Machine E) α → Prop
  | .ok a s, .ok b t => a = b ∧ Akin R cache s t
  | .ex s, .ex t => Akin R cache s t
  | .panic, .panic => True
  | _, _ => False

/-- The two actions keep the machines alike. -/
def ActAkin (R : Nat → D → E → Prop) (cache : List AuxCache) (m : M D α) (n : M E α) : Prop :=
  ∀ s t, Akin R cache s t → outAkin R cache (m s) (n t)

section
omit [Bus D] [Bus E]

theorem kin_pure (a : α) : ActAkin R cache (pure a : M D α) (pure a : M E α) := fun _ _ h => ⟨rfl, h⟩

theorem kin_bind {m : M D α} {n : M E α} {f : α → M D β} {g : α → M E β} (h : ActAkin R cache m n)
    (hf : ∀ a, ActAkin R cache (f a) (g a)) : ActAkin R cache (m >>= f) (n >>= g) := by
  intro s t hst
  show outAkin R cache (M.bind m f s) (M.bind n g t)
  unfold M.bind
  have := h s t hst
  revert this
  cases m s <;> cases n t <;> intro h
  · obtain ⟨rfl, h⟩ := h; exact hf _ _ _ h
  · exact h.elim
  · exact h.elim
  · exact h.elim
  · exact h
  · exact h.elim
  · exact h.elim
  · exact h.elim
  · trivial

theorem kin_getM {f : Machine D → M D β} {g : Machine E → M E β}
    (hf : ∀ s t, Akin R cache s t → ActAkin R cache (f s) (g t)) : ActAkin R cache (getM >>= f) (getM >>= g) :=
  fun s t h => hf s t h s t h

theorem kin_getsM {f : Machine D → α} {g : Machine E → α} (hf : ∀ s t, Akin R cache s t → f s = g t) :
    ActAkin R cache (getsM f) (getsM g) := fun s t h => ⟨hf s t h, h⟩

theorem kin_modify {f : Machine D → Machine D} {g : Machine E → Machine E}
    (hf : ∀ s t, Akin R cache s t → Akin R cache (f s) (g t)) : ActAkin R cache (modifyM f) (modifyM g) :=
  fun s t h => ⟨rfl, hf s t h⟩

theorem kin_lift (r : Res α) : ActAkin R cache (liftRes r : M D α) (liftRes r : M E α) := by
  intro s t h
  cases r
  · trivial
  · exact ⟨rfl, h⟩

theorem Akin.withRegs {s : Machine D} {t : Machine E} (h : Akin R cache s t) (f : Regs → Regs) :
    Akin R cache { s with regs := f s.regs } { t with regs := f t.regs } :=
  ⟨by rw [h.regs], h.hwb, h.mem, h.mem', h.maps, h.cycles, h.halted, h.changedPc, h.placed, h.devs⟩

theorem kin_regs (f : Regs → Regs) : ActAkin R cache (modRegs f : M D Unit) (modRegs f : M E Unit) :=
  kin_modify fun _ _ h => h.withRegs f

theorem Akin.exception {s : Machine D} {t : Machine E} (h : Akin R cache s t) (c : U8) (d : U16) :
    Akin R cache (s.exception c d) (t.exception c d) :=
  ⟨by unfold Machine.exception Machine.svMode; simp only; rw [h.regs], h.hwb, h.mem, h.mem', h.maps, h.cycles, h.halted, rfl, h.placed, h.devs⟩

theorem kin_raise (c : U8) (d : U16) : ActAkin R cache (raise c d : M D α) (raise c d : M E α) :=
  fun _ _ h => h.exception c d

theorem Akin.sv {s : Machine D} {t : Machine E} (h : Akin R cache s t) : s.svMode = t.svMode := by
  unfold Machine.svMode; rw [h.regs]

theorem kin_readReg (c : U8) : ActAkin R cache (readReg c : M D Word) (readReg c : M E Word) := by
  intro s t h
  unfold readReg
  rw [← h.sv]
  split
  · exact h.exception _ _
  · rw [← h.regs]
    cases s.regs.read c with
    | none => exact h.exception _ _
    | some w => exact ⟨rfl, h⟩

theorem kin_writeReg (c : U8) (w : Word) : ActAkin R cache (writeReg c w : M D Unit) (writeReg c w : M E Unit) := by
  intro s t h
  unfold writeReg
  rw [← h.sv]
  split
  · exact h.exception _ _
  split
  · exact h.exception _ _
  have h1 : Akin R cache (if c = 0x16#8 then { s with changedPc := true } else s)
      (if c = 0x16#8 then { t with changedPc := true } else t) := by
    split
    · exact ⟨h.regs, h.hwb, h.mem, h.mem', h.maps, h.cycles, h.halted, rfl, h.placed, h.devs⟩
    · exact h
  dsimp only
  rw [← h1.regs]
  split
  · exact ⟨rfl, ⟨rfl, h1.hwb, h1.mem, h1.mem', h1.maps, h1.cycles, h1.halted, h1.changedPc, h1.placed, h1.devs⟩⟩
  · exact h1.exception _ _

theorem kin_compute (a b : Word) (op : Op) : ActAkin R cache (compute a b op : M D Word) (compute a b op : M E Word) := by
  unfold compute
  split
  · exact kin_raise _ _
  · exact kin_bind (kin_regs _) fun _ => kin_pure _

theorem kin_aligned (a : Word) : ActAkin R cache (ensureAligned a : M D Word) (ensureAligned a : M E Word) := by
  unfold ensureAligned
  split
  · exact kin_raise _ _
  · exact kin_pure _

theorem kin_lit1 (r : Bool) (p : U8) : ActAkin R cache (regOrLit1 r p : M D Word) (regOrLit1 r p : M E Word) := by
  unfold regOrLit1
  split
  · exact kin_readReg _
  · exact kin_pure _

theorem kin_lit2 (r : Bool) (p q : U8) : ActAkin R cache (regOrLit2 r p q : M D Word) (regOrLit2 r p q : M E Word) := by
  unfold regOrLit2
  split
  · exact kin_readReg _
  · exact kin_pure _

theorem getMapping_akin {s : Machine D} {t : Machine E} (h : Akin R cache s t) (id : Nat) :
    samePlace (s.getMapping id) (t.getMapping id) := by
  have key : ∀ ms ms' : List Mapping, ms.map Mapping.place = ms'.map Mapping.place →
      samePlace (ms.find? fun m => m.auxId == id) (ms'.find? fun m => m.auxId == id) := by
    intro ms
    induction ms with
    | nil => intro ms' h; cases ms' with
      | nil => trivial
      | cons m' ms' => simp at h
    | cons m ms ih => intro ms' h; cases ms' with
      | nil => simp at h
      | cons m' ms' =>
        simp only [List.map_cons, List.cons.injEq] at h
        rw [List.find?_cons, List.find?_cons, show m'.auxId = m.auxId from (Prod.mk.inj h.1).1.symm]
        split
        · exact h.1
        · exact ih _ h.2
  exact key _ _ h.maps

theorem kin_hwInfo {i : Word} (hi : i.toNat ∉ labelInfos) (id : Nat) :
    ActAkin R cache (getHwInfo pf i id : M D Word) (getHwInfo pf i id : M E Word) := by
  intro s t h
  have hm := getMapping_akin h id
  have hw : s.hwbCache[id]?.map (·.metadata[2]) = t.hwbCache[id]?.map (·.metadata[2]) := by
    rw [← List.getElem?_map, ← List.getElem?_map, h.hwb]
  unfold getHwInfo
  cases h1 : s.hwbCache[id]? with
  | none => cases h2 : t.hwbCache[id]? with
    | none => exact h.exception _ _
    | some c' => rw [h1, h2] at hw; cases hw
  | some c => cases h2 : t.hwbCache[id]? with
    | none => rw [h1, h2] at hw; cases hw
    | some c' =>
    rw [h1, h2] at hw
    simp only [Option.map_some, Option.some.injEq] at hw
    dsimp only
    generalize hn : i.toNat = n at *
    generalize hx : s.getMapping id = x at *
    generalize hy : t.getMapping id = y at *
    split
    all_goals first
      | exact absurd (by decide) hi
      | skip
    · rw [hw]; exact ⟨rfl, h⟩
    · cases x <;> cases y
      · exact ⟨rfl, h⟩
      · exact hm.elim
      · exact hm.elim
      · exact ⟨rfl, h⟩
    · cases x <;> cases y
      · exact h.exception _ _
      · exact hm.elim
      · exact hm.elim
      · exact ⟨(Prod.mk.inj (Prod.mk.inj hm).2).1, h⟩
    · cases x <;> cases y
      · exact h.exception _ _
      · exact hm.elim
      · exact hm.elim
      · dsimp only
        rw [endAddr_place (pf := pf) hm]
        exact kin_lift _ _ _ h
    · split
      · next hr =>
        exfalso
        obtain ⟨h1, h2⟩ := hr
        apply hi
        have : n = 0x11 ∨ n = 0x12 ∨ n = 0x13 ∨ n = 0x14 ∨ n = 0x15 ∨ n = 0x16 ∨ n = 0x17 ∨ n = 0x18 := by omega
        rcases this with rfl | rfl | rfl | rfl | rfl | rfl | rfl | rfl <;> decide
      · exact h.exception _ _

end

theorem kin_memDo {act : MemAction} {v : Word} (hi : DevAlike R cache)
    {f : Machine D → Word → U16 → Res (α × U16 × Machine D)} {g : Machine E → Word → U16 → Res (α × U16 × Machine E)}
    (hf : ∀ s t p ex, Akin R cache s t → resAlike (fun x y => x.1 = y.1 ∧ x.2.1 = y.2.1 ∧ Akin R cache x.2.2 y.2.2)
      (f s p ex) (g t p ex)) :
    ActAkin R cache (memDo pf act v f) (memDo pf act v g) := by
  refine kin_bind (kin_aligned v) fun v => ?_
  have key : ∀ (x : Res (Except (Option U16) Word × Machine D)) (y : Res (Except (Option U16) Word × Machine E)),
      resAlike (fun x y => x.1 = y.1 ∧ Akin R cache x.2 y.2) x y →
      outAkin R cache (match x with
        | none => (.panic : Out (Machine D) α)
        | some (.ok pAddr, s1) =>
          match f s1 pAddr 0 with
          | none => .panic
          | some (ret, ex, s2) => if ex ≠ 0 then raise 0xA0 ex s2 else .ok ret s2
        | some (.error none, s1) => raise 0x06 (v.setWidth 16) s1
        | some (.error (some ex), s1) => raise 0xA0 ex s1)
       (match y with
        | none => (.panic : Out (Machine E) α)
        | some (.ok pAddr, s1) =>
          match g s1 pAddr 0 with
          | none => .panic
          | some (ret, ex, s2) => if ex ≠ 0 then raise 0xA0 ex s2 else .ok ret s2
        | some (.error none, s1) => raise 0x06 (v.setWidth 16) s1
        | some (.error (some ex), s1) => raise 0xA0 ex s1) := by
    intro x y h1
    cases x <;> cases y
    · trivial
    · exact h1.elim
    · exact h1.elim
    next x y =>
    obtain ⟨x, s1⟩ := x
    obtain ⟨y, t1⟩ := y
    obtain ⟨h1, h2⟩ := h1
    cases h1
    cases x with
    | error o =>
      cases o with
      | none => exact Akin.exception h2 _ _
      | some ex => exact Akin.exception h2 _ _
    | ok p =>
      have key : ∀ (x : Res (α × U16 × Machine D)) (y : Res (α × U16 × Machine E)),
          resAlike (fun x y => x.1 = y.1 ∧ x.2.1 = y.2.1 ∧ Akin R cache x.2.2 y.2.2) x y →
          outAkin R cache (match x with
            | none => (.panic : Out (Machine D) α)
            | some (ret, ex, s2) => if ex ≠ 0 then raise 0xA0 ex s2 else .ok ret s2)
           (match y with
            | none => (.panic : Out (Machine E) α)
            | some (ret, ex, s2) => if ex ≠ 0 then raise 0xA0 ex s2 else .ok ret s2) := by
        intro x y h3
        cases x <;> cases y
        · trivial
        · exact h3.elim
        · exact h3.elim
        next x y =>
        obtain ⟨x, e, s2⟩ := x
        obtain ⟨y, e', t2⟩ := y
        obtain ⟨h4, h5, h6⟩ := h3
        cases h4; cases h5
        show outAkin R cache (if e ≠ 0 then Out.ex (s2.exception 0xA0 e) else Out.ok x s2)
          (if e ≠ 0 then Out.ex (t2.exception 0xA0 e) else Out.ok x t2)
        split
        · exact Akin.exception h6 _ _
        · exact ⟨rfl, h6⟩
      exact key _ _ (hf s1 t1 p 0 h2)
  exact fun s t h => key _ _ (translate_akin hi h v act)

theorem kin_read (hi : DevAlike R cache) (v : Word) : ActAkin R cache (cpuRead pf v : M D Word) (cpuRead pf v : M E Word) :=
  kin_memDo hi fun _ _ _ _ h => memRead_akin hi h _ _

theorem kin_exec (hi : DevAlike R cache) (v : Word) : ActAkin R cache (cpuExec pf v : M D Word) (cpuExec pf v : M E Word) :=
  kin_memDo hi fun _ _ _ _ h => memRead_akin hi h _ _

theorem kin_write (hi : DevAlike R cache) (v w : Word) :
    ActAkin R cache (cpuWrite pf v w : M D Unit) (cpuWrite pf v w : M E Unit) := by
  refine kin_memDo hi fun s t p ex h => ?_
  have := memWrite_akin (pf := pf) hi h p w ex
  revert this
  cases memWrite pf s p w ex <;> cases memWrite pf t p w ex <;> intro h
  · trivial
  · exact h.elim
  · exact h.elim
  · exact ⟨rfl, h.1, h.2⟩

theorem kin_setSp (v : Word) : ActAkin R cache (setSp v : M D Unit) (setSp v : M E Unit) :=
  kin_modify fun s t h => by
    rw [← h.sv]
    split
    · exact h.withRegs fun r => { r with ssp := v }
    · exact h.withRegs fun r => { r with usp := v }

theorem Akin.withDevs {s : Machine D} {t : Machine E} (h : Akin R cache s t) {ds : List D} {es : List E}
    (hd : DevsAlike R ds es) : Akin R cache { s with devs := ds } { t with devs := es } :=
  ⟨h.regs, h.hwb, h.mem, h.mem', h.maps, h.cycles, h.halted, h.changedPc, h.placed, hd⟩

theorem kin_liftDevs {a : Res (List D)} {b : Res (List E)} (h : resAlike (DevsAlike R) a b) :
    ActAkin R cache (liftRes a >>= fun devs => modifyM fun s => { s with devs := devs } : M D Unit)
      (liftRes b >>= fun devs => modifyM fun s => { s with devs := devs } : M E Unit) := by
  intro s t hst
  cases a <;> cases b
  · trivial
  · exact h.elim
  · exact h.elim
  · exact ⟨rfl, hst.withDevs h⟩

theorem kin_resetDevs (hi : DevAlike R cache) (n : Nat) :
    ActAkin R cache (resetDevs n : M D Unit) (resetDevs n : M E Unit) := by
  unfold resetDevs
  refine kin_getM fun s t h => ?_
  rw [← h.devs.1, ← h.regs]
  split
  · exact kin_liftDevs (resetLoop_alike hi _ _ _ h.devs)
  · have := bridgeReset_alike hi h.devs s.regs.avr.toNat
    revert this
    cases bridgeReset s.devs s.regs.avr.toNat <;> cases bridgeReset t.devs s.regs.avr.toNat <;> intro h
    · exact fun _ _ _ => trivial
    · exact h.elim
    · exact h.elim
    · intro s' t' hst
      rcases h with ⟨rfl, rfl⟩ | ⟨ds', es', rfl, rfl, h⟩
      · exact hst.exception _ _
      · exact ⟨rfl, hst.withDevs h⟩
  · exact kin_liftDevs (resetLoop_alike hi _ _ _ h.devs)
  · exact kin_liftDevs (resetLoop_alike hi _ _ _ h.devs)
  · exact kin_liftDevs (resetLoop_alike hi _ _ _ h.devs)
  · exact kin_pure _

omit [Bus D] [Bus E] in
theorem Akin.cpuReset {s : Machine D} {t : Machine E} (h : Akin R cache s t) : Akin R cache s.cpuReset t.cpuReset :=
  ⟨by unfold Machine.cpuReset; simp only; rw [h.regs], h.hwb, h.mem, h.mem', h.maps, rfl, rfl, rfl, h.placed, h.devs⟩

theorem runInstr_akin (hi : DevAlike R cache) (f : Fields) {s0 : Machine D} {t0 : Machine E} (h0 : Akin R cache s0 t0)
    (hl : f.opcode.toNat = 28 → ∀ v, Val1 s0.regs f.r2 f.p2 v → v.toNat ∉ labelInfos) :
    outAkin R cache (runInstr pf f s0) (runInstr pf f t0) := by
  have alu : ActAkin R cache (execAlu f : M D Unit) (execAlu f : M E Unit) :=
    kin_bind (kin_lit2 _ _ _) fun _ => kin_bind (kin_readReg _) fun _ => kin_bind (kin_compute _ _ _) fun _ => kin_writeReg _ _
  have div : ∀ mk, ActAkin R cache (execDiv mk f : M D Unit) (execDiv mk f : M E Unit) := fun mk =>
    kin_bind (kin_lit1 _ _) fun _ => kin_bind (kin_lit1 _ _) fun _ => kin_bind (kin_readReg _) fun _ =>
      kin_bind (kin_compute _ _ _) fun _ => kin_writeReg _ _
  have cond : ∀ b, ActAkin R cache (execIf b f : M D Unit) (execIf b f : M E Unit) := fun b => by
    refine kin_bind (kin_lit1 _ _) fun flag => ?_
    split
    · exact kin_raise _ _
    · refine kin_getM fun s t h => ?_
      rw [← h.regs]
      dsimp only
      split
      · exact kin_regs _
      · exact kin_pure _
  have cpy : ActAkin R cache (execCpy f : M D Unit) (execCpy f : M E Unit) :=
    kin_bind (kin_lit2 _ _ _) fun _ => kin_writeReg _ _
  have ex : ActAkin R cache (execEx f : M D Unit) (execEx f : M E Unit) :=
    kin_bind (kin_readReg _) fun _ => kin_bind (kin_readReg _) fun _ => kin_bind (kin_writeReg _ _) fun _ => kin_writeReg _ _
  have cmp : ActAkin R cache (execCmp f : M D Unit) (execCmp f : M E Unit) :=
    kin_bind (kin_lit2 _ _ _) fun _ => kin_bind (kin_readReg _) fun _ => kin_bind (kin_compute _ _ _) fun _ => kin_pure _
  have jpr : ActAkin R cache (execJpr f : M D Unit) (execJpr f : M E Unit) :=
    kin_bind (kin_lit2 _ _ _) fun v => kin_modify fun s t h =>
      ⟨by simp only; rw [h.regs], h.hwb, h.mem, h.mem', h.maps, h.cycles, h.halted, rfl, h.placed, h.devs⟩
  have lsm : ActAkin R cache (execLsm f : M D Unit) (execLsm f : M E Unit) := by
    refine kin_bind (kin_getsM fun s t h => h.sv) fun sv => ?_
    split
    · exact kin_bind (kin_lit2 _ _ _) fun _ => kin_bind (kin_regs _) fun _ => kin_regs _
    · exact kin_raise _ _
  have itr : ActAkin R cache (execItr f : M D Unit) (execItr f : M E Unit) :=
    kin_bind (kin_lit1 _ _) fun _ => kin_modify fun s t h => h.exception _ _
  have if2 : ActAkin R cache (execIf2 pf f : M D Unit) (execIf2 pf f : M E Unit) := by
    refine kin_bind (kin_lit1 _ _) fun _ => kin_bind (kin_lit1 _ _) fun _ => kin_bind (kin_lit1 _ _) fun _ => ?_
    refine kin_getM fun s t h => ?_
    rw [← h.regs]
    refine kin_bind (kin_lift _) fun _ => kin_bind (kin_lift _) fun _ => ?_
    split
    · exact kin_raise _ _
    · split
      · exact kin_regs _
      · exact kin_pure _
  have lsa : ActAkin R cache (execLsa pf f : M D Unit) (execLsa pf f : M E Unit) :=
    kin_bind (kin_lit1 _ _) fun _ => kin_bind (kin_lit1 _ _) fun _ => kin_bind (kin_read hi _) fun _ => kin_writeReg _ _
  have lea : ActAkin R cache (execLea pf f : M D Unit) (execLea pf f : M E Unit) :=
    kin_bind (kin_lit1 _ _) fun _ => kin_bind (kin_lit1 _ _) fun _ => kin_bind (kin_lit1 _ _) fun _ =>
      kin_bind (kin_read hi _) fun _ => kin_regs _
  have wsa : ActAkin R cache (execWsa pf f : M D Unit) (execWsa pf f : M E Unit) :=
    kin_bind (kin_lit1 _ _) fun _ => kin_bind (kin_lit1 _ _) fun _ => kin_bind (kin_lit1 _ _) fun _ => kin_write hi _ _
  have wea : ActAkin R cache (execWea pf f : M D Unit) (execWea pf f : M E Unit) :=
    kin_bind (kin_lit1 _ _) fun _ => kin_bind (kin_lit1 _ _) fun _ => kin_bind (kin_lit1 _ _) fun _ =>
      kin_bind (kin_getsM fun s t h => by rw [h.regs]) fun _ => kin_write hi _ _
  have srm : ActAkin R cache (execSrm pf f : M D Unit) (execSrm pf f : M E Unit) :=
    kin_bind (kin_lit1 _ _) fun _ => kin_bind (kin_lit1 _ _) fun _ => kin_bind (kin_lift _) fun _ =>
      kin_bind (kin_read hi _) fun _ => kin_bind (kin_readReg _) fun _ => kin_bind (kin_lift _) fun _ =>
      kin_bind (kin_write hi _ _) fun _ => kin_writeReg _ _
  have getSp : ActAkin R cache (getsM (·.sp) : M D Word) (getsM (·.sp) : M E Word) :=
    kin_getsM fun s t h => by unfold Machine.sp; rw [h.sv, h.regs]
  have push : ActAkin R cache (execPush pf f : M D Unit) (execPush pf f : M E Unit) :=
    kin_bind (kin_lit2 _ _ _) fun _ => kin_bind getSp fun _ => kin_bind (kin_write hi _ _) fun _ => kin_setSp _
  have pop : ActAkin R cache (execPop pf f : M D Unit) (execPop pf f : M E Unit) := by
    refine kin_bind (kin_getsM fun s t h => h.sv) fun sv => ?_
    refine kin_bind ?_ fun _ => kin_writeReg _ _
    split
    · exact kin_bind (kin_getsM fun s t h => by rw [h.regs]) fun _ => kin_bind (kin_read hi _) fun _ =>
        kin_bind (kin_regs _) fun _ => kin_pure _
    · exact kin_bind (kin_getsM fun s t h => by rw [h.regs]) fun _ => kin_bind (kin_read hi _) fun _ =>
        kin_bind (kin_regs _) fun _ => kin_pure _
  have call : ActAkin R cache (execCall pf f : M D Unit) (execCall pf f : M E Unit) :=
    kin_bind (kin_lit2 _ _ _) fun _ => kin_bind getSp fun _ => kin_bind (kin_getsM fun s t h => by rw [h.regs]) fun _ =>
      kin_bind (kin_lift _) fun _ => kin_bind (kin_write hi _ _) fun _ => kin_bind (kin_setSp _) fun _ =>
      kin_modify fun s t h =>
        ⟨by simp only; rw [h.regs], h.hwb, h.mem, h.mem', h.maps, h.cycles, h.halted, rfl, h.placed, h.devs⟩
  have hwd : f.opcode.toNat = 28 → outAkin R cache (execHwd pf f s0) (execHwd pf f t0) := by
    intro h28
    unfold execHwd
    have h1 := kin_lit1 (R := R) (cache := cache) f.r1 f.p1 s0 t0 h0
    show outAkin R cache (M.bind _ _ s0) (M.bind _ _ t0)
    unfold M.bind
    cases e1 : (regOrLit1 f.r1 f.p1 : M D Word) s0 <;> cases e2 : (regOrLit1 f.r1 f.p1 : M E Word) t0 <;>
      rw [e1, e2] at h1
    all_goals first | exact h1.elim | exact h1 | skip
    next a s1 b t1 =>
    obtain ⟨rfl, h1⟩ := h1
    have hs1 := (regOrLit1_inv e1).1
    subst hs1
    have h2 := kin_lit1 (R := R) (cache := cache) f.r2 f.p2 s1 t1 h1
    show outAkin R cache (M.bind _ _ s1) (M.bind _ _ t1)
    unfold M.bind
    cases e3 : (regOrLit1 f.r2 f.p2 : M D Word) s1 <;> cases e4 : (regOrLit1 f.r2 f.p2 : M E Word) t1 <;>
      rw [e3, e4] at h2
    all_goals first | exact h2.elim | exact h2 | skip
    next v s2 v' t2 =>
    obtain ⟨rfl, h2⟩ := h2
    have hv := hl h28 v (regOrLit1_inv e3).2
    dsimp only
    split
    · exact kin_bind (kin_getsM fun s t h => h.devs.1) (fun _ => kin_writeReg _ _) _ _ h2
    · exact kin_bind (kin_hwInfo hv _) (fun _ => kin_writeReg _ _) _ _ h2
  have cyc : ActAkin R cache (execCycles f : M D Unit) (execCycles f : M E Unit) :=
    kin_bind (kin_getsM fun s t h => h.cycles) fun _ => kin_writeReg _ _
  have halt : ActAkin R cache (execHalt : M D Unit) (execHalt : M E Unit) :=
    kin_modify fun s t h => ⟨h.regs, h.hwb, h.mem, h.mem', h.maps, h.cycles, rfl, h.changedPc, h.placed, h.devs⟩
  have rst : ActAkin R cache (execReset f : M D Unit) (execReset f : M E Unit) := by
    refine kin_bind (kin_lit1 _ _) fun _ => kin_bind (kin_resetDevs hi _) fun _ => ?_
    split
    · exact kin_modify fun s t h => h.cpuReset
    · exact kin_pure _
  unfold runInstr
  generalize f.opcode.toNat = n at *
  match n with
  | 0 => exact h0.exception _ _
  | 1 => exact (cpy) s0 t0 h0
  | 2 => exact (ex) s0 t0 h0
  | 3 => exact (alu) s0 t0 h0
  | 4 => exact (alu) s0 t0 h0
  | 5 => exact (alu) s0 t0 h0
  | 6 => exact (div _) s0 t0 h0
  | 7 => exact (div _) s0 t0 h0
  | 8 => exact (alu) s0 t0 h0
  | 9 => exact (alu) s0 t0 h0
  | 10 => exact (alu) s0 t0 h0
  | 11 => exact (alu) s0 t0 h0
  | 12 => exact (alu) s0 t0 h0
  | 13 => exact (cmp) s0 t0 h0
  | 14 => exact (jpr) s0 t0 h0
  | 15 => exact (lsm) s0 t0 h0
  | 16 => exact (itr) s0 t0 h0
  | 17 => exact (cond _) s0 t0 h0
  | 18 => exact (cond _) s0 t0 h0
  | 19 => exact (if2) s0 t0 h0
  | 20 => exact (lsa) s0 t0 h0
  | 21 => exact (lea) s0 t0 h0
  | 22 => exact (wsa) s0 t0 h0
  | 23 => exact (wea) s0 t0 h0
  | 24 => exact (srm) s0 t0 h0
  | 25 => exact (push) s0 t0 h0
  | 26 => exact (pop) s0 t0 h0
  | 27 => exact (call) s0 t0 h0
  | 28 => exact hwd rfl
  | 29 => exact (cyc) s0 t0 h0
  | 30 => exact (halt) s0 t0 h0
  | 31 => exact (rst) s0 t0 h0
  | _ + 32 => trivial

theorem execWord_akin (hi : DevAlike R cache) {s : Machine D} {t : Machine E} (h : Akin R cache s t) (w : Word)
    (hl : ¬ AsksLabel s.regs w) :
    resAlike (Akin R cache) (execWord pf w s) (execWord pf w t) := by
  have key : ∀ (x : Out (Machine D) Unit) (y : Out (Machine E) Unit), outAkin R cache x y →
      resAlike (Akin R cache)
        (match x with
          | .panic => none
          | .ex s => some s
          | .ok () s => if s.changedPc then some s else some { s with regs := { s.regs with pc := s.regs.pc + 4 } })
        (match y with
          | .panic => none
          | .ex s => some s
          | .ok () s => if s.changedPc then some s else some { s with regs := { s.regs with pc := s.regs.pc + 4 } }) := by
    intro x y h4
    cases x <;> cases y
    all_goals first | exact h4.elim | skip
    · obtain ⟨_, h4⟩ := h4
      dsimp only
      rw [← h4.changedPc]
      split
      · exact h4
      · exact ⟨by simp only; rw [h4.regs], h4.hwb, h4.mem, h4.mem', h4.maps, h4.cycles, h4.halted, rfl, h4.placed, h4.devs⟩
    · exact h4
    · trivial
  refine key _ _ (runInstr_akin hi (fieldsOf w)
    ⟨h.regs, h.hwb, h.mem, h.mem', h.maps, h.cycles, h.halted, rfl, h.placed, h.devs⟩ ?_)
  obtain ⟨op, r0, r1, r2, p0, p1, p2, rfl⟩ := exists_instrWord w
  rw [fieldsOf_instrWord]
  intro h28 v hv hm
  refine hl ⟨r0, r1, r2, p0, p1, p2, v, ?_, hv, hm⟩
  congr 1
  apply BitVec.eq_of_toNat_eq
  have h32 := op.isLt
  simp only [BitVec.toNat_setWidth] at h28
  show op.toNat = 28
  omega

theorem next_akin (hi : DevAlike R cache) {s : Machine D} {t : Machine E} (h : Akin R cache s t)
    (hl : ∀ w devs, Fetches pf s w devs → ¬ AsksLabel s.regs w) :
    resAlike (Akin R cache) (next pf s) (next pf t) := by
  have key : ∀ (x : Out (Machine D) Word) (y : Out (Machine E) Word), outAkin R cache x y →
      (∀ w s1, x = .ok w s1 → ¬ AsksLabel s1.regs w) →
      resAlike (Akin R cache)
        (match x with
          | .panic => none
          | .ex s => some s
          | .ok w s => execWord pf w s)
        (match y with
          | .panic => none
          | .ex s => some s
          | .ok w s => execWord pf w s) := by
    intro x y h2 h3
    cases x <;> cases y
    all_goals first | exact h2.elim | skip
    · obtain ⟨rfl, h2⟩ := h2
      exact execWord_akin hi h2 _ (h3 _ _ rfl)
    · exact h2
    · trivial
  by_cases hh : s.halted = true
  · unfold next
    rw [if_pos hh, if_pos (h.halted ▸ hh)]
    exact h
  · have h1 : Akin R cache { s with cycles := s.cycles + 1 } { t with cycles := t.cycles + 1 } :=
      ⟨h.regs, h.hwb, h.mem, h.mem', h.maps, by simp only; rw [h.cycles], h.halted, h.changedPc, h.placed, h.devs⟩
    have := kin_exec (pf := pf) hi s.regs.pc _ _ h1
    unfold next
    rw [if_neg hh, if_neg (h.halted ▸ hh)]
    refine key _ _ (by
      show outAkin R cache (cpuExec pf s.regs.pc _) (cpuExec pf t.regs.pc _)
      rw [show t.regs.pc = s.regs.pc by rw [h.regs]]
      exact this) ?_
    intro w s1 e
    change cpuExec pf s.regs.pc { s with cycles := s.cycles + 1 } = .ok w s1 at e
    have e0 := e
    rw [cpuExec_eq] at e
    obtain ⟨d, h3, h4⟩ := toOut_ok e
    subst h4
    exact hl w d ⟨by simpa using hh, e0⟩

/-! ## Host calls -/

theorem boardReset_akin (hi : DevAlike R cache) {s : Machine D} {t : Machine E} (h : Akin R cache s t) :
    resAlike (Akin R cache) (boardReset s) (boardReset t) :=
  resAlike_bind (resetAll_alike (R := R) (fun hr => hi.reset hr) h.cpuReset.devs) fun _ _ hd => h.cpuReset.withDevs hd

omit [Bus D] [Bus E] in
theorem internalMap_akin {s : Machine D} {t : Machine E} (h : Akin R cache s t) (a : Word) (e? : Option Word) (id : Nat) :
    resAlike (fun x y => SameMapping x.1 y.1 ∧ Akin R cache x.2 y.2) (internalMap pf s a e? id) (internalMap pf t a e? id) := by
  unfold internalMap
  rw [h.mem]
  have hsz : t.memCache[id]?.map (·.size) = cache[id]?.map (·.size) := by
    rw [← List.getElem?_map, ← List.getElem?_map, h.mem']
  have hany : (t.mappings.any fun m => m.auxId == id) = (s.mappings.any fun m => m.auxId == id) := by
    have key : ∀ ms ms' : List Mapping, ms.map Mapping.place = ms'.map Mapping.place →
        (ms'.any fun m => m.auxId == id) = (ms.any fun m => m.auxId == id) := by
      intro ms
      induction ms with
      | nil => intro ms' h; cases ms' with
        | nil => rfl
        | cons m' ms' => simp at h
      | cons m ms ih => intro ms' h; cases ms' with
        | nil => simp at h
        | cons m' ms' =>
          simp only [List.map_cons, List.cons.injEq] at h
          rw [List.any_cons, List.any_cons, ih _ h.2, show m'.auxId = m.auxId from (Prod.mk.inj h.1).1.symm]
    exact key _ _ h.maps
  cases hc : cache[id]? with
  | none => cases hc' : t.memCache[id]? with
    | none => exact ⟨rfl, h⟩
    | some c' => rw [hc, hc'] at hsz; cases hsz
  | some c => cases hc' : t.memCache[id]? with
    | none => rw [hc, hc'] at hsz; cases hsz
    | some c' =>
    rw [hc, hc'] at hsz
    simp only [Option.map_some, Option.some.injEq] at hsz
    dsimp only
    rw [hsz]
    refine resAlike_same _ fun _ => resAlike_same _ fun dflt => ?_
    by_cases h4 : a % 4 ≠ 0
    · rw [if_pos h4, if_pos h4]; exact ⟨rfl, h⟩
    rw [if_neg h4, if_neg h4]
    by_cases h0 : c.size = 0
    · rw [if_pos h0, if_pos h0]; exact ⟨rfl, h⟩
    rw [if_neg h0, if_neg h0]
    split
    · exact ⟨rfl, h⟩
    split
    · exact ⟨rfl, h⟩
    refine resAlike_same _ fun _ => ?_
    split
    · exact ⟨rfl, h⟩
    refine resAlike_same _ fun _ => ?_
    split
    · exact ⟨rfl, h⟩
    rw [hany]
    split
    · exact ⟨rfl, h⟩
    refine resAlike_bind (findOverlap_akin h.maps _ _) fun o o' ho => ?_
    cases o <;> cases o'
    · refine ⟨rfl, ⟨h.regs, h.hwb, h.mem.symm ▸ rfl, h.mem', ?_, h.cycles, h.halted, h.changedPc, ?_, h.devs⟩⟩
      · simp only [List.map_append, h.maps]; rfl
      intro m hm
      rcases List.mem_append.mp hm with hm | hm
      · exact h.placed m hm
      · rw [List.mem_singleton] at hm; subst hm
        exact ⟨mod4_nat.mp (Decidable.not_not.mp h4), h0, c, hc, rfl⟩
    · exact ho.elim
    · exact ho.elim
    · exact ⟨ho, h⟩

/-- The accumulators of the loop agree on what decides of the next calls. -/
def sameAcc (x y : ContigAcc) : Prop := x.lastAddr = y.lastAddr ∧ x.maxAddr = y.maxAddr ∧ x.failed.length = y.failed.length

omit [Bus D] [Bus E] in
theorem contigLoop_akin (ids : List Nat) : ∀ (acc acc' : ContigAcc) {s : Machine D} {t : Machine E}, sameAcc acc acc' →
    Akin R cache s t →
    resAlike (fun x y => sameAcc x.1 y.1 ∧ Akin R cache x.2 y.2) (contigLoop pf acc s ids) (contigLoop pf acc' t ids) := by
  induction ids with
  | nil => intro acc acc' s t ha h; exact ⟨ha, h⟩
  | cons i is ih =>
    intro acc acc' s t ha h
    refine resAlike_bind (Q := fun x y => sameAcc x.1 y.1 ∧ Akin R cache x.2 y.2) ?_ ?_
    · unfold contigStep map
      rw [← ha.1]
      refine resAlike_bind (internalMap_akin h _ _ _) ?_
      rintro ⟨r, s'⟩ ⟨r', t'⟩ ⟨h1, h2⟩
      dsimp only at h1 h2 ⊢
      refine resAlike_bind (Q := sameAcc) ?_ fun x y hxy => ?_
      · cases r with
        | ok r => cases r' with
          | ok r' =>
            cases (show r = r' from h1)
            refine resAlike_same _ fun last => ?_
            exact ⟨rfl, by simp only [ha.2.1], ha.2.2⟩
          | error e => exact h1.elim
        | error e => cases r' with
          | ok r' => exact (by cases e <;> exact h1.elim)
          | error e' => exact ⟨rfl, ha.2.1, by simp [ha.2.2]⟩
      · have hsz : t'.memCache[i]?.map (·.size) = s'.memCache[i]?.map (·.size) := by
          rw [← List.getElem?_map, ← List.getElem?_map, h2.mem', h2.mem]
        cases hc : s'.memCache[i]? with
        | none => cases hc' : t'.memCache[i]? with
          | none => trivial
          | some c' => rw [hc, hc'] at hsz; cases hsz
        | some c => cases hc' : t'.memCache[i]? with
          | none => rw [hc, hc'] at hsz; cases hsz
          | some c' => exact ⟨hxy, h2⟩
    · rintro ⟨r, s'⟩ ⟨r', t'⟩ ⟨h1, h2⟩
      exact ih _ _ h1 h2

theorem hostStep_akin (hi : DevAlike R cache) {s : Machine D} {t : Machine E} (h : Akin R cache s t) (op : HostOp)
    (hl : op = .next → ∀ w devs, Fetches pf s w devs → ¬ AsksLabel s.regs w) :
    resAlike (Akin R cache) (hostStep pf s op) (hostStep pf t op) := by
  cases op with
  | next => exact next_akin hi h (hl rfl)
  | cpuReset => exact h.cpuReset
  | reset => exact boardReset_akin hi h
  | map a i => exact resAlike_map (internalMap_akin h _ _ _) fun _ _ h => h.2
  | mapAbs a e i => exact resAlike_map (internalMap_akin h _ _ _) fun _ _ h => h.2
  | mapContiguous a is =>
    refine resAlike_map (Q := fun x y => Akin R cache x.2 y.2) ?_ fun _ _ h => h
    exact resAlike_bind (contigLoop_akin is _ _ ⟨rfl, rfl, rfl⟩ h) fun x y h => h.2
  | memRead a ex => exact resAlike_map (memRead_akin hi h _ _) fun _ _ h => h.2.2
  | memWrite a w ex => exact resAlike_map (memWrite_akin hi h _ _ _) fun _ _ h => h.2
  | setRegs f => exact h.withRegs f

theorem hostRun_akin (hi : DevAlike R cache) (ops : List HostOp) {s : Machine D} {t : Machine E} (h : Akin R cache s t)
    (hl : NeverAsks pf ops s) : resAlike (Akin R cache) (hostRun pf ops s) (hostRun pf ops t) := by
  induction ops generalizing s t with
  | nil => exact h
  | cons op ops ih =>
    have h1 := hostStep_akin (pf := pf) hi h op hl.1
    show resAlike _ (hostStep pf s op >>= hostRun pf ops) (hostStep pf t op >>= hostRun pf ops)
    cases e1 : hostStep pf s op <;> cases e2 : hostStep pf t op <;> rw [e1, e2] at h1
    · trivial
    · exact h1.elim
    · exact h1.elim
    · exact ih h1 (hl.2 _ e1)

theorem idSum_some (m : Metadata) : pf.add (m[0].setWidth 64 <<< 32) (m[1].setWidth 64 : U64) ≠ none := by
  unfold Profile.add
  cases pf with
  | release => simp
  | debug =>
    dsimp only
    rw [if_pos]
    · simp
    · have h0 := m[0].isLt
      have h1 := m[1].isLt
      simp only [BitVec.toNat_shiftLeft, BitVec.toNat_setWidth, Nat.shiftLeft_eq]
      omega

/-- New boards. -/
theorem newBoard_akin {ds : List D} {es : List E} (hlen : ds.length = es.length)
    (h : ∀ (i : Nat) (d : D) (e : E), ds[i]? = some d → es[i]? = some e →
      resAlike (fun m m' : Metadata => m[2] = m'[2]) (Bus.metadata pf d) (Bus.metadata pf e) ∧ R i d e) :
    resAlike (fun s t => Akin R s.memCache s t) (newBoard pf ds) (newBoard pf es) := by
  have key : ∀ (ds : List D) (es : List E) (k : Nat), ds.length = es.length →
      (∀ (i : Nat) (d : D) (e : E), ds[i]? = some d → es[i]? = some e →
        resAlike (fun m m' : Metadata => m[2] = m'[2]) (Bus.metadata pf d) (Bus.metadata pf e)) →
      resAlike (fun cs cs' => cs.map (·.size) = cs'.map (·.size) ∧ cs.map (·.metadata[2]) = cs'.map (·.metadata[2]))
        (createCaches pf k ds) (createCaches pf k es) := by
    intro ds
    induction ds with
    | nil => intro es k hl _; cases es with
      | nil => exact ⟨rfl, rfl⟩
      | cons e es => exact absurd hl (by simp)
    | cons d ds ih => intro es k hl hh; cases es with
      | nil => exact absurd hl (by simp)
      | cons e es =>
        unfold createCaches
        refine resAlike_same _ fun _ => ?_
        refine resAlike_bind (Q := fun c c' => c.size = c'.size ∧ c.metadata[2] = c'.metadata[2]) ?_ fun c c' hc => ?_
        · unfold createCache
          refine resAlike_bind (hh 0 d e rfl rfl) fun m m' hm => ?_
          cases e1 : pf.add (m[0].setWidth 64 <<< 32) (m[1].setWidth 64 : U64) with
          | none => exact absurd e1 (idSum_some m)
          | some x => cases e2 : pf.add (m'[0].setWidth 64 <<< 32) (m'[1].setWidth 64 : U64) with
            | none => exact absurd e2 (idSum_some m')
            | some x' => exact ⟨hm, hm⟩
        · refine resAlike_bind (ih es (k + 1) (by simpa using hl) fun i x y hx hy => hh (i + 1) x y (by simpa using hx) (by simpa using hy)) fun cs cs' hcs => ?_
          exact ⟨by simp [hc.1, hcs.1], by simp [hc.2, hcs.2]⟩
  have hc := key ds es 0 hlen fun i d e hd he => (h i d e hd he).1
  unfold newBoard
  rw [← hlen]
  refine resAlike_same _ fun _ => resAlike_bind hc fun mc mc' hm => resAlike_bind hc fun hw hw' hw2 => ?_
  exact ⟨rfl, hw2.2, rfl, hm.1.symm, rfl, rfl, rfl, rfl, (by intro m hm; cases hm), hlen, fun i d e hd he => (h i d e hd he).2⟩

end Lrvm
