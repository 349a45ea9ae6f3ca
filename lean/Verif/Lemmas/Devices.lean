import Verif.Lemmas.MapCall
import Verif.Props.Mapping

/-!
# Invariants of components along a history

A property of components that in-range requests and resets preserve holds in every history of a board.
-/

namespace Lrvm

open Spec

variable {D : Type} [Bus D] {pf : Profile}

/-- The request address is a multiple of 4 below the size the board remembers for component `id`. -/
def InRange (cache : List AuxCache) (id : Nat) (a : Word) : Prop :=
  a.toNat % 4 = 0 ∧ ∃ c, cache[id]? = some c ∧ a.toNat < c.size.toNat

/-- What every mapping call guarantees, `map_abs` included. -/
def Placed (cache : List AuxCache) (maps : List Mapping) : Prop :=
  ∀ m ∈ maps, m.addr.toNat % 4 = 0 ∧ m.size ≠ 0 ∧ ∃ c, cache[m.auxId]? = some c ∧ m.size = c.size

/-- `P` is preserved by in-range requests and by resets. -/
structure DevInv (P : Nat → D → Prop) (cache : List AuxCache) : Prop where
  read : ∀ {id d a ex d' w ex'}, P id d → InRange cache id a → Bus.read d a ex = some (d', w, ex') → P id d'
  write : ∀ {id d a w ex d' ex'}, P id d → InRange cache id a → Bus.write d a w ex = some (d', ex') → P id d'
  reset : ∀ {id d d'}, P id d → Bus.reset d = some d' → P id d'

/-- `P` holds of every component. -/
def AllDev (P : Nat → D → Prop) (devs : List D) : Prop := ∀ id d, devs[id]? = some d → P id d

theorem AllDev.set {P : Nat → D → Prop} {devs : List D} (h : AllDev P devs) {id : Nat} {d : D} (hd : P id d) :
    AllDev P (devs.set id d) := by
  intro i e he
  rw [List.getElem?_set] at he
  split at he
  · next hi =>
    split at he
    · injection he with he; rw [← he, ← hi]; exact hd
    · cases he
  · exact h i e he

theorem inRange_of_find {cache : List AuxCache} {maps : List Mapping} (hp : Placed cache maps) {a off : Word} {m : Mapping}
    (h4 : assert (off % 4 == 0) = some ())
    (h : findMapping pf maps a = some (some m)) (ho : pf.sub a m.addr = some off) :
    InRange cache m.auxId off := by
  obtain ⟨hm, h1, e, he, h2⟩ := findMapping_some h
  obtain ⟨_, hs, c, hc, hsz⟩ := hp m hm
  have hcov := (covers_of_endAddr h1 he h2).resolve_right hs
  have hoff : off = a - m.addr := (sub_inv ho).1
  refine ⟨?_, c, hc, ?_⟩
  · by_cases h : off.toNat % 4 = 0
    · exact h
    · rw [assert_unaligned h] at h4; cases h4
  · rw [hoff, offset_nat h1, ← hsz]
    have := hcov.2
    omega

theorem devRead_inv {P : Nat → D → Prop} {cache : List AuxCache} (hi : DevInv P cache) {maps : List Mapping}
    (hp : Placed cache maps) {devs devs' : List D} {a w : Word} {ex ex' : U16} (hd : AllDev P devs)
    (h : devRead pf maps devs a ex = some (w, ex', devs')) : AllDev P devs' := by
  unfold devRead at h
  simp only [Option.bind_eq_bind, Option.bind_eq_some_iff] at h
  obtain ⟨_, _, o, ho, h⟩ := h
  cases o with
  | none => simp at h; rw [← h.2.2]; exact hd
  | some m =>
    simp only [Option.bind_eq_some_iff] at h
    obtain ⟨off, hoff, r, hr, h⟩ := h
    cases r with
    | none => simp at h
    | some r =>
      simp at h; subst h
      unfold bridgeRead at hr
      simp only [Option.bind_eq_bind, Option.bind_eq_some_iff] at hr
      obtain ⟨⟨⟩, hal, hr⟩ := hr
      split at hr
      · cases hr
      · next d hdd =>
        simp only [Option.bind_eq_some_iff] at hr
        obtain ⟨⟨d', w', x'⟩, hbr, hr⟩ := hr
        injection hr with hr; injection hr with hr; injection hr with h1 hr; injection hr with h2 hr
        subst hr
        exact hd.set (hi.read (hd _ _ hdd) (inRange_of_find hp hal ho hoff) hbr)

theorem devWrite_inv {P : Nat → D → Prop} {cache : List AuxCache} (hi : DevInv P cache) {maps : List Mapping}
    (hp : Placed cache maps) {devs devs' : List D} {a w : Word} {ex ex' : U16} (hd : AllDev P devs)
    (h : devWrite pf maps devs a w ex = some (ex', devs')) : AllDev P devs' := by
  unfold devWrite at h
  simp only [Option.bind_eq_bind, Option.bind_eq_some_iff] at h
  obtain ⟨_, _, o, ho, h⟩ := h
  cases o with
  | none => simp at h; rw [← h.2]; exact hd
  | some m =>
    simp only [Option.bind_eq_some_iff] at h
    obtain ⟨off, hoff, r, hr, h⟩ := h
    cases r with
    | none => simp at h
    | some r =>
      simp at h; subst h
      unfold bridgeWrite at hr
      simp only [Option.bind_eq_bind, Option.bind_eq_some_iff] at hr
      obtain ⟨⟨⟩, hal, hr⟩ := hr
      split at hr
      · cases hr
      · next d hdd =>
        simp only [Option.bind_eq_some_iff] at hr
        obtain ⟨⟨d', x'⟩, hbr, hr⟩ := hr
        injection hr with hr; injection hr with hr; injection hr with h1 hr
        subst hr
        exact hd.set (hi.write (hd _ _ hdd) (inRange_of_find hp hal ho hoff) hbr)

theorem bridgeReset_inv {P : Nat → D → Prop} {cache : List AuxCache} (hi : DevInv P cache) {devs devs' : List D}
    {id : Nat} (hd : AllDev P devs) (h : bridgeReset devs id = some (some devs')) : AllDev P devs' := by
  unfold bridgeReset at h
  split at h
  · cases h
  · next d hdd =>
    simp only [Option.bind_eq_bind, Option.bind_eq_some_iff] at h
    obtain ⟨d', hr, h⟩ := h
    injection h with h; injection h with h; subst h
    exact hd.set (hi.reset (hd _ _ hdd) hr)

theorem memRead_inv {P : Nat → D → Prop} {s s' : Machine D} (hi : DevInv P s.memCache) 
    (hp : Placed s.memCache s.mappings) {a w : Word} {ex ex' : U16} (hd : AllDev P s.devs)
    (h : memRead pf s a ex = some (w, ex', s')) : AllDev P s'.devs := by
  rw [memRead_eq, Option.map_eq_some_iff] at h
  obtain ⟨⟨x, y, z⟩, hdr, h⟩ := h
  injection h with h1 h; injection h with h2 h; rw [← h]; exact devRead_inv hi hp hd hdr

theorem memWrite_inv {P : Nat → D → Prop} {s s' : Machine D} (hi : DevInv P s.memCache) 
    (hp : Placed s.memCache s.mappings) {a w : Word} {ex ex' : U16} (hd : AllDev P s.devs)
    (h : memWrite pf s a w ex = some (ex', s')) : AllDev P s'.devs := by
  rw [memWrite_eq, Option.map_eq_some_iff] at h
  obtain ⟨⟨x, z⟩, hdr, h⟩ := h
  injection h with h1 h; rw [← h]; exact devWrite_inv hi hp hd hdr

theorem transl_inv {P : Nat → D → Prop} {cache : List AuxCache} (hi : DevInv P cache) {maps : List Mapping}
    (hp : Placed cache maps) {r : Regs} {devs devs' : List D} {v : Word} {x : Except (Option U16) Word}
    (hd : AllDev P devs) (h : transl pf r maps devs v = some (x, devs')) : AllDev P devs' := by
  unfold transl at h
  split at h
  · simp at h; rw [← h.2]; exact hd
  · simp only [Option.bind_eq_bind, Option.bind_eq_some_iff] at h
    obtain ⟨a, _, ⟨e, ex, d1⟩, hr, h⟩ := h
    have := devRead_inv hi hp hd hr
    repeat' split at h
    all_goals (simp at h; rw [← h.2]; exact this)

theorem accRead_inv {P : Nat → D → Prop} {cache : List AuxCache} (hi : DevInv P cache) {maps : List Mapping}
    (hp : Placed cache maps) {r : Regs} {devs devs' : List D} {v : Word} (hd : AllDev P devs) :
    (∀ w, accRead pf r maps devs v = .done w devs' → AllDev P devs') ∧
    (∀ c d, accRead pf r maps devs v = .fault c d devs' → AllDev P devs') := by
  unfold accRead accDo
  constructor <;> intro a
  · intro h
    repeat' split at h
    all_goals first
      | cases h; done
      | skip
    next ht _ _ _ _ hh _ =>
      injection h with h1 h2; subst h2; exact devRead_inv hi hp (transl_inv hi hp hd ht) hh
  · intro d h
    repeat' split at h
    all_goals first
      | cases h; done
      | skip
    · injection h with h1 h2 h3; rw [← h3]; exact hd
    · next ht _ _ _ _ hh _ =>
        injection h with h1 h2 h3; subst h3; exact devRead_inv hi hp (transl_inv hi hp hd ht) hh
    · next ht => injection h with h1 h2 h3; subst h3; exact transl_inv hi hp hd ht
    · next ht => injection h with h1 h2 h3; subst h3; exact transl_inv hi hp hd ht

theorem Machine.setSp_frame (t : Machine D) (v : Word) : (t.setSp v).devs = t.devs ∧
    (t.setSp v).memCache = t.memCache ∧ (t.setSp v).mappings = t.mappings := by
  unfold Machine.setSp; split <;> exact ⟨rfl, rfl, rfl⟩

/-- One effect preserves a component invariant. -/
theorem Eff.devInv {P : Nat → D → Prop} {f : Fields} {t u : Machine D} (h : Eff pf f t u)
    (hi : DevInv P t.memCache) (hp : Placed t.memCache t.mappings) (hd : AllDev P t.devs) :
    u.memCache = t.memCache ∧ u.mappings = t.mappings ∧ AllDev P u.devs := by
  cases h with
  | regWrite hd' hu h17 h1A h1B hw => exact ⟨rfl, rfl, hd⟩
  | flags r c o h => exact ⟨rfl, rfl, hd⟩
  | jump v h => exact ⟨rfl, rfl, hd⟩
  | lsm v h hs => exact ⟨rfl, rfl, hd⟩
  | skip h => exact ⟨rfl, rfl, hd⟩
  | itr d h => exact ⟨rfl, rfl, hd⟩
  | avr w h => exact ⟨rfl, rfl, hd⟩
  | sp v h =>
    obtain ⟨h1, h2, h3⟩ := Machine.setSp_frame t v
    rw [h1, h2, h3]; exact ⟨rfl, rfl, hd⟩
  | busRead h hr => exact ⟨by rw [memRead_frame hr], by rw [memRead_frame hr], memRead_inv hi hp hd hr⟩
  | busWrite h hr => exact ⟨by rw [memWrite_frame hr], by rw [memWrite_frame hr], memWrite_inv hi hp hd hr⟩
  | devReset h hr => exact ⟨rfl, rfl, bridgeReset_inv hi hd hr⟩
  | halt h => exact ⟨rfl, rfl, hd⟩
  | cpuReset h => exact ⟨rfl, rfl, hd⟩

theorem Effs.devInv {P : Nat → D → Prop} {f : Fields} {t u : Machine D} (h : Effs pf f t u)
    (hi : DevInv P t.memCache) (hp : Placed t.memCache t.mappings) (hd : AllDev P t.devs) :
    AllDev P u.devs := by
  refine (h.inv (P := fun v => v.memCache = t.memCache ∧ v.mappings = t.mappings ∧ AllDev P v.devs)
    ⟨rfl, rfl, hd⟩ ?_).2.2
  rintro v v' ⟨h1, h2, h3⟩ he
  obtain ⟨e1, e2, e3⟩ := he.devInv (h1 ▸ hi) (by rw [h1, h2]; exact hp) h3
  exact ⟨e1.trans h1, e2.trans h2, e3⟩

theorem next_devInv {P : Nat → D → Prop} {s s' : Machine D} (hi : DevInv P s.memCache)
    (hp : Placed s.memCache s.mappings) (hd : AllDev P s.devs) (h : next pf s = some s') : AllDev P s'.devs := by
  by_cases hh : s.halted = true
  · unfold next at h; rw [if_pos hh] at h; injection h with h; rw [← h]; exact hd
  · rcases next_inv h (by simpa using hh) with ⟨devs, c, d, _, ha, _, rfl⟩ | ⟨w, devs, hf, _, hr⟩
    · exact (accRead_inv hi hp hd).2 _ _ ha
    · have hd1 : AllDev P devs := (accRead_inv hi hp hd).1 _ (fetches_iff.mp hf).2
      rcases hr with ⟨t, c, d, _, he, _, rfl⟩ | ⟨t, _, he, rfl⟩
      · exact he.devInv (t := atExec s devs) hi hp hd1
      · have := he.devInv (t := atExec s devs) hi hp hd1
        split <;> exact this

theorem internalMap_aligned {s s' : Machine D} {start : Word} {stop? : Option Word} {auxId : Nat}
    {rng : MappingRange} (h : internalMap pf s start stop? auxId = some (.ok rng, s')) :
    start.toNat % 4 = 0 ∧ ∃ c, s.memCache[auxId]? = some c ∧ c.size ≠ 0 ∧
      s' = { s with mappings := s.mappings ++ [⟨auxId, c.hwId, start, c.size⟩] } := by
  rw [internalMap_eq] at h
  cases hc : s.memCache[auxId]? with
  | none => rw [hc] at h; injection h with h; injection h with h1 h2; cases h1
  | some cache =>
    rw [hc] at h
    dsimp only at h
    cases hd : dfltEnd pf start cache.size with
    | none => rw [hd] at h; cases h
    | some d =>
      rw [hd] at h
      dsimp only at h
      unfold mapDecide at h
      by_cases h1 : start % 4 ≠ 0
      · rw [if_pos h1] at h; injection h with h; injection h with h1 h2; cases h1
      rw [if_neg h1] at h
      by_cases h2 : cache.size = 0
      · rw [if_pos h2] at h; injection h with h; injection h with h1 h2; cases h1
      refine ⟨mod4_nat.mp (Decidable.not_not.mp h1), cache, rfl, h2, ?_⟩
      repeat' split at h
      all_goals first
        | (cases h; done)
        | (injection h with h; injection h with h1 h2; first | (cases h1; done) | exact h2.symm)

theorem internalMap_placed {s s' : Machine D} {start : Word} {stop? : Option Word} {auxId : Nat}
    {r : Except MappingError MappingRange} (hp : Placed s.memCache s.mappings)
    (h : internalMap pf s start stop? auxId = some (r, s')) :
    s'.devs = s.devs ∧ s'.memCache = s.memCache ∧ Placed s.memCache s'.mappings := by
  cases r with
  | error e =>
    rcases internalMap_inv h with ⟨_, rfl⟩ | ⟨_, _, _, hr, _⟩
    · exact ⟨rfl, rfl, hp⟩
    · cases hr
  | ok rng =>
    obtain ⟨h4, c, hc, h0, rfl⟩ := internalMap_aligned h
    refine ⟨rfl, rfl, ?_⟩
    intro m hm
    rcases List.mem_append.mp hm with hm | hm
    · exact hp m hm
    · rw [List.mem_singleton] at hm; subst hm; exact ⟨h4, h0, c, hc, rfl⟩

theorem contigLoop_placed {s s' : Machine D} {acc acc' : ContigAcc} {ids : List Nat}
    (hp : Placed s.memCache s.mappings) (h : contigLoop pf acc s ids = some (acc', s')) :
    s'.devs = s.devs ∧ s'.memCache = s.memCache ∧ Placed s.memCache s'.mappings := by
  induction ids generalizing acc s with
  | nil => simp only [contigLoop, Option.some.injEq, Prod.mk.injEq] at h; rw [← h.2]; exact ⟨rfl, rfl, hp⟩
  | cons i is ih =>
    simp only [contigLoop, Option.bind_eq_bind, Option.bind_eq_some_iff] at h
    obtain ⟨⟨a1, s1⟩, hst, h⟩ := h
    simp only [contigStep, Option.bind_eq_bind, Option.bind_eq_some_iff] at hst
    obtain ⟨⟨r2, s2⟩, hm2, a2, _, hst⟩ := hst
    split at hst
    · cases hst
    · injection hst with hst; injection hst with _ hst; subst hst
      obtain ⟨e1, e2, e3⟩ := internalMap_placed hp hm2
      obtain ⟨f1, f2, f3⟩ := ih (e2 ▸ e3) h
      exact ⟨f1.trans e1, f2.trans e2, e2 ▸ f3⟩

/-- Along any history of host calls. -/
theorem hostStep_devInv {P : Nat → D → Prop} {s s' : Machine D} {op : HostOp} (hi : DevInv P s.memCache)
    (hp : Placed s.memCache s.mappings) (hd : AllDev P s.devs) (h : hostStep pf s op = some s') :
    s'.memCache = s.memCache ∧ Placed s.memCache s'.mappings ∧ AllDev P s'.devs := by
  cases op with
  | next =>
    have hk := C38_step_keeps_hardware h
    exact ⟨hk.2.2.2, hk.2.1 ▸ hp, next_devInv hi hp hd h⟩
  | cpuReset => injection h with h; rw [← h]; exact ⟨rfl, hp, hd⟩
  | reset =>
    simp only [hostStep, boardReset, Option.bind_eq_bind, Option.bind_eq_some_iff] at h
    obtain ⟨devs, hr, h⟩ := h
    injection h with h; rw [← h]
    refine ⟨rfl, hp, ?_⟩
    have key : ∀ (P : Nat → D → Prop), (∀ {id d d'}, P id d → Bus.reset d = some d' → P id d') →
        ∀ (l l' : List D), AllDev P l → resetAll l = some l' → AllDev P l' := by
      intro P hP l
      induction l generalizing P with
      | nil => intro l' hl hr; injection hr with hr; rw [← hr]; exact hl
      | cons d ds ih =>
        intro l' hl hr
        simp only [resetAll, Option.bind_eq_bind, Option.bind_eq_some_iff] at hr
        obtain ⟨d', h1, ds', h2, h3⟩ := hr
        injection h3 with h3; subst h3
        have := ih (fun i => P (i + 1)) (fun {id d d'} => hP) ds' (fun i e he => hl (i + 1) e (by simpa using he)) h2
        intro i e he
        cases i with
        | zero => simp at he; subst he; exact hP (hl 0 d (by simp)) h1
        | succ i => simp at he; exact this i e he
    exact key P hi.reset _ _ hd hr
  | map a i =>
    simp only [hostStep, Option.map_eq_some_iff] at h
    obtain ⟨⟨r, v⟩, hm, rfl⟩ := h
    obtain ⟨e1, e2, e3⟩ := internalMap_placed hp hm
    exact ⟨e2, e3, by rw [e1]; exact hd⟩
  | mapAbs a e i =>
    simp only [hostStep, Option.map_eq_some_iff] at h
    obtain ⟨⟨r, v⟩, hm, rfl⟩ := h
    obtain ⟨e1, e2, e3⟩ := internalMap_placed hp hm
    exact ⟨e2, e3, by rw [e1]; exact hd⟩
  | mapContiguous a is =>
    simp only [hostStep, Option.map_eq_some_iff, mapContiguous, Option.bind_eq_bind, Option.bind_eq_some_iff] at h
    obtain ⟨⟨r, v⟩, ⟨⟨a1, s1⟩, hl, hm⟩, rfl⟩ := h
    injection hm with hm; injection hm with _ hm; subst hm
    obtain ⟨e1, e2, e3⟩ := contigLoop_placed hp hl
    exact ⟨e2, e3, by rw [e1]; exact hd⟩
  | memRead a ex =>
    simp only [hostStep, Option.map_eq_some_iff] at h
    obtain ⟨⟨w, e, t⟩, hm, rfl⟩ := h
    have hf := memRead_frame hm
    exact ⟨by rw [hf], by rw [hf]; exact hp, memRead_inv hi hp hd hm⟩
  | memWrite a w ex =>
    simp only [hostStep, Option.map_eq_some_iff] at h
    obtain ⟨⟨e, t⟩, hm, rfl⟩ := h
    have hf := memWrite_frame hm
    exact ⟨by rw [hf], by rw [hf]; exact hp, memWrite_inv hi hp hd hm⟩
  | setRegs f => injection h with h; rw [← h]; exact ⟨rfl, hp, hd⟩

theorem hostRun_devInv {P : Nat → D → Prop} {s s' : Machine D} {ops : List HostOp} (hi : DevInv P s.memCache)
    (hp : Placed s.memCache s.mappings) (hd : AllDev P s.devs) (h : hostRun pf ops s = some s') :
    s'.memCache = s.memCache ∧ Placed s.memCache s'.mappings ∧ AllDev P s'.devs := by
  refine hostRun_inv (P := fun t => t.memCache = s.memCache ∧ Placed s.memCache t.mappings ∧ AllDev P t.devs)
    h ⟨rfl, hp, hd⟩ ?_
  rintro op _ t u ⟨h1, h2, h3⟩ hst
  obtain ⟨e1, e2, e3⟩ := hostStep_devInv (h1 ▸ hi) (by rw [h1]; exact h2) h3 hst
  exact ⟨e1.trans h1, by rw [← h1]; exact e2, e3⟩

/-- What a new board remembers of its components. -/
theorem createCaches_get {devs : List D} {k : Nat} {cs : List AuxCache} (h : createCaches pf k devs = some cs) :
    cs.length = devs.length ∧ ∀ i d, devs[i]? = some d → ∃ c md, cs[i]? = some c ∧ Bus.metadata pf d = some md ∧
      c.metadata = md ∧ c.size = md[2] ∧ c.name = truncName (Bus.name d) ∧ c.id = k + i ∧
      c.hwId.toNat = md[0].toNat * 2 ^ 32 + md[1].toNat := by
  induction devs generalizing k cs with
  | nil => injection h with h; subst h; exact ⟨rfl, by simp⟩
  | cons d ds ih =>
    simp only [createCaches, Option.bind_eq_bind, Option.bind_eq_some_iff] at h
    obtain ⟨_, _, c, hc, cs', hcs, h⟩ := h
    injection h with h; subst h
    obtain ⟨hl, hg⟩ := ih hcs
    refine ⟨by simp [hl], ?_⟩
    intro i e he
    cases i with
    | zero =>
      simp at he; subst he
      simp only [createCache, Option.bind_eq_bind, Option.bind_eq_some_iff] at hc
      obtain ⟨md, hmd, hw, hhw, hc⟩ := hc
      injection hc with hc; subst hc
      refine ⟨_, md, rfl, hmd, rfl, rfl, rfl, rfl, ?_⟩
      have hv : hw = (md[0].setWidth 64 <<< 32) + (md[1].setWidth 64) := by
        cases pf with
        | release => exact (Option.some.inj hhw).symm
        | debug =>
          simp only [Profile.add, Option.ite_none_right_eq_some, Option.some.injEq] at hhw
          exact hhw.2.symm
      show hw.toNat = _
      rw [hv, BitVec.toNat_add, BitVec.toNat_shiftLeft, BitVec.toNat_setWidth, BitVec.toNat_setWidth,
        Nat.shiftLeft_eq]
      have h0 := (md[0]).isLt
      have h1 := (md[1]).isLt
      rw [Nat.mod_eq_of_lt (show md[0].toNat < 2 ^ 64 by omega), Nat.mod_eq_of_lt (show md[1].toNat < 2 ^ 64 by omega)]
      omega
    | succ i =>
      simp at he
      obtain ⟨c', md, h1, h2, h3, h4, h5, h6, h7⟩ := hg i e he
      exact ⟨c', md, by simpa using h1, h2, h3, h4, h5, by rw [h6]; omega, h7⟩

theorem newBoard_inv {devs : List D} {s : Machine D} (h : newBoard pf devs = some s) :
    createCaches pf 0 devs = some s.memCache ∧ s.hwbCache = s.memCache ∧ s.devs = devs ∧ s.mappings = [] ∧
    s.regs = { Regs.zero with smt := 1 } ∧ s.cycles = 0 ∧ s.halted = true := by
  simp only [newBoard, Option.bind_eq_bind, Option.bind_eq_some_iff] at h
  obtain ⟨_, _, c1, h1, c2, h2, h⟩ := h
  injection h with h; subst h
  rw [h1] at h2; injection h2 with h2
  exact ⟨h1, h2.symm, rfl, rfl, rfl, rfl, rfl⟩

end Lrvm
