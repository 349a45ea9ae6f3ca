import Verif.Props.Mapping

/-!
# `map_contiguous`, `map_abs` and panics of mapping calls: C47, C48, C49
-/

namespace Lrvm

open Spec

variable {D : Type} [Bus D] {pf : Profile}

/-! ## C47 -/

/-- The ranges follow each other without gap, starting at `addr` (modulo `2 ^ 32`). -/
def Spec.Packed : Word → List Mapping → Prop
  | _, [] => True
  | addr, m :: ms => m.addr = addr ∧ Packed (addr + m.size) ms

/-- Total size of a list of ranges. -/
def Spec.totalSize (l : List Mapping) : Nat := (l.map fun m => m.size.toNat).sum

/-- The identifiers of the components whose mapping succeeded, in order. -/
def Spec.mappedIds : List AuxMappingStatus → List Nat
  | [] => []
  | st :: sts => match st.auxMapping with
    | .ok _ => st.auxId :: mappedIds sts
    | .error _ => mappedIds sts

/-- The identifiers of the components whose mapping failed, in order, with the error. -/
def Spec.failures : List AuxMappingStatus → List (Nat × MappingError)
  | [] => []
  | st :: sts => match st.auxMapping with
    | .ok _ => failures sts
    | .error e => (st.auxId, e) :: failures sts

theorem map_ok_inv {s s' : Machine D} {addr : Word} {id : Nat} {rng : MappingRange}
    (h : Lrvm.map pf s addr id = some (.ok rng, s')) :
    ∃ cache, s.memCache[id]? = some cache ∧ rng = ⟨addr, addr + cache.size - 4⟩ ∧
      s' = { s with mappings := s.mappings ++ [⟨id, cache.hwId, addr, cache.size⟩] } := by
  unfold Lrvm.map at h
  rw [internalMap_eq] at h
  cases hc : s.memCache[id]? with
  | none => rw [hc] at h; cases h
  | some cache =>
    rw [hc] at h
    dsimp only at h
    cases hd : dfltEnd pf addr cache.size with
    | none => rw [hd] at h; cases h
    | some d =>
      rw [hd] at h
      simp only [Option.getD_none] at h
      simp only [dfltEnd, Option.bind_eq_bind, Option.bind_eq_some_iff] at hd
      obtain ⟨t, h1, h2⟩ := hd
      obtain ⟨rfl, h1'⟩ := add_inv h1
      obtain ⟨rfl, h2'⟩ := sub_inv h2
      unfold mapDecide at h
      repeat' split at h
      all_goals first
        | (cases h; done)
        | (injection h with h; injection h with h1 h2; injection h1 with h1
           exact ⟨cache, rfl, h1.symm, h2.symm⟩)

/-- What the loop of `map_contiguous` has done. -/
theorem contigLoop_spec {s s' : Machine D} {acc acc' : ContigAcc} {ids : List Nat}
    (h : contigLoop pf acc s ids = some (acc', s')) :
    ∃ new sts, acc'.auxMapping = acc.auxMapping ++ sts ∧ sts.map (·.auxId) = ids ∧
      s'.mappings = s.mappings ++ new ∧ Packed acc.lastAddr new ∧ new.map (·.auxId) = mappedIds sts ∧
      acc'.failed = acc.failed ++ failures sts ∧
      (∀ m ∈ new, ∃ c, s.memCache[m.auxId]? = some c ∧ m.size = c.size ∧ m.auxHwId = c.hwId) ∧
      (new = [] → acc'.maxAddr = acc.maxAddr) ∧
      (new ≠ [] → (∀ m ∈ new, 4 ≤ m.size.toNat) → acc.maxAddr.toNat ≤ acc.lastAddr.toNat →
        acc.lastAddr.toNat + totalSize new ≤ 2 ^ 32 →
        acc'.maxAddr.toNat + 4 = acc.lastAddr.toNat + totalSize new) := by
  induction ids generalizing acc s with
  | nil =>
    simp only [contigLoop, Option.some.injEq, Prod.mk.injEq] at h
    obtain ⟨rfl, rfl⟩ := h
    exact ⟨[], [], by simp, rfl, by simp, trivial, rfl, by simp [failures], by simp, fun _ => rfl, by simp⟩
  | cons i is ih =>
    simp only [contigLoop, Option.bind_eq_bind, Option.bind_eq_some_iff] at h
    obtain ⟨⟨a1, s1⟩, hst, h⟩ := h
    simp only [contigStep, Option.bind_eq_bind, Option.bind_eq_some_iff] at hst
    obtain ⟨⟨r2, s2⟩, hm2, a2, hacc, hst⟩ := hst
    split at hst
    · cases hst
    next cache hcache =>
    injection hst with hst; injection hst with hst1 hst2
    subst hst1 hst2
    obtain ⟨new, sts, e1, e2, e3, e4, e5, e6, e7, e8, e9⟩ := ih h
    cases r2 with
    | error e =>
      have hs2 : s2 = s := C45_failed_mapping_changes_nothing (e := 0) (.inl hm2)
      subst hs2
      injection hacc with hacc
      subst hacc
      refine ⟨new, ⟨i, cache.hwId, cache.name, .error e⟩ :: sts, ?_, ?_, e3, e4, ?_, ?_, e7, e8, e9⟩
      · rw [e1]; simp
      · simp [e2]
      · simp only [mappedIds]; exact e5
      · rw [e6]; simp [failures]
    | ok rng =>
      obtain ⟨c, hc, rfl, rfl⟩ := map_ok_inv hm2
      simp only [Option.bind_eq_some_iff] at hacc
      obtain ⟨last, hlast, hacc⟩ := hacc
      obtain ⟨rfl, _⟩ := add_inv hlast
      injection hacc with hacc
      subst hacc
      have hl : acc.lastAddr + c.size - 4 + 4 = acc.lastAddr + c.size := BitVec.sub_add_cancel ..
      dsimp only at e1 e3 e4 e6 e7 e8 e9
      rw [hl] at e4 e9
      refine ⟨⟨i, c.hwId, acc.lastAddr, c.size⟩ :: new,
        ⟨i, cache.hwId, cache.name, .ok ⟨acc.lastAddr, acc.lastAddr + c.size - 4⟩⟩ :: sts, ?_, ?_, ?_, ⟨rfl, e4⟩,
        ?_, ?_, ?_, ?_, ?_⟩
      · rw [e1]; simp
      · simp [e2]
      · rw [e3]; simp
      · simp only [mappedIds, List.map_cons]; rw [e5]
      · rw [e6]; rfl
      · intro m hm
        rcases List.mem_cons.mp hm with rfl | hm
        · exact ⟨c, hc, rfl, rfl⟩
        · exact e7 m hm
      · intro hn; cases hn
      · intro _ hsz hmax hfit
        have h4 : 4 ≤ c.size.toNat := hsz ⟨i, c.hwId, acc.lastAddr, c.size⟩ (List.mem_cons_self ..)
        have hts : totalSize (⟨i, c.hwId, acc.lastAddr, c.size⟩ :: new) = c.size.toNat + totalSize new := by
          simp only [totalSize, List.map_cons, List.sum_cons]
        rw [hts] at hfit ⊢
        have hend := endOf_nat acc.lastAddr c.size
        have hend' : (acc.lastAddr + c.size - 4).toNat = acc.lastAddr.toNat + c.size.toNat - 4 := by omega
        have hmx : (if acc.maxAddr < acc.lastAddr + c.size - 4 then acc.lastAddr + c.size - 4 else acc.maxAddr).toNat
            = acc.lastAddr.toNat + c.size.toNat - 4 := by
          split
          · exact hend'
          · next hlt => rw [bv_lt_nat] at hlt; omega
        by_cases hnew : new = []
        · rw [e8 hnew, hmx, hnew]
          simp [totalSize]; omega
        · have hsum : 4 ≤ totalSize new := by
            cases new with
            | nil => exact absurd rfl hnew
            | cons m ms =>
              have := hsz m (by simp)
              simp [totalSize]; omega
          have hla : (acc.lastAddr + c.size).toNat = acc.lastAddr.toNat + c.size.toNat := by
            rw [BitVec.toNat_add]; omega
          have := e9 hnew (fun m hm => hsz m (by simp [hm])) (by rw [hmx, hla]; omega) (by rw [hla]; omega)
          rw [this, hla]; omega

theorem packed_fits {addr : Word} {l : List Mapping} (h : Packed addr l) (hr : ∀ m ∈ l, RangeOk .debug m) :
    addr.toNat + totalSize l ≤ 2 ^ 32 := by
  induction l generalizing addr with
  | nil => have := addr.isLt; simp [totalSize]; omega
  | cons m ms ih =>
    obtain ⟨h1, h2⟩ := h
    have hm := (hr m (by simp)).fits
    simp only [room] at hm
    have := ih h2 (fun n hn => hr n (by simp [hn]))
    rw [BitVec.toNat_add] at this
    have hts : totalSize (m :: ms) = m.size.toNat + totalSize ms := by simp [totalSize]
    rw [hts, ← h1]
    rw [← h1] at this
    omega

theorem failures_nil {sts : List AuxMappingStatus} (h : failures sts = []) :
    mappedIds sts = sts.map (·.auxId) := by
  induction sts with
  | nil => rfl
  | cons st sts ih =>
    unfold failures at h
    unfold mappedIds
    cases hm : st.auxMapping with
    | ok r => rw [hm] at h; simp only [List.map_cons]; rw [ih h]
    | error e => rw [hm] at h; cases h

/-- **C47**, layout. `map_contiguous` adds one range per component whose mapping succeeded, in the given order,
the first at the given address and each following one right after the previous (modulo `2 ^ 32`); it reports one
status per requested component, in order, and the list of failures is exactly the failed ones. -/
theorem C47_layout {s s' : Machine D} {addr : Word} {ids : List Nat} {r : ContiguousMappingResult}
    (h : mapContiguous pf s addr ids = some (r, s')) :
    r.auxMapping.map (·.auxId) = ids ∧
    (∃ new, s' = { s with mappings := s.mappings ++ new } ∧ Packed addr new ∧
      new.map (·.auxId) = mappedIds r.auxMapping ∧
      ∀ m ∈ new, ∃ c, s.memCache[m.auxId]? = some c ∧ m.size = c.size ∧ m.auxHwId = c.hwId) ∧
    (∀ fs, r.mapping = .error fs → fs = failures r.auxMapping ∧ fs ≠ []) ∧
    (∀ rng, r.mapping = .ok rng → mappedIds r.auxMapping = ids ∧ failures r.auxMapping = []) := by
  have hfr := mapContiguous_frame h
  simp only [mapContiguous, Option.bind_eq_bind, Option.bind_eq_some_iff] at h
  obtain ⟨⟨a1, s1⟩, hl, h⟩ := h
  injection h with h; injection h with h1 h2
  subst h1 h2
  obtain ⟨new, sts, e1, e2, e3, e4, e5, e6, e7, _, _⟩ := contigLoop_spec hl
  rw [List.nil_append] at e1 e6
  dsimp only
  rw [e1, e6]
  refine ⟨e2, ⟨new, by rw [← e3]; exact hfr, e4, e5, e7⟩, ?_, ?_⟩
  · intro fs hfs
    split at hfs
    · cases hfs
    · next hne =>
      injection hfs with hfs; subst hfs
      exact ⟨rfl, by simpa using hne⟩
  · intro rng hrng
    split at hrng
    · next he =>
      have he : failures sts = [] := by simpa using he
      exact ⟨by rw [failures_nil he, e2], he⟩
    · cases hrng

/-- Partial **C47**, reported range: on success of a non-empty request the reported range goes from the given
address to the last word of the last component. In release builds this needs the components to fit before the
end of the address space (missing part, false of the code: they wrap around). -/
theorem C47_reported_range_partial {s s' : Machine D} {addr : Word} {ids : List Nat} {r : ContiguousMappingResult}
    {rng : MappingRange} (ht : TableOk pf s.mappings) (h : mapContiguous pf s addr ids = some (r, s'))
    (hr : r.mapping = .ok rng) (hne : ids ≠ []) {new : List Mapping} (hnew : s'.mappings = s.mappings ++ new)
    (hfit : pf = .release → addr.toNat + totalSize new ≤ 2 ^ 32) :
    rng.startAddr = addr ∧ rng.endAddr.toNat + 4 = addr.toNat + totalSize new := by
  have ht' := mapContiguous_tableOk ht h
  have hlay := C47_layout h
  simp only [mapContiguous, Option.bind_eq_bind, Option.bind_eq_some_iff] at h
  obtain ⟨⟨a1, s1⟩, hl, h⟩ := h
  injection h with h; injection h with h1 h2
  subst h1 h2
  obtain ⟨new', sts, e1, e2, e3, e4, e5, e6, e7, e8, e9⟩ := contigLoop_spec hl
  have : new' = new := List.append_cancel_left (e3.symm.trans hnew)
  subst this
  dsimp only at hr
  split at hr
  · next hf =>
    injection hr with hr
    subst hr
    refine ⟨rfl, e9 ?_ ?_ (Nat.le_refl _) ?_⟩
    · rintro rfl
      have he : failures sts = [] := by rw [e6] at hf; simpa using hf
      rw [List.map_nil, failures_nil he, e2] at e5
      exact hne e5.symm
    · intro m hm
      have hrm := ht'.ranges m (by rw [hnew]; simp [hm])
      have := hrm.nonempty; have := hrm.sizeAligned
      omega
    · dsimp only
      cases pf with
      | release => exact hfit rfl
      | debug => exact packed_fits e4 (fun m hm => ht'.ranges m (by rw [hnew]; simp [hm]))
  · cases hr

/-- The full claim is false of the code in release builds: asked to map two components from `0xFFFFFFC0`, it puts
the first at the end of the address space and the second at address 0, and reports success for the range
`[0xFFFFFFC0, 0xFFFFFFFC]`. -/
theorem C47_wrap_refuted : ∃ (s s' : Machine Demo.Dev) (r : ContiguousMappingResult),
    newBoard .release (Demo.devices []) = some s ∧
    mapContiguous .release s 0xFFFFFFC0 [0, 1] = some (r, s') ∧
    r.mapping = .ok ⟨0xFFFFFFC0, 0xFFFFFFFC⟩ ∧
    s'.mappings = [⟨0, 0x11, 0xFFFFFFC0, 0x40⟩, ⟨1, 0x22, 0, 0x40⟩] :=
  ⟨_, _, _, rfl, rfl, rfl, rfl⟩

example : ∃ (s s' : Machine Demo.Dev) (r : ContiguousMappingResult),
    newBoard .debug (Demo.devices []) = some s ∧ mapContiguous .debug s 0x1000 [1, 0, 1] = some (r, s') ∧
    r.mapping = .error [(1, .alreadyMapped)] ∧
    s'.mappings = [⟨1, 0x22, 0x1000, 0x40⟩, ⟨0, 0x11, 0x1040, 0x40⟩] :=
  ⟨_, _, _, rfl, rfl, rfl, rfl⟩

example : ∃ (s s' : Machine Demo.Dev) (r : ContiguousMappingResult),
    newBoard .debug (Demo.devices []) = some s ∧ mapContiguous .debug s 0x1000 [1, 0] = some (r, s') ∧
    r.mapping = .ok ⟨0x1000, 0x107C⟩ :=
  ⟨_, _, _, rfl, rfl, rfl⟩

/-! ## C48 -/

/-- Partial **C48**: when the requested range has exactly the component's size, `map_abs` is `map`, and the
component's range is the requested one. Missing (false of the code): requests for less than the component's size,
which still map all of it, and requests for one word more, which are accepted. -/
theorem C48_full_size_partial {s s' : Machine D} {addr stop : Word} {id : Nat} {rng : MappingRange}
    {cache : AuxCache} (hc : s.memCache[id]? = some cache)
    (hsz : addr.toNat + cache.size.toNat = stop.toNat + 4)
    (h : mapAbs pf s addr stop id = some (.ok rng, s')) :
    rng = ⟨addr, stop⟩ ∧ Lrvm.map pf s addr id = some (.ok rng, s') ∧
    s' = { s with mappings := s.mappings ++ [⟨id, cache.hwId, addr, cache.size⟩] } ∧
    ∀ a : Word, covers ⟨id, cache.hwId, addr, cache.size⟩ a ↔ addr.toNat ≤ a.toNat ∧ a.toNat < stop.toNat + 4 := by
  have hstop : stop = addr + cache.size - 4 := by
    apply BitVec.eq_of_toNat_eq
    rw [endOf_nat]
    have := stop.isLt
    omega
  have hsame : mapAbs pf s addr stop id = Lrvm.map pf s addr id ∨ mapAbs pf s addr stop id = none := by
    unfold mapAbs Lrvm.map
    rw [internalMap_eq, internalMap_eq, hc]
    dsimp only
    cases hd : dfltEnd pf addr cache.size with
    | none => exact .inr rfl
    | some d =>
      left
      simp only [dfltEnd, Option.bind_eq_bind, Option.bind_eq_some_iff] at hd
      obtain ⟨t, h1, h2⟩ := hd
      obtain ⟨rfl, _⟩ := add_inv h1
      obtain ⟨rfl, _⟩ := sub_inv h2
      simp only [Option.getD_none, Option.getD_some]
      rw [hstop]
  rcases hsame with hs | hs
  · rw [hs] at h
    obtain ⟨c, hc', h1, h2⟩ := map_ok_inv h
    rw [hc] at hc'; cases hc'
    refine ⟨by rw [h1, hstop], h, h2, ?_⟩
    intro a
    unfold covers
    rw [← hsz]
  · rw [hs] at h; cases h

/-- **C48**, what is stored: the component's range never exceeds its size. -/
theorem C48_never_more_than_size_partial {s s' : Machine D} {addr stop : Word} {id : Nat} {rng : MappingRange}
    (h : mapAbs pf s addr stop id = some (.ok rng, s')) :
    ∃ cache, s.memCache[id]? = some cache ∧
      s' = { s with mappings := s.mappings ++ [⟨id, cache.hwId, addr, cache.size⟩] } := by
  rcases internalMap_inv h with ⟨⟨_, h⟩, _⟩ | ⟨c, _, hc, _, h⟩
  · cases h
  · exact ⟨c, hc, h⟩

/-- The full claim is false of the code: after `map_abs(0x100, 0x100, 1)` (one word) an access at `0x13C` reaches
the component. -/
theorem C48_more_than_requested_refuted : ∃ (s s' t : Machine Demo.Dev),
    newBoard .debug (Demo.devices []) = some s ∧
    mapAbs .debug s 0x100 0x100 1 = some (.ok ⟨0x100, 0x100⟩, s') ∧
    memWrite .debug s' 0x13C 7 0 = some (0, t) ∧ t.devs ≠ s'.devs := by
  refine ⟨_, _, _, rfl, rfl, rfl, ?_⟩
  intro h
  have := congrArg (fun l : List Demo.Dev => match l[1]? with | some (.inr r) => r.storage[15]? | _ => none) h
  exact absurd this (by decide +kernel)

/-- The full claim is false of the code: a component of `0x40` bytes is accepted for a range of `0x44` bytes, whose
last word it does not serve. -/
theorem C48_too_large_accepted_refuted : ∃ (s s' : Machine Demo.Dev),
    newBoard .debug (Demo.devices []) = some s ∧
    mapAbs .debug s 0x100 0x140 1 = some (.ok ⟨0x100, 0x140⟩, s') ∧
    memRead .debug s' 0x140 0 = some (0, 0, s') ∧ ∀ m ∈ s'.mappings, ¬ covers m 0x140 :=
  ⟨_, _, rfl, rfl, rfl, by simp; decide⟩

/-! ## C49 -/

theorem findOverlap_release (maps : List Mapping) (a b : Word) : (findOverlap .release a b maps).isSome := by
  induction maps with
  | nil => rfl
  | cons m ms ih =>
    unfold findOverlap
    split
    · show Option.isSome (Option.bind (m.endAddr .release) _) = true
      show Option.isSome (if a ≤ m.addr + m.size - 1 then some (some m) else findOverlap .release a b ms) = true
      split
      · rfl
      · exact ih
    · exact ih

/-- Partial **C49**, release builds: `map` and `map_abs` never panic, and `map_contiguous` does not when every
identifier names a component. Missing (false of the code): debug builds, and unknown identifiers. -/
theorem C49_release_partial (s : Machine D) (addr stop : Word) (id : Nat) (ids : List Nat) :
    (Lrvm.map .release s addr id).isSome ∧ (mapAbs .release s addr stop id).isSome ∧
    ((∀ i ∈ ids, i < s.memCache.length) → (mapContiguous .release s addr ids).isSome) := by
  have key : ∀ (s : Machine D) (a : Word) (stop? : Option Word) (i : Nat),
      (internalMap .release s a stop? i).isSome := by
    intro s a stop? i
    rw [internalMap_eq]
    split
    · rfl
    · next cache _ =>
      show Option.isSome (mapDecide .release s a (stop?.getD (a + cache.size - 4)) i cache) = true
      unfold mapDecide
      split
      · rfl
      split
      · rfl
      split
      · rfl
      split
      · rfl
      split
      · next h => cases h
      split
      · rfl
      split
      · next h => cases h
      split
      · rfl
      split
      · rfl
      have := findOverlap_release s.mappings a (stop?.getD (a + cache.size - 4))
      split
      · next h => rw [h] at this; cases this
      · rfl
      · rfl
  refine ⟨key _ _ _ _, key _ _ _ _, ?_⟩
  intro hids
  have loop : ∀ (ids : List Nat) (acc : ContigAcc) (s : Machine D), (∀ i ∈ ids, i < s.memCache.length) →
      (contigLoop .release acc s ids).isSome := by
    intro ids
    induction ids with
    | nil => intros; rfl
    | cons i is ih =>
      intro acc s hi
      obtain ⟨⟨r, s1⟩, hm⟩ := Option.isSome_iff_exists.mp (key s acc.lastAddr none i)
      have hfr := internalMap_frame hm
      have hmc : s1.memCache = s.memCache := by rw [hfr]
      obtain ⟨c, hc⟩ : ∃ c, s1.memCache[i]? = some c :=
        ⟨_, List.getElem?_eq_getElem (by rw [hmc]; exact hi i (by simp))⟩
      have hm' : Lrvm.map .release s acc.lastAddr i = some (r, s1) := hm
      unfold contigLoop contigStep
      rw [hm']
      cases r with
      | ok rng =>
        simp only [Option.bind_eq_bind, Option.bind_some, Profile.add, hc]
        exact ih _ _ (fun j hj => by rw [hmc]; exact hi j (by simp [hj]))
      | error e =>
        simp only [Option.bind_eq_bind, Option.bind_some, hc]
        exact ih _ _ (fun j hj => by rw [hmc]; exact hi j (by simp [hj]))
  obtain ⟨x, hx⟩ := Option.isSome_iff_exists.mp (loop ids ⟨[], [], addr, addr⟩ s hids)
  unfold mapContiguous
  rw [hx]; rfl

/-- Partial **C49**, debug builds: `map` does not panic when the component's size is at least 4 and its range ends
before the last byte of the address space. -/
theorem C49_map_debug_partial {s : Machine D} {addr : Word} {id : Nat} (ht : ∀ m ∈ s.mappings, RangeOk .debug m)
    (h : ∀ cache, s.memCache[id]? = some cache →
      4 ≤ cache.size.toNat ∧ addr.toNat + cache.size.toNat < 2 ^ 32) :
    (Lrvm.map .debug s addr id).isSome := by
  unfold Lrvm.map
  rw [internalMap_eq]
  cases hc : s.memCache[id]? with
  | none => rfl
  | some cache =>
    obtain ⟨h4, hf⟩ := h cache hc
    dsimp only
    have hd : dfltEnd .debug addr cache.size = some (addr + cache.size - 4) := by
      unfold dfltEnd
      rw [add_ok (by simp only [room]; omega)]
      simp only [Option.bind_eq_bind, Option.bind_some]
      apply sub_ok
      rw [BitVec.toNat_add]
      show 4 ≤ _
      omega
    rw [hd]
    have hstop := endOf_nat addr cache.size
    have hstop' : (addr + cache.size - 4).toNat = addr.toNat + cache.size.toNat - 4 := by omega
    simp only [Option.getD_none]
    unfold mapDecide
    rw [add_ok (by rw [hstop']; simp only [room]; show addr.toNat + cache.size.toNat - 4 + 4 ≤ _; omega)]
    rw [sub_ok (by omega)]
    dsimp only
    split
    · rfl
    split
    · rfl
    split
    · rfl
    split
    · rfl
    split
    · rfl
    split
    · rfl
    split
    · rfl
    rw [findOverlap_eq ht]
    cases List.find? _ s.mappings <;> rfl

/-- The full claim is false of the code, debug builds: mapping a component at an address where its range would
pass the end of the address space panics instead of returning an error. -/
theorem C49_debug_overflow_refuted : ∃ s : Machine Demo.Dev, newBoard .debug (Demo.devices []) = some s ∧
    Lrvm.map .debug s 0xFFFFFFF0 0 = none ∧ mapAbs .debug s 0xFFFFFFF0 0xFFFFFFF0 0 = none :=
  ⟨_, rfl, rfl, rfl⟩

/-- The full claim is false of the code, both profiles: `map_contiguous` with an unknown identifier panics. -/
theorem C49_unknown_id_refuted : ∃ s : Machine Demo.Dev, newBoard .debug (Demo.devices []) = some s ∧
    mapContiguous .debug s 0 [7] = none ∧ mapContiguous .release s 0 [7] = none ∧
    Lrvm.map .debug s 0 7 = some (.error .unknownComponent, s) :=
  ⟨_, rfl, rfl, rfl, rfl⟩

example : ∀ cache, (Demo.start []).memCache[1]? = some cache →
    4 ≤ cache.size.toNat ∧ (0x100 : Word).toNat + cache.size.toNat < 2 ^ 32 := by
  intro c hc; cases hc; decide

end Lrvm
