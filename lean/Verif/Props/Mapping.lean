import Verif.Lemmas.MapCall
import Verif.Props.Memory

/-!
# Mapping calls: C43, C44, C45, C46, C47, C48, C49
-/

namespace Lrvm

open Spec

variable {D : Type} [Bus D] {pf : Profile}

/-! ## C43 -/

theorem contigStep_tableOk {s s' : Machine D} {acc acc' : ContigAcc} {auxId : Nat}
    (ht : TableOk pf s.mappings) (h : contigStep pf acc s auxId = some (acc', s')) :
    TableOk pf s'.mappings := by
  simp only [contigStep, Option.bind_eq_bind, Option.bind_eq_some_iff] at h
  obtain ⟨⟨r2, s2⟩, hm2, a2, _, hst⟩ := h
  split at hst
  · cases hst
  · injection hst with hst; injection hst with _ hst; rw [← hst]
    exact map_tableOk ht hm2

theorem contigLoop_tableOk {s s' : Machine D} {acc acc' : ContigAcc} {ids : List Nat}
    (ht : TableOk pf s.mappings) (h : contigLoop pf acc s ids = some (acc', s')) :
    TableOk pf s'.mappings := by
  induction ids generalizing acc s with
  | nil => simp only [contigLoop, Option.some.injEq, Prod.mk.injEq] at h; rw [← h.2]; exact ht
  | cons i is ih =>
    simp only [contigLoop, Option.bind_eq_bind, Option.bind_eq_some_iff] at h
    obtain ⟨⟨a1, s1⟩, hst, h⟩ := h
    exact ih (contigStep_tableOk ht hst) h

theorem mapContiguous_tableOk {s s' : Machine D} {addr : Word} {ids : List Nat}
    {r : ContiguousMappingResult} (ht : TableOk pf s.mappings)
    (h : mapContiguous pf s addr ids = some (r, s')) : TableOk pf s'.mappings := by
  simp only [mapContiguous, Option.bind_eq_bind, Option.bind_eq_some_iff] at h
  obtain ⟨⟨a1, s1⟩, hl, h⟩ := h
  injection h with h; injection h with _ h; rw [← h]; exact contigLoop_tableOk ht hl

/-- Host calls other than the mapping calls leave the mapping table alone. -/
theorem hostStep_mappings {s s' : Machine D} {op : HostOp} (h : hostStep pf s op = some s')
    (h1 : ∀ a i, op ≠ .map a i) (h2 : ∀ a e i, op ≠ .mapAbs a e i) (h3 : ∀ a is, op ≠ .mapContiguous a is) :
    s'.mappings = s.mappings := by
  cases op with
  | next => exact (C38_step_keeps_hardware h).2.1
  | cpuReset => injection h with h; rw [← h]; rfl
  | reset => exact (C05_reset h).2.2.2.1
  | map a i => exact absurd rfl (h1 a i)
  | mapAbs a e i => exact absurd rfl (h2 a e i)
  | mapContiguous a is => exact absurd rfl (h3 a is)
  | memRead a ex =>
    simp only [hostStep, Option.map_eq_some_iff] at h
    obtain ⟨⟨w, e, t⟩, hm, rfl⟩ := h
    rw [memRead_frame hm]
  | memWrite a w ex =>
    simp only [hostStep, Option.map_eq_some_iff] at h
    obtain ⟨⟨e, t⟩, hm, rfl⟩ := h
    rw [memWrite_frame hm]
  | setRegs f => injection h with h; rw [← h]

/-- Induction over a host's calls. -/
theorem hostRun_inv {P : Machine D → Prop} {ops : List HostOp} {s s' : Machine D} (h : hostRun pf ops s = some s')
    (h0 : P s) (hstep : ∀ op ∈ ops, ∀ t u, P t → hostStep pf t op = some u → P u) : P s' := by
  induction ops generalizing s with
  | nil => injection h with h; subst h; exact h0
  | cons op ops ih =>
    simp only [hostRun, Option.bind_eq_bind, Option.bind_eq_some_iff] at h
    obtain ⟨t, ht, h⟩ := h
    exact ih h (hstep op (by simp) s t h0 ht) (fun o ho => hstep o (by simp [ho]))

/-- Partial **C43**: after any history of host calls (steps, resets, register changes, memory accesses, `map`
and `map_contiguous`, successful or not) on a new board, the mapped ranges are inside the address space and
pairwise disjoint, and no component is mapped twice. Missing (false of the code): histories with `map_abs`. -/
theorem C43_no_overlap_partial {devs : List D} {s0 s' : Machine D} {ops : List HostOp}
    (hb : newBoard pf devs = some s0) (hops : ∀ op ∈ ops, ∀ a e i, op ≠ .mapAbs a e i)
    (h : hostRun pf ops s0 = some s') : TableOk pf s'.mappings := by
  refine hostRun_inv (P := fun t => TableOk pf t.mappings) h ?_ ?_
  · rw [(C05_new_board_waits hb).2.1]
    exact ⟨by simp, List.Pairwise.nil, List.Pairwise.nil⟩
  · intro op hop t u ht hst
    by_cases h1 : ∃ a i, op = .map a i
    · obtain ⟨a, i, rfl⟩ := h1
      simp only [hostStep, Option.map_eq_some_iff] at hst
      obtain ⟨⟨r, v⟩, hm, rfl⟩ := hst
      exact map_tableOk ht hm
    · by_cases h3 : ∃ a is, op = .mapContiguous a is
      · obtain ⟨a, is, rfl⟩ := h3
        simp only [hostStep, Option.map_eq_some_iff] at hst
        obtain ⟨⟨r, v⟩, hm, rfl⟩ := hst
        exact mapContiguous_tableOk ht hm
      · have := hostStep_mappings hst (fun a i e => h1 ⟨a, i, e⟩) (hops op hop) (fun a i e => h3 ⟨a, i, e⟩)
        show TableOk pf u.mappings
        rw [this]; exact ht

/-- The full claim is false of the code: `map_abs(0, 0, 1)` registers a one-word range but stores the component's
full size, so the range of component 1 covers addresses of component 0. -/
theorem C43_map_abs_refuted : ∃ (s0 s' : Machine Demo.Dev) (m n : Mapping),
    newBoard .debug (Demo.devices []) = some s0 ∧
    hostRun .debug [.map 0x20 0, .mapAbs 0 0 1] s0 = some s' ∧
    s'.mappings = [m, n] ∧ covers m 0x20 ∧ covers n 0x20 :=
  ⟨_, _, ⟨0, 0x11, 0x20, 0x40⟩, ⟨1, 0x22, 0, 0x40⟩, rfl, rfl, rfl, by decide, by decide⟩

example : ∃ s0 s' : Machine Demo.Dev, newBoard .debug (Demo.devices []) = some s0 ∧
    hostRun .debug [.map 0x20 0, .map 0x40 1, .map 0x60 1, .map 0x100 0, .reset, .next] s0 = some s' ∧
    s'.mappings.length = 2 := ⟨_, _, rfl, rfl, rfl⟩

/-! ## C44 -/

/-- **C44**, in both build profiles. On a well-formed table `map(addr, id)` succeeds iff the component exists,
its size is a non-zero multiple of 4, the address is aligned, the range fits the address space, the component is
unmapped and the range is free. In a debug build "fits" excludes the ranges that end at the very last byte
(`Spec.room`), which is the missing part of the claim. -/
theorem C44_map_succeeds_iff_partial {s : Machine D} {addr : Word} {id : Nat} (ht : TableOk pf s.mappings) :
    (∃ rng s', Lrvm.map pf s addr id = some (.ok rng, s')) ↔ ∃ cache, Mappable pf s addr id cache :=
  ⟨fun ⟨_, _, h⟩ => map_inv ht.ranges h, fun ⟨_, h⟩ => ⟨_, _, map_ok ht.ranges h⟩⟩

/-- **C44**, release builds: the claim in full. -/
theorem C44_map_release {s : Machine D} {addr : Word} {id : Nat} (ht : TableOk .release s.mappings) :
    (∃ rng s', Lrvm.map .release s addr id = some (.ok rng, s')) ↔
      ∃ cache, s.memCache[id]? = some cache ∧ 0 < cache.size.toNat ∧ cache.size.toNat % 4 = 0 ∧
        addr.toNat % 4 = 0 ∧ addr.toNat + cache.size.toNat ≤ 2 ^ 32 ∧ (∀ m ∈ s.mappings, m.auxId ≠ id) ∧
        ∀ m ∈ s.mappings, ∀ a : Word, covers m a →
          ¬ (addr.toNat ≤ a.toNat ∧ a.toNat < addr.toNat + cache.size.toNat) := by
  rw [C44_map_succeeds_iff_partial ht]
  constructor
  · rintro ⟨c, h⟩
    exact ⟨c, h.known, h.sizePos, h.sizeAligned, h.addrAligned, h.fits, h.unmapped,
      fun m hm a hc hr => h.free m hm a ⟨hr, hc⟩⟩
  · rintro ⟨c, h1, h2, h3, h4, h5, h6, h7⟩
    exact ⟨c, h1, h2, h3, h4, h5, h6, fun m hm a hc => h7 m hm a hc.2 hc.1⟩

/-- **C44**, result: when it succeeds, `map` reports `[addr, addr + size - 4]`, that range is now the component's,
and nothing else changed. -/
theorem C44_map_result {s s' : Machine D} {addr : Word} {id : Nat} {rng : MappingRange}
    (ht : TableOk pf s.mappings) (h : Lrvm.map pf s addr id = some (.ok rng, s')) :
    ∃ cache, s.memCache[id]? = some cache ∧ rng.startAddr = addr ∧
      rng.endAddr.toNat + 4 = addr.toNat + cache.size.toNat ∧
      s' = { s with mappings := s.mappings ++ [⟨id, cache.hwId, addr, cache.size⟩] } ∧
      TableOk pf s'.mappings ∧
      ∀ a : Word, covers ⟨id, cache.hwId, addr, cache.size⟩ a ↔
        rng.startAddr.toNat ≤ a.toNat ∧ a.toNat < rng.endAddr.toNat + 4 := by
  have hmt := map_tableOk ht h
  obtain ⟨cache, hm⟩ := map_inv ht.ranges h
  rw [map_ok ht.ranges hm] at h
  injection h with h; injection h with h1 h2
  injection h1 with h1
  have hend : rng.endAddr.toNat + 4 = addr.toNat + cache.size.toNat := by
    rw [← h1]
    show (addr + cache.size - 4).toNat + 4 = _
    rw [endOf_nat]
    have := hm.fits; have := hm.sizePos; have := hm.sizeAligned; have := room_le (pf := pf)
    omega
  refine ⟨cache, hm.known, by rw [← h1], hend, h2.symm, hmt, ?_⟩
  intro a
  rw [hend, ← h1]
  exact Iff.rfl

/-- The claim fails in debug builds for a range that ends with the last byte of the address space: the call
panics instead of mapping the component. -/
theorem C44_last_word_refuted : ∃ s : Machine Demo.Dev, newBoard .debug (Demo.devices []) = some s ∧
    Lrvm.map .debug s 0xFFFFFFC0 0 = none ∧
    (∃ cache, s.memCache[0]? = some cache ∧ (0xFFFFFFC0 : Word).toNat + cache.size.toNat = 2 ^ 32) ∧
    ∃ s', Lrvm.map .release s 0xFFFFFFC0 0 = some (.ok ⟨0xFFFFFFC0, 0xFFFFFFFC⟩, s') :=
  ⟨_, rfl, rfl, ⟨_, rfl, by decide⟩, _, rfl⟩

example : ∃ s : Machine Demo.Dev, newBoard .debug (Demo.devices []) = some s ∧ TableOk .debug s.mappings ∧
    ∃ rng s', Lrvm.map .debug s 0x80 1 = some (.ok rng, s') ∧ rng.endAddr = 0xBC :=
  ⟨_, rfl, ⟨by simp, List.Pairwise.nil, List.Pairwise.nil⟩, _, _, rfl, rfl⟩

/-! ## C45 -/

/-- **C45.** A `map` or `map_abs` call that returns an error leaves the whole machine as it was, and one that
succeeds appends one range and changes nothing else. -/
theorem C45_failed_mapping_changes_nothing {s s' : Machine D} {a e : Word} {id : Nat} {err : MappingError}
    (h : Lrvm.map pf s a id = some (.error err, s') ∨ mapAbs pf s a e id = some (.error err, s')) : s' = s := by
  have key : ∀ stop?, internalMap pf s a stop? id = some (.error err, s') → s' = s := by
    intro stop? h
    rcases internalMap_inv h with ⟨_, h⟩ | ⟨_, _, _, h, _⟩
    · exact h
    · cases h
  exact h.elim (key _) (key _)

example : ∃ e, Lrvm.map .debug (Demo.start []) 0x40 0 = some (.error e, Demo.start []) := ⟨_, rfl⟩

/-! ## C46 -/

/-- All the calls `map(addr, id)` of the list succeed, one after the other. -/
def Spec.MapsAll (pf : Profile) : Machine D → List (Word × Nat) → Machine D → Prop
  | s, [], s' => s' = s
  | s, (a, i) :: calls, s' => ∃ rng t, Lrvm.map pf s a i = some (.ok rng, t) ∧ MapsAll pf t calls s'

/-- The entry a successful call adds. -/
def callEntry (cache : List AuxCache) (c : Word × Nat) : Mapping :=
  match cache[c.2]? with
  | some k => rangeAt c.2 k.hwId c.1 k.size
  | none => rangeAt c.2 0 c.1 0

theorem Spec.TableOk.perm {l l' : List Mapping} (h : TableOk pf l) (hp : l.Perm l') : TableOk pf l' where
  ranges := fun m hm => h.ranges m (hp.mem_iff.mpr hm)
  disjoint := (hp.pairwise_iff (fun h => Spec.Disjoint.symm h)).mp h.disjoint
  once := (hp.pairwise_iff (fun h => Ne.symm h)).mp h.once

theorem mapsAll_iff {s s' : Machine D} {calls : List (Word × Nat)} (ht : TableOk pf s.mappings) :
    MapsAll pf s calls s' ↔
      (∀ c ∈ calls, (s.memCache[c.2]?).isSome) ∧
      TableOk pf (s.mappings ++ calls.map (callEntry s.memCache)) ∧
      s' = { s with mappings := s.mappings ++ calls.map (callEntry s.memCache) } := by
  induction calls generalizing s s' with
  | nil =>
    simp only [MapsAll, List.map_nil, List.append_nil]
    constructor
    · rintro rfl; exact ⟨by simp, ht, rfl⟩
    · rintro ⟨_, _, h⟩; exact h
  | cons c cs ih =>
    obtain ⟨a, i⟩ := c
    simp only [MapsAll]
    constructor
    · rintro ⟨rng, t, hm, hrest⟩
      obtain ⟨cache, hmp⟩ := map_inv ht.ranges hm
      rw [map_ok ht.ranges hmp] at hm
      injection hm with hm; injection hm with _ hm
      subst hm
      have he : callEntry s.memCache (a, i) = rangeAt i cache.hwId a cache.size := by
        simp only [callEntry, hmp.known]
      have := (ih (tableOk_snoc ht hmp)).mp hrest
      rw [List.map_cons, he]
      simp only [List.append_assoc, List.singleton_append] at this
      refine ⟨?_, this.2.1, this.2.2⟩
      intro c hc
      rcases List.mem_cons.mp hc with rfl | hc
      · rw [hmp.known]; rfl
      · exact this.1 c hc
    · rintro ⟨hk, htab, rfl⟩
      obtain ⟨cache, hc⟩ := Option.isSome_iff_exists.mp (hk (a, i) (by simp))
      change s.memCache[i]? = some cache at hc
      have he : callEntry s.memCache (a, i) = rangeAt i cache.hwId a cache.size := by
        simp only [callEntry, hc]
      rw [List.map_cons, he] at htab ⊢
      have hin : rangeAt i cache.hwId a cache.size ∈
          s.mappings ++ rangeAt i cache.hwId a cache.size :: cs.map (callEntry s.memCache) := by simp
      have hr := htab.ranges _ hin
      have hd := List.pairwise_append.mp htab.disjoint
      have ho := List.pairwise_append.mp htab.once
      have hmp : Mappable pf s a i cache :=
        { known := hc, sizePos := hr.nonempty, sizeAligned := hr.sizeAligned, addrAligned := hr.addrAligned,
          fits := hr.fits, unmapped := fun m hm => ho.2.2 m hm (rangeAt i cache.hwId a cache.size) List.mem_cons_self,
          free := fun m hm => (hd.2.2 m hm _ (by simp)).symm }
      refine ⟨_, _, map_ok ht.ranges hmp, (ih (tableOk_snoc ht hmp)).mpr ?_⟩
      simp only [List.append_assoc, List.singleton_append]
      exact ⟨fun c hc => hk c (List.mem_cons_of_mem _ hc), htab, trivial⟩

theorem find_perm {l l' : List Mapping} (h : TableOk pf l) (hp : l.Perm l') (a : Word) :
    l.find? (fun m => decide (covers m a)) = l'.find? (fun m => decide (covers m a)) := by
  have h' := h.perm hp
  cases hf : l.find? (fun m => decide (covers m a)) with
  | none =>
    rw [List.find?_eq_none] at hf
    symm
    rw [List.find?_eq_none]
    exact fun m hm => hf m (hp.mem_iff.mpr hm)
  | some m =>
    have h1 := List.mem_of_find?_eq_some hf
    have h2 := List.find?_some hf
    exact (find_covering h'.disjoint (hp.mem_iff.mp h1) (of_decide_eq_true h2)).symm

/-- **C46.** If a list of `map` calls succeeds, the same calls in any other order succeed, and every read and
write, at every address, then gives the same answer and reaches the same components. -/
theorem C46_order_irrelevant {s s1 : Machine D} {calls calls' : List (Word × Nat)}
    (ht : TableOk pf s.mappings) (hp : calls.Perm calls') (h : MapsAll pf s calls s1) :
    ∃ s2, MapsAll pf s calls' s2 ∧ s2 = { s1 with mappings := s2.mappings } ∧
      (∀ a ex, memRead pf s2 a ex =
        (memRead pf s1 a ex).map fun (w, e, t) => (w, e, { t with mappings := s2.mappings })) ∧
      (∀ a w ex, memWrite pf s2 a w ex =
        (memWrite pf s1 a w ex).map fun (e, t) => (e, { t with mappings := s2.mappings })) := by
  obtain ⟨hk, htab, rfl⟩ := (mapsAll_iff ht).mp h
  have hperm : (s.mappings ++ calls.map (callEntry s.memCache)).Perm
      (s.mappings ++ calls'.map (callEntry s.memCache)) := (hp.map _).append_left _
  have htab' := htab.perm hperm
  refine ⟨{ s with mappings := s.mappings ++ calls'.map (callEntry s.memCache) },
    (mapsAll_iff ht).mpr ⟨fun c hc => hk c (hp.mem_iff.mpr hc), htab', rfl⟩, rfl, ?_, ?_⟩
  · intro a ex
    rw [memRead_eq, memRead_eq]
    have : devRead pf (s.mappings ++ calls'.map (callEntry s.memCache)) s.devs a ex =
        devRead pf (s.mappings ++ calls.map (callEntry s.memCache)) s.devs a ex := by
      unfold devRead
      rw [findMapping_eq htab.ranges, findMapping_eq htab'.ranges, find_perm htab hperm]
    show Option.map _ (devRead pf (s.mappings ++ calls'.map (callEntry s.memCache)) s.devs a ex) = _
    rw [this, Option.map_map]
    rfl
  · intro a w ex
    rw [memWrite_eq, memWrite_eq]
    have : devWrite pf (s.mappings ++ calls'.map (callEntry s.memCache)) s.devs a w ex =
        devWrite pf (s.mappings ++ calls.map (callEntry s.memCache)) s.devs a w ex := by
      unfold devWrite
      rw [findMapping_eq htab.ranges, findMapping_eq htab'.ranges, find_perm htab hperm]
    show Option.map _ (devWrite pf (s.mappings ++ calls'.map (callEntry s.memCache)) s.devs a w ex) = _
    rw [this, Option.map_map]
    rfl

example : ∃ s s' : Machine Demo.Dev, newBoard .debug (Demo.devices []) = some s ∧
    MapsAll .debug s [(0, 0), (0x40, 1)] s' ∧ [(0, 0), (0x40, 1)].Perm [((0x40 : Word), 1), (0, 0)] :=
  ⟨_, _, rfl, ⟨_, _, rfl, _, _, rfl, rfl⟩, by decide⟩

end Lrvm
