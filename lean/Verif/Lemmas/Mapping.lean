import Verif.Lemmas.Next

/-!
# Inversion of the mapping functions
-/

namespace Lrvm

variable {D : Type} [Bus D] {pf : Profile}

/-- The default end address computed by `internalMap`. -/
def dfltEnd (pf : Profile) (start size : Word) : Res Word := do
  let t ← pf.add start size
  pf.sub t 4

/-- The decision of `internalMap` once the end address is known. -/
def mapDecide (pf : Profile) (s : Machine D) (start stop : Word) (auxId : Nat) (cache : AuxCache) :
    Res (Except MappingError MappingRange × Machine D) :=
  if start % 4 ≠ 0 then some (.error .unalignedStartAddress, s)
  else if cache.size = 0 then some (.error .nullBusSize, s)
  else if cache.size % 4 ≠ 0 then some (.error .unalignedBusSize, s)
  else if stop % 4 ≠ 0 then some (.error .unalignedEndAddress, s)
  else match pf.add stop 4 with
    | none => none
    | some stop4 =>
      if start = stop4 ∨ stop < start then some (.error .nullOrNegAddressRange, s)
      else match pf.sub stop start with
        | none => none
        | some len =>
          if cache.size < len then some (.error (.mappingTooLarge cache.size), s)
          else if s.mappings.any (fun m => m.auxId == auxId) then some (.error .alreadyMapped, s)
          else match findOverlap pf start stop s.mappings with
            | none => none
            | some (some m) => some (.error (.addressOverlaps m), s)
            | some none => some (.ok ⟨start, stop⟩,
                { s with mappings := s.mappings ++ [⟨auxId, cache.hwId, start, cache.size⟩] })

theorem internalMap_eq (s : Machine D) (start : Word) (stop? : Option Word) (auxId : Nat) :
    internalMap pf s start stop? auxId =
      match s.memCache[auxId]? with
      | none => some (.error .unknownComponent, s)
      | some cache =>
        match dfltEnd pf start cache.size with
        | none => none
        | some d => mapDecide pf s start (stop?.getD d) auxId cache := by
  unfold internalMap
  cases s.memCache[auxId]? with
  | none => rfl
  | some cache =>
    dsimp only
    unfold dfltEnd
    cases pf.add start cache.size with
    | none => rfl
    | some t =>
      simp only [Option.bind_eq_bind, Option.bind_some]
      cases pf.sub t 4 with
      | none => rfl
      | some d =>
        simp only [Option.bind_some]
        unfold mapDecide
        split
        · rfl
        split
        · rfl
        split
        · rfl
        split
        · rfl
        cases pf.add (stop?.getD d) 4 with
        | none => rfl
        | some stop4 =>
          simp only [Option.bind_some]
          split
          · rfl
          cases pf.sub (stop?.getD d) start with
          | none => rfl
          | some len =>
            simp only [Option.bind_some]
            split
            · rfl
            split
            · rfl
            cases findOverlap pf start (stop?.getD d) s.mappings with
            | none => rfl
            | some o => cases o <;> rfl

/-- A mapping call changes nothing but the mapping table, and only when it succeeds. -/
theorem internalMap_inv {s s' : Machine D} {start : Word} {stop? : Option Word} {auxId : Nat}
    {r : Except MappingError MappingRange} (h : internalMap pf s start stop? auxId = some (r, s')) :
    ((∃ e, r = .error e) ∧ s' = s) ∨
    (∃ cache stop, s.memCache[auxId]? = some cache ∧ r = .ok ⟨start, stop⟩ ∧
      s' = { s with mappings := s.mappings ++ [⟨auxId, cache.hwId, start, cache.size⟩] }) := by
  rw [internalMap_eq] at h
  cases hc : s.memCache[auxId]? with
  | none =>
    rw [hc] at h; injection h with h; injection h with h1 h2
    exact .inl ⟨⟨_, h1.symm⟩, h2.symm⟩
  | some cache =>
    rw [hc] at h
    dsimp only at h
    cases hd : dfltEnd pf start cache.size with
    | none => rw [hd] at h; cases h
    | some d =>
      rw [hd] at h
      dsimp only at h
      unfold mapDecide at h
      repeat' split at h
      all_goals first
        | (cases h; done)
        | (injection h with h; injection h with h1 h2; exact .inl ⟨⟨_, h1.symm⟩, h2.symm⟩)
        | (injection h with h; injection h with h1 h2; exact .inr ⟨cache, _, rfl, h1.symm, h2.symm⟩)

theorem internalMap_frame {s s' : Machine D} {start : Word} {stop? : Option Word} {auxId : Nat}
    {r : Except MappingError MappingRange} (h : internalMap pf s start stop? auxId = some (r, s')) :
    s' = { s with mappings := s'.mappings } := by
  rcases internalMap_inv h with ⟨_, rfl⟩ | ⟨_, _, _, _, rfl⟩ <;> rfl

theorem contigStep_frame {s s' : Machine D} {acc acc' : ContigAcc} {auxId : Nat}
    (h : contigStep pf acc s auxId = some (acc', s')) : s' = { s with mappings := s'.mappings } := by
  simp only [contigStep, Option.bind_eq_bind, Option.bind_eq_some_iff] at h
  obtain ⟨⟨r2, s2⟩, hm2, a2, _, hst⟩ := h
  split at hst
  · cases hst
  · injection hst with hst; injection hst with _ hst; rw [← hst]
    exact internalMap_frame hm2

theorem contigLoop_frame {s s' : Machine D} {acc acc' : ContigAcc} {ids : List Nat}
    (h : contigLoop pf acc s ids = some (acc', s')) : s' = { s with mappings := s'.mappings } := by
  induction ids generalizing acc s with
  | nil => simp only [contigLoop, Option.some.injEq, Prod.mk.injEq] at h; rw [← h.2]
  | cons i is ih =>
    simp only [contigLoop, Option.bind_eq_bind, Option.bind_eq_some_iff] at h
    obtain ⟨⟨a1, s1⟩, hst, h⟩ := h
    rw [ih h, contigStep_frame hst]

theorem mapContiguous_frame {s s' : Machine D} {addr : Word} {ids : List Nat}
    {r : ContiguousMappingResult} (h : mapContiguous pf s addr ids = some (r, s')) :
    s' = { s with mappings := s'.mappings } := by
  simp only [mapContiguous, Option.bind_eq_bind, Option.bind_eq_some_iff] at h
  obtain ⟨⟨a1, s1⟩, hl, h⟩ := h
  injection h with h; injection h with _ h; rw [← h]; exact contigLoop_frame hl

end Lrvm
