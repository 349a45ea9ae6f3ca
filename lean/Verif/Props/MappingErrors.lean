import Verif.Spec.MappingErrors
import Verif.Lemmas.MapCall
import Verif.Props.Mapping
import Verif.Props.Contiguous

/-!
# C135: a mapping error tells what is wrong, and exactly when a mapping call panics
-/

namespace Lrvm

open Spec

variable {D : Type} [Bus D] {pf : Profile}

/-- Two first problems are the same. -/
private theorem first_unique {s : Machine D} {id : Nat} {start : Word} {last : Word → Int} {e e' : MappingError}
    (h : MapProblem s id start last e) (h' : MapProblem s id start last e')
    (hf : ∀ x, problemRank x < problemRank e → ¬ MapProblem s id start last x)
    (hf' : ∀ x, problemRank x < problemRank e' → ¬ MapProblem s id start last x) : e = e' := by
  have hr : problemRank e = problemRank e' := by
    rcases Nat.lt_trichotomy (problemRank e) (problemRank e') with hlt | heq | hlt
    · exact absurd h (hf' _ hlt)
    · exact heq
    · exact absurd h' (hf _ hlt)
  cases e <;> cases e' <;> simp only [problemRank] at hr <;> first | rfl | omega | skip
  · obtain ⟨c, hc, l1, l2, hl, hm, hn⟩ := h
    obtain ⟨c', hc', l1', l2', hl', hm', hn'⟩ := h'
    rw [hc, Option.some.injEq] at hc'
    subst hc'
    rw [hl] at hl'
    rcases List.append_eq_append_iff.mp hl' with ⟨as, h1, h2⟩ | ⟨as, h1, h2⟩
    · cases as with
      | nil => simp only [List.nil_append, List.cons.injEq] at h2; rw [h2.1]
      | cons a as =>
        simp only [List.cons_append, List.cons.injEq] at h2
        exact absurd (h2.1 ▸ hm) (hn' a (by rw [h1]; simp))
    · cases as with
      | nil => simp only [List.nil_append, List.cons.injEq] at h2; rw [h2.1]
      | cons a as =>
        simp only [List.cons_append, List.cons.injEq] at h2
        exact absurd (h2.1 ▸ hm') (hn a (by rw [h1]; simp))
  · obtain ⟨c, hc, hn, _⟩ := h
    obtain ⟨c', hc', hn', _⟩ := h'
    rw [hc, Option.some.injEq] at hc'
    rw [hn, hn', hc']

/-- The answer is determined once it is known to be a first problem or no problem. -/
private theorem tells {s : Machine D} {id : Nat} {start : Word} {last : Word → Int}
    {res : Except MappingError MappingRange}
    (h : (∃ e, res = .error e ∧ MapProblem s id start last e ∧
        ∀ e', problemRank e' < problemRank e → ¬ MapProblem s id start last e') ∨
      (∃ stop : Word, ∃ c, res = .ok ⟨start, stop⟩ ∧ (∀ e, ¬ MapProblem s id start last e) ∧
        s.memCache[id]? = some c ∧ (stop.toNat : Int) = last c.size)) :
    TellsProblem s id start last res := by
  rcases h with ⟨e, rfl, hp, hf⟩ | ⟨stop, c, rfl, hn, hc, hstop⟩
  · refine ⟨fun e' => ⟨?_, ?_⟩, fun rng => ⟨(fun hx => by cases hx), fun hx => absurd hp (hx.1 e)⟩⟩
    · intro hx; injection hx with hx; subst hx; exact ⟨hp, hf⟩
    · rintro ⟨hp', hf'⟩; rw [first_unique hp hp' hf hf']
  · refine ⟨fun e' => ⟨(fun hx => by cases hx), fun hx => absurd hx.1 (hn e')⟩, fun rng => ⟨?_, ?_⟩⟩
    · intro hx; injection hx with hx; subst hx; exact ⟨hn, rfl, c, hc, hstop⟩
    · rintro ⟨_, h1, c', hc', h2⟩
      rw [hc, Option.some.injEq] at hc'
      subst hc'
      obtain ⟨a, b⟩ := rng
      have h1 : a = start := h1
      have h2 : (b.toNat : Int) = last c.size := h2
      have hb : stop = b := BitVec.toNat_eq.mpr (by omega)
      rw [h1, hb]

private theorem meets_iff {m : Mapping} (hm : RangeOk pf m) {start stop : Word} (ha : stop.toNat % 4 = 0)
    (hle : start.toNat ≤ stop.toNat) :
    Meets start.toNat (stop.toNat : Int) m ↔ m.addr.toNat ≤ stop.toNat ∧ start.toNat < m.addr.toNat + m.size.toNat := by
  have := hm.nonempty; have := hm.fits; have := hm.addrAligned; have := room_le (pf := pf)
  constructor
  · rintro ⟨a, ⟨h1, h2⟩, h3, h4⟩
    omega
  · rintro ⟨h1, h2⟩
    by_cases hc : start.toNat ≤ m.addr.toNat
    · exact ⟨m.addr, ⟨Nat.le_refl _, by omega⟩, by omega, by omega⟩
    · exact ⟨start, ⟨by omega, by omega⟩, by omega, by omega⟩

/-- The decision of a mapping call, for an end address that agrees with the request as far as the checks go. -/
private theorem decide_tells {s s' : Machine D} {id : Nat} {start stop : Word} {last : Word → Int} {cache : AuxCache}
    {res : Except MappingError MappingRange} (ht : ∀ m ∈ s.mappings, RangeOk pf m)
    (hc : s.memCache[id]? = some cache)
    (h4 : start.toNat % 4 = 0 → 0 < cache.size.toNat → cache.size.toNat % 4 = 0 →
      (stop.toNat % 4 = 0 ↔ last cache.size % 4 = 0))
    (hneg : start.toNat % 4 = 0 → 0 < cache.size.toNat → cache.size.toNat % 4 = 0 → stop.toNat % 4 = 0 →
      ((start = stop + 4 ∨ stop.toNat < start.toNat) ↔ (last cache.size < start.toNat ∨ 2 ^ 32 < last cache.size + 4)))
    (hlast : start.toNat % 4 = 0 → 0 < cache.size.toNat → cache.size.toNat % 4 = 0 → stop.toNat % 4 = 0 →
      start.toNat ≤ stop.toNat → start ≠ stop + 4 → last cache.size = stop.toNat ∧
        (cache.size.toNat < stop.toNat - start.toNat ↔ cache.size.toNat < stop.toNat + 4 - start.toNat))
    (h : mapDecide pf s start stop id cache = some (res, s')) :
    TellsProblem s id start last res := by
  have k0 : ¬ MapProblem s id start last .unknownComponent := by intro hk; rw [MapProblem, hc] at hk; cases hk
  have all : ∀ {P : AuxCache → Prop}, ¬ P cache → ¬ ∃ c, s.memCache[id]? = some c ∧ P c := by
    rintro P hn ⟨c, hc', hp⟩
    rw [hc, Option.some.injEq] at hc'
    exact hn (hc' ▸ hp)
  apply tells
  unfold mapDecide at h
  split at h
  next ha =>
    injection h with h; injection h with h _
    refine .inl ⟨_, h.symm, fun hk => ha (mod4_nat.mpr hk), ?_⟩
    intro e he
    cases e <;> simp only [problemRank] at he <;> first | omega | exact k0
  next ha =>
  have ha : start.toNat % 4 = 0 := mod4_nat.mp (Decidable.not_not.mp ha)
  have k1 : ¬ MapProblem s id start last .unalignedStartAddress := fun hk => hk ha
  split at h
  next hz =>
    injection h with h; injection h with h _
    refine .inl ⟨_, h.symm, ⟨cache, hc, by rw [hz]; rfl⟩, ?_⟩
    intro e he
    cases e <;> simp only [problemRank] at he <;> first | omega | exact k0 | exact k1
  next hz =>
  have hz : 0 < cache.size.toNat := by
    rcases Nat.eq_zero_or_pos cache.size.toNat with h | h
    · exact absurd (BitVec.toNat_eq.mpr h) hz
    · exact h
  have k2 : ¬ MapProblem s id start last .nullBusSize := all (by omega)
  split at h
  next hs =>
    injection h with h; injection h with h _
    refine .inl ⟨_, h.symm, ⟨cache, hc, fun hk => hs (mod4_nat.mpr hk)⟩, ?_⟩
    intro e he
    cases e <;> simp only [problemRank] at he <;> first | omega | exact k0 | exact k1 | exact k2
  next hs =>
  have hs : cache.size.toNat % 4 = 0 := mod4_nat.mp (Decidable.not_not.mp hs)
  have k3 : ¬ MapProblem s id start last .unalignedBusSize := all (by omega)
  have h4 := h4 ha hz hs
  split at h
  next he4 =>
    injection h with h; injection h with h _
    refine .inl ⟨_, h.symm, ⟨cache, hc, fun hk => he4 (mod4_nat.mpr (h4.mpr hk))⟩, ?_⟩
    intro e he
    cases e <;> simp only [problemRank] at he <;> first | omega | exact k0 | exact k1 | exact k2 | exact k3
  next he4 =>
  have he4 : stop.toNat % 4 = 0 := mod4_nat.mp (Decidable.not_not.mp he4)
  have k4 : ¬ MapProblem s id start last .unalignedEndAddress := all (by have := h4.mp he4; omega)
  have hneg := hneg ha hz hs he4
  split at h
  · cases h
  next stop4 hstop4 =>
  obtain ⟨rfl, _⟩ := add_inv hstop4
  split at h
  next hn =>
    injection h with h; injection h with h _
    refine .inl ⟨_, h.symm, ⟨cache, hc, hneg.mp (by rwa [bv_lt_nat] at hn)⟩, ?_⟩
    intro e he
    cases e <;> simp only [problemRank] at he <;>
      first | omega | exact k0 | exact k1 | exact k2 | exact k3 | exact k4
  next hn =>
  rw [bv_lt_nat] at hn
  have k5 : ¬ MapProblem s id start last .nullOrNegAddressRange := all (fun hk => hn (hneg.mpr hk))
  have hle : start.toNat ≤ stop.toNat := by omega
  obtain ⟨hL, hlarge⟩ := hlast ha hz hs he4 hle (fun hk => hn (.inl hk))
  rw [sub_ok hle] at h
  simp only at h
  split at h
  next hl =>
    injection h with h; injection h with h _
    rw [bv_lt_nat, offset_nat hle] at hl
    refine .inl ⟨_, h.symm, ⟨cache, hc, rfl, by have := hlarge.mp hl; omega⟩, ?_⟩
    intro e he
    cases e <;> simp only [problemRank] at he <;>
      first | omega | exact k0 | exact k1 | exact k2 | exact k3 | exact k4 | exact k5
  next hl =>
  rw [bv_lt_nat, offset_nat hle] at hl
  have k6 : ∀ n, ¬ MapProblem s id start last (.mappingTooLarge n) := by
    rintro n ⟨c, hc', _, hk⟩
    rw [hc, Option.some.injEq] at hc'
    subst hc'
    exact hl (hlarge.mpr (by omega))
  split at h
  next hany =>
    injection h with h; injection h with h _
    refine .inl ⟨_, h.symm, ?_, ?_⟩
    · simp only [List.any_eq_true, beq_iff_eq] at hany; exact hany
    · intro e he
      cases e <;> simp only [problemRank] at he <;>
        first | omega | exact k0 | exact k1 | exact k2 | exact k3 | exact k4 | exact k5 | exact k6 _
  next hany =>
  have k7 : ¬ MapProblem s id start last .alreadyMapped := by
    intro hk
    apply hany
    simp only [List.any_eq_true, beq_iff_eq]
    exact hk
  rw [findOverlap_eq ht] at h
  split at h
  · next hx => cases hx
  · next m hm =>
    injection hm with hm
    injection h with h; injection h with h _
    rw [List.find?_eq_some_iff_append] at hm
    obtain ⟨hp, as, bs, hl, hb⟩ := hm
    refine .inl ⟨_, h.symm, ⟨cache, hc, as, bs, hl, ?_, ?_⟩, ?_⟩
    · rw [hL]
      exact (meets_iff (ht m (by rw [hl]; simp)) he4 hle).mpr (of_decide_eq_true hp)
    · intro n hn
      rw [hL, meets_iff (ht n (by rw [hl]; simp [hn])) he4 hle]
      have := hb n hn
      simp only [Bool.not_eq_true', decide_eq_false_iff_not] at this
      exact this
    · intro e he
      cases e <;> simp only [problemRank] at he <;>
        first | omega | exact k0 | exact k1 | exact k2 | exact k3 | exact k4 | exact k5 | exact k6 _ | exact k7
  · next hm =>
    injection hm with hm
    injection h with h; injection h with h _
    refine .inr ⟨stop, cache, h.symm, ?_, hc, hL.symm⟩
    rw [List.find?_eq_none] at hm
    have k8 : ∀ m, ¬ MapProblem s id start last (.addressOverlaps m) := by
      rintro m ⟨c, hc', as, bs, hl, hmm, _⟩
      rw [hc, Option.some.injEq] at hc'
      subst hc'
      have hin : m ∈ s.mappings := by rw [hl]; simp
      rw [hL, meets_iff (ht m hin) he4 hle] at hmm
      exact hm m hin (decide_eq_true hmm)
    intro e
    cases e <;> first | exact k0 | exact k1 | exact k2 | exact k3 | exact k4 | exact k5 | exact k6 _ | exact k7 | exact k8 _

private theorem unknown_tells {s : Machine D} {id : Nat} {start : Word} {last : Word → Int}
    (hc : s.memCache[id]? = none) : TellsProblem s id start last (.error .unknownComponent) := by
  refine tells (.inl ⟨_, rfl, hc, ?_⟩)
  intro e he
  cases e <;> simp only [problemRank] at he <;> omega

/-- **C135**, `map`, in both build profiles. Whenever the call returns, its answer is the first problem of the
request, in plain arithmetic, if it has one, and otherwise the range from the address to the last word of the
component. -/
theorem C135_map {s s' : Machine D} {addr : Word} {id : Nat} {res : Except MappingError MappingRange}
    (ht : ∀ m ∈ s.mappings, RangeOk pf m) (h : Lrvm.map pf s addr id = some (res, s')) :
    TellsProblem s id addr (wholeLast addr) res := by
  unfold Lrvm.map at h
  rw [internalMap_eq] at h
  cases hc : s.memCache[id]? with
  | none =>
    rw [hc] at h
    injection h with h; injection h with h _
    subst h
    exact unknown_tells hc
  | some cache =>
    rw [hc] at h
    dsimp only at h
    cases hd : dfltEnd pf addr cache.size with
    | none => rw [hd] at h; cases h
    | some d =>
      rw [hd] at h
      simp only [Option.getD_none] at h
      simp only [dfltEnd, Option.bind_eq_bind, Option.bind_eq_some_iff] at hd
      obtain ⟨t, h1, h2⟩ := hd
      obtain ⟨rfl, h1'⟩ := add_inv h1
      obtain ⟨rfl, h2'⟩ := sub_inv h2
      have hstop := endOf_nat addr cache.size
      have hA := addr.isLt
      have hS := cache.size.isLt
      refine decide_tells ht hc ?_ ?_ ?_ h
      · intro a b c; unfold wholeLast; omega
      · intro a b c d
        have : addr = addr + cache.size - 4 + 4 ↔ False := by
          rw [BitVec.sub_add_cancel]
          refine ⟨fun hk => ?_, False.elim⟩
          have hk := congrArg BitVec.toNat hk
          rw [BitVec.toNat_add] at hk
          omega
        rw [this, false_or]; unfold wholeLast; omega
      · intro a b c d e f; unfold wholeLast
        constructor <;> omega

/-- Partial **C135**, `map_abs`, in both build profiles: the same for an explicit end address. Missing (false of the
code): ranges of exactly one word more than the component, which are accepted, and, in release builds, the range
of the whole address space, which is called null instead of too large. -/
theorem C135_map_abs_partial {s s' : Machine D} {addr stop : Word} {id : Nat}
    {res : Except MappingError MappingRange} (ht : ∀ m ∈ s.mappings, RangeOk pf m)
    (hone : ∀ c, s.memCache[id]? = some c → stop.toNat ≠ addr.toNat + c.size.toNat)
    (hall : ¬ (addr = 0 ∧ stop = 0xFFFFFFFC)) (h : mapAbs pf s addr stop id = some (res, s')) :
    TellsProblem s id addr (fun _ => stop.toNat) res := by
  unfold mapAbs at h
  rw [internalMap_eq] at h
  cases hc : s.memCache[id]? with
  | none =>
    rw [hc] at h
    injection h with h; injection h with h _
    subst h
    exact unknown_tells hc
  | some cache =>
    rw [hc] at h
    dsimp only at h
    cases hd : dfltEnd pf addr cache.size with
    | none => rw [hd] at h; cases h
    | some d =>
      rw [hd] at h
      simp only [Option.getD_some] at h
      have hE := stop.isLt
      have hone := hone _ hc
      have hwrap : stop.toNat % 4 = 0 → (addr = stop + 4 → stop.toNat < addr.toNat) := by
        intro h4 hk
        have hk' := congrArg BitVec.toNat hk
        rw [BitVec.toNat_add] at hk'
        change addr.toNat = (stop.toNat + 4) % 2 ^ 32 at hk'
        by_cases hs : stop.toNat + 4 < 2 ^ 32
        · omega
        · exfalso; apply hall
          constructor <;> apply BitVec.eq_of_toNat_eq
          · show addr.toNat = 0; omega
          · show stop.toNat = 4294967292; omega
      refine decide_tells ht hc ?_ ?_ ?_ h
      · intro a b c; omega
      · intro a b c d
        have := hwrap d
        constructor
        · rintro (hk | hk)
          · exact .inl (by have := this hk; omega)
          · exact .inl (by omega)
        · rintro (hk | hk)
          · exact .inr (by omega)
          · omega
      · intro a b c d e f
        exact ⟨rfl, by omega⟩

/-- **C135**: an answer never hides that the request was refused: the machine is as it was. -/
theorem C135_refused_unchanged {s s' : Machine D} {addr stop : Word} {id : Nat} {e : MappingError}
    (h : Lrvm.map pf s addr id = some (.error e, s') ∨ mapAbs pf s addr stop id = some (.error e, s')) : s' = s :=
  C45_failed_mapping_changes_nothing h

/-- The full claim is false of the code: `map_abs` from 0 to the last word of the address space, for a component of
`0x40` bytes, is refused because the range is null, in release builds; it is too large. -/
theorem C135_whole_space_refuted : ∃ s : Machine Demo.Dev, newBoard .release (Demo.devices []) = some s ∧
    mapAbs .release s 0 0xFFFFFFFC 1 = some (.error .nullOrNegAddressRange, s) ∧
    MapProblem s 1 0 (fun _ => ((0xFFFFFFFC : Word).toNat : Int)) (.mappingTooLarge 0x40) ∧
    ¬ MapProblem s 1 0 (fun _ => ((0xFFFFFFFC : Word).toNat : Int)) .nullOrNegAddressRange := by
  refine ⟨_, rfl, rfl, ⟨_, rfl, rfl, by decide⟩, ?_⟩
  rintro ⟨c, _, h⟩
  have h : ((4294967292 : Int) < 0 ∨ (4294967296 : Int) < 4294967292 + 4) := h
  omega

/-- The full claim is false of the code in both build profiles: a range of one word more than the component is
accepted. -/
theorem C135_one_word_more_refuted (pf : Profile) : ∃ s s' : Machine Demo.Dev,
    newBoard pf (Demo.devices []) = some s ∧ mapAbs pf s 0x100 0x140 1 = some (.ok ⟨0x100, 0x140⟩, s') ∧
    MapProblem s 1 0x100 (fun _ => ((0x140 : Word).toNat : Int)) (.mappingTooLarge 0x40) := by
  cases pf <;> exact ⟨_, _, rfl, rfl, _, rfl, rfl, by decide⟩

/-! ## When mapping calls panic -/

/-- **C49**, debug builds, exactly: `map` panics iff the component exists and its range would reach the last byte of
the address space, or the address and the size are both tiny (their sum below 4). -/
theorem C49_map_panics_iff {s : Machine D} {addr : Word} {id : Nat} (ht : ∀ m ∈ s.mappings, RangeOk .debug m) :
    Lrvm.map .debug s addr id = none ↔ ∃ c, s.memCache[id]? = some c ∧
      (2 ^ 32 ≤ addr.toNat + c.size.toNat ∨ addr.toNat + c.size.toNat < 4) := by
  unfold Lrvm.map
  rw [internalMap_eq]
  cases hc : s.memCache[id]? with
  | none => simp
  | some cache =>
    simp only [Option.some.injEq, exists_eq_left']
    have hA := addr.isLt
    have hS := cache.size.isLt
    unfold dfltEnd
    simp only [Profile.add]
    by_cases h1 : addr.toNat + cache.size.toNat < 2 ^ 32
    · rw [if_pos h1]
      simp only [Option.bind_eq_bind, Option.bind_some, Profile.sub]
      have hsum : (addr + cache.size).toNat = addr.toNat + cache.size.toNat := by
        rw [BitVec.toNat_add]; exact Nat.mod_eq_of_lt h1
      by_cases h2 : 4 ≤ addr.toNat + cache.size.toNat
      · rw [if_pos (by rw [hsum]; exact h2)]
        simp only [Option.getD_none]
        refine ⟨fun h => ?_, fun h => by omega⟩
        exfalso
        have hstop := endOf_nat addr cache.size
        unfold mapDecide at h
        repeat' split at h
        all_goals first | cases h | skip
        · next hadd =>
          rw [add_ok (by simp only [room]; show _ + 4 ≤ _; omega)] at hadd
          cases hadd
        · next hn _ hsub =>
          rw [bv_lt_nat] at hn
          rw [sub_ok (by omega)] at hsub
          cases hsub
        · next hov =>
          rw [findOverlap_eq ht] at hov
          cases hov
      · rw [if_neg (by rw [hsum]; exact h2)]
        simp only [true_iff]
        omega
    · rw [if_neg h1]
      simp only [Option.bind_eq_bind, Option.bind_none, true_iff]
      omega

/-- **C49**, debug builds, exactly: `map_abs` panics iff the component exists and either the range `map` would give
it reaches the last byte of the address space (or the sum is below 4), whatever the requested end, or the requested
end is the last word and the address and the size are fine. -/
theorem C49_map_abs_panics_iff {s : Machine D} {addr stop : Word} {id : Nat}
    (ht : ∀ m ∈ s.mappings, RangeOk .debug m) :
    mapAbs .debug s addr stop id = none ↔ ∃ c, s.memCache[id]? = some c ∧
      ((2 ^ 32 ≤ addr.toNat + c.size.toNat ∨ addr.toNat + c.size.toNat < 4) ∨
        (stop = 0xFFFFFFFC ∧ addr.toNat % 4 = 0 ∧ 0 < c.size.toNat ∧ c.size.toNat % 4 = 0)) := by
  unfold mapAbs
  rw [internalMap_eq]
  cases hc : s.memCache[id]? with
  | none => simp
  | some cache =>
    simp only [Option.some.injEq, exists_eq_left']
    have hA := addr.isLt
    have hS := cache.size.isLt
    have hE := stop.isLt
    unfold dfltEnd
    simp only [Profile.add]
    by_cases h1 : addr.toNat + cache.size.toNat < 2 ^ 32
    · rw [if_pos h1]
      simp only [Option.bind_eq_bind, Option.bind_some, Profile.sub]
      have hsum : (addr + cache.size).toNat = addr.toNat + cache.size.toNat := by
        rw [BitVec.toNat_add]; exact Nat.mod_eq_of_lt h1
      by_cases h2 : 4 ≤ addr.toNat + cache.size.toNat
      · rw [if_pos (by rw [hsum]; exact h2)]
        simp only [Option.getD_some]
        constructor
        · intro h
          right
          unfold mapDecide at h
          split at h
          · cases h
          next ha =>
          split at h
          · cases h
          next hz =>
          split at h
          · cases h
          next hs =>
          split at h
          · cases h
          next he =>
          have ha : addr.toNat % 4 = 0 := mod4_nat.mp (Decidable.not_not.mp ha)
          have hs : cache.size.toNat % 4 = 0 := mod4_nat.mp (Decidable.not_not.mp hs)
          have he : stop.toNat % 4 = 0 := mod4_nat.mp (Decidable.not_not.mp he)
          have hz : 0 < cache.size.toNat := by
            rcases Nat.eq_zero_or_pos cache.size.toNat with h | h
            · exact absurd (BitVec.toNat_eq.mpr h) hz
            · exact h
          refine ⟨?_, ha, hz, hs⟩
          by_cases hl : stop.toNat + 4 < 2 ^ 32
          · exfalso
            rw [add_ok (by simp only [room]; show _ + 4 ≤ _; omega)] at h
            dsimp only at h
            split at h
            · cases h
            next hn =>
            rw [bv_lt_nat] at hn
            rw [sub_ok (by omega)] at h
            simp only at h
            repeat' split at h
            all_goals first | cases h | skip
            next hov =>
              rw [findOverlap_eq ht] at hov
              cases hov
          · apply BitVec.eq_of_toNat_eq
            show stop.toNat = 4294967292
            omega
        · rintro (h | ⟨rfl, ha, hz, hs⟩)
          · omega
          · unfold mapDecide
            rw [if_neg (not_not_intro (mod4_nat.mpr ha)),
              if_neg (by intro hk; rw [hk] at hz; exact absurd hz (by decide)),
              if_neg (not_not_intro (mod4_nat.mpr hs)), if_neg (by decide)]
            rfl
      · rw [if_neg (by rw [hsum]; exact h2)]
        simp only [true_iff]
        omega
    · rw [if_neg h1]
      simp only [Option.bind_eq_bind, Option.bind_none, true_iff]
      omega

/-! ## Non-vacuity -/

/-- A request with three problems is told the first of them. -/
example : ∃ s : Machine Demo.Dev, newBoard .debug (Demo.devices []) = some s ∧
    (∀ m ∈ s.mappings, RangeOk .debug m) ∧
    Lrvm.map .debug s 3 1 = some (.error .unalignedStartAddress, s) ∧
    Lrvm.map .debug s 0x100 7 = some (.error .unknownComponent, s) ∧
    mapAbs .debug s 0x100 0x142 1 = some (.error .unalignedEndAddress, s) ∧
    mapAbs .debug s 0x100 0x80 1 = some (.error .nullOrNegAddressRange, s) ∧
    mapAbs .debug s 0x100 0x144 1 = some (.error (.mappingTooLarge 0x40), s) :=
  ⟨_, rfl, fun m hm => (List.not_mem_nil hm).elim, rfl, rfl, rfl, rfl, rfl⟩

/-- The two panics. -/
example : ∃ s : Machine Demo.Dev, newBoard .debug (Demo.devices []) = some s ∧
    (∀ m ∈ s.mappings, RangeOk .debug m) ∧ mapAbs .debug s 0x100 0xFFFFFFFC 1 = none ∧
    mapAbs .debug s 0xFFFFFFF0 0x100 1 = none :=
  ⟨_, rfl, fun m hm => (List.not_mem_nil hm).elim, rfl, rfl⟩

end Lrvm
