import Verif.Lemmas.Table
import Verif.Props.Steps

/-!
# When mapping calls succeed
-/

namespace Lrvm

open Spec

variable {D : Type} [Bus D] {pf : Profile}

theorem findOverlap_eq {maps : List Mapping} (h : ∀ m ∈ maps, RangeOk pf m) (start stop : Word) :
    findOverlap pf start stop maps = some (maps.find? fun m =>
      decide (m.addr.toNat ≤ stop.toNat ∧ start.toNat < m.addr.toNat + m.size.toNat)) := by
  induction maps with
  | nil => rfl
  | cons m ms ih =>
    have hm := h m (by simp)
    have ih := ih (fun n hn => h n (by simp [hn]))
    obtain ⟨e, he, hen⟩ := endAddr_eq hm.nonempty hm.fits
    have h0 := hm.nonempty
    unfold findOverlap
    rw [List.find?_cons]
    by_cases hle : m.addr ≤ stop
    · rw [if_pos hle]
      simp only [he, Option.bind_eq_bind, Option.bind_some]
      rw [bv_le_nat] at hle
      by_cases hae : start ≤ e
      · rw [if_pos hae]
        rw [bv_le_nat] at hae
        rw [decide_eq_true ⟨hle, by omega⟩]
      · rw [if_neg hae]
        rw [bv_le_nat] at hae
        rw [decide_eq_false (fun hc => by have := hc.2; omega)]
        exact ih
    · rw [if_neg hle]
      rw [bv_le_nat] at hle
      rw [decide_eq_false (fun hc => hle hc.1)]
      exact ih

theorem findOverlap_none {maps : List Mapping} (h : ∀ m ∈ maps, RangeOk pf m) (start stop : Word) :
    findOverlap pf start stop maps = some none ↔
      ∀ m ∈ maps, ¬ (m.addr.toNat ≤ stop.toNat ∧ start.toNat < m.addr.toNat + m.size.toNat) := by
  rw [findOverlap_eq h, Option.some.injEq, List.find?_eq_none]
  simp only [decide_eq_true_eq]

/-- Two aligned ranges share an address iff their bounds cross. -/
theorem disjoint_iff {m n : Mapping} (hm : 0 < m.size.toNat) (hm' : m.addr.toNat + m.size.toNat ≤ 2 ^ 32)
    (hn : 0 < n.size.toNat) (hn' : n.addr.toNat + n.size.toNat ≤ 2 ^ 32) :
    Disjoint m n ↔ ¬ (m.addr.toNat < n.addr.toNat + n.size.toNat ∧
      n.addr.toNat < m.addr.toNat + m.size.toNat) := by
  constructor
  · intro h hc
    by_cases hle : m.addr.toNat ≤ n.addr.toNat
    · exact h n.addr ⟨⟨hle, hc.2⟩, ⟨Nat.le_refl _, by omega⟩⟩
    · exact h m.addr ⟨⟨Nat.le_refl _, by omega⟩, ⟨by omega, hc.1⟩⟩
  · rintro h a ⟨⟨h1, h2⟩, ⟨h3, h4⟩⟩
    exact h ⟨by omega, by omega⟩

theorem Spec.Disjoint.symm {m n : Mapping} (h : Disjoint m n) : Disjoint n m := fun a ha => h a ha.symm

theorem add_ok {a b : Word} (h : a.toNat + b.toNat ≤ room pf) : pf.add a b = some (a + b) := by
  cases pf
  · simp only [Profile.add]; rw [if_pos]; simp only [room] at h; omega
  · rfl

theorem add_inv {a b c : Word} (h : pf.add a b = some c) : c = a + b ∧ (pf = .debug → a.toNat + b.toNat < 2 ^ 32) := by
  cases pf
  · simp only [Profile.add, Option.ite_none_right_eq_some, Option.some.injEq] at h
    exact ⟨h.2.symm, fun _ => h.1⟩
  · exact ⟨(Option.some.inj h).symm, fun h => by cases h⟩

theorem sub_inv {a b c : Word} (h : pf.sub a b = some c) : c = a - b ∧ (pf = .debug → b.toNat ≤ a.toNat) := by
  cases pf
  · simp only [Profile.sub, Option.ite_none_right_eq_some, Option.some.injEq] at h
    exact ⟨h.2.symm, fun _ => h.1⟩
  · exact ⟨(Option.some.inj h).symm, fun h => by cases h⟩

theorem endOf_nat (a b : Word) : (a + b - 4).toNat = (2 ^ 32 - 4 + (a.toNat + b.toNat) % 2 ^ 32) % 2 ^ 32 := by
  rw [BitVec.toNat_sub, BitVec.toNat_add]; rfl

/-- The table entries a range with the given aligned bounds does not meet are the disjoint ones. -/
theorem free_iff {maps : List Mapping} (h : ∀ m ∈ maps, RangeOk pf m) {id : Nat} {hw : U64} {addr size stop : Word}
    (h0 : 0 < size.toNat) (h4 : size.toNat % 4 = 0) (ha : addr.toNat % 4 = 0)
    (hf : addr.toNat + size.toNat ≤ 2 ^ 32) (hs : stop.toNat = addr.toNat + size.toNat - 4) :
    (∀ m ∈ maps, ¬ (m.addr.toNat ≤ stop.toNat ∧ addr.toNat < m.addr.toNat + m.size.toNat)) ↔
      ∀ m ∈ maps, Disjoint (rangeAt id hw addr size) m := by
  constructor
  · intro hh m hm
    have hr := h m hm
    have := hr.nonempty; have := hr.fits; have := hr.addrAligned; have := room_le (pf := pf)
    rw [disjoint_iff h0 hf hr.nonempty (by omega)]
    have hx := hh m hm
    simp only [rangeAt]
    omega
  · intro hh m hm
    have hr := h m hm
    have := hr.nonempty; have := hr.fits; have := hr.addrAligned; have := room_le (pf := pf)
    have hx := hh m hm
    rw [disjoint_iff h0 hf hr.nonempty (by omega)] at hx
    simp only [rangeAt] at hx
    omega

theorem map_ok {s : Machine D} {addr : Word} {id : Nat} {cache : AuxCache}
    (ht : ∀ m ∈ s.mappings, RangeOk pf m) (h : Mappable pf s addr id cache) :
    Lrvm.map pf s addr id = some (.ok ⟨addr, addr + cache.size - 4⟩,
      { s with mappings := s.mappings ++ [rangeAt id cache.hwId addr cache.size] }) := by
  have hroom := room_le (pf := pf)
  have h0 := h.sizePos; have h4 := h.sizeAligned; have ha := h.addrAligned; have hf := h.fits
  have hstop := endOf_nat addr cache.size
  have hstop' : (addr + cache.size - 4).toNat = addr.toNat + cache.size.toNat - 4 := by omega
  unfold Lrvm.map
  rw [internalMap_eq, h.known]
  dsimp only
  unfold dfltEnd
  rw [add_ok hf]
  simp only [Option.bind_eq_bind, Option.bind_some]
  have hsub : pf.sub (addr + cache.size) 4 = some (addr + cache.size - 4) := by
    cases pf
    · simp only [Profile.sub]
      rw [if_pos]
      simp only [room] at hf
      rw [BitVec.toNat_add]
      show 4 ≤ _
      omega
    · rfl
  rw [hsub]
  simp only [Option.getD_none]
  unfold mapDecide
  rw [if_neg (by simpa using mod4_nat.mpr ha),
    if_neg (by intro hz; rw [hz] at h0; exact absurd h0 (by decide)),
    if_neg (by simpa using mod4_nat.mpr h4),
    if_neg (not_not_intro (mod4_nat.mpr (show (addr + cache.size - 4).toNat % 4 = 0 by omega)))]
  have hadd4 : pf.add (addr + cache.size - 4) 4 = some (addr + cache.size - 4 + 4) := by
    apply add_ok
    rw [hstop']
    show addr.toNat + cache.size.toNat - 4 + 4 ≤ _
    omega
  rw [hadd4]
  dsimp only
  rw [if_neg]
  · rw [sub_ok (a := addr + cache.size - 4) (b := addr) (by omega)]
    dsimp only
    rw [if_neg, if_neg, (findOverlap_none ht addr _).mpr ((free_iff ht h0 h4 ha (by omega) hstop').mpr h.free)]
    · rfl
    · simp only [List.any_eq_true, beq_iff_eq, not_exists, not_and]
      exact fun m hm => h.unmapped m hm
    · rw [bv_lt_nat, offset_nat (by omega)]; omega
  · rw [bv_lt_nat]
    rintro (hz | hz)
    · have h1 : addr.toNat = (addr + cache.size - 4 + 4).toNat := congrArg _ hz
      rw [BitVec.toNat_add, hstop'] at h1
      change addr.toNat = (addr.toNat + cache.size.toNat - 4 + 4) % 2 ^ 32 at h1
      have := addr.isLt
      have := cache.size.isLt
      omega
    · omega

theorem map_inv {s s' : Machine D} {addr : Word} {id : Nat} {rng : MappingRange}
    (ht : ∀ m ∈ s.mappings, RangeOk pf m) (h : Lrvm.map pf s addr id = some (.ok rng, s')) :
    ∃ cache, Mappable pf s addr id cache := by
  unfold Lrvm.map at h
  rw [internalMap_eq] at h
  cases hc : s.memCache[id]? with
  | none => rw [hc] at h; cases h
  | some cache =>
    rw [hc] at h
    dsimp only at h
    cases hd : dfltEnd pf addr cache.size with
    | none => rw [hd] at h; cases h
    | some d =>
      rw [hd] at h
      simp only [Option.getD_none] at h
      simp only [dfltEnd, Option.bind_eq_bind, Option.bind_eq_some_iff] at hd
      obtain ⟨t, h1, h2⟩ := hd
      obtain ⟨rfl, h1'⟩ := add_inv h1
      obtain ⟨rfl, h2'⟩ := sub_inv h2
      have hstop := endOf_nat addr cache.size
      unfold mapDecide at h
      split at h
      · cases h
      next ha =>
      split at h
      · cases h
      next hz =>
      split at h
      · cases h
      next h4 =>
      split at h
      · cases h
      next hs4 =>
      split at h
      · cases h
      next stop4 hadd =>
      split at h
      · cases h
      next hneg =>
      split at h
      · cases h
      next len hlen =>
      split at h
      · cases h
      next hlarge =>
      split at h
      · cases h
      next hany =>
      have ha := mod4_nat.mp (by simpa using ha : addr % 4 = 0)
      have h4 := mod4_nat.mp (by simpa using h4 : cache.size % 4 = 0)
      have hpos : 0 < cache.size.toNat := by
        rcases Nat.eq_zero_or_pos cache.size.toNat with h | h
        · exact absurd (BitVec.toNat_eq.mpr h) hz
        · exact h
      have hge : addr.toNat ≤ (addr + cache.size - 4).toNat := by
        have : ¬ (addr + cache.size - 4) < addr := fun hh => hneg (.inr hh)
        rw [bv_lt_nat] at this
        omega
      have hA := addr.isLt
      have hS := cache.size.isLt
      have hfits : addr.toNat + cache.size.toNat ≤ room pf := by
        cases pf
        · have := h1' rfl; simp only [room]; omega
        · simp only [room]; omega
      split at h
      · cases h
      · cases h
      · next hov =>
        refine ⟨cache, hc, hpos, h4, ha, hfits, ?_, ?_⟩
        · simp only [List.any_eq_true, beq_iff_eq, not_exists, not_and] at hany
          exact fun m hm => hany m hm
        · have hroom := room_le (pf := pf)
          exact (free_iff ht hpos h4 ha (by omega) (by omega)).mp ((findOverlap_none ht _ _).mp hov)

/-- Extending a good table with a mappable range. -/
theorem tableOk_snoc {s : Machine D} {addr : Word} {id : Nat} {cache : AuxCache}
    (ht : TableOk pf s.mappings) (h : Mappable pf s addr id cache) :
    TableOk pf (s.mappings ++ [rangeAt id cache.hwId addr cache.size]) where
  ranges := by
    intro m hm
    rcases List.mem_append.mp hm with hm | hm
    · exact ht.ranges m hm
    · rw [List.mem_singleton] at hm
      subst hm
      exact ⟨h.sizePos, h.fits, h.addrAligned, h.sizeAligned⟩
  disjoint := by
    rw [List.pairwise_append]
    refine ⟨ht.disjoint, List.pairwise_singleton _ _, ?_⟩
    intro m hm n hn
    rw [List.mem_singleton] at hn
    subst hn
    exact (h.free m hm).symm
  once := by
    rw [List.pairwise_append]
    refine ⟨ht.once, List.pairwise_singleton _ _, ?_⟩
    intro m hm n hn
    rw [List.mem_singleton] at hn
    subst hn
    exact h.unmapped m hm

theorem map_tableOk {s s' : Machine D} {addr : Word} {id : Nat} {r : Except MappingError MappingRange}
    (ht : TableOk pf s.mappings) (h : Lrvm.map pf s addr id = some (r, s')) : TableOk pf s'.mappings := by
  rcases internalMap_inv (show internalMap pf s addr none id = _ from h) with ⟨_, rfl⟩ | ⟨c, stop, _, rfl, rfl⟩
  · exact ht
  · obtain ⟨cache, hm⟩ := map_inv ht.ranges h
    rw [map_ok ht.ranges hm] at h
    injection h with h; injection h with h1 h2
    rw [← h2]
    exact tableOk_snoc ht hm

end Lrvm
