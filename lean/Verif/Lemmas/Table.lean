import Verif.Spec.Memory
import Verif.Lemmas.Mapping

/-!
# The mapping table: search and dispatch
-/

namespace Lrvm

open Spec

variable {D : Type} [Bus D] {pf : Profile}

theorem bv_le_nat {a b : Word} : a ≤ b ↔ a.toNat ≤ b.toNat := BitVec.le_def
theorem bv_lt_nat {a b : Word} : a < b ↔ a.toNat < b.toNat := BitVec.lt_def

theorem mod4_nat {a : Word} : a % 4 = 0 ↔ a.toNat % 4 = 0 := by
  rw [BitVec.toNat_eq, BitVec.toNat_umod]; rfl

theorem room_le : room pf ≤ 2 ^ 32 := by cases pf <;> decide

theorem endAddr_eq {m : Mapping} (h0 : 0 < m.size.toNat) (h : m.addr.toNat + m.size.toNat ≤ room pf) :
    ∃ e : Word, m.endAddr pf = some e ∧ e.toNat = m.addr.toNat + m.size.toNat - 1 := by
  have hr := room_le (pf := pf)
  refine ⟨m.addr + m.size - 1, ?_, ?_⟩
  · unfold Mapping.endAddr Profile.add Profile.sub
    cases pf with
    | release => rfl
    | debug =>
      simp only [room] at h
      have h1 : m.addr.toNat + m.size.toNat < 2 ^ 32 := by omega
      simp only [if_pos h1, Option.bind_eq_bind, Option.bind_some]
      rw [if_pos]
      rw [BitVec.toNat_add]
      show 1 ≤ _
      omega
  · rw [BitVec.toNat_sub, BitVec.toNat_add]
    show (2 ^ 32 - 1 + (m.addr.toNat + m.size.toNat) % 2 ^ 32) % 2 ^ 32 = _
    omega

theorem findMapping_eq {maps : List Mapping} (h : ∀ m ∈ maps, RangeOk pf m) (a : Word) :
    findMapping pf maps a = some (maps.find? fun m => decide (covers m a)) := by
  induction maps with
  | nil => rfl
  | cons m ms ih =>
    have hm := h m (by simp)
    have ih := ih (fun n hn => h n (by simp [hn]))
    obtain ⟨e, he, hen⟩ := endAddr_eq hm.nonempty hm.fits
    unfold findMapping
    rw [List.find?_cons]
    have h0 := hm.nonempty
    by_cases hle : m.addr ≤ a
    · rw [if_pos hle]
      simp only [he, Option.bind_eq_bind, Option.bind_some]
      rw [bv_le_nat] at hle
      by_cases hae : a ≤ e
      · rw [if_pos hae]
        rw [bv_le_nat] at hae
        rw [decide_eq_true (show covers m a from ⟨hle, by omega⟩)]
      · rw [if_neg hae]
        rw [bv_le_nat] at hae
        rw [decide_eq_false (show ¬ covers m a from fun hc => by have := hc.2; omega)]
        exact ih
    · rw [if_neg hle]
      rw [bv_le_nat] at hle
      rw [decide_eq_false (show ¬ covers m a from fun hc => hle hc.1)]
      exact ih

theorem find_covering {maps : List Mapping} (hd : maps.Pairwise Disjoint) {m : Mapping} {a : Word}
    (hm : m ∈ maps) (hc : covers m a) : maps.find? (fun m => decide (covers m a)) = some m := by
  induction maps with
  | nil => simp at hm
  | cons n ns ih =>
    rw [List.find?_cons]
    rw [List.pairwise_cons] at hd
    rcases List.mem_cons.mp hm with rfl | hm'
    · rw [decide_eq_true hc]
    · have : ¬ covers n a := fun hn => hd.1 m hm' a ⟨hn, hc⟩
      rw [decide_eq_false this]
      exact ih hd.2 hm'

theorem sub_ok {a b : Word} (h : b.toNat ≤ a.toNat) : pf.sub a b = some (a - b) := by
  cases pf
  · simp only [Profile.sub, if_pos h]
  · rfl

theorem offset_nat {a b : Word} (h : b.toNat ≤ a.toNat) : (a - b).toNat = a.toNat - b.toNat := by
  have := a.isLt
  rw [BitVec.toNat_sub]; omega

theorem assert_aligned {a : Word} (h : a.toNat % 4 = 0) : assert (a % 4 == 0) = some () := by
  rw [mod4_nat.mpr h]; rfl

theorem assert_unaligned {a : Word} (h : a.toNat % 4 ≠ 0) : assert (a % 4 == 0) = none := by
  have : (a % 4 == 0) = false := by
    rw [beq_eq_false_iff_ne, ne_eq, mod4_nat]; exact h
  rw [this]; rfl

/-- Dispatch of a read to a covering mapping. -/
theorem devRead_hit {maps : List Mapping} {devs : List D} {m : Mapping} {a : Word} {ex : U16} {d : D}
    (ht : TableOk pf maps) (hm : m ∈ maps) (hc : covers m a) (ha : a.toNat % 4 = 0)
    (hd : devs[m.auxId]? = some d) :
    devRead pf maps devs a ex = (Bus.read d (a - m.addr) ex).map fun p =>
      (p.2.1, p.2.2, devs.set m.auxId p.1) := by
  have hal := (ht.ranges m hm).addrAligned
  unfold devRead
  rw [assert_aligned ha, findMapping_eq ht.ranges, find_covering ht.disjoint hm hc]
  simp only [Option.bind_eq_bind, Option.bind_some]
  rw [sub_ok hc.1]
  simp only [Option.bind_some]
  unfold bridgeRead
  rw [assert_aligned (by rw [offset_nat hc.1]; have := hc.1; omega), hd]
  simp only [Option.bind_eq_bind, Option.bind_some]
  cases Bus.read d (a - m.addr) ex <;> rfl

theorem devWrite_hit {maps : List Mapping} {devs : List D} {m : Mapping} {a w : Word} {ex : U16} {d : D}
    (ht : TableOk pf maps) (hm : m ∈ maps) (hc : covers m a) (ha : a.toNat % 4 = 0)
    (hd : devs[m.auxId]? = some d) :
    devWrite pf maps devs a w ex = (Bus.write d (a - m.addr) w ex).map fun p =>
      (p.2, devs.set m.auxId p.1) := by
  have hal := (ht.ranges m hm).addrAligned
  unfold devWrite
  rw [assert_aligned ha, findMapping_eq ht.ranges, find_covering ht.disjoint hm hc]
  simp only [Option.bind_eq_bind, Option.bind_some]
  rw [sub_ok hc.1]
  simp only [Option.bind_some]
  unfold bridgeWrite
  rw [assert_aligned (by rw [offset_nat hc.1]; have := hc.1; omega), hd]
  simp only [Option.bind_eq_bind, Option.bind_some]
  cases Bus.write d (a - m.addr) w ex <;> rfl

theorem devRead_miss {maps : List Mapping} {devs : List D} {a : Word} {ex : U16}
    (ht : ∀ m ∈ maps, RangeOk pf m) (hc : ∀ m ∈ maps, ¬ covers m a) (ha : a.toNat % 4 = 0) :
    devRead pf maps devs a ex = some (0, ex, devs) := by
  unfold devRead
  rw [assert_aligned ha, findMapping_eq ht, List.find?_eq_none.mpr (by simpa using hc)]
  rfl

theorem devWrite_miss {maps : List Mapping} {devs : List D} {a w : Word} {ex : U16}
    (ht : ∀ m ∈ maps, RangeOk pf m) (hc : ∀ m ∈ maps, ¬ covers m a) (ha : a.toNat % 4 = 0) :
    devWrite pf maps devs a w ex = some (ex, devs) := by
  unfold devWrite
  rw [assert_aligned ha, findMapping_eq ht, List.find?_eq_none.mpr (by simpa using hc)]
  rfl

/-- What a search of any table can return. -/
theorem findMapping_some {maps : List Mapping} {a : Word} {m : Mapping}
    (h : findMapping pf maps a = some (some m)) :
    m ∈ maps ∧ m.addr.toNat ≤ a.toNat ∧ ∃ e, m.endAddr pf = some e ∧ a.toNat ≤ e.toNat := by
  induction maps with
  | nil => cases h
  | cons n ns ih =>
    unfold findMapping at h
    split at h
    · next hle =>
      rw [Option.bind_eq_bind, Option.bind_eq_some_iff] at h
      obtain ⟨e, he, h⟩ := h
      split at h
      · next hae => cases h; exact ⟨by simp, bv_le_nat.mp hle, e, he, bv_le_nat.mp hae⟩
      · obtain ⟨h1, h2⟩ := ih h; exact ⟨by simp [h1], h2⟩
    · obtain ⟨h1, h2⟩ := ih h; exact ⟨by simp [h1], h2⟩

/-- If the computed end address is at least the start, it is the true end: the address lies in the range. -/
theorem covers_of_endAddr {m : Mapping} {a e : Word} (h1 : m.addr.toNat ≤ a.toNat)
    (he : m.endAddr pf = some e) (h2 : a.toNat ≤ e.toNat) : covers m a ∨ m.size = 0 := by
  by_cases h0 : m.size = 0
  · exact .inr h0
  · left
    have hs : 0 < m.size.toNat := by
      rcases Nat.eq_zero_or_pos m.size.toNat with h | h
      · exact absurd (BitVec.toNat_eq.mpr h) h0
      · exact h
    have hee : e = m.addr + m.size - 1 := by
      unfold Mapping.endAddr Profile.add Profile.sub at he
      cases pf with
      | release => exact (Option.some.inj he).symm
      | debug =>
        simp only [Option.bind_eq_bind, Option.bind_eq_some_iff, Option.ite_none_right_eq_some,
          Option.some.injEq] at he
        obtain ⟨t, ⟨_, rfl⟩, ⟨_, rfl⟩⟩ := he
        rfl
    refine ⟨h1, ?_⟩
    have he2 : e.toNat = (2 ^ 32 - 1 + (m.addr.toNat + m.size.toNat) % 2 ^ 32) % 2 ^ 32 := by
      rw [hee, BitVec.toNat_sub, BitVec.toNat_add]; rfl
    have ha := m.addr.isLt
    have hb := m.size.isLt
    omega

end Lrvm
