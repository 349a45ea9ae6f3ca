import Verif.Spec.Confine
import Verif.Lemmas.Confine
import Verif.Props.Stack
import Verif.Props.Modes
import Verif.Props.Steps

/-!
# What a userland program cannot reach: C109, C110
-/

namespace Lrvm

open Spec

variable {E : Type} [Bus E] {pf : Profile}

/-- Relation between the components of two runs: they differ only in the hidden words, which keep their initial values. -/
structure Veil (m : Mapping) (hid : Nat → Prop) (n : Nat) (x0 y0 : Ram) (ds es : List (E ⊕ Ram)) : Prop where
  len : ds.length = es.length
  others : ∀ j, j ≠ m.auxId → ds[j]? = es[j]?
  rams : ∃ x y : Ram, ds[m.auxId]? = some (.inr x) ∧ es[m.auxId]? = some (.inr y) ∧ y = { x with storage := y.storage } ∧
    x.storage.length = n ∧ y.storage.length = n ∧
    (∀ i, ¬ hid (m.addr.toNat + 4 * i) → x.storage[i]? = y.storage[i]?) ∧
    (∀ i, hid (m.addr.toNat + 4 * i) → x.storage[i]? = x0.storage[i]? ∧ y.storage[i]? = y0.storage[i]?)

/-- What does not change during the runs. -/
structure Setup (pf : Profile) (maps : List Mapping) (m : Mapping) (pda : Word) (n : Nat) (x0 y0 : Ram) : Prop where
  table : TableOk pf maps
  mapped : m ∈ maps
  served : m.size.toNat ≤ 4 * n
  aligned : pda.toNat % 4 = 0
  above : m.addr.toNat ≤ pda.toNat
  below : pda.toNat + 4084 ≤ m.addr.toNat + m.size.toNat
  closed : ∀ a, a % 4 = 0 → Refused m x0 pda a → Refused m x0 pda (tableEntry pda a)
  len0 : x0.storage.length = n
  same : ∀ a, a % 4 = 0 → ramWord m x0 (tableEntry pda a) = ramWord m y0 (tableEntry pda a)

section
variable {maps : List Mapping} {m : Mapping} {pda : Word} {n : Nat} {x0 y0 : Ram}

theorem Setup.entry (h : Setup pf maps m pda n x0 y0) {x y : Ram} {v : Word} (hv : v.toNat % 4 = 0)
    (hx : x.storage.length = n)
    (hs : ∀ i, ¬ Refused m x0 pda (m.addr.toNat + 4 * i) → x.storage[i]? = y.storage[i]?)
    (hh : ∀ i, Refused m x0 pda (m.addr.toNat + 4 * i) → x.storage[i]? = x0.storage[i]? ∧ y.storage[i]? = y0.storage[i]?) :
    ∃ e, ramWord m x (tableEntry pda v.toNat) = some e ∧ ramWord m y (tableEntry pda v.toNat) = some e ∧
      (Refused m x0 pda v.toNat → entryBit e 1 = true) := by
  have hal := (h.table.ranges m h.mapped).addrAligned
  have h1 := h.above; have h2 := h.below; have h3 := h.aligned; have h4 := h.served
  let i := (tableEntry pda v.toNat - m.addr.toNat) / 4
  have hi : m.addr.toNat + 4 * i = tableEntry pda v.toNat := by
    show m.addr.toNat + 4 * ((pda.toNat + v.toNat % 1024 * 4 - m.addr.toNat) / 4) = pda.toNat + v.toNat % 1024 * 4
    omega
  have hlt : i < x.storage.length := by
    rw [hx]
    show (pda.toNat + v.toNat % 1024 * 4 - m.addr.toNat) / 4 < n
    omega
  have hsame : x.storage[i]? = y.storage[i]? := by
    by_cases hr : Refused m x0 pda (m.addr.toNat + 4 * i)
    · rw [(hh i hr).1, (hh i hr).2]
      exact h.same v.toNat hv
    · exact hs i hr
  refine ⟨x.storage[i], List.getElem?_eq_getElem hlt, ?_, ?_⟩
  · show y.storage[i]? = _
    rw [← hsame]; exact List.getElem?_eq_getElem hlt
  · intro hr
    have hc := h.closed v.toNat hv hr
    rw [← hi] at hc
    obtain ⟨e, he, hb⟩ := hr
    have := (hh i hc).1
    rw [List.getElem?_eq_getElem hlt] at this
    have he' : x0.storage[i]? = some e := he
    rw [he'] at this
    injection this with this
    rw [this]; exact hb

theorem bit_pass {r : Regs} (hs : r.smt = 0) (e : Word) : passBit r.smt e = !entryBit e 1 := by
  rw [passBit_eq]
  have : supervisor r = false := by unfold supervisor; rw [hs]; rfl
  rw [this]
  unfold passesThrough entryBit
  have : e.toNat / 2 ^ 30 % 2 = 0 ∨ e.toNat / 2 ^ 30 % 2 = 1 := by omega
  rcases this with h | h <;> simp [h]

theorem Setup.transl (h : Setup pf maps m pda n x0 y0) {r : Regs} (hs : r.smt = 0) (hm : r.mtt ≠ 0) (hp : r.pda = pda)
    {ds : List (E ⊕ Ram)} {x : Ram} (hd : ds[m.auxId]? = some (.inr x)) {v e : Word} (hv : v.toNat % 4 = 0)
    (he : ramWord m x (tableEntry pda v.toNat) = some e) :
    transl pf r maps ds v = some (if entryBit e 1 then .error none else .ok v, ds) := by
  have h1 := h.above; have h2 := h.below; have h3 := h.aligned
  have hfit := (h.table.ranges m h.mapped).fits
  have hroom : room pf ≤ 2 ^ 32 := by cases pf <;> decide
  obtain ⟨a, ha, hn⟩ := entryAddr_eq (pf := pf) (pda := pda) (v := v) (by omega)
  have hc : covers m a := ⟨by omega, by omega⟩
  unfold Lrvm.transl
  rw [if_neg hm, hp, ha]
  simp only [Option.bind_eq_bind, Option.bind_some]
  rw [devRead_hit h.table h.mapped hc (by omega) hd]
  have : x.storage[(a - m.addr).toNat / 4]? = some e := by
    rw [offset_nat hc.1, hn]; exact he
  simp only [Bus.read, vecRead, this, Option.bind_eq_bind, Option.bind_some, Option.map_some, ne_eq, not_true_eq_false, if_false]
  rw [set_self hd, bit_pass hs]
  cases entryBit e 1 <;> rfl

theorem veil_read (h : Setup pf maps m pda n x0 y0) {ds es : List (E ⊕ Ram)} (hv : Veil m (Refused m x0 pda) n x0 y0 ds es)
    {v : Word} (ha : v.toNat % 4 = 0) (hr : ¬ Refused m x0 pda v.toNat) :
    (devRead pf maps ds v 0 = none ∧ devRead pf maps es v 0 = none) ∨
    ∃ w ex ds' es', devRead pf maps ds v 0 = some (w, ex, ds') ∧ devRead pf maps es v 0 = some (w, ex, es') ∧
      Veil m (Refused m x0 pda) n x0 y0 ds' es' := by
  by_cases hcov : ∃ m' ∈ maps, covers m' v
  · obtain ⟨m', hm', hc⟩ := hcov
    by_cases hid : m'.auxId = m.auxId
    · have hmm : m' = m := by
        by_cases heq : m' = m
        · exact heq
        · exfalso
          have := h.table.once
          obtain ⟨i, hi, e1⟩ := List.mem_iff_getElem.mp hm'
          obtain ⟨j, hj, e2⟩ := List.mem_iff_getElem.mp h.mapped
          have hp := List.pairwise_iff_getElem.mp this
          rcases Nat.lt_trichotomy i j with hlt | rfl | hlt
          · exact hp i j hi hj hlt (by rw [e1, e2]; exact hid)
          · exact heq (e1.symm.trans e2)
          · exact hp j i hj hi hlt (by rw [e1, e2]; exact hid.symm)
      subst hmm
      obtain ⟨x, y, hx, hy, hxy, lx, ly, hs, hh⟩ := hv.rams
      have hal := (h.table.ranges _ hm').addrAligned
      have hi : m'.addr.toNat + 4 * ((v.toNat - m'.addr.toNat) / 4) = v.toNat := by have := hc.1; omega
      have hlt : (v.toNat - m'.addr.toNat) / 4 < x.storage.length := by
        have := hc.1; have := hc.2; have := h.served; omega
      have e1 := hs ((v.toNat - m'.addr.toNat) / 4) (by rw [hi]; exact hr)
      rw [devRead_hit h.table hm' hc ha hx, devRead_hit h.table hm' hc ha hy]
      simp only [Bus.read, vecRead, offset_nat hc.1, ← e1, List.getElem?_eq_getElem hlt, Option.bind_eq_bind,
        Option.bind_some, Option.map_some]
      rw [set_self hx, set_self hy]
      exact .inr ⟨_, _, _, _, rfl, rfl, hv⟩
    · have hoth := hv.others m'.auxId hid
      cases hd : ds[m'.auxId]? with
      | none =>
        have key : ∀ l : List (E ⊕ Ram), l[m'.auxId]? = none → devRead pf maps l v 0 = none := by
          intro l hl
          unfold devRead
          rw [assert_aligned ha, findMapping_eq h.table.ranges, find_covering h.table.disjoint hm' hc]
          simp only [Option.bind_eq_bind, Option.bind_some]
          rw [sub_ok hc.1]
          simp only [Option.bind_some]
          unfold bridgeRead
          have hal := (h.table.ranges _ hm').addrAligned
          rw [assert_aligned (by rw [offset_nat hc.1]; have := hc.1; omega), hl]
          rfl
        exact .inl ⟨key ds hd, key es (hoth ▸ hd)⟩
      | some d =>
        rw [devRead_hit h.table hm' hc ha hd, devRead_hit h.table hm' hc ha (hoth ▸ hd)]
        cases Bus.read d (v - m'.addr) 0 with
        | none => exact .inl ⟨rfl, rfl⟩
        | some p =>
          refine .inr ⟨_, _, _, _, rfl, rfl, ⟨by simp [hv.len], ?_, ?_⟩⟩
          · intro j hj
            rw [List.getElem?_set, List.getElem?_set, hv.len, hv.others j hj]
          · obtain ⟨x, y, hx, hy, hrest⟩ := hv.rams
            exact ⟨x, y, by rw [List.getElem?_set_ne hid]; exact hx, by rw [List.getElem?_set_ne hid]; exact hy, hrest⟩
  · have hmiss : ∀ m' ∈ maps, ¬ covers m' v := fun m' hm' hc => hcov ⟨m', hm', hc⟩
    rw [devRead_miss h.table.ranges hmiss ha, devRead_miss h.table.ranges hmiss ha]
    exact .inr ⟨_, _, _, _, rfl, rfl, hv⟩

theorem veil_write (h : Setup pf maps m pda n x0 y0) {ds es : List (E ⊕ Ram)} (hv : Veil m (Refused m x0 pda) n x0 y0 ds es)
    {v : Word} (w : Word) (ha : v.toNat % 4 = 0) (hr : ¬ Refused m x0 pda v.toNat) :
    (devWrite pf maps ds v w 0 = none ∧ devWrite pf maps es v w 0 = none) ∨
    ∃ ex ds' es', devWrite pf maps ds v w 0 = some (ex, ds') ∧ devWrite pf maps es v w 0 = some (ex, es') ∧
      Veil m (Refused m x0 pda) n x0 y0 ds' es' := by
  by_cases hcov : ∃ m' ∈ maps, covers m' v
  · obtain ⟨m', hm', hc⟩ := hcov
    by_cases hid : m'.auxId = m.auxId
    · have hmm : m' = m := by
        by_cases heq : m' = m
        · exact heq
        · exfalso
          have := h.table.once
          obtain ⟨i, hi, e1⟩ := List.mem_iff_getElem.mp hm'
          obtain ⟨j, hj, e2⟩ := List.mem_iff_getElem.mp h.mapped
          have hp := List.pairwise_iff_getElem.mp this
          rcases Nat.lt_trichotomy i j with hlt | rfl | hlt
          · exact hp i j hi hj hlt (by rw [e1, e2]; exact hid)
          · exact heq (e1.symm.trans e2)
          · exact hp j i hj hi hlt (by rw [e1, e2]; exact hid.symm)
      subst hmm
      obtain ⟨x, y, hx, hy, hxy, lx, ly, hs, hh⟩ := hv.rams
      have hal := (h.table.ranges _ hm').addrAligned
      have hi : m'.addr.toNat + 4 * ((v.toNat - m'.addr.toNat) / 4) = v.toNat := by have := hc.1; omega
      have hlt : (v.toNat - m'.addr.toNat) / 4 < x.storage.length := by
        have := hc.1; have := hc.2; have := h.served; omega
      have hlt' : (v.toNat - m'.addr.toNat) / 4 < y.storage.length := by omega
      rw [devWrite_hit h.table hm' hc ha hx, devWrite_hit h.table hm' hc ha hy]
      simp only [Bus.write, vecWrite, offset_nat hc.1, if_pos hlt, if_pos hlt', Option.bind_eq_bind,
        Option.bind_some, Option.map_some]
      refine .inr ⟨_, _, _, rfl, rfl, ⟨by simp [hv.len], ?_, ?_⟩⟩
      · intro j hj
        rw [List.getElem?_set_ne (Ne.symm hj), List.getElem?_set_ne (Ne.symm hj)]
        exact hv.others j hj
      · refine ⟨_, _, List.getElem?_set_self (List.getElem?_eq_some_iff.mp hx).1,
          List.getElem?_set_self (List.getElem?_eq_some_iff.mp hy).1, ?_, by simp [lx], by simp [ly], ?_, ?_⟩
        · rw [hxy]
        · intro i hi'
          simp only
          rw [List.getElem?_set, List.getElem?_set, hs i hi', lx, ly]
        · intro i hi'
          have hne : (v.toNat - m'.addr.toNat) / 4 ≠ i := by
            rintro rfl
            rw [hi] at hi'; exact hr hi'
          simp only
          rw [List.getElem?_set_ne hne, List.getElem?_set_ne hne]
          exact hh i hi'
    · have hoth := hv.others m'.auxId hid
      cases hd : ds[m'.auxId]? with
      | none =>
        have key : ∀ l : List (E ⊕ Ram), l[m'.auxId]? = none → devWrite pf maps l v w 0 = none := by
          intro l hl
          unfold devWrite
          rw [assert_aligned ha, findMapping_eq h.table.ranges, find_covering h.table.disjoint hm' hc]
          simp only [Option.bind_eq_bind, Option.bind_some]
          rw [sub_ok hc.1]
          simp only [Option.bind_some]
          unfold bridgeWrite
          have hal := (h.table.ranges _ hm').addrAligned
          rw [assert_aligned (by rw [offset_nat hc.1]; have := hc.1; omega), hl]
          rfl
        exact .inl ⟨key ds hd, key es (hoth ▸ hd)⟩
      | some d =>
        rw [devWrite_hit h.table hm' hc ha hd, devWrite_hit h.table hm' hc ha (hoth ▸ hd)]
        cases Bus.write d (v - m'.addr) w 0 with
        | none => exact .inl ⟨rfl, rfl⟩
        | some p =>
          refine .inr ⟨_, _, _, rfl, rfl, ⟨by simp [hv.len], ?_, ?_⟩⟩
          · intro j hj
            rw [List.getElem?_set, List.getElem?_set, hv.len, hv.others j hj]
          · obtain ⟨x, y, hx, hy, hrest⟩ := hv.rams
            exact ⟨x, y, by rw [List.getElem?_set_ne hid]; exact hx, by rw [List.getElem?_set_ne hid]; exact hy, hrest⟩
  · have hmiss : ∀ m' ∈ maps, ¬ covers m' v := fun m' hm' hc => hcov ⟨m', hm', hc⟩
    rw [devWrite_miss h.table.ranges hmiss ha, devWrite_miss h.table.ranges hmiss ha]
    exact .inr ⟨_, _, _, rfl, rfl, hv⟩

theorem Setup.confined (h : Setup pf maps m pda n x0 y0) {mtt : Word} (hm : mtt ≠ 0) :
    Confined pf maps mtt pda (Veil (E := E) m (Refused m x0 pda) n x0 y0) := by
  constructor
  · exact fun hv => hv.len
  · intro r ds es v h1 h2 h3 hv
    unfold accRead accDo
    by_cases ha : v % 4 ≠ 0
    · rw [if_pos ha, if_pos ha]; exact ⟨rfl, rfl, hv⟩
    · rw [if_neg ha, if_neg ha]
      have ha := mod4_nat.mp (Decidable.not_not.mp ha)
      obtain ⟨x, y, hx, hy, _, lx, ly, hs, hh⟩ := hv.rams
      obtain ⟨e, he, he', hb⟩ := h.entry ha lx hs hh
      rw [h.transl h1 (h2 ▸ hm) h3 hx ha he, h.transl h1 (h2 ▸ hm) h3 hy ha he']
      cases hbit : entryBit e 1 with
      | true => exact ⟨rfl, rfl, hv⟩
      | false =>
        have hr : ¬ Refused m x0 pda v.toNat := fun hr => by rw [hb hr] at hbit; cases hbit
        simp only [Bool.false_eq_true, if_false]
        rcases veil_read h hv ha hr with ⟨e1, e2⟩ | ⟨w, ex, ds', es', e1, e2, hv'⟩
        · rw [e1, e2]; trivial
        · rw [e1, e2]
          simp only
          split
          · exact ⟨rfl, rfl, hv'⟩
          · exact ⟨rfl, hv'⟩
  · intro r ds es v w h1 h2 h3 hv
    unfold accWrite accDo
    by_cases ha : v % 4 ≠ 0
    · rw [if_pos ha, if_pos ha]; exact ⟨rfl, rfl, hv⟩
    · rw [if_neg ha, if_neg ha]
      have ha := mod4_nat.mp (Decidable.not_not.mp ha)
      obtain ⟨x, y, hx, hy, _, lx, ly, hs, hh⟩ := hv.rams
      obtain ⟨e, he, he', hb⟩ := h.entry ha lx hs hh
      rw [h.transl h1 (h2 ▸ hm) h3 hx ha he, h.transl h1 (h2 ▸ hm) h3 hy ha he']
      cases hbit : entryBit e 1 with
      | true => exact ⟨rfl, rfl, hv⟩
      | false =>
        have hr : ¬ Refused m x0 pda v.toNat := fun hr => by rw [hb hr] at hbit; cases hbit
        simp only [Bool.false_eq_true, if_false]
        rcases veil_write h hv w ha hr with ⟨e1, e2⟩ | ⟨ex, ds', es', e1, e2, hv'⟩
        · rw [e1, e2]; trivial
        · rw [e1, e2]
          simp only [Option.map_some]
          split
          · exact ⟨rfl, rfl, hv'⟩
          · exact ⟨rfl, hv'⟩

end

/-! ## Runs -/

theorem fetch_twin {D : Type} [Bus D] {P : List D → List D → Prop} {maps : List Mapping} {mtt pda : Word}
    (hi : Confined pf maps mtt pda P) {s t : Machine D} (h : Twin P s t) (hu : InUser maps mtt pda s) {w : Word} {es : List D}
    (hf : Fetches pf t w es) : ∃ ds, Fetches pf s w ds := by
  rw [fetches_iff] at hf
  have := hi.read s.regs.pc hu.2.1 hu.2.2.1 hu.2.2.2 h.devs
  rw [← h.regs, ← h.maps, hu.1] at hf
  rw [hf.2] at this
  cases he : accRead pf s.regs maps s.devs s.regs.pc with
  | done a ds =>
    rw [he] at this
    obtain ⟨rfl, _⟩ := this
    exact ⟨ds, fetches_iff.mpr ⟨h.halted.trans hf.1, by rw [hu.1]; exact he⟩⟩
  | fault c d ds => rw [he] at this; exact this.elim
  | panic => rw [he] at this; exact this.elim

/-- A userland run and its twin. -/
theorem userRun_twin {D : Type} [Bus D] {P : List D → List D → Prop} {maps : List Mapping} {mtt pda : Word}
    (hi : Confined pf maps mtt pda P) {s s' : Machine D} {n : Nat} (hr : UserRun pf s n s') :
    ∀ {t : Machine D}, Twin P s t → s.mappings = maps → s.regs.mtt = mtt → s.regs.pda = pda →
    ∃ t', UserRun pf t n t' ∧ Twin P s' t' ∧ s'.mappings = maps ∧ s'.regs.mtt = mtt ∧ s'.regs.pda = pda := by
  induction hr with
  | done s => exact fun {t} h h1 h2 h3 => ⟨t, .done t, h, h1, h2, h3⟩
  | step hu hres hn _ ih =>
    intro t h h1 h2 h3
    have hin : InUser maps mtt pda _ := ⟨h1, by unfold supervisor at hu; simpa using hu, h2, h3⟩
    rcases next_twin hi h hin hres with ⟨e, _⟩ | ⟨a', b, e1, e2, hab⟩
    · rw [hn] at e; cases e
    · rw [hn] at e1; injection e1 with e1; subst e1
      obtain ⟨⟨_, _, k1, k2, _⟩, _⟩ := userland_step hu hn fun w ds hf h => hres w ds hf (resetsCpu_opcode h)
      obtain ⟨t', r1, r2⟩ := ih hab ((C38_step_keeps_hardware hn).2.1.trans h1) (k1.trans h2) (k2.trans h3)
      refine ⟨t', .step (by rw [← h.regs]; exact hu) ?_ e2 r1, r2⟩
      intro w es hf
      obtain ⟨ds, hf'⟩ := fetch_twin hi h hin hf
      exact hres w ds hf'

theorem Spec.Guarded.setup {s : Machine (E ⊕ Ram)} {m : Mapping} {ram y : Ram} (h : Guarded pf s m ram)
    (hsame : ∀ a, a % 4 = 0 → ramWord m ram (tableEntry s.regs.pda a) = ramWord m y (tableEntry s.regs.pda a)) :
    Setup pf s.mappings m s.regs.pda ram.storage.length ram y :=
  ⟨h.table, h.mapped, h.served, h.aligned, h.above, h.below, h.closed, rfl, hsame⟩

/-- **C109**, partial. While a userland program runs, no word of memory at an address its translation table refuses it changes: this
includes the table entries that refuse. Missing: RESET, which userland can execute and which erases the memories
(`C109_reset_refuted`). -/
theorem C109_integrity_partial {s s' : Machine (E ⊕ Ram)} {m : Mapping} {ram : Ram} {n : Nat} (hg : Guarded pf s m ram)
    (hr : UserRun pf s n s') :
    ∃ ram', s'.devs[m.auxId]? = some (.inr ram') ∧
      ∀ a, a % 4 = 0 → m.addr.toNat ≤ a → Refused m ram s.regs.pda a →
        ramWord m ram' a = ramWord m ram a ∧ Refused m ram' s.regs.pda a := by
  have hset := hg.setup (y := ram) fun _ _ => rfl
  have hv : Veil m (Refused m ram s.regs.pda) ram.storage.length ram ram s.devs s.devs :=
    ⟨rfl, fun _ _ => rfl, ram, ram, hg.dev, hg.dev, rfl, rfl, rfl, fun _ _ => rfl, fun _ _ => ⟨rfl, rfl⟩⟩
  obtain ⟨t', _, htw, _⟩ := userRun_twin (hset.confined hg.mmuOn) hr (t := s) ⟨rfl, rfl, rfl, rfl, rfl, rfl, rfl, hv⟩ rfl rfl rfl
  obtain ⟨x, y, hx, _, _, _, _, _, hh⟩ := htw.devs.rams
  have hal := (hg.table.ranges m hg.mapped).addrAligned
  have key : ∀ a, a % 4 = 0 → m.addr.toNat ≤ a → Refused m ram s.regs.pda a → ramWord m x a = ramWord m ram a := by
    intro a ha hle href
    refine (hh ((a - m.addr.toNat) / 4) ?_).1
    rw [show m.addr.toNat + 4 * ((a - m.addr.toNat) / 4) = a by omega]
    exact href
  refine ⟨x, hx, fun a ha hle href => ⟨key a ha hle href, ?_⟩⟩
  have h1 := hg.above; have h3 := hg.aligned
  obtain ⟨e, he, hb⟩ := href
  refine ⟨e, ?_, hb⟩
  rw [key (tableEntry s.regs.pda a) (by unfold tableEntry; omega) (by unfold tableEntry; omega) (hg.closed a ha ⟨e, he, hb⟩)]
  exact he

/-- **C110**, partial. A userland program learns nothing about the words its translation table refuses it: two machines that differ only
in such words (outside the table) go through the same states but for those words. Missing: RESET (`C110_reset_refuted`). -/
theorem C110_confidentiality_partial {s t s' : Machine (E ⊕ Ram)} {m : Mapping} {ram : Ram} {n : Nat} (hg : Guarded pf s m ram)
    (hst : SameMachine s t)
    (hd : SameBut m (fun a => Refused m ram s.regs.pda a ∧ ¬ InTable s.regs.pda a) s.devs t.devs) (hr : UserRun pf s n s') :
    ∃ t', UserRun pf t n t' ∧ SameMachine s' t' ∧ SameBut m (Refused m ram s.regs.pda) s'.devs t'.devs ∧
      (supervisor s'.regs = false → (∀ w devs, Fetches pf s' w devs → opcode w ≠ 0x1F) →
        (next pf s' = none ↔ next pf t' = none)) := by
  obtain ⟨hlen, hoth, x, y, hx, hy, hxy, hl, hs⟩ := hd
  have hxr : x = ram := by
    have := hg.dev
    rw [hx] at this; injection this with this; injection this
  subst hxr
  have h1 := hg.above; have h3 := hg.aligned
  have hal := (hg.table.ranges m hg.mapped).addrAligned
  have hset := hg.setup (y := y) fun a ha => by
    refine hs _ ?_
    rw [show m.addr.toNat + 4 * ((tableEntry s.regs.pda a - m.addr.toNat) / 4) = tableEntry s.regs.pda a by
      unfold tableEntry; omega]
    exact fun hh => hh.2 ⟨a, ha, rfl⟩
  have hv : Veil m (Refused m x s.regs.pda) x.storage.length x y s.devs t.devs :=
    ⟨hlen, hoth, x, y, hx, hy, hxy, rfl, hl.symm, fun i hi => hs i fun hh => hi hh.1, fun _ _ => ⟨rfl, rfl⟩⟩
  obtain ⟨t', r1, r2, r3, r4, r5⟩ := userRun_twin (hset.confined hg.mmuOn) hr
    ⟨hst.regs, hst.hardware.1, hst.hardware.2.1, hst.mappings, hst.cycles, hst.halted, hst.changedPc, hv⟩ rfl rfl rfl
  refine ⟨t', r1, ⟨r2.regs, r2.maps, r2.cycles, r2.halted, ⟨r2.hwb, r2.mem, r2.devs.len⟩, r2.changedPc⟩, ?_, ?_⟩
  · obtain ⟨x', y', a1, a2, a3, a4, a5, a6, _⟩ := r2.devs.rams
    exact ⟨r2.devs.len, r2.devs.others, x', y', a1, a2, a3, a4.trans a5.symm, a6⟩
  · intro hu hres
    rcases next_twin (hset.confined hg.mmuOn) r2 ⟨r3, by unfold supervisor at hu; simpa using hu, r4, r5⟩ hres with ⟨e1, e2⟩ | ⟨a, b, e1, e2, _⟩
    · rw [e1, e2]
    · rw [e1, e2]; simp

/-! ## Concrete machines -/

/-- `k` words from position `i` on: every sixteenth word and the one at position 132 have the bit that refuses userland; `prog` at
positions 1 to 3; `secret` at position 33. -/
def Demo.guardWords (prog : Nat → Word) (secret : Word) : Nat → Nat → List Word
  | 0, _ => []
  | k + 1, i => (if i % 16 = 0 ∨ i = 132 then 0x40000000 else if i < 4 then prog i else if i = 33 then secret else 0) ::
      guardWords prog secret k (i + 1)

/-- A RAM of 4096 bytes at address 0, with the translation table in it, spread over the whole of it; userland, MMU on. -/
def Demo.guarded (prog : Nat → Word) (pc secret : Word) : Machine (BootRom ⊕ Ram) where
  regs := { Regs.zero with mtt := 1, pc := pc }
  devs := [.inr ⟨Demo.guardWords prog secret 1024 0, 1024, 0⟩]
  hwbCache := []
  memCache := []
  mappings := [⟨0, 0, 0, 0x1000⟩]
  cycles := 0
  halted := false
  changedPc := false

theorem Demo.guardWords_length (prog : Nat → Word) (secret : Word) (k i : Nat) :
    (Demo.guardWords prog secret k i).length = k := by
  induction k generalizing i with
  | zero => rfl
  | succ k ih => simp [Demo.guardWords, ih]

theorem Demo.guardWords_get (prog : Nat → Word) (secret : Word) (k i j : Nat) (h : j < k) :
    (Demo.guardWords prog secret k i)[j]? = some (if (i + j) % 16 = 0 ∨ i + j = 132 then 0x40000000
      else if i + j < 4 then prog (i + j) else if i + j = 33 then secret else 0) := by
  induction k generalizing i j with
  | zero => omega
  | succ k ih =>
    cases j with
    | zero => rfl
    | succ j =>
      unfold Demo.guardWords
      rw [List.getElem?_cons_succ, ih (i + 1) j (by omega)]
      rw [show i + 1 + j = i + (j + 1) by omega]

theorem Demo.guarded_refused (prog : Nat → Word) (secret : Word) (a : Nat) (ha : a % 4 = 0) :
    Refused ⟨0, 0, 0, 0x1000⟩ ⟨Demo.guardWords prog secret 1024 0, 1024, 0⟩ 0 a ↔ a % 16 = 0 ∨ a % 1024 = 132 := by
  unfold Refused ramWord tableEntry
  show (∃ e, (Demo.guardWords prog secret 1024 0)[(0 + a % 1024 * 4 - 0) / 4]? = some e ∧ _) ↔ _
  rw [show (0 + a % 1024 * 4 - 0) / 4 = a % 1024 by omega, Demo.guardWords_get _ _ _ _ _ (by omega)]
  simp only [Nat.zero_add]
  constructor
  · rintro ⟨e, he, hb⟩
    injection he with he
    by_cases h : a % 1024 % 16 = 0 ∨ a % 1024 = 132
    · omega
    · rw [if_neg h, if_neg (by omega), if_neg (by omega)] at he
      subst he; exact absurd hb (by decide)
  · intro h
    exact ⟨0x40000000, by rw [if_pos (by omega)], by decide⟩

theorem Demo.guarded_ok (prog : Nat → Word) (pc secret : Word) :
    Guarded .debug (Demo.guarded prog pc secret) ⟨0, 0, 0, 0x1000⟩ ⟨Demo.guardWords prog secret 1024 0, 1024, 0⟩ where
  table := ⟨by intro m hm; rw [List.mem_singleton.mp hm]; exact ⟨by decide, by decide, by decide, by decide⟩,
    List.pairwise_singleton _ _, List.pairwise_singleton _ _⟩
  mapped := List.mem_singleton.mpr rfl
  dev := rfl
  served := by rw [Demo.guardWords_length]; decide
  mmuOn := by show (1 : Word) ≠ 0; decide
  aligned := rfl
  above := Nat.le_refl _
  below := by show 0 + 4084 ≤ 0 + 4096; decide
  closed := by
    intro a ha hr
    have h0 : tableEntry (Demo.guarded prog pc secret).regs.pda a = a % 1024 * 4 := by
      show 0 + a % 1024 * 4 = _; omega
    rw [h0]
    have := (Demo.guarded_refused prog secret a ha).mp hr
    exact (Demo.guarded_refused prog secret (a % 1024 * 4) (by omega)).mpr (by omega)

/-- A program that writes where it may, then reads where it may not. -/
def Demo.guardProg (i : Nat) : Word :=
  if i = 1 then instrWord 0x16 false false false 0x88 0 9 else instrWord 0x14 false false false 0 0x84 0

theorem fetch_noreset {D : Type} [Bus D] {s : Machine D} {w : Word} {ds : List D} (h1 : Fetches pf s w ds) (h2 : opcode w ≠ 0x1F) :
    ∀ w' ds', Fetches pf s w' ds' → opcode w' ≠ 0x1F := by
  intro w' ds' h3
  rw [(fetches_unique h1 h3).1]; exact h2

/-- The machine after the write. -/
def Demo.guarded1 (secret : Word) : Machine (BootRom ⊕ Ram) :=
  { Demo.guarded Demo.guardProg 8 secret with
    devs := [.inr ⟨(Demo.guardWords Demo.guardProg secret 1024 0).set 34 9, 1024, 0⟩], cycles := 1 }

set_option maxRecDepth 20000 in
/-- The program runs for two steps and is stopped by the MMU (exception 0x06 at 0x84). -/
theorem Demo.guard_run : ∃ u, UserRun .debug (Demo.guarded Demo.guardProg 4 0x5EC) 2 u ∧
    u.regs.et = 0x00060084 ∧ supervisor u.regs = true := by
  have key : (next .debug (Demo.guarded1 0x5EC)).map (fun u => (u.regs.et, supervisor u.regs)) = some (0x00060084, true) := by
    decide +kernel
  rw [Option.map_eq_some_iff] at key
  obtain ⟨u, h1, h2⟩ := key
  injection h2 with h2 h3
  exact ⟨u, .step rfl (fetch_noreset (w := instrWord 0x16 false false false 0x88 0 9)
      (ds := (Demo.guarded Demo.guardProg 4 0x5EC).devs) ⟨rfl, rfl⟩ (by decide))
    (t := Demo.guarded1 0x5EC) rfl
    (.step rfl (fetch_noreset (w := instrWord 0x14 false false false 0 0x84 0)
      (ds := (Demo.guarded1 0x5EC).devs) ⟨rfl, rfl⟩ (by decide)) h1 (.done _)), h2, h3⟩

/-- The word at 0x84 is refused, is no table entry, and is the secret. -/
example : Refused ⟨0, 0, 0, 0x1000⟩ ⟨Demo.guardWords Demo.guardProg 0x5EC 1024 0, 1024, 0⟩ 0 0x84 ∧ ¬ InTable 0 0x84 ∧
    ramWord ⟨0, 0, 0, 0x1000⟩ ⟨Demo.guardWords Demo.guardProg 0x5EC 1024 0, 1024, 0⟩ 0x84 = some 0x5EC := by
  refine ⟨(Demo.guarded_refused _ _ _ rfl).mpr (.inr rfl), ?_, rfl⟩
  rintro ⟨b, hb, h⟩
  unfold tableEntry at h
  have : (0x84 : Nat) = 0 + b % 1024 * 4 := h
  omega

/-- The machines with two different secrets are the same but for it. -/
theorem Demo.guarded_same (prog : Nat → Word) (pc x y : Word) :
    SameMachine (Demo.guarded prog pc x) (Demo.guarded prog pc y) ∧
    SameBut ⟨0, 0, 0, 0x1000⟩ (fun a => Refused ⟨0, 0, 0, 0x1000⟩ ⟨Demo.guardWords prog x 1024 0, 1024, 0⟩ 0 a ∧ ¬ InTable 0 a)
      (Demo.guarded prog pc x).devs (Demo.guarded prog pc y).devs := by
  refine ⟨⟨rfl, rfl, rfl, rfl, ⟨rfl, rfl, rfl⟩, rfl⟩, rfl, ?_, _, _, rfl, rfl, rfl, ?_, ?_⟩
  · intro j hj
    cases j with
    | zero => exact absurd rfl hj
    | succ j => rfl
  · rw [Demo.guardWords_length, Demo.guardWords_length]
  · intro i hi
    simp only
    by_cases hlt : i < 1024
    · rw [Demo.guardWords_get _ _ _ _ _ hlt, Demo.guardWords_get _ _ _ _ _ hlt]
      by_cases h33 : i = 33
      · exfalso
        subst h33
        refine hi ⟨(Demo.guarded_refused _ _ _ rfl).mpr (.inr rfl), ?_⟩
        rintro ⟨b, hb, h⟩
        have : (0x84 : Nat) = 0 + b % 1024 * 4 := h
        omega
      · simp only [Nat.zero_add, h33, if_false]
    · rw [List.getElem?_eq_none (by rw [Demo.guardWords_length]; omega),
        List.getElem?_eq_none (by rw [Demo.guardWords_length]; omega)]

set_option maxRecDepth 20000 in
/-- The full claim is false of the code: a userland program erases, with RESET, a word that its table refuses it, and stays in
userland. -/
theorem C109_reset_refuted : ∃ (s s' : Machine (BootRom ⊕ Ram)) (m : Mapping) (ram ram' : Ram) (a : Nat),
    Guarded .debug s m ram ∧ supervisor s.regs = false ∧ Refused m ram s.regs.pda a ∧ next .debug s = some s' ∧
    supervisor s'.regs = false ∧ s'.devs[m.auxId]? = some (.inr ram') ∧ ramWord m ram a = some 0x5EC ∧
    ramWord m ram' a = some 0 := by
  refine ⟨Demo.guarded (fun _ => instrWord 0x1F false false false 0x10 0 0) 4 0x5EC, _, _, _, _, 0x84, Demo.guarded_ok _ _ _, rfl,
    (Demo.guarded_refused _ _ _ rfl).mpr (.inr rfl), rfl, rfl, rfl, rfl, ?_⟩
  show (List.replicate (Demo.guardWords (fun _ => instrWord 0x1F false false false 0x10 0 0) 0x5EC 1024 0).length (0 : Word))[33]? = some 0
  rw [Demo.guardWords_length, List.getElem?_replicate]
  rfl

/-- The program of the next theorem. -/
def Demo.leakProg (i : Nat) : Word :=
  if i = 3 then instrWord 0x1F false false false 0x0F 0 0 else instrWord 0x14 false false false 0 0x84 0

/-- The full claim is false of the code: a userland program resets the processor alone, which makes it continue at address 0 in
supervisor mode with the MMU off; with instructions of its own there, three steps put the secret in a register, without any
exception. -/
theorem C110_reset_refuted : ∃ (s t s' t' : Machine (BootRom ⊕ Ram)) (m : Mapping) (ram : Ram),
    Guarded .debug s m ram ∧ supervisor s.regs = false ∧ SameMachine s t ∧
    SameBut m (fun a => Refused m ram s.regs.pda a ∧ ¬ InTable s.regs.pda a) s.devs t.devs ∧
    nextN .debug 3 s = some s' ∧ nextN .debug 3 t = some t' ∧ s'.regs.et = 0 ∧ t'.regs.et = 0 ∧
    reg s'.regs 0 = 1 ∧ reg t'.regs 0 = 2 := by
  refine ⟨Demo.guarded Demo.leakProg 12 1, Demo.guarded Demo.leakProg 12 2, _, _, _, _, Demo.guarded_ok _ _ _, rfl,
    (Demo.guarded_same _ _ _ _).1, (Demo.guarded_same _ _ _ _).2, rfl, rfl, rfl, rfl, rfl, rfl⟩

end Lrvm
