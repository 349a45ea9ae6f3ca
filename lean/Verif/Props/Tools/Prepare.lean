import Verif.Props.Tools.Run
import Verif.Spec.Component

/-!
# Preparing a virtual machine: C62 (when it succeeds)
-/

namespace Lrvm

open Spec

variable {D : Type} [Bus D] {pf : Profile}

theorem createCaches_ok {ds : List D} {k : Nat} (hk : k + ds.length ≤ 4294967295)
    (h : ∀ d ∈ ds, ∃ md, Bus.metadata pf d = some md) : ∃ cs, createCaches pf k ds = some cs := by
  induction ds generalizing k with
  | nil => exact ⟨[], rfl⟩
  | cons d ds ih =>
    obtain ⟨md, hmd⟩ := h d (by simp)
    simp only [List.length_cons] at hk
    obtain ⟨cs, hcs⟩ := ih (k := k + 1) (by omega) (fun e he => h e (by simp [he]))
    have hadd : ∃ hw, pf.add (md[0].setWidth 64 <<< 32) (md[1].setWidth 64) = some (hw : U64) := by
      cases pf with
      | release => exact ⟨_, rfl⟩
      | debug =>
        refine ⟨md[0].setWidth 64 <<< 32 + md[1].setWidth 64, ?_⟩
        unfold Profile.add
        simp only
        rw [if_pos]
        rw [BitVec.toNat_shiftLeft, BitVec.toNat_setWidth, BitVec.toNat_setWidth, Nat.shiftLeft_eq]
        have h0 := (md[0]).isLt
        have h1 := (md[1]).isLt
        omega
    obtain ⟨hw, hhw⟩ := hadd
    refine ⟨⟨k, hw, truncName (Bus.name d), md, md[2]⟩ :: cs, ?_⟩
    have hlt : k < 4294967295 := by omega
    simp only [createCaches, createCache, hmd, hhw, hcs, assert, hlt, decide_true, if_true, Option.bind_eq_bind,
      Option.bind_some, Option.pure_def]

theorem contigLoop_ok (sizes : List Nat) : ∀ (k : Nat) (acc : ContigAcc) (s : Machine D) (A : Nat),
    (∀ i n, sizes[i]? = some n → ∃ c, s.memCache[k + i]? = some c ∧ c.size.toNat = n) →
    (∀ n ∈ sizes, 0 < n ∧ n % 4 = 0) → A + sizes.sum ≤ room pf → (sizes ≠ [] → acc.lastAddr.toNat = A) → A % 4 = 0 →
    TableOk pf s.mappings → (∀ m ∈ s.mappings, m.auxId < k ∧ m.addr.toNat + m.size.toNat ≤ A) →
    ∃ acc' s', contigLoop pf acc s (List.range' k sizes.length) = some (acc', s') ∧ acc'.failed = acc.failed := by
  induction sizes with
  | nil => intro k acc s A _ _ _ _ _ _ _; exact ⟨acc, s, rfl, rfl⟩
  | cons n sizes ih =>
    intro k acc s A hc hn hfit hlast hA ht hm
    obtain ⟨c, hck, hcs⟩ := hc 0 n rfl
    simp only [Nat.add_zero] at hck
    obtain ⟨hpos, hal⟩ := hn n (by simp)
    have hl := hlast (by simp)
    rw [List.sum_cons] at hfit
    have hroom := room_le (pf := pf)
    have hmap : Mappable pf s acc.lastAddr k c := by
      refine ⟨hck, by omega, by omega, by omega, by omega, ?_, ?_⟩
      · intro m hmm h; have := (hm m hmm).1; omega
      · intro m hmm a ⟨h1, h2⟩
        have := (hm m hmm).2
        unfold covers at h1 h2
        simp only [rangeAt] at h1
        omega
    have hmk := map_ok ht.ranges hmap
    have hstop := endOf_nat acc.lastAddr c.size
    have hstop' : (acc.lastAddr + c.size - 4).toNat = acc.lastAddr.toNat + c.size.toNat - 4 := by omega
    have hadd : pf.add (acc.lastAddr + c.size - 4) 4 = some (acc.lastAddr + c.size - 4 + 4) := by
      cases pf with
      | release => rfl
      | debug =>
        unfold Profile.add
        simp only
        rw [if_pos]
        rw [hstop']
        simp only [room] at hfit
        show _ + 4 < 2 ^ 32
        omega
    have hstep : ∃ acc1, contigStep pf acc s k = some (acc1,
        { s with mappings := s.mappings ++ [rangeAt k c.hwId acc.lastAddr c.size] }) ∧ acc1.failed = acc.failed ∧
        acc1.lastAddr = acc.lastAddr + c.size - 4 + 4 := by
      unfold contigStep
      rw [hmk]
      simp only [Option.bind_eq_bind, Option.bind_some, hadd, hck]
      exact ⟨_, rfl, rfl, rfl⟩
    obtain ⟨acc1, h1, h2, h3⟩ := hstep
    have h4 : (acc.lastAddr + c.size - 4 + 4).toNat = (A + n) % 2 ^ 32 := by
      rw [BitVec.toNat_add, hstop', hl, hcs]
      show (_ + 4) % _ = _
      congr 1; omega
    obtain ⟨acc', s', h5, h6⟩ := ih (k + 1) acc1
      { s with mappings := s.mappings ++ [rangeAt k c.hwId acc.lastAddr c.size] } (A + n)
      (by
        intro i m hi
        obtain ⟨c', h', h''⟩ := hc (i + 1) m (by simpa using hi)
        exact ⟨c', by rw [← h']; congr 1; omega, h''⟩)
      (fun m hmm => hn m (by simp [hmm])) (by omega)
      (by
        intro hne
        rw [h3, h4, Nat.mod_eq_of_lt]
        cases sizes with
        | nil => exact absurd rfl hne
        | cons m ms =>
          have := (hn m (by simp)).1
          rw [List.sum_cons] at hfit
          omega)
      (by omega) (tableOk_snoc ht hmap)
      (by
        intro m hmm
        rcases List.mem_append.1 hmm with hmm | hmm
        · have := hm m hmm; omega
        · rw [List.mem_singleton] at hmm
          subst hmm
          simp only [rangeAt]
          omega)
    refine ⟨acc', s', ?_, h6.trans h2⟩
    rw [List.length_cons, List.range'_succ]
    unfold contigLoop
    simp only [h1, Option.bind_eq_bind, Option.bind_some]
    exact h5

/-- What the board knows of the components is what they advertised when it was built. -/
private theorem prepare_cache {ds : List D} {s : Machine D} (h : prepareVm pf ds = some s) :
    ∃ cs, createCaches pf 0 ds = some cs ∧ s.memCache = cs := by
  unfold prepareVm at h
  simp only [Option.bind_eq_bind, Option.bind_eq_some_iff] at h
  obtain ⟨s0, h0, ⟨r, s1⟩, h1, h2⟩ := h
  obtain ⟨_, ⟨new, hnew, _⟩, _⟩ := C47_layout h1
  unfold newBoard at h0
  simp only [Option.bind_eq_bind, Option.bind_eq_some_iff] at h0
  obtain ⟨_, _, c1, hc1, c2, hc2, h0⟩ := h0
  injection h0 with h0
  refine ⟨c1, hc1, ?_⟩
  cases hr : r.mapping with
  | error e => rw [hr] at h2; cases h2
  | ok rng =>
    simp only [hr] at h2
    unfold boardReset at h2
    simp only [Option.bind_eq_bind, Option.bind_eq_some_iff] at h2
    obtain ⟨devs, hd, h2⟩ := h2
    injection h2 with h2
    subst h2 hnew h0
    rfl

/-- Partial **C62**: `prepare_vm` succeeds when every component advertises a size that is a positive multiple of 4, all of
them fit in the address space, and every component can be reset. Each component is then mapped after the previous ones.
Missing (false of the code, `C62_last_byte_refuted`): debug builds when the last byte of the address space is used. -/
theorem C62_succeeds_partial {ds ds' : List D} {sizes : List Nat} (hn : ds.length < 2 ^ 32) (hlen : sizes.length = ds.length)
    (hadv : ∀ (k : Nat) d n, ds[k]? = some d → sizes[k]? = some n → Advertises pf d n)
    (hpos : ∀ n ∈ sizes, 0 < n ∧ n % 4 = 0) (hfit : sizes.sum ≤ room pf) (hres : resetAll ds = some ds') :
    ∃ s, prepareVm pf ds = some s ∧ s.devs = ds' ∧ s.mappings.length = ds.length ∧
      ∀ (k n : Nat), sizes[k]? = some n → ∃ m, s.mappings[k]? = some m ∧ m.auxId = k ∧ m.addr.toNat = (sizes.take k).sum ∧
        m.size.toNat = n := by
  have hmd : ∀ d ∈ ds, ∃ md, Bus.metadata pf d = some md := by
    intro d hd
    obtain ⟨k, hk, hk'⟩ := List.mem_iff_getElem.1 hd
    obtain ⟨md, h, _⟩ := hadv k d (sizes[k]'(by omega)) (by rw [List.getElem?_eq_getElem hk, hk'])
      (List.getElem?_eq_getElem _)
    exact ⟨md, h⟩
  obtain ⟨cs, hcs⟩ := createCaches_ok (pf := pf) (k := 0) (ds := ds) (by omega) hmd
  obtain ⟨hcl, hcg⟩ := createCaches_get hcs
  have hcache : ∀ (i n : Nat), sizes[i]? = some n → ∃ c : AuxCache, cs[i]? = some c ∧ c.size.toNat = n := by
    intro i n hi
    have hlt : i < ds.length := by
      have := (List.getElem?_eq_some_iff.1 hi).1; omega
    obtain ⟨c, md, h1, h2, h3, h4, _⟩ := hcg i ds[i] (List.getElem?_eq_getElem hlt)
    obtain ⟨md', h5, h6⟩ := hadv i ds[i] n (List.getElem?_eq_getElem hlt) hi
    rw [h2] at h5; injection h5 with h5; subst h5
    exact ⟨c, h1, by rw [h4, h6]⟩
  let s0 : Machine D := ⟨{ Regs.zero with smt := 1 }, ds, cs, cs, [], 0, true, false⟩
  have hb : newBoard pf ds = some s0 := by
    have hle : ds.length ≤ 4294967295 := by omega
    simp only [newBoard, hcs, assert, hle, decide_true, if_true, Option.bind_eq_bind, Option.bind_some, Option.pure_def]
    rfl
  obtain ⟨acc, s1, hl, hf⟩ := contigLoop_ok (pf := pf) sizes 0 ⟨[], [], 0, 0⟩ s0 0
    (by intro i n hi; rw [Nat.zero_add]; exact hcache i n hi) hpos (by omega) (fun _ => rfl) rfl
    ⟨by simp [s0], by simp [s0], by simp [s0]⟩ (by simp [s0])
  have hmc : mapContiguous pf s0 0 (List.range ds.length) =
      some ({ mapping := .ok ⟨0, acc.maxAddr⟩, auxMapping := acc.auxMapping }, s1) := by
    unfold mapContiguous
    rw [List.range_eq_range', ← hlen, hl]
    simp only [Option.bind_eq_bind, Option.bind_some, hf, List.isEmpty_nil, if_true]
  have hdev : s1.devs = ds := by
    obtain ⟨_, ⟨new, h, _⟩, _⟩ := C47_layout hmc
    rw [h]
  have hp : ∃ s, prepareVm pf ds = some s ∧ s.devs = ds' ∧ s.mappings = s1.mappings ∧ s.memCache = s1.memCache := by
    unfold prepareVm
    rw [hb]
    simp only [Option.bind_eq_bind, Option.bind_some]
    rw [hmc]
    refine ⟨{ s1.cpuReset with devs := ds' }, ?_, rfl, rfl, rfl⟩
    show boardReset s1 = _
    unfold boardReset
    show (resetAll s1.devs).bind _ = _
    rw [hdev, hres]
    rfl
  obtain ⟨s, hs, hsd, hsm, hsc⟩ := hp
  obtain ⟨_, _, _, _, _, hids, _, _, haddr, hsz⟩ := C62_ready hs
  have hml : s.mappings.length = ds.length := by
    have := congrArg List.length hids
    simpa using this
  have hmem : s.memCache = cs := by
    obtain ⟨_, ⟨new, h, _⟩, _⟩ := C47_layout hmc
    rw [hsc, h]
  have hsizes : s.mappings.map (fun m : Mapping => m.size.toNat) = sizes := by
    apply List.ext_getElem?
    intro k
    rw [List.getElem?_map]
    cases hk : sizes[k]? with
    | none =>
      have : sizes.length ≤ k := List.getElem?_eq_none_iff.1 hk
      rw [List.getElem?_eq_none (by omega)]; rfl
    | some n =>
      have hlt : k < s.mappings.length := by
        have := (List.getElem?_eq_some_iff.1 hk).1; omega
      rw [List.getElem?_eq_getElem hlt]
      have hid : (s.mappings[k]).auxId = k := by
        have := congrArg (·[k]?) hids
        simp only [List.getElem?_map, List.getElem?_eq_getElem hlt, Option.map_some] at this
        rw [List.getElem?_range (by omega)] at this
        exact Option.some.inj this
      obtain ⟨c, h1, h2, _⟩ := hsz _ (List.getElem_mem hlt)
      rw [hmem, hid] at h1
      obtain ⟨c', h3, h4⟩ := hcache k n hk
      rw [h1] at h3; injection h3 with h3; subst h3
      rw [Option.map_some, h2, h4]
  refine ⟨s, hs, hsd, hml, ?_⟩
  intro k n hk
  have hlt : k < s.mappings.length := by
    have := (List.getElem?_eq_some_iff.1 hk).1; omega
  refine ⟨s.mappings[k], List.getElem?_eq_getElem hlt, ?_, ?_, ?_⟩
  · have := congrArg (·[k]?) hids
    simp only [List.getElem?_map, List.getElem?_eq_getElem hlt, Option.map_some] at this
    rw [List.getElem?_range (by omega)] at this
    exact Option.some.inj this
  · rw [haddr k _ (List.getElem?_eq_getElem hlt)]
    unfold totalSize
    rw [List.map_take, hsizes]
  · have := congrArg (·[k]?) hsizes
    simp only [List.getElem?_map, List.getElem?_eq_getElem hlt, Option.map_some, hk] at this
    exact Option.some.inj this

/-- **C62**: the converse, so that the condition is exact: with such sizes and components that can be reset,
`prepare_vm` succeeds iff the components fit in the address space (`Spec.room`: a build with overflow checks cannot use
its very last byte). -/
theorem C62_succeeds_iff {ds ds' : List D} {sizes : List Nat} (hn : ds.length < 2 ^ 32)
    (hlen : sizes.length = ds.length)
    (hadv : ∀ (k : Nat) d n, ds[k]? = some d → sizes[k]? = some n → Advertises pf d n)
    (hpos : ∀ n ∈ sizes, 0 < n ∧ n % 4 = 0) (hres : resetAll ds = some ds') :
    (∃ s, prepareVm pf ds = some s) ↔ sizes.sum ≤ room pf := by
  refine ⟨?_, fun hfit => (C62_succeeds_partial hn hlen hadv hpos hfit hres).imp fun _ h => h.1⟩
  rintro ⟨s, hs⟩
  obtain ⟨_, _, _, _, _, hids, htab, htot, haddr, hsz⟩ := C62_ready hs
  have hcache : ∀ (k : Nat) (m : Mapping), s.mappings[k]? = some m → ∃ n, sizes[k]? = some n ∧ m.size.toNat = n := by
    intro k m hk
    have hid : m.auxId = k ∧ k < ds.length := by
      have := congrArg (·[k]?) hids
      simp only [List.getElem?_map, hk, Option.map_some] at this
      have hr := List.getElem?_eq_some_iff.1 this.symm
      obtain ⟨hlt, hv⟩ := hr
      simp only [List.length_range] at hlt
      rw [List.getElem_range] at hv
      exact ⟨hv.symm, hlt⟩
    obtain ⟨rfl, hlt⟩ := hid
    obtain ⟨c, hc, hsize, _⟩ := hsz m (List.mem_of_getElem? hk)
    refine ⟨sizes[m.auxId]'(by omega), List.getElem?_eq_getElem _, ?_⟩
    obtain ⟨md', hmd', hmds⟩ := hadv m.auxId ds[m.auxId] (sizes[m.auxId]'(by omega)) (List.getElem?_eq_getElem hlt)
      (List.getElem?_eq_getElem _)
    obtain ⟨cs, hcs, hmem⟩ := prepare_cache hs
    obtain ⟨_, hcg⟩ := createCaches_get hcs
    obtain ⟨c', md, h1, h2, h3, h4, _⟩ := hcg m.auxId ds[m.auxId] (List.getElem?_eq_getElem hlt)
    rw [hmem, h1] at hc
    injection hc with hc
    subst hc
    rw [h2] at hmd'
    injection hmd' with hmd'
    subst hmd'
    rw [hsize, h4, hmds]
  have hml : s.mappings.length = sizes.length := by
    have := congrArg List.length hids
    simp only [List.length_map, List.length_range] at this
    omega
  have hsizes : s.mappings.map (fun m : Mapping => m.size.toNat) = sizes := by
    apply List.ext_getElem?
    intro k
    rw [List.getElem?_map]
    cases hk : s.mappings[k]? with
    | none =>
      rw [List.getElem?_eq_none_iff] at hk
      rw [List.getElem?_eq_none (by omega)]; rfl
    | some m =>
      obtain ⟨n, h1, h2⟩ := hcache k m hk
      rw [h1, Option.map_some, h2]
  have hsum : totalSize s.mappings = sizes.sum := by unfold totalSize; rw [hsizes]
  rcases List.eq_nil_or_concat s.mappings with hnil | ⟨l, m, hm⟩
  · rw [← hsum, hnil]; exact Nat.zero_le _
  · rw [List.concat_eq_append] at hm
    have hk : s.mappings[l.length]? = some m := by rw [hm]; simp
    have h1 := haddr _ _ hk
    have h2 := (htab.ranges m (by rw [hm]; simp)).fits
    have h3 : totalSize s.mappings = totalSize l + m.size.toNat := by rw [hm]; simp [totalSize]
    have h4 : totalSize (s.mappings.take l.length) = totalSize l := by rw [hm]; simp
    omega

/-- The hypotheses hold of the example board. -/
example : (∀ (k : Nat) d n, (Demo.devices [1])[k]? = some d → [0x40, 0x40][k]? = some n → Advertises .debug d n) ∧
    [0x40, 0x40].sum ≤ room .debug ∧ ∃ ds', resetAll (Demo.devices [1]) = some ds' := by
  refine ⟨?_, by decide, ⟨_, rfl⟩⟩
  intro k d n hd hn
  match k with
  | 0 => cases hd; cases hn; exact ⟨_, rfl, rfl⟩
  | 1 => cases hd; cases hn; exact ⟨_, rfl, rfl⟩
  | k + 2 => cases hn

end Lrvm
