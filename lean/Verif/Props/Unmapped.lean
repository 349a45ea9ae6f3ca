import Verif.Lemmas.Unmapped
import Verif.Lemmas.Component
import Verif.Model.Tools.Builders
import Verif.Props.Requests

/-!
# Components that are not mapped: C133
-/

namespace Lrvm

open Spec

variable {D : Type} [Bus D] {pf : Profile}

/-- The mapping calls that name a component. -/
def Spec.NamesComponent (id : Nat) : HostOp → Prop
  | .map _ i => i = id
  | .mapAbs _ _ i => i = id
  | .mapContiguous _ is => id ∈ is
  | _ => False

/-- Component `id` has received nothing but resets. -/
def resetsOnly (id : Nat) (i : Nat) (d : Logged D) : Prop := i = id → ∀ q ∈ d.log, q = .reset

/-- A board's list of sizes in which component `id` has size 0. -/
def hide (cache : List AuxCache) (id : Nat) : List AuxCache := cache.modify id fun c => { c with size := 0 }

theorem hide_get (cache : List AuxCache) (id i : Nat) (h : i ≠ id) : (hide cache id)[i]? = cache[i]? := by
  unfold hide; rw [List.getElem?_modify]; simp [Ne.symm h]

theorem not_inRange_hide {cache : List AuxCache} {id : Nat} {a : Word} (h : InRange (hide cache id) id a) : False := by
  obtain ⟨_, c, hc, hlt⟩ := h
  unfold hide at hc
  simp only [List.getElem?_modify, if_true, Option.map_eq_map, Option.map_eq_some_iff] at hc
  obtain ⟨c0, _, rfl⟩ := hc
  simp at hlt

theorem resetsOnly_devInv (cache : List AuxCache) (id : Nat) :
    DevInv (D := Logged D) (resetsOnly id) (hide cache id) where
  read := by rintro i d a ex d' w ex' h hr hb rfl; exact absurd hr not_inRange_hide
  write := by rintro i d a w ex d' ex' h hr hb rfl; exact absurd hr not_inRange_hide
  reset := by
    intro i d d' h hb hi q hq
    simp only [Bus.reset, Option.map_eq_some_iff] at hb
    obtain ⟨p, _, rfl⟩ := hb
    rcases List.mem_append.mp hq with hq | hq
    · exact h hi q hq
    · exact List.mem_singleton.mp hq

theorem placed_hide {cache : List AuxCache} {maps : List Mapping} {id : Nat} (hp : Placed cache maps)
    (hn : ∀ m ∈ maps, m.auxId ≠ id) : Placed (hide cache id) maps := by
  intro m hm
  obtain ⟨h1, h2, c, h3, h4⟩ := hp m hm
  exact ⟨h1, h2, c, by rw [hide_get _ _ _ (hn m hm)]; exact h3, h4⟩

/-- Along a history at whose end component `id` is in no mapping. -/
theorem hostRun_resetsOnly {ops : List HostOp} {s s' : Machine (Logged D)} {id : Nat}
    (hp : Placed s.memCache s.mappings) (h : hostRun pf ops s = some s') (hn : ∀ m ∈ s'.mappings, m.auxId ≠ id)
    (hd : AllDev (resetsOnly id) s.devs) : AllDev (resetsOnly id) s'.devs := by
  induction ops generalizing s with
  | nil => injection h with h; rw [← h]; exact hd
  | cons op ops ih =>
    simp only [hostRun, Option.bind_eq_bind, Option.bind_eq_some_iff] at h
    obtain ⟨t, ht, h⟩ := h
    have h1 : hostRun pf [op] s = some t := by simp [hostRun, ht]
    obtain ⟨e1, e2⟩ := hostRun_placed hp h1
    have hns : ∀ m ∈ s.mappings, m.auxId ≠ id := fun m hm => hn m (hostRun_grows h m (hostStep_grows ht m hm))
    exact ih (by rw [e1]; exact e2) h
      (hostStep_devInvAt (resetsOnly_devInv s.memCache id) (placed_hide hp hns) hd ht)

/-- **C133**. Take any components, built into a new board, and any history of host calls (mapping calls of the three
kinds, successful or not, resets, direct memory accesses at any address, register changes) and of steps of whatever
program the memory contains. A component that is in no mapping at the end has received nothing but resets. -/
theorem C133_unmapped {devs : List D} {s0 s' : Machine (Logged D)} {ops : List HostOp}
    (hb : newBoard pf (devs.map fresh) = some s0) (h : hostRun pf ops s0 = some s')
    {id : Nat} {d : Logged D} (hd : s'.devs[id]? = some d) (hn : ∀ m ∈ s'.mappings, m.auxId ≠ id) :
    ∀ q ∈ d.log, q = .reset := by
  obtain ⟨_, _, hdv, hm, _⟩ := newBoard_inv hb
  refine hostRun_resetsOnly (by rw [hm]; intro m hm; simp at hm) h hn ?_ id d hd rfl
  rw [hdv]; intro i e he _ q hq
  rw [List.getElem?_map, Option.map_eq_some_iff] at he
  obtain ⟨e0, _, rfl⟩ := he
  simp [fresh] at hq

theorem contigLoop_named {s s' : Machine D} {acc acc' : ContigAcc} {ids : List Nat} {id : Nat}
    (h : contigLoop pf acc s ids = some (acc', s')) (hid : id ∉ ids) (hn : ∀ m ∈ s.mappings, m.auxId ≠ id) :
    ∀ m ∈ s'.mappings, m.auxId ≠ id := by
  induction ids generalizing acc s with
  | nil => simp only [contigLoop, Option.some.injEq, Prod.mk.injEq] at h; rw [← h.2]; exact hn
  | cons i is ih =>
    simp only [contigLoop, Option.bind_eq_bind, Option.bind_eq_some_iff] at h
    obtain ⟨⟨a1, s1⟩, hst, h⟩ := h
    simp only [contigStep, Option.bind_eq_bind, Option.bind_eq_some_iff] at hst
    obtain ⟨⟨r2, s2⟩, hm2, a2, _, hst⟩ := hst
    split at hst
    · cases hst
    · injection hst with hst; injection hst with _ hst; subst hst
      refine ih h (fun hc => hid (by simp [hc])) ?_
      rcases internalMap_inv hm2 with ⟨_, rfl⟩ | ⟨_, _, _, _, rfl⟩
      · exact hn
      · intro m hm
        rcases List.mem_append.mp hm with hm | hm
        · exact hn m hm
        · rw [List.mem_singleton] at hm; subst hm; exact fun hc => hid (by simp [← hc])

theorem hostStep_named {s s' : Machine D} {op : HostOp} {id : Nat} (h : hostStep pf s op = some s')
    (ho : ¬ NamesComponent id op) (hn : ∀ m ∈ s.mappings, m.auxId ≠ id) : ∀ m ∈ s'.mappings, m.auxId ≠ id := by
  cases op with
  | map a i =>
    simp only [hostStep, Option.map_eq_some_iff] at h
    obtain ⟨⟨r, v⟩, hm, rfl⟩ := h
    rcases internalMap_inv hm with ⟨_, rfl⟩ | ⟨_, _, _, _, rfl⟩
    · exact hn
    · intro m hm
      rcases List.mem_append.mp hm with hm | hm
      · exact hn m hm
      · rw [List.mem_singleton] at hm; subst hm; exact ho
  | mapAbs a e i =>
    simp only [hostStep, Option.map_eq_some_iff] at h
    obtain ⟨⟨r, v⟩, hm, rfl⟩ := h
    rcases internalMap_inv hm with ⟨_, rfl⟩ | ⟨_, _, _, _, rfl⟩
    · exact hn
    · intro m hm
      rcases List.mem_append.mp hm with hm | hm
      · exact hn m hm
      · rw [List.mem_singleton] at hm; subst hm; exact ho
  | mapContiguous a is =>
    simp only [hostStep, Option.map_eq_some_iff, mapContiguous, Option.bind_eq_bind, Option.bind_eq_some_iff] at h
    obtain ⟨⟨r, v⟩, ⟨⟨a1, s1⟩, hl, hm⟩, rfl⟩ := h
    injection hm with hm; injection hm with _ hm; subst hm
    exact contigLoop_named hl ho hn
  | next => rw [hostStep_mappings h (by simp) (by simp) (by simp)]; exact hn
  | cpuReset => rw [hostStep_mappings h (by simp) (by simp) (by simp)]; exact hn
  | reset => rw [hostStep_mappings h (by simp) (by simp) (by simp)]; exact hn
  | memRead a ex => rw [hostStep_mappings h (by simp) (by simp) (by simp)]; exact hn
  | memWrite a w ex => rw [hostStep_mappings h (by simp) (by simp) (by simp)]; exact hn
  | setRegs f => rw [hostStep_mappings h (by simp) (by simp) (by simp)]; exact hn

/-- **C133**, in terms of the calls: a component named by no mapping call receives nothing but resets, whatever the other
calls and the program do (the hardware information and component reset instructions included). -/
theorem C133_never_named {devs : List D} {s0 s' : Machine (Logged D)} {ops : List HostOp}
    (hb : newBoard pf (devs.map fresh) = some s0) (h : hostRun pf ops s0 = some s')
    {id : Nat} {d : Logged D} (hd : s'.devs[id]? = some d) (hn : ∀ op ∈ ops, ¬ NamesComponent id op) :
    (∀ m ∈ s'.mappings, m.auxId ≠ id) ∧ ∀ q ∈ d.log, q = .reset := by
  have hm : ∀ m ∈ s'.mappings, m.auxId ≠ id :=
    hostRun_inv (P := fun t => ∀ m ∈ t.mappings, m.auxId ≠ id) h
      (by rw [(newBoard_inv hb).2.2.2.1]; intro m hm; simp at hm)
      (fun op ho t u ht hst => hostStep_named hst (hn op ho) ht)
  exact ⟨hm, C133_unmapped hb h hd hm⟩

/-- A size that no mapping call accepts. -/
theorem internalMap_size {s s' : Machine D} {start : Word} {stop? : Option Word} {auxId : Nat}
    {rng : MappingRange} (h : internalMap pf s start stop? auxId = some (.ok rng, s')) :
    ∃ c, s.memCache[auxId]? = some c ∧ c.size ≠ 0 ∧ c.size.toNat % 4 = 0 ∧
      s' = { s with mappings := s.mappings ++ [⟨auxId, c.hwId, start, c.size⟩] } := by
  obtain ⟨_, c, hc, h0, hs⟩ := internalMap_aligned h
  refine ⟨c, hc, h0, ?_, hs⟩
  rw [internalMap_eq, hc] at h
  dsimp only at h
  cases hd : dfltEnd pf start c.size with
  | none => rw [hd] at h; cases h
  | some d =>
    rw [hd] at h
    dsimp only at h
    unfold mapDecide at h
    by_cases h1 : start % 4 ≠ 0
    · rw [if_pos h1] at h; injection h with h; injection h with h1 h2; cases h1
    rw [if_neg h1, if_neg h0] at h
    by_cases h2 : c.size % 4 ≠ 0
    · rw [if_pos h2] at h; injection h with h; injection h with h1 h2; cases h1
    · exact mod4_nat.mp (Decidable.not_not.mp h2)

/-- Every mapped component has a positive size, a multiple of 4. -/
def SizesOk (maps : List Mapping) : Prop := ∀ m ∈ maps, m.size.toNat ≠ 0 ∧ m.size.toNat % 4 = 0

theorem internalMap_sizesOk {s s' : Machine D} {start : Word} {stop? : Option Word} {auxId : Nat}
    {r : Except MappingError MappingRange} (h : internalMap pf s start stop? auxId = some (r, s'))
    (hs : SizesOk s.mappings) : SizesOk s'.mappings := by
  cases r with
  | error e =>
    rcases internalMap_inv h with ⟨_, rfl⟩ | ⟨_, _, _, hr, _⟩
    · exact hs
    · cases hr
  | ok rng =>
    obtain ⟨c, _, h0, h4, rfl⟩ := internalMap_size h
    intro m hm
    rcases List.mem_append.mp hm with hm | hm
    · exact hs m hm
    · rw [List.mem_singleton] at hm; subst hm
      exact ⟨fun hc => h0 (BitVec.eq_of_toNat_eq hc), h4⟩

theorem contigLoop_sizesOk {s s' : Machine D} {acc acc' : ContigAcc} {ids : List Nat}
    (h : contigLoop pf acc s ids = some (acc', s')) (hs : SizesOk s.mappings) : SizesOk s'.mappings := by
  induction ids generalizing acc s with
  | nil => simp only [contigLoop, Option.some.injEq, Prod.mk.injEq] at h; rw [← h.2]; exact hs
  | cons i is ih =>
    simp only [contigLoop, Option.bind_eq_bind, Option.bind_eq_some_iff] at h
    obtain ⟨⟨a1, s1⟩, hst, h⟩ := h
    simp only [contigStep, Option.bind_eq_bind, Option.bind_eq_some_iff] at hst
    obtain ⟨⟨r2, s2⟩, hm2, a2, _, hst⟩ := hst
    split at hst
    · cases hst
    · injection hst with hst; injection hst with _ hst; subst hst
      exact ih h (internalMap_sizesOk hm2 hs)

theorem hostStep_sizesOk {s s' : Machine D} {op : HostOp} (h : hostStep pf s op = some s')
    (hs : SizesOk s.mappings) : SizesOk s'.mappings := by
  cases op with
  | map a i =>
    simp only [hostStep, Option.map_eq_some_iff] at h
    obtain ⟨⟨r, v⟩, hm, rfl⟩ := h
    exact internalMap_sizesOk hm hs
  | mapAbs a e i =>
    simp only [hostStep, Option.map_eq_some_iff] at h
    obtain ⟨⟨r, v⟩, hm, rfl⟩ := h
    exact internalMap_sizesOk hm hs
  | mapContiguous a is =>
    simp only [hostStep, Option.map_eq_some_iff, mapContiguous, Option.bind_eq_bind, Option.bind_eq_some_iff] at h
    obtain ⟨⟨r, v⟩, ⟨⟨a1, s1⟩, hl, hm⟩, rfl⟩ := h
    injection hm with hm; injection hm with _ hm; subst hm
    exact contigLoop_sizesOk hl hs
  | next => rw [hostStep_mappings h (by simp) (by simp) (by simp)]; exact hs
  | cpuReset => rw [hostStep_mappings h (by simp) (by simp) (by simp)]; exact hs
  | reset => rw [hostStep_mappings h (by simp) (by simp) (by simp)]; exact hs
  | memRead a ex => rw [hostStep_mappings h (by simp) (by simp) (by simp)]; exact hs
  | memWrite a w ex => rw [hostStep_mappings h (by simp) (by simp) (by simp)]; exact hs
  | setRegs f => rw [hostStep_mappings h (by simp) (by simp) (by simp)]; exact hs

/-- **C133**: a component whose announced size is 0 or not a multiple of 4 is never mapped, whatever the host tries, and
receives nothing but resets. -/
theorem C133_unmappable {devs : List D} {s0 s' : Machine (Logged D)} {ops : List HostOp}
    (hb : newBoard pf (devs.map fresh) = some s0) (h : hostRun pf ops s0 = some s')
    {id : Nat} {d0 : D} {md : Metadata} {d : Logged D} (h0 : devs[id]? = some d0)
    (hmd : Bus.metadata pf d0 = some md) (hsz : md[2].toNat = 0 ∨ md[2].toNat % 4 ≠ 0)
    (hd : s'.devs[id]? = some d) :
    (∀ m ∈ s'.mappings, m.auxId ≠ id) ∧ ∀ q ∈ d.log, q = .reset := by
  obtain ⟨hc, _, hdv, hm, _⟩ := newBoard_inv hb
  have hp0 : Placed s0.memCache s0.mappings := by rw [hm]; intro m hm; simp at hm
  obtain ⟨_, hp⟩ := hostRun_placed hp0 h
  have hs : SizesOk s'.mappings :=
    hostRun_inv (P := fun t => SizesOk t.mappings) h (by rw [hm]; intro m hm; simp at hm)
      (fun op _ t u ht hst => hostStep_sizesOk hst ht)
  obtain ⟨c, md', hci, hmd', _, hcs, _⟩ := (createCaches_get hc).2 id (fresh d0) (by simp [h0])
  have : md' = md := by
    have : Bus.metadata pf d0 = some md' := hmd'
    rw [hmd] at this; exact (Option.some.inj this).symm
  subst this
  have hn : ∀ m ∈ s'.mappings, m.auxId ≠ id := by
    rintro m hm rfl
    obtain ⟨_, _, c', hc', hsz'⟩ := hp m hm
    rw [hci] at hc'; injection hc' with hc'; subst hc'
    obtain ⟨h1, h2⟩ := hs m hm
    rw [hsz', hcs] at h1 h2
    rcases hsz with hsz | hsz
    · exact h1 hsz
    · exact hsz h2
  exact ⟨hn, C133_unmapped hb h hd hn⟩

/-- **C133**, `set_size`: the size of a description can be changed to any number, without a check: the description is
encoded as before but for the third word, which is the new size. With `C133_unmappable`, a size that is not a multiple of 4
silently makes a component that can be plugged in but never used. -/
theorem C133_set_size (m : DeviceMetadata) (n : Word) : ∃ w w' : Metadata,
    m.encode = some w ∧ (m.setSize n).encode = some w' ∧ w'[2] = n ∧
    ∀ i : Fin 8, i ≠ 2 → w'[i] = w[i] := by
  refine ⟨_, _, m.encode_eq, (m.setSize n).encode_eq, rfl, ?_⟩
  intro i hi
  match i, hi with
  | 0, _ => rfl
  | 1, _ => rfl
  | 2, hi => exact absurd rfl hi
  | 3, _ => rfl
  | 4, _ => rfl
  | 5, _ => rfl
  | 6, _ => rfl
  | 7, _ => rfl

/-- The constructor refuses (panics on) such a size. -/
theorem C133_new_refuses (id : U64) (n : Word) (c : DeviceCategory) (m : Option Word) (x : Option U64) :
    (∃ d, DeviceMetadata.new id n c m x = some d) ↔ n.toNat % 4 = 0 := by
  unfold DeviceMetadata.new
  constructor
  · rintro ⟨d, h⟩
    simp only [Option.bind_eq_bind, Option.bind_eq_some_iff] at h
    obtain ⟨_, h, _⟩ := h
    by_cases h4 : n.toNat % 4 = 0
    · exact h4
    · rw [assert_unaligned h4] at h; cases h
  · intro h4
    have : (n % 4 == 0) = true := by rw [beq_iff_eq]; exact mod4_nat.mpr h4
    refine ⟨⟨id, n, c, m, x⟩, ?_⟩
    rw [this]; rfl

/-- A component of the size given to `set_size`. -/
structure Odd where
  size : Word

instance : Bus Odd where
  name _ := []
  metadata _ d := do
    let m ← DeviceMetadata.new 7 16 (.memory .ram) none none
    (m.setSize d.size).encode
  read d _ ex := some (d, 0, ex)
  write d _ _ ex := some (d, ex)
  reset d := some d

/-- The first component (16 bytes) is mapped and used, the second one (18 bytes) never is, whatever is tried. -/
example : ∃ (s0 s' : Machine (Logged Odd)) (d d' : Logged Odd),
    newBoard .debug ([Odd.mk 16, Odd.mk 18].map fresh) = some s0 ∧
    hostRun .debug [.map 0 0, .map 0x40 1, .mapAbs 0x80 0x90 1, .reset, .memRead 4 0, .memWrite 0x40 1 0, .next] s0 =
      some s' ∧
    s'.devs[0]? = some d ∧ s'.devs[1]? = some d' ∧ d.log = [.reset, .read 4, .read 0] ∧ d'.log = [.reset] ∧
    s'.mappings.map (·.auxId) = [0] := ⟨_, _, _, _, rfl, rfl, rfl, rfl, rfl, rfl, rfl⟩

/-- A history in which component 1 is named by no mapping call. -/
example : ∃ (s0 s' : Machine (Logged Demo.Dev)) (d : Logged Demo.Dev),
    newBoard .debug ((Demo.devices [0xA0014400#32, 0xB0480007#32]).map fresh) = some s0 ∧
    hostRun .debug [.map 0 0, .reset, .next, .next, .memWrite 0x7C 5 0] s0 = some s' ∧
    s'.devs[1]? = some d ∧ (∀ op ∈ [HostOp.map 0 0, .reset, .next, .next, .memWrite 0x7C 5 0], ¬ NamesComponent 1 op) ∧
    d.log = [.reset] := ⟨_, _, _, rfl, rfl, rfl, by simp [NamesComponent], rfl⟩

end Lrvm
