import Verif.Lemmas.Replug
import Verif.Lemmas.Devices
import Verif.Props.Mapping
import Verif.Props.Steps
import Verif.Demo.Machines

/-!
# C114: where a component is plugged in does not matter
-/

namespace Lrvm

open Spec

variable {D : Type} [Bus D] {pf : Profile} {σ : Nat → Nat}

omit [Bus D] in
theorem Spec.SameWiring.rewired {s t : Machine D} (h : SameWiring pf σ s t) :
    Rewired pf σ s.devs.length s.mappings t.mappings := ⟨h.apart, h.mappings, h.known, h.table⟩

/-- **C114**, one step. Two machines in the same processor state, with the same components mapped in the same ranges but plugged in at
other places, one of them possibly with further components: unless the instruction is HWD or RESET, both panic or both end in such
machines again, and the further components are untouched. -/
theorem C114_step {s t : Machine D} (hw : SameWiring pf σ s t) (hc : SameCpu s t) (hu : Unnumbered pf s) :
    (next pf s = none ∧ next pf t = none) ∨ ∃ s' t', next pf s = some s' ∧ next pf t = some t' ∧ SameWiring pf σ s' t' ∧
      SameCpu s' t' ∧ OthersSame σ s.devs.length t t' ∧ s'.devs.length = s.devs.length := by
  have hp : Peer (Moved σ s.devs.length t.devs) s.mappings t.mappings s t :=
    ⟨hc.regs, rfl, rfl, hc.cycles, hc.halted, hc.changedPc, rfl, hw.components, fun _ _ => rfl⟩
  rcases next_peer (moved_linked hw.rewired) hp hu with h | ⟨s', t', h1, h2, h⟩
  · exact .inl h
  · refine .inr ⟨s', t', h1, h2, ?_, ⟨h.regs, h.cycles, h.halted, h.changedPc⟩, h.devs.others, h.devs.len⟩
    have hl := h.devs.len
    exact ⟨hl ▸ hw.apart, h.devs.moved, by rw [h.maps, h.maps']; exact hw.mappings, by rw [h.maps, hl]; exact hw.known,
      by rw [h.maps, h.maps']; exact hw.table⟩

/-- **C114**, runs. -/
theorem C114_run {s s' t : Machine D} {n : Nat} (hw : SameWiring pf σ s t) (hc : SameCpu s t) (hr : UnnumberedRun pf s n s') :
    ∃ t', nextN pf n t = some t' ∧ SameWiring pf σ s' t' ∧ SameCpu s' t' ∧ OthersSame σ s.devs.length t t' := by
  induction hr generalizing t with
  | done s => exact ⟨t, rfl, hw, hc, fun _ _ => rfl⟩
  | step hu hn _ ih =>
    rcases C114_step hw hc hu with ⟨h, _⟩ | ⟨s1, t1, h1, h2, hw1, hc1, ho1, hl⟩
    · rw [hn] at h; cases h
    · rw [hn] at h1; cases h1
      obtain ⟨t2, h3, hw2, hc2, ho2⟩ := ih hw1 hc1
      refine ⟨t2, ?_, hw2, hc2, fun j hj => ?_⟩
      · show (next pf t).bind _ = _
        rw [h2]; exact h3
      · rw [hl] at ho2
        exact (ho2 j hj).trans (ho1 j hj)

/-! ## From the creation of the boards -/

theorem callEntry_moved {ds es : List D} {cs cs' : List AuxCache} {k k' : Nat} (h : createCaches pf k ds = some cs)
    (h' : createCaches pf k' es = some cs') (hm : ∀ i d, ds[i]? = some d → es[σ i]? = some d) {c : Word × Nat}
    (hk : (cs[c.2]?).isSome) :
    (cs'[σ c.2]?).isSome ∧ callEntry cs' (c.1, σ c.2) = { callEntry cs c with auxId := σ (callEntry cs c).auxId } := by
  obtain ⟨hl, hg⟩ := createCaches_get h
  obtain ⟨_, hg'⟩ := createCaches_get h'
  obtain ⟨x, hx⟩ := Option.isSome_iff_exists.mp hk
  have hlt : c.2 < ds.length := by rw [← hl]; exact (List.getElem?_eq_some_iff.mp hx).1
  have hd : ds[c.2]? = some ds[c.2] := List.getElem?_eq_getElem hlt
  obtain ⟨a, md, ha, hmd, _, hsz, _, _, hhw⟩ := hg _ _ hd
  obtain ⟨a', md', ha', hmd', _, hsz', _, _, hhw'⟩ := hg' _ _ (hm _ _ hd)
  rw [hmd] at hmd'; cases hmd'
  refine ⟨by rw [ha']; rfl, ?_⟩
  unfold callEntry
  rw [ha, ha']
  simp only [rangeAt]
  rw [hsz, hsz', BitVec.eq_of_toNat_eq (hhw.trans hhw'.symm)]

theorem newBoard_parts {ds : List D} {s : Machine D} (h : newBoard pf ds = some s) : s.devs = ds ∧ s.mappings = [] ∧
    s.regs = { Regs.zero with smt := 1 } ∧ s.cycles = 0 ∧ s.halted = true ∧ s.changedPc = false ∧
    createCaches pf 0 ds = some s.memCache := by
  unfold newBoard at h
  simp only [Option.bind_eq_bind, Option.bind_eq_some_iff] at h
  obtain ⟨_, _, c, hc, c', _, h⟩ := h
  injection h with h
  subst h
  exact ⟨rfl, rfl, rfl, rfl, rfl, rfl, hc⟩

/-- **C114**, new boards. The components of a board, and possibly others, are plugged in another one in any order. The `map` calls
that succeed on the first one succeed, with the new numbers and in any order, on the second one. -/
theorem C114_boards {cs cs' : List D} {s0 s1 t0 : Machine D} {calls calls' : List (Word × Nat)}
    (hs : newBoard pf cs = some s0) (ht : newBoard pf cs' = some t0)
    (ha : ∀ i j, i < cs.length → j < cs.length → σ i = σ j → i = j) (hm : ∀ i d, cs[i]? = some d → cs'[σ i]? = some d)
    (hp : calls'.Perm (calls.map fun c => (c.1, σ c.2))) (h : MapsAll pf s0 calls s1) :
    ∃ t1, MapsAll pf t0 calls' t1 ∧ SameWiring pf σ s1 t1 ∧ SameCpu s1 t1 := by
  obtain ⟨a1, a2, a3, a4, a5, a6, a7⟩ := newBoard_parts hs
  obtain ⟨b1, b2, b3, b4, b5, b6, b7⟩ := newBoard_parts ht
  have hnil : TableOk pf ([] : List Mapping) := ⟨by simp, .nil, .nil⟩
  obtain ⟨hk, htab, rfl⟩ := (mapsAll_iff (by rw [a2]; exact hnil)).mp h
  rw [a2, List.nil_append] at htab
  have hlen := (createCaches_get a7).1
  have he : ∀ c ∈ calls, (t0.memCache[σ c.2]?).isSome ∧
      callEntry t0.memCache (c.1, σ c.2) = { callEntry s0.memCache c with auxId := σ (callEntry s0.memCache c).auxId } :=
    fun c hc => callEntry_moved a7 b7 hm (hk c hc)
  have hid : ∀ c ∈ calls, (callEntry s0.memCache c).auxId = c.2 := by
    intro c hc
    obtain ⟨x, hx⟩ := Option.isSome_iff_exists.mp (hk c hc)
    unfold callEntry; rw [hx]; rfl
  have hlt : ∀ c ∈ calls, c.2 < cs.length := by
    intro c hc
    obtain ⟨x, hx⟩ := Option.isSome_iff_exists.mp (hk c hc)
    rw [← hlen]; exact (List.getElem?_eq_some_iff.mp hx).1
  have hent : (calls.map fun c => (c.1, σ c.2)).map (callEntry t0.memCache) =
      (calls.map (callEntry s0.memCache)).map fun m => { m with auxId := σ m.auxId } := by
    rw [List.map_map, List.map_map]
    exact List.map_congr_left fun c hc => (he c hc).2
  have htab1 : TableOk pf ((calls.map (callEntry s0.memCache)).map fun m => { m with auxId := σ m.auxId }) := by
    refine ⟨?_, ?_, ?_⟩
    · intro m hm
      obtain ⟨k, hk, rfl⟩ := List.mem_map.mp hm
      have := htab.ranges k hk
      exact ⟨this.nonempty, this.fits, this.addrAligned, this.sizeAligned⟩
    · rw [List.pairwise_map]
      exact htab.disjoint.imp fun h => h
    · rw [List.pairwise_map]
      refine htab.once.imp_of_mem fun {x y} hx hy hne hh => hne ?_
      obtain ⟨c, hc, rfl⟩ := List.mem_map.mp hx
      obtain ⟨e, hc', rfl⟩ := List.mem_map.mp hy
      rw [hid c hc, hid e hc'] at hh ⊢
      exact ha _ _ (hlt c hc) (hlt e hc') hh
  have hperm : (calls'.map (callEntry t0.memCache)).Perm
      ((calls.map (callEntry s0.memCache)).map fun m => { m with auxId := σ m.auxId }) := by
    rw [← hent]; exact hp.map _
  have htab2 : TableOk pf (calls'.map (callEntry t0.memCache)) := htab1.perm hperm.symm
  refine ⟨{ t0 with mappings := t0.mappings ++ calls'.map (callEntry t0.memCache) },
    (mapsAll_iff (by rw [b2]; exact hnil)).mpr ⟨?_, by rw [b2]; exact htab2, rfl⟩, ?_, ?_⟩
  · intro c hc
    obtain ⟨e, hc', rfl⟩ := List.mem_map.mp (hp.mem_iff.mp hc)
    exact (he e hc').1
  · refine ⟨?_, ?_, ?_, ?_, ?_⟩
    · show ∀ i j, i < s0.devs.length → j < s0.devs.length → _
      rw [a1]; exact ha
    · show ∀ i d, s0.devs[i]? = some d → t0.devs[σ i]? = some d
      rw [a1, b1]; exact hm
    · intro m
      show m ∈ t0.mappings ++ _ ↔ ∃ n ∈ s0.mappings ++ _, _
      rw [a2, b2, List.nil_append, List.nil_append, hperm.mem_iff, List.mem_map]
      exact ⟨fun ⟨n, hn, he⟩ => ⟨n, hn, he.symm⟩, fun ⟨n, hn, he⟩ => ⟨n, hn, he.symm⟩⟩
    · intro m hm
      have hm : m ∈ s0.mappings ++ _ := hm
      rw [a2, List.nil_append] at hm
      obtain ⟨c, hc, rfl⟩ := List.mem_map.mp hm
      show _ < s0.devs.length
      rw [a1, hid c hc]; exact hlt c hc
    · show TableOk pf (s0.mappings ++ _) ∧ TableOk pf (t0.mappings ++ _)
      rw [a2, b2]
      exact ⟨htab, htab2⟩
  · exact ⟨a3.trans b3.symm, a4.trans b4.symm, a5.trans b5.symm, a6.trans b6.symm⟩

theorem resetAll_get {ds ds' : List D} (h : resetAll ds = some ds') (i : Nat) : (ds[i]?).map Bus.reset = (ds'[i]?).map some := by
  have := congrArg (fun l => l[i]?) (resetAll_forall h)
  simpa using this

/-- **C114**, reset of the boards. If the second board can be reset, the first one can. -/
theorem C114_reset {s t t' : Machine D} (hw : SameWiring pf σ s t) (hr : boardReset t = some t') :
    ∃ s', boardReset s = some s' ∧ SameWiring pf σ s' t' ∧ SameCpu s' t' := by
  unfold boardReset at hr ⊢
  simp only [Option.bind_eq_bind, Option.bind_eq_some_iff] at hr ⊢
  obtain ⟨es, he, hr⟩ := hr
  injection hr with hr
  subst hr
  have hall : ∀ (l : List D), (∀ d ∈ l, ∃ d', Bus.reset d = some d') → ∃ l', resetAll l = some l' := by
    intro l
    induction l with
    | nil => intro _; exact ⟨[], rfl⟩
    | cons d l ih =>
      intro hd
      obtain ⟨d', h1⟩ := hd d List.mem_cons_self
      obtain ⟨l', h2⟩ := ih fun d hd' => hd d (List.mem_cons_of_mem _ hd')
      refine ⟨d' :: l', ?_⟩
      unfold resetAll
      rw [h1, h2]; rfl
  obtain ⟨ds, hd⟩ := hall s.devs fun d hd => by
    obtain ⟨i, hi⟩ := List.getElem?_of_mem hd
    have h1 := resetAll_get he (σ i)
    rw [show t.cpuReset.devs = t.devs from rfl, hw.components i d hi] at h1
    cases h2 : es[σ i]? with
    | none => rw [h2] at h1; cases h1
    | some e => rw [h2] at h1; exact ⟨e, Option.some.inj h1⟩
  have hlen : ds.length = s.devs.length := by
    have := congrArg List.length (resetAll_forall hd)
    simpa using this.symm
  refine ⟨_, ⟨ds, hd, rfl⟩, ⟨?_, ?_, hw.mappings, ?_, hw.table⟩, ⟨rfl, rfl, rfl, rfl⟩⟩
  · show ∀ i j, i < ds.length → j < ds.length → _
    rw [hlen]; exact hw.apart
  · intro i d hi
    have hi : ds[i]? = some d := hi
    show es[σ i]? = some d
    have hlt := (List.getElem?_eq_some_iff.mp hi).1
    rw [hlen] at hlt
    have h0 : s.devs[i]? = some s.devs[i] := List.getElem?_eq_getElem hlt
    have h1 := resetAll_get hd i
    have h2 := resetAll_get he (σ i)
    rw [hi, h0] at h1
    rw [show t.cpuReset.devs = t.devs from rfl, hw.components i _ h0] at h2
    rw [show (some s.devs[i]).map Bus.reset = (some d).map some from h1] at h2
    cases h3 : es[σ i]? with
    | none => rw [h3] at h2; cases h2
    | some e => rw [h3] at h2; injection h2 with h2; exact h2.symm
  · show ∀ m ∈ s.mappings, m.auxId < ds.length
    rw [hlen]; exact hw.known

theorem unnumbered_of {s : Machine D} {w : Word} {devs : List D} (h : Fetches pf s w devs) (ho : opcode w ≠ 0x1C ∧ opcode w ≠ 0x1F) :
    Unnumbered pf s := by
  intro w' devs' h'
  have := h.2.symm.trans h'.2
  injection this with h1 _
  exact h1 ▸ ho

/-- Another order, and one more component. -/
def Demo.otherOrder (prog : List Word) : List Demo.Dev := match Demo.devices prog with
  | [rom, ram] => [ram, ram, rom]
  | _ => []

/-- The program that writes 9 in the RAM. -/
def Demo.nine : List Word := [instrWord 0x16 false false false 0x48 0 9]

def Demo.moveTo : Nat → Nat := fun i => if i = 0 then 2 else 0

theorem Demo.moveTo_apart : ∀ i j, i < 2 → j < 2 → Demo.moveTo i = Demo.moveTo j → i = j := by
  intro i j hi hj h
  unfold Demo.moveTo at h
  split at h <;> split at h <;> omega

/-- Two boards. On both the program, mapped at 0, writes 9 in the RAM, mapped at 0x40. -/
example : ∃ s0 s1 s2 s3 t0 t1 t2 t3, newBoard .debug (Demo.devices Demo.nine) = some s0 ∧
    newBoard .debug (Demo.otherOrder Demo.nine) = some t0 ∧ MapsAll .debug s0 [(0, 0), (0x40, 1)] s1 ∧
    MapsAll .debug t0 [(0x40, 0), (0, 2)] t1 ∧ boardReset s1 = some s2 ∧ boardReset t1 = some t2 ∧
    UnnumberedRun .debug s2 1 s3 ∧ nextN .debug 1 t2 = some t3 ∧ t3.regs.pc = 4 ∧
    (memRead .debug t3 0x48 0).map (·.1) = some 9 :=
  ⟨_, _, _, _, _, _, _, _, rfl, rfl, ⟨_, _, rfl, _, _, rfl, rfl⟩, ⟨_, _, rfl, _, _, rfl, rfl⟩, rfl, rfl,
    .step (unnumbered_of (w := instrWord 0x16 false false false 0x48 0 9) ⟨rfl, rfl⟩ (by decide)) rfl (.done _), rfl, rfl, rfl⟩

example : (∀ i j, i < 2 → j < 2 → Demo.moveTo i = Demo.moveTo j → i = j) ∧
    ([((0x40 : Word), 0), (0, 2)]).Perm ([((0 : Word), 0), (0x40, 1)].map fun c => (c.1, Demo.moveTo c.2)) ∧
    ∀ i d, (Demo.devices Demo.nine)[i]? = some d → (Demo.otherOrder Demo.nine)[Demo.moveTo i]? = some d := by
  refine ⟨Demo.moveTo_apart, by decide, fun i d h => ?_⟩
  match i, h with
  | 0, h => exact h
  | 1, h => exact h

/-- **C114**: the restriction is needed. HWD tells the two boards apart: the number of components, and what component 0 is. -/
theorem C114_hwd_differs : ∃ (s t s' t' : Machine Demo.Dev) (σ : Nat → Nat), SameWiring .debug σ s t ∧ SameCpu s t ∧
    next .debug s = some s' ∧ next .debug t = some t' ∧ s'.regs ≠ t'.regs := by
  obtain ⟨s0, t0, s1, hs, ht, hm⟩ : ∃ s0 t0 s1 : Machine Demo.Dev,
      newBoard .debug (Demo.devices [instrWord 0x1C false false false 0 0 0]) = some s0 ∧
      newBoard .debug (Demo.otherOrder [instrWord 0x1C false false false 0 0 0]) = some t0 ∧
      MapsAll .debug s0 [(0, 0), (0x40, 1)] s1 := ⟨_, _, _, rfl, rfl, ⟨_, _, rfl, _, _, rfl, rfl⟩⟩
  obtain ⟨t1, h1, hw, hc⟩ := C114_boards (σ := Demo.moveTo) (calls' := [(0, 2), (0x40, 0)]) hs ht Demo.moveTo_apart
    (fun i d h => match i, h with | 0, h => h | 1, h => h) (by decide) hm
  cases hs; cases ht
  obtain ⟨_, _, h2, h3⟩ := h1
  cases h2
  obtain ⟨_, _, h4, h5⟩ := h3
  cases h4
  cases h5
  obtain ⟨_, _, h2, h3⟩ := hm
  cases h2
  obtain ⟨_, _, h4, h5⟩ := h3
  cases h4
  cases h5
  obtain ⟨s2, h6, hw2, hc2⟩ := C114_reset hw rfl
  cases h6
  exact ⟨_, _, _, _, Demo.moveTo, hw2, hc2, rfl, rfl, by decide⟩

end Lrvm
