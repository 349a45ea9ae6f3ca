import Verif.Spec.SaveState
import Verif.Props.Devices.Cut
import Verif.Props.Timeless

/-!
# A running machine can be saved and restored: C131
-/

namespace Lrvm

open Spec

variable {D : Type} [Bus D] {pf : Profile} {mem : Nat → Prop} {maps : List Mapping}

/-- The components are the same, except the memories, which have the same words at the addresses in `done`. -/
def SameWords (pf : Profile) (mem : Nat → Prop) (maps : List Mapping) (done : Word → Prop) (ds es : List D) : Prop :=
  ∀ i, (¬ mem i → ds[i]? = es[i]?) ∧ (mem i → ∃ d e size init init', ds[i]? = some d ∧ es[i]? = some e ∧ WordMemory pf d size init ∧
    WordMemory pf e size init' ∧ ∀ m ∈ maps, m.auxId = i → m.size.toNat ≤ size ∧
      ∀ a, covers m a → a.toNat % 4 = 0 → done a → init ((a - m.addr).toNat / 4) = init' ((a - m.addr).toNat / 4))

/-- The offset of a covered address. -/
theorem offset_ok {m : Mapping} {a : Word} (hr : RangeOk pf m) (hc : covers m a) (ha : a.toNat % 4 = 0) {size : Nat} (hs : m.size.toNat ≤ size) :
    (a - m.addr).toNat % 4 = 0 ∧ (a - m.addr).toNat < size := by
  have e := sub_toNat' hc.1
  have := hr.addrAligned
  unfold covers at hc
  omega

omit [Bus D] in
theorem covering_unique (ht : TableOk pf maps) {m m' : Mapping} {a : Word} (hm : m ∈ maps) (hm' : m' ∈ maps) (hc : covers m a)
    (hc' : covers m' a) : m = m' :=
  Option.some.inj ((find_covering ht.disjoint hm hc).symm.trans (find_covering ht.disjoint hm' hc'))

theorem list_set_get {α : Type} {l : List α} {i : Nat} {x : α} (h : l[i]? = some x) : l.set i x = l := by
  refine List.ext_getElem? fun j => ?_
  by_cases hij : i = j
  · subst hij
    rw [List.getElem?_set_self (List.getElem?_eq_some_iff.mp h).1, h]
  · rw [List.getElem?_set_ne hij]

theorem devRead_absent {ds : List D} {m : Mapping} {a : Word} (ht : TableOk pf maps) (hm : m ∈ maps) (hc : covers m a) (ha : a.toNat % 4 = 0)
    (hd : ds[m.auxId]? = none) : devRead pf maps ds a 0 = none := by
  unfold devRead
  rw [assert_aligned ha, findMapping_eq ht.ranges, find_covering ht.disjoint hm hc]
  simp only [Option.bind_eq_bind, Option.bind_some]
  cases pf.sub a m.addr with
  | none => rfl
  | some off =>
    simp only [Option.bind_some, bridgeRead]
    cases assert (off % 4 == 0) with
    | none => rfl
    | some _ => simp only [Option.bind_eq_bind, Option.bind_some, hd]

theorem devWrite_absent {ds : List D} {m : Mapping} {a w : Word} (ht : TableOk pf maps) (hm : m ∈ maps) (hc : covers m a) (ha : a.toNat % 4 = 0)
    (hd : ds[m.auxId]? = none) : devWrite pf maps ds a w 0 = none := by
  unfold devWrite
  rw [assert_aligned ha, findMapping_eq ht.ranges, find_covering ht.disjoint hm hc]
  simp only [Option.bind_eq_bind, Option.bind_some]
  cases pf.sub a m.addr with
  | none => rfl
  | some off =>
    simp only [Option.bind_some, bridgeWrite]
    cases assert (off % 4 == 0) with
    | none => rfl
    | some _ => simp only [Option.bind_eq_bind, Option.bind_some, hd]

theorem sameWords_set_other {done : Word → Prop} {ds es : List D} (h : SameWords pf mem maps done ds es) {k : Nat} (hk : ¬ mem k) {d e x : D}
    (hd : ds[k]? = some d) (he : es[k]? = some e) : SameWords pf mem maps done (ds.set k x) (es.set k x) := by
  intro i
  by_cases hi : k = i
  · subst hi
    refine ⟨fun _ => ?_, fun hh => absurd hh hk⟩
    rw [List.getElem?_set_self (List.getElem?_eq_some_iff.mp hd).1, List.getElem?_set_self (List.getElem?_eq_some_iff.mp he).1]
  · rw [List.getElem?_set_ne hi, List.getElem?_set_ne hi]
    exact h i

theorem sameWords_linked (ht : TableOk pf maps) : DevLinked (D := D) pf maps maps (SameWords pf mem maps fun _ => True) := by
  constructor
  · intro ds es a h
    by_cases ha : a.toNat % 4 = 0
    · rcases covering maps a with ⟨m, hm, hc⟩ | hn
      · by_cases hmem : mem m.auxId
        · obtain ⟨d, e, size, init, init', h1, h2, h3, h4, h5⟩ := (h m.auxId).2 hmem
          obtain ⟨hs, he⟩ := h5 m hm rfl
          obtain ⟨o1, o2⟩ := offset_ok (ht.ranges m hm) hc ha hs
          rw [devRead_hit ht hm hc ha h1, devRead_hit ht hm hc ha h2, wordMemory_read_now h3 o1 o2, wordMemory_read_now h4 o1 o2]
          refine ⟨he a hc ha trivial, rfl, ?_⟩
          show SameWords _ _ _ _ (ds.set _ d) (es.set _ e)
          rw [list_set_get h1, list_set_get h2]
          exact h
        · have he := (h m.auxId).1 hmem
          cases h1 : ds[m.auxId]? with
          | none =>
            rw [h1] at he
            have k1 : devRead pf maps ds a 0 = none := devRead_absent ht hm hc ha h1
            have k2 : devRead pf maps es a 0 = none := devRead_absent ht hm hc ha he.symm
            rw [k1, k2]; trivial
          | some d =>
            rw [h1] at he
            rw [devRead_hit ht hm hc ha h1, devRead_hit ht hm hc ha he.symm]
            cases Bus.read d (a - m.addr) 0 with
            | none => trivial
            | some p => exact ⟨rfl, rfl, sameWords_set_other h hmem h1 he.symm⟩
      · rw [devRead_miss ht.ranges hn ha, devRead_miss ht.ranges hn ha]
        exact ⟨rfl, rfl, h⟩
    · unfold devRead
      rw [assert_unaligned ha]
      trivial
  · intro ds es a w h
    by_cases ha : a.toNat % 4 = 0
    · rcases covering maps a with ⟨m, hm, hc⟩ | hn
      · by_cases hmem : mem m.auxId
        · obtain ⟨d, e, size, init, init', h1, h2, h3, h4, h5⟩ := (h m.auxId).2 hmem
          obtain ⟨hs, _⟩ := h5 m hm rfl
          obtain ⟨o1, o2⟩ := offset_ok (ht.ranges m hm) hc ha hs
          obtain ⟨d', k1, k2⟩ := wordMemory_write h3 o1 o2 w 0
          obtain ⟨e', k3, k4⟩ := wordMemory_write h4 o1 o2 w 0
          rw [devWrite_hit ht hm hc ha h1, devWrite_hit ht hm hc ha h2, k1, k3]
          refine ⟨rfl, fun i => ?_⟩
          show (_ → (ds.set _ d')[i]? = (es.set _ e')[i]?) ∧ (_ → ∃ x y size init init', (ds.set _ d')[i]? = some x ∧ (es.set _ e')[i]? = some y ∧ _)
          by_cases hi : m.auxId = i
          · subst hi
            refine ⟨fun hh => absurd hmem hh, fun _ => ⟨d', e', size, _, _, ?_, ?_, k2, k4, ?_⟩⟩
            · rw [List.getElem?_set_self (List.getElem?_eq_some_iff.mp h1).1]
            · rw [List.getElem?_set_self (List.getElem?_eq_some_iff.mp h2).1]
            · intro m' hm' hid
              obtain ⟨q1, q2⟩ := h5 m' hm' hid
              refine ⟨q1, fun b hb hb4 _ => ?_⟩
              rw [q2 b hb hb4 trivial]
          · rw [List.getElem?_set_ne hi, List.getElem?_set_ne hi]
            exact h i
        · have he := (h m.auxId).1 hmem
          cases h1 : ds[m.auxId]? with
          | none =>
            rw [h1] at he
            have k1 : devWrite pf maps ds a w 0 = none := devWrite_absent ht hm hc ha h1
            have k2 : devWrite pf maps es a w 0 = none := devWrite_absent ht hm hc ha he.symm
            rw [k1, k2]; trivial
          | some d =>
            rw [h1] at he
            rw [devWrite_hit ht hm hc ha h1, devWrite_hit ht hm hc ha he.symm]
            cases Bus.write d (a - m.addr) w 0 with
            | none => trivial
            | some p => exact ⟨rfl, sameWords_set_other h hmem h1 he.symm⟩
      · rw [devWrite_miss ht.ranges hn ha, devWrite_miss ht.ranges hn ha]
        exact ⟨rfl, h⟩
    · unfold devWrite
      rw [assert_unaligned ha]
      trivial

/-- Saving reads the words and leaves the machine as it is. -/
theorem save_ok {s : Machine D} (ht : TableOk pf s.mappings)
    (hmem : ∀ i, mem i → ∃ d size init, s.devs[i]? = some d ∧ WordMemory pf d size init ∧ ∀ m ∈ s.mappings, m.auxId = i → m.size.toNat ≤ size)
    (l : List Word) (hl : ∀ a ∈ l, a.toNat % 4 = 0 ∧ ∃ m ∈ s.mappings, mem m.auxId ∧ covers m a) :
    ∃ saved, save pf l s = some (saved, s) ∧ saved.map (·.1) = l ∧
      ∀ p ∈ saved, ∀ m ∈ s.mappings, covers m p.1 → ∀ d size init, s.devs[m.auxId]? = some d → WordMemory pf d size init →
        m.size.toNat ≤ size → p.2 = init ((p.1 - m.addr).toNat / 4) := by
  induction l with
  | nil => exact ⟨[], rfl, rfl, by simp⟩
  | cons a l ih =>
    obtain ⟨ha, m, hm, hi, hc⟩ := hl a List.mem_cons_self
    obtain ⟨saved, h1, h2, h3⟩ := ih fun b hb => hl b (List.mem_cons_of_mem _ hb)
    obtain ⟨d, size, init, hd, hw, hs⟩ := hmem m.auxId hi
    have rd : ∀ m ∈ s.mappings, covers m a → ∀ d size init, s.devs[m.auxId]? = some d → WordMemory pf d size init →
        m.size.toNat ≤ size → memRead pf s a 0 = some (init ((a - m.addr).toNat / 4), 0, s) := by
      intro m hm hc d size init hd hw hs
      obtain ⟨o1, o2⟩ := offset_ok (ht.ranges m hm) hc ha hs
      rw [memRead_eq, devRead_hit ht hm hc ha hd, wordMemory_read_now hw o1 o2]
      simp only [Option.map_some, list_set_get hd]
    have r0 := rd m hm hc d size init hd hw (hs m hm rfl)
    refine ⟨(a, init ((a - m.addr).toNat / 4)) :: saved, ?_, by rw [List.map_cons, h2], ?_⟩
    · simp only [save, r0, h1, Option.bind_eq_bind, Option.bind_some]
    · intro p hp m' hm' hc' d' size' init' hd' hw' hs'
      rcases List.mem_cons.mp hp with rfl | hp
      · have r1 := rd m' hm' hc' d' size' init' hd' hw' hs'
        rw [r0] at r1
        simp only [Option.some.injEq, Prod.mk.injEq, and_true] at r1
        exact r1
      · exact h3 p hp m' hm' hc' d' size' init' hd' hw' hs'

/-- Restoring one word. -/
theorem restore_word (ht : TableOk pf maps) {done : Word → Prop} {ds es : List D} (h : SameWords pf mem maps done ds es) {a w : Word}
    {m : Mapping} (hm : m ∈ maps) (hc : covers m a) (hi : mem m.auxId) (ha : a.toNat % 4 = 0)
    (hw : ∀ d size init, ds[m.auxId]? = some d → WordMemory pf d size init → m.size.toNat ≤ size → w = init ((a - m.addr).toNat / 4)) :
    ∃ es', devWrite pf maps es a w 0 = some (0, es') ∧ SameWords pf mem maps (fun b => done b ∨ b = a) ds es' := by
  obtain ⟨d, e, size, init, init', h1, h2, h3, h4, h5⟩ := (h m.auxId).2 hi
  obtain ⟨hs, _⟩ := h5 m hm rfl
  obtain ⟨o1, o2⟩ := offset_ok (ht.ranges m hm) hc ha hs
  obtain ⟨e', k3, k4⟩ := wordMemory_write h4 o1 o2 w 0
  have hwi := hw d size init h1 h3 hs
  refine ⟨es.set m.auxId e', by rw [devWrite_hit ht hm hc ha h2, k3]; rfl, fun i => ?_⟩
  by_cases hid : m.auxId = i
  · subst hid
    refine ⟨fun hh => absurd hi hh, fun _ => ⟨d, e', size, init, _, h1, ?_, h3, k4, ?_⟩⟩
    · rw [List.getElem?_set_self (List.getElem?_eq_some_iff.mp h2).1]
    · intro m' hm' hid
      obtain ⟨q1, q2⟩ := h5 m' hm' hid
      refine ⟨q1, fun b hb hb4 hd => ?_⟩
      by_cases hidx : (b - m'.addr).toNat / 4 = (a - m.addr).toNat / 4
      · rw [if_pos hidx, hidx, hwi]
      · rw [if_neg hidx]
        rcases hd with hd | rfl
        · exact q2 b hb hb4 hd
        · exact absurd (by rw [covering_unique ht hm' hm hb hc]) hidx
  · rw [List.getElem?_set_ne hid]
    obtain ⟨g1, g2⟩ := h i
    refine ⟨g1, fun hmi => ?_⟩
    obtain ⟨d2, e2, size2, i2, i2', a1, a2, a3, a4, a5⟩ := g2 hmi
    refine ⟨d2, e2, size2, i2, i2', a1, a2, a3, a4, fun m' hm' hid' => ⟨(a5 m' hm' hid').1, fun b hb hb4 hd => ?_⟩⟩
    rcases hd with hd | rfl
    · exact (a5 m' hm' hid').2 b hb hb4 hd
    · exact absurd (by rw [← hid', covering_unique ht hm' hm hb hc]) hid

/-- Restoring the words. -/
theorem restore_words {ds : List D} (ht : TableOk pf maps) : ∀ (saved : List (Word × Word)) (done : Word → Prop) (t : Machine D),
    t.mappings = maps → SameWords pf mem maps done ds t.devs →
    (∀ p ∈ saved, p.1.toNat % 4 = 0 ∧ ∃ m ∈ maps, mem m.auxId ∧ covers m p.1) →
    (∀ p ∈ saved, ∀ m ∈ maps, covers m p.1 → ∀ d size init, ds[m.auxId]? = some d → WordMemory pf d size init →
        m.size.toNat ≤ size → p.2 = init ((p.1 - m.addr).toNat / 4)) →
    ∃ es, hostRun pf (saved.map fun p => .memWrite p.1 p.2 0) t = some { t with devs := es } ∧
      SameWords pf mem maps (fun b => done b ∨ b ∈ saved.map (·.1)) ds es := by
  intro saved
  induction saved with
  | nil =>
    intro done t _ h _ _
    refine ⟨t.devs, rfl, ?_⟩
    simpa using h
  | cons p saved ih =>
    intro done t hmap h hl hw
    obtain ⟨ha, m, hm, hi, hc⟩ := hl p List.mem_cons_self
    obtain ⟨es, h1, h2⟩ := restore_word ht h hm hc hi ha (hw p List.mem_cons_self m hm hc)
    obtain ⟨es', h3, h4⟩ := ih (fun b => done b ∨ b = p.1) { t with devs := es } hmap h2 (fun q hq => hl q (List.mem_cons_of_mem _ hq))
      (fun q hq => hw q (List.mem_cons_of_mem _ hq))
    refine ⟨es', ?_, ?_⟩
    · rw [List.map_cons]
      show (hostStep pf t (.memWrite p.1 p.2 0)).bind _ = _
      have : hostStep pf t (.memWrite p.1 p.2 0) = some { t with devs := es } := by
        show (memWrite pf t p.1 p.2 0).map _ = _
        rw [memWrite_eq, hmap, h1]; rfl
      rw [this]
      exact h3
    · refine cast (congrArg (fun f => SameWords pf mem maps f ds es') (funext fun b => propext ?_)) h4
      rw [List.map_cons, List.mem_cons]
      exact or_assoc

/-- **C131**. A running machine can be saved and restored through the host's interface. Let `s` be a machine, `mem` the numbers of its components
that are arrays of words (`WordMemory`: what `C64` proves of `Ram` and `C66` of `PersistentMem`) and `l` the list of the addresses of their words.
Reading these words (`save`) succeeds and changes nothing. Let `t` be another machine with the same mapping table and the same components, except for the
contents of these memories, which is running if `s` is. Setting its registers and writing the words (`restore`) succeeds, and then it has the
registers of `s`, and a memory that gives the same answers to every sequence of accesses. -/
theorem C131 {s t : Machine D} (hc : SameButContents pf mem s t) {l : List Word} (hl : Lists mem s.mappings l) :
    ∃ saved t', save pf l s = some (saved, s) ∧ hostRun pf (restore s.regs saved) t = some t' ∧ t'.regs = s.regs ∧ t'.halted = t.halted ∧
      SameMemory pf s t' := by
  obtain ⟨saved, h1, h2, h3⟩ := save_ok (mem := mem) hc.table (fun i hi => by
    obtain ⟨d, e, size, init, init', a1, a2, a3, a4, a5⟩ := hc.memories i hi
    exact ⟨d, size, init, a1, a3, a5⟩) l fun a ha => (hl a).mp ha
  obtain ⟨es, g1, g2⟩ := restore_words (ds := s.devs) (mem := mem) hc.table saved (fun _ => False) { t with regs := s.regs } hc.maps.symm
    (fun i => ⟨hc.others i, fun hi => by
      obtain ⟨d, e, size, init, init', a1, a2, a3, a4, a5⟩ := hc.memories i hi
      exact ⟨d, e, size, init, init', a1, a2, a3, a4, fun m hm hid => ⟨a5 m hm hid, fun _ _ _ hf => hf.elim⟩⟩⟩)
    (fun p hp => (hl p.1).mp (h2 ▸ List.mem_map.mpr ⟨p, hp, rfl⟩)) h3
  refine ⟨saved, { t with regs := s.regs, devs := es }, h1, g1, rfl, rfl, ?_⟩
  · rw [sameMemory_iff]
    show DevSame pf s.mappings t.mappings s.devs es
    rw [← hc.maps]
    refine devSame_of_linked (sameWords_linked (mem := mem) hc.table) fun i => ⟨(g2 i).1, fun hi => ?_⟩
    obtain ⟨d, e, size, init, init', a1, a2, a3, a4, a5⟩ := (g2 i).2 hi
    refine ⟨d, e, size, init, init', a1, a2, a3, a4, fun m hm hid => ⟨(a5 m hm hid).1, fun a hcv ha _ => ?_⟩⟩
    refine (a5 m hm hid).2 a hcv ha (.inr ?_)
    rw [h2]
    exact (hl a).mpr ⟨ha, m, hm, hid ▸ hi, hcv⟩

/-- The machine fetches what the machine with the same memory fetches. -/
theorem fetches_same {s t : Machine D} (hm : SameMemory pf s t) (hc : SameCpu s t) {w : Word} {devs : List D} (h : Fetches pf t w devs) :
    ∃ ds, Fetches pf s w ds := by
  obtain ⟨h1, h2⟩ := h
  have hp : Peer (DevSame pf s.mappings t.mappings) s.mappings t.mappings { s with cycles := s.cycles + 1 } { t with cycles := t.cycles + 1 } :=
    ⟨hc.regs, rfl, rfl, by show s.cycles + 1 = t.cycles + 1; rw [hc.cycles], hc.halted, hc.changedPc, sameMemory_iff.mp hm⟩
  have := pe_exec (linked_of_dev devSame_linked) t.regs.pc _ _ hp
  rw [h2] at this
  cases e : cpuExec pf t.regs.pc { s with cycles := s.cycles + 1 } with
  | panic => rw [e] at this; exact this.elim
  | ex u => rw [e] at this; exact this.elim
  | ok v u =>
    rw [e] at this
    obtain ⟨rfl, _⟩ := this
    rw [cpuExec_eq] at e
    obtain ⟨d, k1, k2⟩ := toOut_ok e
    refine ⟨d, by rw [hc.halted]; exact h1, ?_⟩
    rw [show s.regs.pc = t.regs.pc by rw [hc.regs], cpuExec_eq, k1]
    rfl

/-- **C131**, what follows. From then on the two machines do the same, as long as the program executes no HWD and no RESET (which take the number of a
component) and no CYCLES (the restored machine has its own cycle counter): after any number of steps the registers and the halting state
are the same, and the memories give the same answers. -/
theorem C131_run {s s' t : Machine D} {n : Nat} (hm : SameMemory pf s t) (hr : t.regs = s.regs) (hh : t.halted = s.halted)
    (h : UnnumberedRun pf s n s')
    (hcy : ∀ k < n, ∀ u, nextN pf k s = some u → ∀ w devs, Fetches pf u w devs → opcode w ≠ 0x1D) :
    ∃ t', nextN pf n t = some t' ∧ SameMemory pf s' t' ∧ t'.regs = s'.regs ∧ t'.halted = s'.halted := by
  induction h generalizing t with
  | done s => exact ⟨t, rfl, hm, hr, hh⟩
  | @step s s1 _ n hu hn _ ih =>
    have hc : SameCpu s { t with cycles := s.cycles, changedPc := s.changedPc } := ⟨hr.symm, rfl, hh.symm, rfl⟩
    have hm2 : SameMemory pf s { t with cycles := s.cycles, changedPc := s.changedPc } := by
      have := sameMemory_iff.mp hm
      rw [sameMemory_iff]; exact this
    rcases C130_step hm2 hc hu with ⟨h, _⟩ | ⟨s2, t2, h1, h2, hm1, hc1⟩
    · rw [hn] at h; cases h
    rw [hn] at h1; cases h1
    have hsb : SameButTime { t with cycles := s.cycles, changedPc := s.changedPc } t := ⟨rfl, rfl, rfl, rfl, rfl, rfl⟩
    have := C125_run (pf := pf) hsb 1 (fun k hk u hku w devs hf => by
      obtain rfl : k = 0 := by omega
      cases hku
      obtain ⟨ds, hf⟩ := fetches_same hm2 hc hf
      exact hcy 0 (by omega) s rfl w ds hf)
    have e1 : nextN pf 1 { t with cycles := s.cycles, changedPc := s.changedPc } = some t2 := by
      show (next pf _).bind _ = _
      rw [h2]; rfl
    rw [e1] at this
    cases e2 : nextN pf 1 t with
    | none => rw [e2] at this; exact this.elim
    | some t3 =>
      rw [e2] at this
      have hs3 : SameButTime t2 t3 := this
      have e3 : next pf t = some t3 := by
        have : (next pf t).bind (fun x => some x) = some t3 := e2
        revert this
        cases next pf t with
        | none => exact fun h => h
        | some x => exact fun h => h
      have hm3 : SameMemory pf s1 t3 := sameMemory_iff.mpr (by
        have := sameMemory_iff.mp hm1
        rwa [hs3.mappings, hs3.devs] at this)
      obtain ⟨t4, h4, h5⟩ := ih hm3 (hs3.regs.symm.trans hc1.regs.symm) (hs3.halted.symm.trans hc1.halted.symm) (fun k hk u hku =>
        hcy (k + 1) (by omega) u (by show (next pf s).bind _ = _; rw [hn]; exact hku))
      refine ⟨t4, ?_, h5⟩
      show (next pf t).bind _ = _
      rw [e3]; exact h4

/-- The addresses of the words of the example board's RAM. -/
def Demo.ramWords : List Word := (List.range 16).map fun k => BitVec.ofNat 32 (0x40 + 4 * k)

theorem Demo.ramWords_lists : Lists (· = 1) [⟨0, 0x11, 0, 0x40⟩, ⟨1, 0x22, 0x40, 0x40⟩] Demo.ramWords := by
  intro a
  unfold Demo.ramWords
  rw [List.mem_map]
  constructor
  · rintro ⟨k, hk, rfl⟩
    rw [List.mem_range] at hk
    have e : (BitVec.ofNat 32 (0x40 + 4 * k)).toNat = 0x40 + 4 * k := by
      rw [BitVec.toNat_ofNat]; exact Nat.mod_eq_of_lt (by omega)
    refine ⟨by omega, ⟨1, 0x22, 0x40, 0x40⟩, by simp, rfl, ?_⟩
    show 0x40 ≤ (BitVec.ofNat 32 (0x40 + 4 * k)).toNat ∧ (BitVec.ofNat 32 (0x40 + 4 * k)).toNat < 0x40 + 0x40
    omega
  · rintro ⟨ha, m, hm, hi, hc⟩
    simp only [List.mem_cons, List.not_mem_nil, or_false] at hm
    rcases hm with rfl | rfl
    · exact absurd hi (by decide)
    · have hc : 0x40 ≤ a.toNat ∧ a.toNat < 0x40 + 0x40 := hc
      refine ⟨(a.toNat - 0x40) / 4, List.mem_range.mpr (by omega), BitVec.eq_of_toNat_eq ?_⟩
      rw [BitVec.toNat_ofNat, Nat.mod_eq_of_lt (by omega)]
      omega

/-- A program that writes 9 at 0x68, then loads it in a1. The machine is saved after the first instruction, restored on a fresh board with the
same boot ROM, and the second instruction loads 9 there too. -/
example : ∃ (s t t' t'' : Machine Demo.Dev) (saved : List (Word × Word)),
    nextN .debug 1 (Demo.start [0xB0680009#32, 0xA0016800#32]) = some s ∧ Demo.board [0xB0680009#32, 0xA0016800#32] = some t ∧
    save .debug Demo.ramWords s = some (saved, s) ∧ hostRun .debug (restore s.regs saved) t = some t' ∧ SameMemory .debug s t' ∧
    t'.regs = s.regs ∧ (memRead .debug t 0x68 0).map (·.1) = some 0 ∧ nextN .debug 1 t' = some t'' ∧ reg t''.regs 1 = 9 := by
  have key : ∃ (s t : Machine Demo.Dev) (rom : BootRom) (x y : Ram),
    nextN .debug 1 (Demo.start [0xB0680009#32, 0xA0016800#32]) = some s ∧ Demo.board [0xB0680009#32, 0xA0016800#32] = some t ∧
    s.devs = [.inl rom, .inr x] ∧ t.devs = [.inl rom, .inr y] ∧ s.mappings = [⟨0, 0x11, 0, 0x40⟩, ⟨1, 0x22, 0x40, 0x40⟩] ∧
    t.mappings = s.mappings ∧ Ram.fromWithSize [0, 0, 0, 0, 0, 0, 0, 0, 0, 0, 9, 0, 0, 0, 0, 0] 0x40 0x22 = some x ∧
    Ram.fromWithSize [] 0x40 0x22 = some y ∧ t.halted = s.halted ∧ (memRead .debug t 0x68 0).map (·.1) = some 0 ∧
    (∃ s2, next .debug s = some s2 ∧ reg s2.regs 1 = 9) ∧ Fetches .debug s 0xA0016800 s.devs :=
    ⟨_, _, _, _, _, rfl, rfl, rfl, rfl, rfl, rfl, rfl, rfl, rfl, rfl, ⟨_, rfl, rfl⟩, rfl, rfl⟩
  obtain ⟨s, t, rom, x, y, h1, h2, h3, h4, h5, h6, h7, h8, h9, h10, ⟨s2, h11, h12⟩, h13⟩ := key
  have hb : SameButContents .debug (· = 1) s t := by
    refine ⟨h6.symm, h5 ▸ Demo.table_ok [], fun i hi => ?_, fun i hi => ?_⟩
    · rw [h3, h4]
      match i, hi with
      | 0, _ => rfl
      | 1, hi => exact absurd rfl hi
      | i + 2, _ => rfl
    · subst hi
      refine ⟨.inr x, .inr y, _, _, _, by rw [h3]; rfl, by rw [h4]; rfl, wordMemory_inr (C64_from_with_size h7),
        wordMemory_inr (C64_from_with_size h8), fun m hm hid => ?_⟩
      rw [h5] at hm
      simp only [List.mem_cons, List.not_mem_nil, or_false] at hm
      rcases hm with rfl | rfl
      · exact absurd hid (by decide)
      · decide
  obtain ⟨saved, t', g1, g2, g3, g4, g5⟩ := C131 hb (h5 ▸ Demo.ramWords_lists)
  obtain ⟨t'', k1, _, k3, _⟩ := C131_run (n := 1) (s' := s2) g5 g3 (g4.trans h9) (.step (unnumbered_of h13 (by decide)) h11 (.done _))
    (fun k hk u hku w devs hf => by
      obtain rfl : k = 0 := by omega
      cases hku
      obtain ⟨_, hf⟩ := hf
      obtain ⟨_, h14⟩ := h13
      rw [h14] at hf
      injection hf with hf
      subst hf
      decide)
  exact ⟨s, t, t', t'', saved, h1, h2, g1, g2, g5, g3, h10, k1, by rw [k3]; exact h12⟩

end Lrvm
