import Verif.Lemmas.SameMemory
import Verif.Props.Devices.History
import Verif.Props.Wiring
import Verif.Demo.Machines

/-!
# A program sees memory only through its answers: C130
-/

namespace Lrvm

open Spec

variable {D : Type} [Bus D] {pf : Profile}

/-- **C130**. Take two machines in the same processor state, with any components in any ranges, whose memories give the same answers to
every sequence of accesses (`Spec.SameMemory`). A program that executes no HWD and no RESET (which take the number of a component) does the
same on both: after any number of steps the registers, the cycle count and the state of the CPU are the same, and the memories still give
the same answers; or both panic. -/
theorem C130_step {s t : Machine D} (hm : SameMemory pf s t) (hc : SameCpu s t) (hu : Unnumbered pf s) :
    (next pf s = none ∧ next pf t = none) ∨ ∃ s' t', next pf s = some s' ∧ next pf t = some t' ∧ SameMemory pf s' t' ∧ SameCpu s' t' := by
  have hp : Peer (DevSame pf s.mappings t.mappings) s.mappings t.mappings s t :=
    ⟨hc.regs, rfl, rfl, hc.cycles, hc.halted, hc.changedPc, sameMemory_iff.mp hm⟩
  rcases next_peer (linked_of_dev devSame_linked) hp hu with h | ⟨s', t', h1, h2, h⟩
  · exact .inl h
  · exact .inr ⟨s', t', h1, h2, sameMemory_iff.mpr (by rw [h.maps, h.maps']; exact h.devs), ⟨h.regs, h.cycles, h.halted, h.changedPc⟩⟩

/-- **C130**, runs. -/
theorem C130_run {s s' t : Machine D} {n : Nat} (hm : SameMemory pf s t) (hc : SameCpu s t) (hr : UnnumberedRun pf s n s') :
    ∃ t', nextN pf n t = some t' ∧ SameMemory pf s' t' ∧ SameCpu s' t' := by
  induction hr generalizing t with
  | done s => exact ⟨t, rfl, hm, hc⟩
  | step hu hn _ ih =>
    rcases C130_step hm hc hu with ⟨h, _⟩ | ⟨s1, t1, h1, h2, hm1, hc1⟩
    · rw [hn] at h; cases h
    · rw [hn] at h1; cases h1
      obtain ⟨t2, h3, h4⟩ := ih hm1 hc1
      refine ⟨t2, ?_, h4⟩
      show (next pf t).bind _ = _
      rw [h2]; exact h3

/-! ### A memory cut in two -/

/-- An array of words after a write is an array of words with that word. -/
theorem wordMemory_write {d : D} {size : Nat} {init : Nat → Word} (h : WordMemory pf d size init) {a : Word} (ha : a.toNat % 4 = 0)
    (hlt : a.toNat < size) (w : Word) (ex : U16) :
    ∃ d', Bus.write d a w ex = some (d', ex) ∧ WordMemory pf d' size fun i => if i = a.toNat / 4 then w else init i := by
  obtain ⟨d', as, h1, _, h3⟩ := h.serves [.write a w ex] (by rintro r hr; rw [List.mem_singleton] at hr; subst hr; exact ⟨ha, hlt⟩)
  obtain ⟨d1, an, as', g1, g2, rfl⟩ := serveAll_cons_inv h1
  cases g2
  obtain ⟨p, k1, k2⟩ := Option.map_eq_some_iff.mp g1
  injection k2 with k2 k3
  subst k2; subst k3
  obtain ⟨p1, p2⟩ := p
  have hx : p2 = ex := h3.1
  subst hx
  have ext : ∀ {rs : List Req} {d2 : D} {as : List Answer}, serveAll p1 rs = some (d2, as) →
      serveAll d (.write a w p2 :: rs) = some (d2, .wrote p2 :: as) := fun hs => serveAll_cons g1 hs
  have within : ∀ {rs : List Req}, (∀ r ∈ rs, r.Within size) → ∀ r ∈ Req.write a w p2 :: rs, r.Within size := by
    intro rs hr r hm
    rcases List.mem_cons.mp hm with rfl | hm
    · exact ⟨ha, hlt⟩
    · exact hr r hm
  refine ⟨p1, k1, ?_, ?_, ?_, ?_⟩
  · intro rs hr
    obtain ⟨d2, as, g3, g4, g5⟩ := h.serves _ (within hr)
    obtain ⟨d3, an, as', g6, g7, rfl⟩ := serveAll_cons_inv g3
    rw [g1] at g6; cases g6
    exact ⟨d2, as', g7, g4, g5.2⟩
  · intro rs rs' b v x x' d2 as hr hs hh
    exact h.written (.write a w p2 :: rs) rs' b v x x' d2 _ (within hr) hs (ext hh)
  · intro rs rs' b x d2 as hr hs hb hblt hh
    exact h.zeroed (.write a w p2 :: rs) rs' b x d2 _ (within hr) hs hb hblt (ext hh)
  · intro rs b x d2 as hr hs hb hblt hh
    by_cases hab : a = b
    · subst hab
      rw [if_pos rfl]
      exact h.written [] rs a w x p2 d2 _ (within hr) hs (ext hh)
    · have hne : ¬ b.toNat / 4 = a.toNat / 4 := by
        intro he
        exact hab (BitVec.eq_of_toNat_eq (by omega))
      rw [if_neg hne]
      refine h.initial (.write a w p2 :: rs) b x d2 _ (within hr) ?_ hb hblt (ext hh)
      intro r hm
      rcases List.mem_cons.mp hm with rfl | hm
      · exact hab
      · exact hs r hm

theorem wordMemory_read_now {d : D} {size : Nat} {init : Nat → Word} (h : WordMemory pf d size init) {a : Word} (ha : a.toNat % 4 = 0)
    (hlt : a.toNat < size) (ex : U16) : Bus.read d a ex = some (d, init (a.toNat / 4), ex) :=
  h.initial [] a ex d [] (by simp) (by simp) ha hlt rfl

/-- Only the words inside matter. -/
theorem wordMemory_congr {d : D} {size : Nat} {init init' : Nat → Word} (he : ∀ i, 4 * i < size → init' i = init i)
    (h : WordMemory pf d size init) : WordMemory pf d size init' :=
  ⟨h.serves, h.written, h.zeroed, fun rs a ex d' as hr hs ha hlt hh => by
    rw [he _ (by omega)]; exact h.initial rs a ex d' as hr hs ha hlt hh⟩

/-- The components `ds` are those of `es`, the last two being one array of words. -/
def CutIn (pf : Profile) (k n1 n2 : Nat) (ds es : List D) : Prop :=
  ∃ (pre : List D) (x x1 x2 : D) (init : Nat → Word), pre.length = k ∧ ds = pre ++ [x] ∧ es = pre ++ [x1, x2] ∧
    WordMemory pf x (n1 + n2) init ∧ WordMemory pf x1 n1 init ∧ WordMemory pf x2 n2 fun i => init (i + n1 / 4)

/-- An address is in another component's range, in the first part, in the second part, or nowhere. -/
theorem cut_cases {k : Nat} {maps : List Mapping} {whole part1 part2 : Mapping} (h : CutTables pf k maps whole part1 part2) (a : Word) :
    (∃ m ∈ maps, covers m a) ∨ (covers whole a ∧ covers part1 a) ∨ (covers whole a ∧ covers part2 a ∧ part1.size.toNat ≤ a.toNat - whole.addr.toNat) ∨
    ((∀ m ∈ maps ++ [whole], ¬ covers m a) ∧ ∀ m ∈ maps ++ [part1, part2], ¬ covers m a) := by
  obtain ⟨s1, s2⟩ := h.starts
  have hz := h.sizes
  rcases covering maps a with h1 | h1
  · exact .inl h1
  right
  by_cases hw : covers whole a
  · by_cases hp : covers part1 a
    · exact .inl ⟨hw, hp⟩
    · right; left
      unfold covers at hw hp ⊢
      rw [s1] at hp
      refine ⟨hw, ?_, ?_⟩
      · omega
      · omega
  · right; right
    refine ⟨fun m hm => ?_, fun m hm => ?_⟩
    · rcases List.mem_append.mp hm with hm | hm
      · exact h1 m hm
      · rw [List.mem_singleton] at hm; rw [hm]; exact hw
    · rcases List.mem_append.mp hm with hm | hm
      · exact h1 m hm
      · unfold covers at hw ⊢
        rcases List.mem_cons.mp hm with rfl | hm
        · rw [s1]; omega
        · rw [List.mem_singleton] at hm; subst hm; omega

theorem sub_toNat' {a b : Word} (h : b.toNat ≤ a.toNat) : (a - b).toNat = a.toNat - b.toNat := by
  rw [BitVec.toNat_sub]
  have := a.isLt
  omega

theorem cut_linked {k : Nat} {maps : List Mapping} {whole part1 part2 : Mapping} (h : CutTables pf k maps whole part1 part2) :
    DevLinked (D := D) pf (maps ++ [whole]) (maps ++ [part1, part2]) (CutIn pf k part1.size.toNat part2.size.toNat) := by
  obtain ⟨i0, i1, i2⟩ := h.ids
  obtain ⟨s1, s2⟩ := h.starts
  have hz := h.sizes
  have hw : whole ∈ maps ++ [whole] := by simp
  have hp1 : part1 ∈ maps ++ [part1, part2] := by simp
  have hp2 : part2 ∈ maps ++ [part1, part2] := by simp
  have al := (h.table.ranges whole hw).addrAligned
  have al1 := (h.table'.ranges part1 hp1).sizeAligned
  constructor
  · rintro ds es a ⟨pre, x, x1, x2, init, hk, rfl, rfl, m0, m1, m2⟩
    have g0 : (pre ++ [x])[whole.auxId]? = some x := by rw [i0, ← hk]; simp
    have g1 : (pre ++ [x1, x2])[part1.auxId]? = some x1 := by rw [i1, ← hk]; simp
    have g2 : (pre ++ [x1, x2])[part2.auxId]? = some x2 := by rw [i2, ← hk]; simp
    by_cases ha : a.toNat % 4 = 0
    · rcases cut_cases h a with ⟨m, hm, hc⟩ | ⟨c0, c1⟩ | ⟨c0, c2, hle⟩ | ⟨n1, n2⟩
      · have hlt : m.auxId < pre.length := hk ▸ h.known m hm
        obtain ⟨d, hd⟩ : ∃ d, pre[m.auxId]? = some d := ⟨_, List.getElem?_eq_getElem hlt⟩
        rw [devRead_hit h.table (List.mem_append_left _ hm) hc ha (d := d) (by rw [List.getElem?_append_left hlt]; exact hd),
          devRead_hit h.table' (List.mem_append_left _ hm) hc ha (d := d) (by rw [List.getElem?_append_left hlt]; exact hd)]
        cases Bus.read d (a - m.addr) 0 with
        | none => trivial
        | some p =>
          refine ⟨rfl, rfl, pre.set m.auxId p.1, x, x1, x2, init, by simpa using hk, ?_, ?_, m0, m1, m2⟩
          · exact List.set_append_left _ _ hlt
          · exact List.set_append_left _ _ hlt
      · have e := sub_toNat' c0.1
        rw [devRead_hit h.table hw c0 ha g0, devRead_hit h.table' hp1 c1 ha g1, s1]
        unfold covers at c0 c1
        rw [s1] at c1
        rw [wordMemory_read_now m0 (by omega) (by omega), wordMemory_read_now m1 (by omega) (by omega)]
        refine ⟨rfl, rfl, pre, x, x1, x2, init, hk, ?_, ?_, m0, m1, m2⟩
        · rw [i0, ← hk]; simp
        · rw [i1, ← hk]; simp
      · have e := sub_toNat' c0.1
        have e2 := sub_toNat' c2.1
        rw [devRead_hit h.table hw c0 ha g0, devRead_hit h.table' hp2 c2 ha g2]
        unfold covers at c0 c2
        rw [wordMemory_read_now m0 (by omega) (by omega), wordMemory_read_now m2 (by omega) (by omega)]
        refine ⟨?_, rfl, pre, x, x1, x2, init, hk, ?_, ?_, m0, m1, m2⟩
        · show init _ = init _
          congr 1
          omega
        · rw [i0, ← hk]; simp
        · rw [i2, ← hk]; simp
      · rw [devRead_miss h.table.ranges n1 ha, devRead_miss h.table'.ranges n2 ha]
        exact ⟨rfl, rfl, pre, x, x1, x2, init, hk, rfl, rfl, m0, m1, m2⟩
    · unfold devRead
      rw [assert_unaligned ha]
      trivial
  · rintro ds es a w ⟨pre, x, x1, x2, init, hk, rfl, rfl, m0, m1, m2⟩
    have g0 : (pre ++ [x])[whole.auxId]? = some x := by rw [i0, ← hk]; simp
    have g1 : (pre ++ [x1, x2])[part1.auxId]? = some x1 := by rw [i1, ← hk]; simp
    have g2 : (pre ++ [x1, x2])[part2.auxId]? = some x2 := by rw [i2, ← hk]; simp
    by_cases ha : a.toNat % 4 = 0
    · rcases cut_cases h a with ⟨m, hm, hc⟩ | ⟨c0, c1⟩ | ⟨c0, c2, hle⟩ | ⟨n1, n2⟩
      · have hlt : m.auxId < pre.length := hk ▸ h.known m hm
        obtain ⟨d, hd⟩ : ∃ d, pre[m.auxId]? = some d := ⟨_, List.getElem?_eq_getElem hlt⟩
        rw [devWrite_hit h.table (List.mem_append_left _ hm) hc ha (d := d) (by rw [List.getElem?_append_left hlt]; exact hd),
          devWrite_hit h.table' (List.mem_append_left _ hm) hc ha (d := d) (by rw [List.getElem?_append_left hlt]; exact hd)]
        cases Bus.write d (a - m.addr) w 0 with
        | none => trivial
        | some p =>
          refine ⟨rfl, pre.set m.auxId p.1, x, x1, x2, init, by simpa using hk, ?_, ?_, m0, m1, m2⟩
          · exact List.set_append_left _ _ hlt
          · exact List.set_append_left _ _ hlt
      · have e := sub_toNat' c0.1
        rw [devWrite_hit h.table hw c0 ha g0, devWrite_hit h.table' hp1 c1 ha g1, s1]
        unfold covers at c0 c1
        rw [s1] at c1
        obtain ⟨y, hy, hy'⟩ := wordMemory_write m0 (a := a - whole.addr) (by omega) (by omega) w 0
        obtain ⟨z, hz1, hz'⟩ := wordMemory_write m1 (a := a - whole.addr) (by omega) (by omega) w 0
        rw [hy, hz1]
        refine ⟨rfl, pre, y, z, x2, _, hk, ?_, ?_, hy', hz', ?_⟩
        · rw [i0, ← hk]; simp
        · rw [i1, ← hk]; simp
        · have : (fun i => if i + part1.size.toNat / 4 = (a - whole.addr).toNat / 4 then w else init (i + part1.size.toNat / 4)) =
              fun i => init (i + part1.size.toNat / 4) := by
            funext i
            rw [if_neg (by omega)]
          rw [this]; exact m2
      · have e := sub_toNat' c0.1
        have e2 := sub_toNat' c2.1
        rw [devWrite_hit h.table hw c0 ha g0, devWrite_hit h.table' hp2 c2 ha g2]
        unfold covers at c0 c2
        obtain ⟨y, hy, hy'⟩ := wordMemory_write m0 (a := a - whole.addr) (by omega) (by omega) w 0
        obtain ⟨z, hz1, hz'⟩ := wordMemory_write m2 (a := a - part2.addr) (by omega) (by omega) w 0
        rw [hy, hz1]
        refine ⟨rfl, pre, y, x1, z, _, hk, ?_, ?_, hy', ?_, ?_⟩
        · rw [i0, ← hk]; simp
        · rw [i2, ← hk]; simp
        · exact wordMemory_congr (fun i hi => by rw [if_neg (by omega)]) m1
        · have : (fun i => if i + part1.size.toNat / 4 = (a - whole.addr).toNat / 4 then w else init (i + part1.size.toNat / 4)) =
              fun i => if i = (a - part2.addr).toNat / 4 then w else init (i + part1.size.toNat / 4) := by
            funext i
            by_cases hi : i = (a - part2.addr).toNat / 4
            · rw [if_pos hi, if_pos (by omega)]
            · rw [if_neg hi, if_neg (by omega)]
          rw [this]; exact hz'
      · rw [devWrite_miss h.table.ranges n1 ha, devWrite_miss h.table'.ranges n2 ha]
        exact ⟨rfl, pre, x, x1, x2, init, hk, rfl, rfl, m0, m1, m2⟩
    · unfold devWrite
      rw [assert_unaligned ha]
      trivial

/-- **C130**, a memory cut in two. Take a board whose last component is an array of words (`WordMemory`: what `C64` proves of `Ram` and `C66` of
`PersistentMem`), and the board with two arrays of words in its place, mapped one after the other in its range and with its contents. Their memories
give the same answers to every sequence of accesses. -/
theorem C130_cut {s t : Machine D} {pre : List D} {x x1 x2 : D} {init : Nat → Word} {maps : List Mapping} {whole part1 part2 : Mapping}
    (hs : s.devs = pre ++ [x]) (ht : t.devs = pre ++ [x1, x2]) (hsm : s.mappings = maps ++ [whole])
    (htm : t.mappings = maps ++ [part1, part2]) (hc : CutTables pf pre.length maps whole part1 part2)
    (hx : WordMemory pf x whole.size.toNat init) (hx1 : WordMemory pf x1 part1.size.toNat init)
    (hx2 : WordMemory pf x2 part2.size.toNat fun i => init (i + part1.size.toNat / 4)) : SameMemory pf s t := by
  rw [sameMemory_iff, hs, ht, hsm, htm]
  exact devSame_of_linked (cut_linked hc) ⟨pre, x, x1, x2, init, rfl, rfl, rfl, hc.sizes ▸ hx, hx1, hx2⟩

/-- **C130**: so a program without HWD and RESET does the same on both boards. -/
theorem C130_cut_run {s s' t : Machine D} {pre : List D} {x x1 x2 : D} {init : Nat → Word} {maps : List Mapping}
    {whole part1 part2 : Mapping} (hs : s.devs = pre ++ [x]) (ht : t.devs = pre ++ [x1, x2]) (hsm : s.mappings = maps ++ [whole])
    (htm : t.mappings = maps ++ [part1, part2]) (hc : CutTables pf pre.length maps whole part1 part2)
    (hx : WordMemory pf x whole.size.toNat init) (hx1 : WordMemory pf x1 part1.size.toNat init)
    (hx2 : WordMemory pf x2 part2.size.toNat fun i => init (i + part1.size.toNat / 4)) (hcpu : SameCpu s t) {n : Nat}
    (hr : UnnumberedRun pf s n s') : ∃ t', nextN pf n t = some t' ∧ SameMemory pf s' t' ∧ SameCpu s' t' :=
  C130_run (C130_cut hs ht hsm htm hc hx hx1 hx2) hcpu hr

/-- The answer of the next access after a sequence of accesses is the same. -/
theorem C130_read {s t : Machine D} (h : SameMemory pf s t) (a : Word) :
    (memRead pf s a 0).map (fun x => (x.1, x.2.1)) = (memRead pf t a 0).map (fun x => (x.1, x.2.1)) := by
  have := h [.read a]
  simp only [accesses, access] at this
  revert this
  generalize memRead pf s a 0 = x
  generalize memRead pf t a 0 = y
  cases x <;> cases y <;> simp

/-- The board with the boot ROM and two RAMs of 32 bytes. -/
def Demo.halves (prog : List Word) : List Demo.Dev :=
  (match BootRom.withSize prog 0x40 0x11 with | some d => [.inl d] | none => []) ++
  (match Ram.fromWithSize [] 0x20 0x33 with | some d => [.inr d] | none => []) ++
  (match Ram.fromWithSize [] 0x20 0x44 with | some d => [.inr d] | none => [])

theorem Demo.halves_table : TableOk .debug ([⟨0, 0x11, 0, 0x40⟩] ++ [⟨1, 0x33, 0x40, 0x20⟩, ⟨2, 0x44, 0x60, 0x20⟩]) where
  ranges := by
    intro m hm
    simp only [List.cons_append, List.nil_append, List.mem_cons, List.not_mem_nil, or_false] at hm
    rcases hm with rfl | rfl | rfl <;> exact ⟨by decide, by decide, by decide, by decide⟩
  disjoint := by
    have key : ∀ {m n : Mapping}, m.addr.toNat + m.size.toNat ≤ n.addr.toNat → Disjoint m n := by
      intro m n h a ⟨h1, h2⟩
      unfold covers at h1 h2
      omega
    simp only [List.cons_append, List.nil_append, List.pairwise_cons, List.mem_cons, List.not_mem_nil, or_false]
    refine ⟨?_, ?_, ?_, List.Pairwise.nil⟩
    · rintro n (rfl | rfl) <;> exact key (by decide)
    · rintro n rfl; exact key (by decide)
    · rintro n h; exact h.elim
  once := by simp

/-- A program that writes 9 at 0x68, in the second half of the RAM, on the board with one RAM and on the board with two. -/
example : ∃ (s0 s s' t0 t t' : Machine Demo.Dev), newBoard .debug (Demo.devices [instrWord 0x16 false false false 0x68 0 9]) = some s0 ∧
    newBoard .debug (Demo.halves [instrWord 0x16 false false false 0x68 0 9]) = some t0 ∧
    hostRun .debug [.map 0 0, .map 0x40 1, .reset] s0 = some s ∧
    hostRun .debug [.map 0 0, .map 0x40 1, .map 0x60 2, .reset] t0 = some t ∧ SameMemory .debug s t ∧ UnnumberedRun .debug s 1 s' ∧
    nextN .debug 1 t = some t' ∧ SameMemory .debug s' t' ∧ (memRead .debug t' 0x68 0).map (·.1) = some 9 := by
  have key : ∃ (s0 s s' t0 t t' : Machine Demo.Dev) (rom : BootRom) (x x1 x2 : Ram),
    newBoard .debug (Demo.devices [instrWord 0x16 false false false 0x68 0 9]) = some s0 ∧
    newBoard .debug (Demo.halves [instrWord 0x16 false false false 0x68 0 9]) = some t0 ∧
    hostRun .debug [.map 0 0, .map 0x40 1, .reset] s0 = some s ∧
    hostRun .debug [.map 0 0, .map 0x40 1, .map 0x60 2, .reset] t0 = some t ∧ UnnumberedRun .debug s 1 s' ∧
    nextN .debug 1 t = some t' ∧ (memRead .debug t' 0x68 0).map (·.1) = some 9 ∧
    s.devs = [.inl rom] ++ [.inr x] ∧ t.devs = [.inl rom] ++ [.inr x1, .inr x2] ∧
    s.mappings = [⟨0, 0x11, 0, 0x40⟩] ++ [⟨1, 0x22, 0x40, 0x40⟩] ∧
    t.mappings = [⟨0, 0x11, 0, 0x40⟩] ++ [⟨1, 0x33, 0x40, 0x20⟩, ⟨2, 0x44, 0x60, 0x20⟩] ∧
    Ram.fromWithSize [] 0x40 0x22 = some x ∧ Ram.fromWithSize [] 0x20 0x33 = some x1 ∧ Ram.fromWithSize [] 0x20 0x44 = some x2 ∧
    SameCpu s t :=
    ⟨_, _, _, _, _, _, _, _, _, _, rfl, rfl, rfl, rfl,
      .step (unnumbered_of (w := instrWord 0x16 false false false 0x68 0 9) ⟨rfl, rfl⟩ (by decide)) rfl (.done _), rfl, rfl, rfl, rfl, rfl, rfl,
      rfl, rfl, rfl, ⟨rfl, rfl, rfl, rfl⟩⟩
  obtain ⟨s0, s, s', t0, t, t', rom, x, x1, x2, h1, h2, h3, h4, h5, h6, h7, h8, h9, h10, h11, h12, h13, h14, h15⟩ := key
  have hm : SameMemory .debug s t := C130_cut h8 h9 h10 h11
    ⟨⟨rfl, rfl, rfl⟩, ⟨rfl, rfl⟩, rfl, by simp, Demo.table_ok [], Demo.halves_table⟩ (wordMemory_inr (C64_from_with_size h12))
    (wordMemory_inr (C64_from_with_size h13)) (wordMemory_inr (C64_from_with_size h14))
  obtain ⟨t2, g1, g2, _⟩ := C130_run hm h15 h5
  rw [h6] at g1; cases g1
  exact ⟨s0, s, s', t0, t, t', h1, h2, h3, h4, hm, h5, h6, g2, h7⟩

end Lrvm
