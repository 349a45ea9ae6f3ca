import Verif.Lemmas.Table
import Verif.Props.Data

/-!
# Memory accesses and the MMU: C04, C25, C26, C27, C28, C37
-/

namespace Lrvm

open Spec

variable {D : Type} [Bus D] {pf : Profile}

/-! ## C37 -/

/-- **C37**, reads. In a well-formed table, a read at an address in a component's range is exactly a read of
that component at the offset from the start of the range (same value, same exception variable, panics
included); every other component is left untouched. -/
theorem C37_read {s : Machine D} {m : Mapping} {a : Word} {ex : U16} {d : D}
    (ht : TableOk pf s.mappings) (hm : m ∈ s.mappings) (hc : covers m a) (ha : a.toNat % 4 = 0)
    (hd : s.devs[m.auxId]? = some d) :
    (a - m.addr).toNat = a.toNat - m.addr.toNat ∧
    memRead pf s a ex = (Bus.read d (a - m.addr) ex).map fun (d', w, ex') =>
      (w, ex', { s with devs := s.devs.set m.auxId d' }) := by
  refine ⟨offset_nat hc.1, ?_⟩
  rw [memRead_eq, devRead_hit ht hm hc ha hd]
  cases Bus.read d (a - m.addr) ex <;> rfl

/-- **C37**, writes. -/
theorem C37_write {s : Machine D} {m : Mapping} {a w : Word} {ex : U16} {d : D}
    (ht : TableOk pf s.mappings) (hm : m ∈ s.mappings) (hc : covers m a) (ha : a.toNat % 4 = 0)
    (hd : s.devs[m.auxId]? = some d) :
    memWrite pf s a w ex = (Bus.write d (a - m.addr) w ex).map fun (d', ex') =>
      (ex', { s with devs := s.devs.set m.auxId d' }) := by
  rw [memWrite_eq, devWrite_hit ht hm hc ha hd]
  cases Bus.write d (a - m.addr) w ex <;> rfl

/-- Non-vacuity: a write in the RAM of the example machine changes what is read there, and nothing before. -/
example : ∃ s', memWrite .debug (Demo.start [7, 8]) 0x44 9 0 = some (0, s') ∧
    memRead .debug s' 0x44 0 = some (9, 0, s') ∧ memRead .debug s' 4 0 = some (8, 0, s') := ⟨_, rfl, rfl, rfl⟩

/-- **C37**, unmapped addresses: reads yield 0, writes are ignored, nothing is contacted. -/
theorem C37_unmapped {s : Machine D} {a w : Word} {ex : U16} (ht : TableOk pf s.mappings)
    (hc : ∀ m ∈ s.mappings, ¬ covers m a) (ha : a.toNat % 4 = 0) :
    memRead pf s a ex = some (0, ex, s) ∧ memWrite pf s a w ex = some (ex, s) := by
  rw [memRead_eq, devRead_miss ht.ranges hc ha, memWrite_eq, devWrite_miss ht.ranges hc ha]
  exact ⟨rfl, rfl⟩

/-- **C37**, other components: whatever the table, an access changes at most one component, one that is mapped
at the address. -/
theorem C37_others {s s' : Machine D} {a w : Word} {ex ex' : U16} (ht : TableOk pf s.mappings)
    (h : memRead pf s a ex = some (w, ex', s') ∨ memWrite pf s a w ex = some (ex', s')) (i : Nat)
    (hi : ∀ m ∈ s.mappings, covers m a → m.auxId ≠ i) : s'.devs[i]? = s.devs[i]? := by
  by_cases hal : a.toNat % 4 = 0
  · by_cases hc : ∃ m ∈ s.mappings, covers m a
    · obtain ⟨m, hm, hc⟩ := hc
      have hne := hi m hm hc
      cases hd : s.devs[m.auxId]? with
      | none =>
        rcases h with h | h
        · rw [memRead_eq] at h
          unfold devRead at h
          rw [assert_aligned hal, findMapping_eq ht.ranges, find_covering ht.disjoint hm hc] at h
          simp only [Option.bind_eq_bind, Option.bind_some, sub_ok hc.1, bridgeRead, hd] at h
          cases hx : assert ((a - m.addr) % 4 == 0) <;> rw [hx] at h <;> cases h
        · rw [memWrite_eq] at h
          unfold devWrite at h
          rw [assert_aligned hal, findMapping_eq ht.ranges, find_covering ht.disjoint hm hc] at h
          simp only [Option.bind_eq_bind, Option.bind_some, sub_ok hc.1, bridgeWrite, hd] at h
          cases hx : assert ((a - m.addr) % 4 == 0) <;> rw [hx] at h <;> cases h
      | some d =>
        rcases h with h | h
        · rw [(C37_read ht hm hc hal hd).2, Option.map_eq_some_iff] at h
          obtain ⟨⟨d', w', e'⟩, _, h⟩ := h
          injection h with _ h; injection h with _ h; subst h
          exact List.getElem?_set_ne hne
        · rw [C37_write ht hm hc hal hd, Option.map_eq_some_iff] at h
          obtain ⟨⟨d', e'⟩, _, h⟩ := h
          injection h with _ h; subst h
          exact List.getElem?_set_ne hne
    · have hc' : ∀ m ∈ s.mappings, ¬ covers m a := fun m hm h => hc ⟨m, hm, h⟩
      have hu := C37_unmapped (w := w) (ex := ex) ht hc' hal
      rcases h with h | h
      · rw [hu.1] at h; cases h; rfl
      · rw [hu.2] at h; cases h; rfl
  · rcases h with h | h
    · unfold memRead at h; rw [assert_unaligned hal] at h; cases h
    · unfold memWrite at h; rw [assert_unaligned hal] at h; cases h

theorem Demo.table_ok (prog : List Word) : TableOk .debug (Demo.start prog).mappings where
  ranges := by
    intro m hm
    simp only [Demo.start, List.mem_cons, List.not_mem_nil, or_false] at hm
    rcases hm with rfl | rfl <;> exact ⟨by decide, by decide, by decide, by decide⟩
  disjoint := by
    simp only [Demo.start, List.pairwise_cons, List.mem_cons, List.not_mem_nil, or_false, forall_eq]
    refine ⟨fun a h => ?_, fun _ h => h.elim, List.Pairwise.nil⟩
    have h1 := h.1.2; have h2 := h.2.1
    change a.toNat < 0 + 64 at h1
    change 64 ≤ a.toNat at h2
    omega
  once := by simp [Demo.start]

example : ∃ m ∈ (Demo.start [7, 8]).mappings, covers m 4 ∧ TableOk .debug (Demo.start [7, 8]).mappings ∧
    memRead .debug (Demo.start [7, 8]) 4 0 = some (8, 0, Demo.start [7, 8]) :=
  ⟨⟨0, 0x11, 0, 0x40⟩, by simp [Demo.start], by decide, Demo.table_ok _, rfl⟩

example : memRead .debug (Demo.start [7, 8]) 0x100 0 = some (0, 0, Demo.start [7, 8]) := rfl

/-! ## C25 -/

/-- **C25.** Whatever the MMU state and the mode, an access to an address that is not a multiple of 4 raises
0x05 with the address modulo 4, and contacts no component (the components' states are those before). -/
theorem C25_unaligned {s : Machine D} {devs : List D} {v w : Word} (h : v.toNat % 4 ≠ 0) :
    LoadFaults pf s devs v 0x05 (v.toNat % 4) devs ∧ StoreFaults pf s devs v w 0x05 (v.toNat % 4) devs := by
  have hv : v % 4 ≠ 0 := fun hh => h (mod4_nat.mp hh)
  have hd : ((v % 4).setWidth 16 : U16).toNat = v.toNat % 4 := by
    rw [BitVec.toNat_setWidth, BitVec.toNat_umod]
    show v.toNat % 4 % 2 ^ 16 = _
    omega
  constructor
  · refine ⟨({ s with devs := devs }.exception 0x05 ((v % 4).setWidth 16)), ?_, ?_, rfl⟩
    · rw [cpuRead_eq]; unfold accRead accDo; rw [if_pos hv]; rfl
    · rw [exception_regs, hd]; rfl
  · refine ⟨({ s with devs := devs }.exception 0x05 ((v % 4).setWidth 16)), ?_, ?_, rfl⟩
    · rw [cpuWrite_eq]; unfold accWrite accDo; rw [if_pos hv]; rfl
    · rw [exception_regs, hd]; rfl

/-- **C25**, instruction fetch: with `pc` not a multiple of 4 the step is the exception 0x05 and nothing
else. -/
theorem C25_unaligned_fetch {s : Machine D} (hh : s.halted = false) (h : s.regs.pc.toNat % 4 ≠ 0) :
    Steps pf s (trap s.regs 0x05 (s.regs.pc.toNat % 4)) s.devs := by
  have hv : s.regs.pc % 4 ≠ 0 := fun hh => h (mod4_nat.mp hh)
  have hd : ((s.regs.pc % 4).setWidth 16 : U16).toNat = s.regs.pc.toNat % 4 := by
    rw [BitVec.toNat_setWidth, BitVec.toNat_umod]
    show s.regs.pc.toNat % 4 % 2 ^ 16 = _
    omega
  refine ⟨({ s with cycles := s.cycles + 1 }.exception 0x05 ((s.regs.pc % 4).setWidth 16)), ?_, ?_,
    rfl, rfl, rfl, rfl, rfl, rfl⟩
  · unfold next
    rw [if_neg (by simp [hh])]
    dsimp only
    rw [cpuExec_eq]; unfold accRead accDo; rw [if_pos hv]; rfl
  · rw [exception_regs, hd]; rfl

example : Steps .debug { Demo.start [] with regs := { startup with pc := 0x42 } }
    (trap { startup with pc := 0x42 } 0x05 2) (Demo.devices []) :=
  C25_unaligned_fetch rfl (by decide)

/-! ## C26 -/

theorem busRead_iff {s : Machine D} {devs devs' : List D} {a w : Word} {ex : U16} :
    BusRead pf s devs a w ex devs' ↔ devRead pf s.mappings devs a 0 = some (w, ex, devs') := by
  unfold BusRead
  rw [memRead_eq, Option.map_eq_some_iff]
  constructor
  · rintro ⟨⟨w1, e1, d1⟩, hd, h⟩
    injection h with h1 h; injection h with h2 h
    have h3 : d1 = devs' := congrArg Machine.devs h
    dsimp only at h1 h2
    rw [← h1, ← h2, ← h3]; exact hd
  · intro h; exact ⟨_, h, rfl⟩

theorem busWrite_iff {s : Machine D} {devs devs' : List D} {a w : Word} {ex : U16} :
    BusWrite pf s devs a w ex devs' ↔ devWrite pf s.mappings devs a w 0 = some (ex, devs') := by
  unfold BusWrite
  rw [memWrite_eq, Option.map_eq_some_iff]
  constructor
  · rintro ⟨⟨e1, d1⟩, hd, h⟩
    injection h with h2 h
    have h3 : d1 = devs' := congrArg Machine.devs h
    dsimp only at h2
    rw [← h2, ← h3]; exact hd
  · intro h; exact ⟨_, h, rfl⟩

theorem loadFaults_of {s : Machine D} {devs devs' : List D} {v : Word} {c : U8} {d : U16} {cn dn : Nat}
    (h : accRead pf s.regs s.mappings devs v = .fault c d devs')
    (hc : c.toNat = cn := by rfl) (hd : d.toNat = dn := by rfl) :
    LoadFaults pf s devs v cn dn devs' := by
  subst hc hd
  refine ⟨_, by rw [cpuRead_eq]; show (accRead pf s.regs s.mappings devs v).toOut _ = _; rw [h]; rfl, ?_, rfl⟩
  rw [exception_regs]

theorem storeFaults_of {s : Machine D} {devs devs' : List D} {v w : Word} {c : U8} {d : U16} {cn dn : Nat}
    (h : accWrite pf s.regs s.mappings devs v w = .fault c d devs')
    (hc : c.toNat = cn := by rfl) (hd : d.toNat = dn := by rfl) :
    StoreFaults pf s devs v w cn dn devs' := by
  subst hc hd
  refine ⟨_, by rw [cpuWrite_eq]; show (accWrite pf s.regs s.mappings devs v w).toOut _ = _; rw [h]; rfl, ?_, rfl⟩
  rw [exception_regs]

/-- **C26**, reads. With the MMU off, reading aligned virtual address `v` is reading physical address `v`; an
exception reported by the component becomes exception 0xA0 carrying it. -/
theorem C26_load {s : Machine D} {devs devs' : List D} {v w : Word} {ex : U16} (hm : s.regs.mtt = 0)
    (ha : v.toNat % 4 = 0) (h : BusRead pf s devs v w ex devs') :
    if ex = 0 then Loads pf s devs v w devs' else LoadFaults pf s devs v 0xA0 ex.toNat devs' := by
  rw [busRead_iff] at h
  have hv : ¬ v % 4 ≠ 0 := by simpa using mod4_nat.mpr ha
  have hacc : accRead pf s.regs s.mappings devs v =
      if ex ≠ 0 then .fault 0xA0 ex devs' else .done w devs' := by
    unfold accRead accDo transl
    rw [if_neg hv, if_pos hm]
    dsimp only
    rw [h]
  by_cases he : ex = 0
  · rw [if_pos he, loads_iff, hacc, if_neg (by simpa using he)]
  · rw [if_neg he]; rw [if_pos he] at hacc; exact loadFaults_of hacc

/-- **C26**, writes. -/
theorem C26_store {s : Machine D} {devs devs' : List D} {v w : Word} {ex : U16} (hm : s.regs.mtt = 0)
    (ha : v.toNat % 4 = 0) (h : BusWrite pf s devs v w ex devs') :
    if ex = 0 then Stores pf s devs v w devs' else StoreFaults pf s devs v w 0xA0 ex.toNat devs' := by
  rw [busWrite_iff] at h
  have hv : ¬ v % 4 ≠ 0 := by simpa using mod4_nat.mpr ha
  have hacc : accWrite pf s.regs s.mappings devs v w =
      if ex ≠ 0 then .fault 0xA0 ex devs' else .done () devs' := by
    unfold accWrite accDo transl
    rw [if_neg hv, if_pos hm]
    dsimp only
    rw [h]; rfl
  by_cases he : ex = 0
  · rw [if_pos he, stores_iff, hacc, if_neg (by simpa using he)]
  · rw [if_neg he]; rw [if_pos he] at hacc; exact storeFaults_of hacc

/-- **C26**, conversely: with the MMU off a read that succeeds is a physical read without exception, and one
that the component makes panic panics. -/
theorem C26_load_iff {s : Machine D} {devs devs' : List D} {v w : Word} (hm : s.regs.mtt = 0) :
    (Loads pf s devs v w devs' ↔ v.toNat % 4 = 0 ∧ BusRead pf s devs v w 0 devs') ∧
    (Stores pf s devs v w devs' ↔ v.toNat % 4 = 0 ∧ BusWrite pf s devs v w 0 devs') := by
  constructor
  · constructor
    · intro h
      rw [loads_iff] at h
      unfold accRead accDo transl at h
      split at h
      · cases h
      · next hv =>
        refine ⟨mod4_nat.mp (by simpa using hv), ?_⟩
        dsimp only at h
        split at h
        · cases h
        · next hd =>
          split at h
          · cases h
          · next hex =>
            cases h
            rw [busRead_iff, hd, Decidable.not_not.mp hex]
    · rintro ⟨ha, h⟩; simpa using C26_load hm ha h
  · constructor
    · intro h
      rw [stores_iff] at h
      unfold accWrite accDo transl at h
      split at h
      · cases h
      · next hv =>
        refine ⟨mod4_nat.mp (by simpa using hv), ?_⟩
        dsimp only at h
        split at h
        · cases h
        · next hd =>
          split at h
          · cases h
          · next hex =>
            cases h
            rw [Option.map_eq_some_iff] at hd
            obtain ⟨⟨e1, d1⟩, hd, h⟩ := hd
            injection h with _ h; injection h with h1 h2
            dsimp only at h1 h2
            rw [busWrite_iff, hd, h1, h2, Decidable.not_not.mp hex]
    · rintro ⟨ha, h⟩; simpa using C26_store hm ha h

example : BusRead .debug (Demo.start [7, 8]) (Demo.devices [7, 8]) 4 8 0 (Demo.devices [7, 8]) ∧
    BusWrite .debug (Demo.start [7, 8]) (Demo.devices [7, 8]) 4 9 0x3100 (Demo.devices [7, 8]) ∧
    (Demo.start [7, 8]).regs.mtt = 0 := ⟨rfl, rfl, rfl⟩

/-! ## C27 and C28 -/

/-- The bit of a table entry the code tests first: 31 in supervisor mode, 30 in userland. -/
def Spec.passesThrough (sv : Bool) (e : Word) : Bool := e.toNat / 2 ^ (if sv then 31 else 30) % 2 == 0

theorem passBit_eq (r : Regs) (e : Word) : passBit r.smt e = passesThrough (supervisor r) e := by
  have key : ∀ k : Nat, k < 32 → (e &&& (1#32 <<< k) == 0) = (e.toNat / 2 ^ k % 2 == 0) := by
    intro k hk
    have h1 : (e &&& (1#32 <<< k) == 0) = !(e.getLsbD k) := by
      rw [Bool.eq_iff_iff]
      simp only [beq_iff_eq, Bool.not_eq_true']
      constructor
      · intro h
        have := congrArg (fun x => BitVec.getLsbD x k) h
        simpa [hk] using this
      · intro h
        apply BitVec.eq_of_getLsbD_eq
        intro i hi
        by_cases hik : i = k
        · subst hik; simp [h]
        · simp; intro _ _; omega
    rw [h1, BitVec.getLsbD, Nat.testBit_eq_decide_div_mod_eq]
    have := Nat.mod_two_eq_zero_or_one (e.toNat / 2 ^ k)
    rcases this with h | h <;> simp [h]
  unfold passBit passesThrough supervisor
  by_cases h : r.smt = 0
  · rw [if_neg (by simpa using h), key 30 (by decide)]; simp [h]
  · rw [if_pos (by simpa using h), key 31 (by decide)]
    have : (r.smt != 0) = true := by simpa using h
    rw [this]; rfl

theorem entryAddr_eq {pda v : Word} (h : pda.toNat + v.toNat % 1024 * 4 < 2 ^ 32) :
    ∃ a : Word, entryAddr pf pda v = some a ∧ a.toNat = pda.toNat + v.toNat % 1024 * 4 := by
  have h1 : (v &&& 0x3FF#32).toNat = v.toNat % 1024 := by
    rw [BitVec.toNat_and]; exact Nat.and_two_pow_sub_one_eq_mod v.toNat 10
  have h2 : ((v &&& 0x3FF#32) * 4).toNat = v.toNat % 1024 * 4 := by
    rw [BitVec.toNat_mul, h1]; show v.toNat % 1024 * 4 % 2 ^ 32 = _; omega
  refine ⟨pda + (v &&& 0x3FF#32) * 4, ?_, ?_⟩
  · unfold entryAddr Profile.mul Profile.add
    cases pf with
    | release => rfl
    | debug =>
      rw [if_pos (by rw [h1]; show v.toNat % 1024 * 4 < 2 ^ 32; omega)]
      simp only [Option.bind_eq_bind, Option.bind_some]
      rw [if_pos (by rw [h2]; exact h)]
  · rw [BitVec.toNat_add, h2]; omega

/-- What the code does instead of the documented walk (partial **C27**; the missing part, refuted below, is
that addresses are translated). With the MMU on, an access to aligned address `v` reads one entry, at
`pda + 4 * (v mod 1024)`. If the entry's bit for the current mode is 0 the access goes to physical address `v`;
otherwise it is refused; an exception of the component holding the table becomes 0xA0. -/
theorem C27_identity_or_refused_partial {s : Machine D} {devs devs1 : List D} {v a e : Word} {ex : U16}
    (hm : s.regs.mtt ≠ 0) (hv : v.toNat % 4 = 0)
    (ha : a.toNat = s.regs.pda.toNat + v.toNat % 1024 * 4) (he : BusRead pf s devs a e ex devs1) :
    (ex ≠ 0 → LoadFaults pf s devs v 0xA0 ex.toNat devs1 ∧ ∀ w, StoreFaults pf s devs v w 0xA0 ex.toNat devs1) ∧
    (ex = 0 → passesThrough (supervisor s.regs) e = true →
      (∀ w devs', Loads pf s devs v w devs' ↔ BusRead pf s devs1 v w 0 devs') ∧
      (∀ w devs', Stores pf s devs v w devs' ↔ BusWrite pf s devs1 v w 0 devs')) ∧
    (ex = 0 → passesThrough (supervisor s.regs) e = false →
      LoadFaults pf s devs v 0x06 (v.toNat % 2 ^ 16) devs1 ∧
      ∀ w, StoreFaults pf s devs v w 0x06 (v.toNat % 2 ^ 16) devs1) := by
  have hvv : ¬ v % 4 ≠ 0 := by simpa using mod4_nat.mpr hv
  obtain ⟨a', h1, h2⟩ := entryAddr_eq (pf := pf) (pda := s.regs.pda) (v := v) (by rw [← ha]; exact a.isLt)
  have haa : a' = a := BitVec.toNat_eq.mpr (by rw [h2, ha])
  subst haa
  rw [busRead_iff] at he
  have hd16 : (v.setWidth 16 : U16).toNat = v.toNat % 2 ^ 16 := BitVec.toNat_setWidth ..
  have ht : transl pf s.regs s.mappings devs v = (if ex ≠ 0 then some (.error (some ex), devs1)
      else if passBit s.regs.smt e then some (.ok v, devs1) else some (.error none, devs1)) := by
    unfold transl
    rw [if_neg hm, h1]
    simp only [Option.bind_eq_bind, Option.bind_some, he]
  rw [passBit_eq] at ht
  refine ⟨fun hex => ?_, fun hex hp => ?_, fun hex hp => ?_⟩
  · rw [if_pos hex] at ht
    constructor
    · apply loadFaults_of (c := 0xA0) (d := ex)
      unfold accRead accDo; rw [if_neg hvv, ht]
    · intro w; apply storeFaults_of (c := 0xA0) (d := ex)
      unfold accWrite accDo; rw [if_neg hvv, ht]
  · rw [if_neg (by simpa using hex), hp] at ht
    constructor
    · intro w devs'
      rw [loads_iff, busRead_iff]
      unfold accRead accDo
      rw [if_neg hvv, ht]
      simp only [if_true]
      constructor
      · intro h
        split at h
        · cases h
        · next hd =>
          split at h
          · cases h
          · next hex => cases h; rw [hd, Decidable.not_not.mp hex]
      · intro h; rw [h]; rfl
    · intro w devs'
      rw [stores_iff, busWrite_iff]
      unfold accWrite accDo
      rw [if_neg hvv, ht]
      simp only [if_true]
      constructor
      · intro h
        split at h
        · cases h
        · next hd =>
          split at h
          · cases h
          · next hex =>
            cases h
            rw [Option.map_eq_some_iff] at hd
            obtain ⟨⟨e1, d1⟩, hd, h⟩ := hd
            injection h with _ h; injection h with h1 h2
            dsimp only at h1 h2
            rw [hd, h1, h2, Decidable.not_not.mp hex]
      · intro h; rw [h]; rfl
  · rw [if_neg (by simpa using hex), hp] at ht
    constructor
    · apply loadFaults_of (c := 0x06) (hd := hd16)
      unfold accRead accDo; rw [if_neg hvv, ht]; rfl
    · intro w; apply storeFaults_of (c := 0x06) (hd := hd16)
      unfold accWrite accDo; rw [if_neg hvv, ht]; rfl

/-- A machine with the MMU on, its tables at `0x100` (first level) and `0x4000` (page 1), and data at `0` and
`0x2000`. -/
def Demo.paged (e0 e1 : Word) : Machine Ram where
  regs := { startup with mtt := 1, pda := 0x100 }
  devs := [⟨[0x1111, 0, 0, 0], 4, 0⟩, ⟨[e0, 0, 0, 0, e1], 8, 1⟩, ⟨[0x3F000008, 0, 0, 0], 4, 2⟩,
    ⟨[0x2222, 0, 0, 0], 4, 3⟩]
  hwbCache := []
  memCache := []
  mappings := [⟨0, 0, 0, 16⟩, ⟨1, 1, 0x100, 20⟩, ⟨2, 2, 0x4000, 16⟩, ⟨3, 3, 0x2000, 16⟩]
  cycles := 0
  halted := false
  changedPc := false

/-- The content of physical memory of a machine with RAM components. -/
def Demo.physical (s : Machine Ram) (a : Nat) : Word :=
  match memRead .debug s (BitVec.ofNat 32 a) 0 with
  | some (w, _, _) => w
  | none => 0

/-- The full claim is false of the code: the documented walk sends virtual address 0 to physical address
`0x2000`, which holds `0x2222`; the processor reads `0x1111`, the word at physical address 0. -/
theorem C27_translation_refuted :
    docTranslate (Demo.physical (Demo.paged 0x3F000001 0)) 0x100 true .read 0 = some 0x2000 ∧
    Demo.physical (Demo.paged 0x3F000001 0) 0x2000 = 0x2222 ∧
    Loads .debug (Demo.paged 0x3F000001 0) (Demo.paged 0x3F000001 0).devs 0 0x1111
      (Demo.paged 0x3F000001 0).devs := ⟨by decide +kernel, by decide +kernel, rfl⟩

/-- The documented pass-through bit is inverted: with it set for every mode and all permissions given, the
access is refused. -/
theorem C27_pass_through_refuted :
    docTranslate (Demo.physical (Demo.paged 0xFF000000 0)) 0x100 true .read 0 = some 0 ∧
    LoadFaults .debug (Demo.paged 0xFF000000 0) (Demo.paged 0xFF000000 0).devs 0 0x06 0
      (Demo.paged 0xFF000000 0).devs := ⟨by decide +kernel, ⟨_, rfl, by decide +kernel, rfl⟩⟩

example : BusRead .debug (Demo.paged 0x3F000001 0) (Demo.paged 0x3F000001 0).devs 0x100 0x3F000001 0
    (Demo.paged 0x3F000001 0).devs ∧ passesThrough true 0x3F000001 = true ∧
    passesThrough true 0x80000000 = false := ⟨rfl, by decide, by decide⟩

/-- Partial **C28**: a read refused by the MMU raises 0x06 with the address's low 16 bits, contacting nothing
but the component that holds the table. Missing (false of the code): 0x07 for writes and 0x08 for instruction
fetches. -/
theorem C28_read_refused_partial {s : Machine D} {devs devs1 : List D} {v a e : Word}
    (hm : s.regs.mtt ≠ 0) (hv : v.toNat % 4 = 0)
    (ha : a.toNat = s.regs.pda.toNat + v.toNat % 1024 * 4) (he : BusRead pf s devs a e 0 devs1)
    (hp : passesThrough (supervisor s.regs) e = false) :
    LoadFaults pf s devs v 0x06 (v.toNat % 2 ^ 16) devs1 :=
  ((C27_identity_or_refused_partial hm hv ha he).2.2 rfl hp).1

/-- The full claim is false of the code: a refused write raises 0x06, not 0x07. -/
theorem C28_write_kind_refuted :
    StoreFaults .debug (Demo.paged 0 0x80000000) (Demo.paged 0 0x80000000).devs 4 1 0x06 4
      (Demo.paged 0 0x80000000).devs ∧
    ¬ StoreFaults .debug (Demo.paged 0 0x80000000) (Demo.paged 0 0x80000000).devs 4 1 0x07 4
      (Demo.paged 0 0x80000000).devs := by
  refine ⟨⟨_, rfl, by decide +kernel, rfl⟩, ?_⟩
  rintro ⟨t, h, hr, _⟩
  injection h with h
  subst h
  exact absurd hr (by decide +kernel)

/-- The full claim is false of the code: a refused instruction fetch raises 0x06, not 0x08. -/
theorem C28_exec_kind_refuted :
    Steps .debug (Demo.paged 0x80000000 0) (trap (Demo.paged 0x80000000 0).regs 0x06 0)
      (Demo.paged 0x80000000 0).devs ∧
    trap (Demo.paged 0x80000000 0).regs 0x06 0 ≠ trap (Demo.paged 0x80000000 0).regs 0x08 0 :=
  ⟨⟨_, rfl, by decide +kernel, rfl, rfl, rfl, rfl, rfl, rfl⟩, by decide +kernel⟩

/-- **C04**, MMU on or off: the instruction executed is the word the processor reads at `pc`, with the execute
access (which the code treats as a read). -/
theorem C04_fetch_is_load {s : Machine D} {w : Word} {devs : List D} :
    Fetches pf s w devs ↔ s.halted = false ∧ Loads pf s s.devs s.regs.pc w devs := by
  rw [fetches_iff, loads_iff]

/-- **C04**, refused fetch: the exception is the step's only effect. -/
theorem C04_fetch_fault {s : Machine D} {c d : Nat} {devs : List D} (hh : s.halted = false)
    (h : LoadFaults pf s s.devs s.regs.pc c d devs) : Steps pf s (trap s.regs c d) devs := by
  obtain ⟨t, h, hr, rfl⟩ := h
  rw [cpuRead_eq] at h
  obtain ⟨c', d', devs2, hx, rfl⟩ := toOut_ex h
  rw [exception_regs] at hr
  refine ⟨({ s with cycles := s.cycles + 1, devs := devs2 }.exception c' d'), ?_, ?_, rfl, rfl, rfl, rfl,
    rfl, rfl⟩
  · unfold next
    rw [if_neg (by simp [hh])]
    dsimp only
    rw [cpuExec_eq]
    show (match (accRead pf s.regs s.mappings s.devs s.regs.pc).toOut _ with
      | .panic => none | .ex s => some s | .ok w s => execWord pf w s) = _
    rw [show accRead pf s.regs s.mappings s.devs s.regs.pc = _ from hx]; rfl
  · rw [exception_regs]; exact hr

/-- Non-vacuity: an unaligned `pc`. -/
example : LoadFaults .debug { Demo.start [] with regs := { startup with pc := 0x42 } }
    (Demo.devices []) 0x42 0x05 2 (Demo.devices []) := (C25_unaligned (w := 0) (by decide)).1

end Lrvm
