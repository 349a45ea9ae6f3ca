import Verif.Props.Tools.Run
import Verif.Props.Tools.Prepare
import Verif.Props.Memory

/-!
# A machine without a program: C112

`docs/Tutorial.md` (around line 425): a machine whose boot ROM is still empty runs forever, and displays nothing, because the
first word is not an instruction and the exception vector is 0 as well.
-/

namespace Lrvm

open Spec

variable {D : Type} [Bus D] {pf : Profile}

/-- The machine `t` is `s` after `n` cycles that were all lost in exceptions with the given code and data: only the exception
register, the program counter (at the vector) and the number of cycles tell them apart. -/
def Spec.LostFor (n : Nat) (s t : Machine D) (et : Word) : Prop :=
  t.regs = (if n = 0 then s.regs else { s.regs with et := et, pc := s.regs.ev, smt := 1 }) ∧ t.devs = s.devs ∧
    t.mappings = s.mappings ∧ t.hwbCache = s.hwbCache ∧ t.memCache = s.memCache ∧ t.halted = false ∧
    t.cycles = s.cycles + BitVec.ofNat 128 n

theorem lost_loop {s : Machine D} {c d : Nat} (hh : s.halted = false)
    (hstep : ∀ t : Machine D, (t.regs = s.regs ∨ ∃ et, t.regs = { s.regs with et := et, pc := s.regs.ev, smt := 1 }) →
      t.devs = s.devs → t.mappings = s.mappings → t.halted = false → Steps pf t (trap t.regs c d) t.devs) (het : Word)
    (hq : ∀ t : Machine D, (t.regs = s.regs ∨ ∃ et, t.regs = { s.regs with et := et, pc := s.regs.ev, smt := 1 }) →
      trap t.regs c d = { s.regs with et := het, pc := s.regs.ev, smt := 1 }) (n : Nat) :
    ∃ t, nextN pf n s = some t ∧ LostFor n s t het := by
  have go : ∀ (n k : Nat) (t : Machine D), LostFor k s t het → ∃ u, nextN pf n t = some u ∧ LostFor (k + n) s u het := by
    intro n
    induction n with
    | zero => intro k t ht; exact ⟨t, rfl, ht⟩
    | succ n ih =>
      intro k t ⟨h1, h2, h3, h4, h5, h6, h7⟩
      have hr : t.regs = s.regs ∨ ∃ et, t.regs = { s.regs with et := et, pc := s.regs.ev, smt := 1 } := by
        split at h1
        · exact .inl h1
        · exact .inr ⟨_, h1⟩
      obtain ⟨u, g0, g1, g2, g3, g4, g5, g6, g7⟩ := hstep t hr h2 h3 h6
      have : LostFor (k + 1) s u het := by
        refine ⟨?_, g2.trans h2, g5.trans h3, g6.trans h4, g7.trans h5, g4.trans h6, ?_⟩
        · rw [g1, hq t hr, if_neg (by omega)]
        · rw [g3, h7, BitVec.ofNat_add, BitVec.add_assoc]; rfl
      obtain ⟨v, k1, k2⟩ := ih (k + 1) u this
      refine ⟨v, ?_, by rw [Nat.add_assoc, Nat.add_comm 1 n] at k2; exact k2⟩
      show (next pf t).bind _ = _
      rw [g0]; exact k1
  have := go n 0 s ⟨rfl, rfl, rfl, rfl, rfl, hh, by simp⟩
  simpa using this

theorem trap_supervisor {r : Regs} (h : r.smt = 1) {c d : Nat} :
    trap r c d = { r with et := BitVec.ofNat 32 (16777216 + c * 65536 + d), pc := r.ev, smt := 1 } := by
  unfold trap
  rw [if_pos (by unfold supervisor; rw [h]; rfl)]

theorem nextN_succ_last (n : Nat) (s : Machine D) : nextN pf (n + 1) s = (nextN pf n s).bind (next pf) := by
  induction n generalizing s with
  | zero => show (next pf s).bind _ = next pf s; cases next pf s <;> rfl
  | succ n ih =>
    show (next pf s).bind _ = ((next pf s).bind _).bind _
    cases next pf s with
    | none => rfl
    | some t => exact ih t

/-- **C112**, the vector. A processor in supervisor mode, at the exception vector, where the word is not an instruction (its
opcode is 0): every cycle raises the same exception and comes back there, and nothing else changes, forever. -/
theorem C112_bad_vector {s : Machine D} {w : Word} (hf : Fetches pf s w s.devs) (hw : w.toNat < 2 ^ 27) (hs : s.regs.smt = 1)
    (hv : s.regs.pc = s.regs.ev) (n : Nat) : ∃ t, nextN pf n s = some t ∧ LostFor n s t 0x01010000 := by
  refine lost_loop (c := 1) (d := 0) hf.1 ?_ _ ?_ n
  · intro t hr hd hm hh
    have hft : Fetches pf t w t.devs := by
      rw [fetches_iff] at hf ⊢
      refine ⟨hh, ?_⟩
      have : t.regs.mtt = s.regs.mtt ∧ t.regs.pda = s.regs.pda ∧ t.regs.smt = s.regs.smt ∧ t.regs.pc = s.regs.pc := by
        rcases hr with hr | ⟨et, hr⟩
        · rw [hr]; exact ⟨rfl, rfl, rfl, rfl⟩
        · rw [hr]; exact ⟨rfl, rfl, hs.symm, hv.symm⟩
      rw [accRead_congr this.1 this.2.1 this.2.2.1, this.2.2.2, hm, hd]
      exact hf.2
    obtain ⟨op, r0, r1, r2, p0, p1, p2, rfl, hn⟩ := C04_instruction_format w
    have : op = 0 := by
      apply BitVec.eq_of_toNat_eq
      show op.toNat = 0
      omega
    subst this
    exact steps_ex (c := 1) (d := 0) (r := t.regs) (cp := false) hft rfl
  · have e : (BitVec.ofNat 32 (16777216 + 1 * 65536 + 0) : Word) = 0x01010000 := by decide
    rintro t (hr | ⟨et, hr⟩)
    · rw [trap_supervisor (by rw [hr]; exact hs), hr, e]
    · rw [trap_supervisor (by rw [hr]), hr, e]

/-- **C112**, the vector. The same when the vector is not the address of a word: the exception is then another one. -/
theorem C112_unaligned_vector {s : Machine D} (hh : s.halted = false) (ha : s.regs.ev.toNat % 4 ≠ 0) (hs : s.regs.smt = 1)
    (hv : s.regs.pc = s.regs.ev) (n : Nat) :
    ∃ t, nextN pf n s = some t ∧ LostFor n s t (BitVec.ofNat 32 (0x01050000 + s.regs.ev.toNat % 4)) := by
  have hpc : ∀ t : Machine D, (t.regs = s.regs ∨ ∃ et, t.regs = { s.regs with et := et, pc := s.regs.ev, smt := 1 }) →
      t.regs.pc = s.regs.ev ∧ t.regs.smt = 1 := by
    rintro t (hr | ⟨et, hr⟩)
    · rw [hr]; exact ⟨hv, hs⟩
    · rw [hr]; exact ⟨rfl, rfl⟩
  refine lost_loop (c := 5) (d := s.regs.ev.toNat % 4) hh ?_ _ ?_ n
  · intro t hr _ _ hh
    have := C25_unaligned_fetch (pf := pf) hh (by rw [(hpc t hr).1]; exact ha)
    rw [(hpc t hr).1] at this
    exact this
  · intro t hr
    rcases hr with hr | ⟨et, hr⟩
    · rw [trap_supervisor (by rw [hr]; exact hs), hr]
    · rw [trap_supervisor (by rw [hr]), hr]

/-- Reading address 0 of a prepared machine is reading address 0 of its first component, and gives 0 without components. -/
theorem prepared_first {ds : List D} {s : Machine D} (h : prepareVm pf ds = some s)
    (h0 : ∀ c d, ds[0]? = some c → Bus.reset c = some d → ∃ w : Word, w.toNat < 2 ^ 27 ∧ Bus.read d 0 0 = some (d, w, 0)) :
    ∃ w : Word, w.toNat < 2 ^ 27 ∧ Fetches pf s w s.devs := by
  obtain ⟨hr, hh, _, _, hd, hids, ht, _, haddr, _⟩ := C62_ready h
  have hpc : s.regs.pc = 0 := by rw [hr]; rfl
  have hm : s.regs.mtt = 0 := by rw [hr]; rfl
  cases ds with
  | nil =>
    refine ⟨0, by decide, (C04_fetch_is_word_at_pc hm).2 ⟨hh, by rw [hpc]; rfl, ?_⟩⟩
    have : s.mappings = [] := by simpa using hids
    rw [hpc, (C37_unmapped (w := 0) ht (by rw [this]; simp) rfl).1]
  | cons c ds =>
    cases hl : s.mappings with
    | nil => rw [hl, List.length_cons, List.range_succ_eq_map] at hids; cases hids
    | cons m ms =>
      have hm0 : m ∈ s.mappings := by rw [hl]; exact List.mem_cons_self
      have hid : m.auxId = 0 := by
        rw [hl, List.length_cons, List.range_succ_eq_map] at hids
        exact (List.cons.inj hids).1
      have ha : m.addr = 0 := by
        have := haddr 0 m (by rw [hl]; rfl)
        exact BitVec.eq_of_toNat_eq this
      unfold resetAll at hd
      simp only [Option.bind_eq_bind, Option.bind_eq_some_iff] at hd
      obtain ⟨d, hc, ds', _, hd⟩ := hd
      injection hd with hd
      obtain ⟨w, hw, hrd⟩ := h0 c d rfl hc
      refine ⟨w, hw, (C04_fetch_is_word_at_pc hm).2 ⟨hh, by rw [hpc]; rfl, ?_⟩⟩
      have hdev : s.devs[m.auxId]? = some d := by rw [hid, ← hd]; rfl
      rw [hpc, (C37_read (ex := 0) ht hm0 ⟨by rw [ha]; exact Nat.le_refl _, by rw [ha]; simpa using (ht.ranges m hm0).nonempty⟩
        rfl hdev).2, ha]
      show (Bus.read d 0 0).map _ = _
      rw [hrd]
      simp only [Option.map_some, hid, ← hd, List.set_cons_zero]

/-- **C112.** A machine made by `prepare_vm` from components the first of which has nothing to execute (its first word has
opcode 0, like 0), or from no component at all: whatever the number of cycles, the processor is still at address 0, running,
and no component nor any register other than the exception register has changed. -/
theorem C112_no_program {ds : List D} {s : Machine D} (h : prepareVm pf ds = some s)
    (h0 : ∀ c d, ds[0]? = some c → Bus.reset c = some d → ∃ w : Word, w.toNat < 2 ^ 27 ∧ Bus.read d 0 0 = some (d, w, 0))
    (n : Nat) : ∃ t, nextN pf n s = some t ∧ t.regs = { startup with et := if n = 0 then 0 else 0x01010000 } ∧ t.devs = s.devs ∧
      t.mappings = s.mappings ∧ t.halted = false ∧ t.cycles = BitVec.ofNat 128 n := by
  obtain ⟨w, hw, hf⟩ := prepared_first h h0
  obtain ⟨hr, hh, hc, _⟩ := C62_ready h
  obtain ⟨t, h1, h2, h3, h4, _, _, h5, h6⟩ := C112_bad_vector hf hw (by rw [hr]; rfl) (by rw [hr]; rfl) n
  refine ⟨t, h1, ?_, h3, h4, h5, by rw [h6, hc]; simp⟩
  rw [h2, hr]
  split <;> rfl

theorem not_unprintable_lost : ¬ Unprintable 0x01010000 := by
  unfold Unprintable; decide

/-- **C112**, the tutorial's words: without a limit, and without stopping on exceptions, the runner never returns. -/
theorem C112_runs_forever {ds : List D} {cfg : RunConfig}
    (h0 : ∀ c d, ds[0]? = some c → Bus.reset c = some d → ∃ w : Word, w.toNat < 2 ^ 27 ∧ Bus.read d 0 0 = some (d, w, 0))
    (hok : prepareVm pf ds ≠ none) (hl : cfg.cyclesLimit = none) (hx : cfg.haltOnException = false) (r) :
    ¬ ExecVm pf ds cfg r := by
  unfold ExecVm
  cases h : prepareVm pf ds with
  | none => exact absurd h hok
  | some s =>
    intro hr
    dsimp only at hr
    cases r with
    | none =>
      obtain ⟨n, t, h1, h2⟩ := C61_panics hr
      obtain ⟨u, g1, g2, _⟩ := C112_no_program h h0 n
      rw [g1] at h1; injection h1 with h1; subst h1
      rcases h2 with h2 | ⟨_, hn, h2⟩
      · obtain ⟨v, k1, _⟩ := C112_no_program h h0 (n + 1)
        rw [nextN_succ_last, g1] at k1
        rw [show (some u).bind (next pf) = next pf u from rfl, h2] at k1
        cases k1
      · rw [g2, if_neg (by omega)] at h2
        exact not_unprintable_lost h2
    | some r =>
      obtain ⟨n, ⟨h1, h2, _⟩, _⟩ := C61_returns hr
      obtain ⟨u, g1, _, _, _, g5, _⟩ := C112_no_program h h0 n
      rw [g1] at h1; injection h1 with h1; subst h1
      rcases h2 with (h2 | ⟨l, h2, _⟩) | ⟨_, h2, _⟩
      · rw [g5] at h2; cases h2
      · rw [hl] at h2; cases h2
      · rw [hx] at h2; cases h2

/-- **C112**, with a limit: the runner gives up after one cycle more than the limit, having run the word at address 0 only. -/
theorem C112_limit {ds : List D} {cfg : RunConfig} {s : Machine D} {l : U128} (h : prepareVm pf ds = some s)
    (h0 : ∀ c d, ds[0]? = some c → Bus.reset c = some d → ∃ w : Word, w.toNat < 2 ^ 27 ∧ Bus.read d 0 0 = some (d, w, 0))
    (hl : cfg.cyclesLimit = some l) (hlt : l.toNat + 1 < 2 ^ 128) (hx : cfg.haltOnException = false) :
    ∃ s' st out, ExecVm pf ds cfg (some (s', st, out)) ∧ st.cycles.toNat = l.toNat + 1 ∧ st.addr = 0 ∧ st.ex = none ∧
      s'.devs = s.devs := by
  have hcyc : ∀ k, k ≤ l.toNat + 1 → (BitVec.ofNat 128 k).toNat = k := fun k hk => by
    rw [BitVec.toNat_ofNat]; exact Nat.mod_eq_of_lt (by omega)
  have hover : ∀ k t, k ≤ l.toNat + 1 → nextN pf k s = some t → (Over cfg t ↔ k = l.toNat + 1) := by
    intro k t hk hn
    obtain ⟨u, g1, _, _, _, g5, g6⟩ := C112_no_program h h0 k
    rw [g1] at hn; injection hn with hn; subst hn
    constructor
    · rintro (h2 | ⟨l', h2, h3⟩)
      · rw [g5] at h2; cases h2
      · rw [hl] at h2; injection h2 with h2; subst h2
        rw [g6, hcyc k hk] at h3; omega
    · rintro rfl
      exact .inr ⟨l, hl, by rw [g6, hcyc _ (Nat.le_refl _)]; omega⟩
  obtain ⟨t, g1, g2, g3, _, _, g6⟩ := C112_no_program h h0 (l.toNat + 1)
  have hst : StopsAfter pf cfg s (l.toNat + 1) t := by
    refine ⟨g1, .inl ((hover _ t (Nat.le_refl _) g1).2 rfl), fun k u hk hu => ⟨fun ho => ?_, fun _ hs => ?_⟩⟩
    · have := (hover k u (by omega) hu).1 ho; omega
    · rw [hs.1] at hx; cases hx
  obtain ⟨st, out, h1, h2, h3, _, h4⟩ := C61_stops hst (fun k u hk _ hu => .inr (by
    obtain ⟨v, k1, k2, _⟩ := C112_no_program h h0 k
    rw [k1] at hu; injection hu with hu; subst hu
    rw [k2, if_neg (by omega)]; exact not_unprintable_lost))
  refine ⟨t, st, out, ?_, by rw [h2, g6, hcyc _ (Nat.le_refl _)], ?_, h4 (fun h => by rw [h.2.1] at hx; cases hx), g3⟩
  · unfold ExecVm; rw [h]; exact h1
  · obtain ⟨u, k1, k2⟩ := h3
    obtain ⟨v, m1, m2, _⟩ := C112_no_program h h0 l.toNat
    rw [m1] at k1; injection k1 with k1; subst k1
    rw [k2, m2]; rfl

/-- The tutorial's machine at that point: an empty boot ROM of 64 bytes, then a memory. Whatever the number of cycles, nothing
happens. -/
example (n : Nat) : ∃ s t, prepareVm .debug (Demo.devices []) = some s ∧ nextN .debug n s = some t ∧ t.devs = s.devs ∧
    t.halted = false ∧ t.regs.pc = 0 := by
  obtain ⟨t, h1, h2, h3, _, h5, _⟩ := C112_no_program (pf := .debug) (ds := Demo.devices []) (s := Demo.start []) rfl
    (fun c d hc hd => by cases hc; cases hd; exact ⟨0, by decide, rfl⟩) n
  exact ⟨_, t, rfl, h1, h3, h5, by rw [h2]; rfl⟩

/-- It is never finished with. -/
example (r) : ¬ ExecVm .debug (Demo.devices []) RunConfig.default r :=
  C112_runs_forever (fun c d hc hd => by cases hc; cases hd; exact ⟨0, by decide, rfl⟩)
    (by rw [show prepareVm .debug (Demo.devices []) = some (Demo.start []) from rfl]; simp) rfl rfl r

/-- Nor is a machine without components. -/
example (r) : ¬ ExecVm .debug ([] : List Demo.Dev) RunConfig.default r :=
  C112_runs_forever (fun c d hc hd => by cases hc)
    (by rw [show prepareVm .debug ([] : List Demo.Dev) = some _ from rfl]; simp) rfl rfl r

/-- Nor is one that starts with a memory, whatever the words put in it before the start: the start erases them. -/
example (ws : List Word) (hw : U64) (m : Ram) (hm : Ram.fromWithSize ws 0x40 hw = some m) (n : Nat) (s : Machine Ram)
    (hs : prepareVm .debug [m] = some s) : ∃ t, nextN .debug n s = some t ∧ t.halted = false := by
  obtain ⟨t, h1, _, _, _, h5, _⟩ := C112_no_program hs (fun c d hc hd => by
    injection hc with hc; subst hc; injection hd with hd; subst hd
    refine ⟨0, by decide, ?_⟩
    have hlen : m.storage.length = 16 := by
      unfold Ram.fromWithSize at hm
      split at hm
      · cases hm
      · split at hm
        · cases hm
        · rw [if_neg (by decide), if_neg (by decide)] at hm
          injection hm with hm; subst hm
          rw [List.length_append, List.length_take, List.length_replicate]
          show min 16 ws.length + (16 - ws.length) = 16
          omega
    rw [hlen]; rfl) n
  exact ⟨t, h1, h5⟩

/-- With a limit of 9 cycles, it is given up after 10. -/
example : ∃ s' st out, ExecVm .debug (Demo.devices []) (RunConfig.default.withCyclesLimit (some 9)) (some (s', st, out)) ∧
    st.cycles.toNat = 10 := by
  obtain ⟨s', st, out, h1, h2, _⟩ := C112_limit (pf := .debug) (ds := Demo.devices []) (s := Demo.start [])
    (cfg := RunConfig.default.withCyclesLimit (some 9)) (l := 9) rfl
    (fun c d hc hd => by cases hc; cases hd; exact ⟨0, by decide, rfl⟩) rfl (by decide) rfl
  exact ⟨s', st, out, h1, h2⟩

/-- Vectors that lead nowhere. -/
example : (Fetches .debug (Demo.start [5]) 5 (Demo.devices [5]) ∧ (5 : Word).toNat < 2 ^ 27) ∧
    (Demo.start [5]).regs.smt = 1 ∧ (Demo.start [5]).regs.pc = (Demo.start [5]).regs.ev := ⟨⟨⟨rfl, rfl⟩, by decide⟩, rfl, rfl⟩

example (n : Nat) : ∃ t, nextN .debug n { Demo.start [] with regs := { startup with ev := 2, pc := 2 } } = some t ∧
    t.regs.pc = 2 := by
  obtain ⟨t, h1, h2, _⟩ := C112_unaligned_vector (pf := .debug)
    (s := { Demo.start [] with regs := { startup with ev := 2, pc := 2 } }) rfl (by decide) rfl rfl n
  refine ⟨t, h1, ?_⟩
  rw [h2]
  split <;> rfl

end Lrvm
