import Verif.Lemmas.Reset
import Verif.Lemmas.Mapping
import Verif.Demo.Machines
import Verif.Spec.Resets

/-!
# Steps, cycles, resets and exceptions: C01, C02, C03, C04, C05, C06, C07, C08, C09, C38
-/

namespace Lrvm

open Spec

variable {D : Type} [Bus D] {pf : Profile}

/-! ## C01 -/

/-- **C01.** A halted CPU does nothing: any number of calls of `next` leaves the whole machine, components
included, as it is. -/
theorem C01_halted_does_nothing (s : Machine D) (h : s.halted = true) (n : Nat) :
    nextN pf n s = some s := by
  induction n with
  | zero => rfl
  | succ n ih =>
    have : next pf s = some s := by unfold next; rw [if_pos h]
    unfold nextN
    rw [this]
    exact ih

/-- Only a reset makes a halted CPU run again: mapping calls, memory accesses of the host and register
changes do not. -/
theorem C01_halted_until_reset (s s' : Machine D) (h : s.halted = true) (op : HostOp)
    (h1 : op ≠ .cpuReset) (h2 : op ≠ .reset) (hs : hostStep pf s op = some s') : s'.halted = true := by
  cases op with
  | next =>
    have : next pf s = some s := by unfold next; rw [if_pos h]
    change next pf s = some s' at hs
    rw [this] at hs; injection hs with hs; rw [← hs]; exact h
  | cpuReset => exact absurd rfl h1
  | reset => exact absurd rfl h2
  | map a i =>
    simp only [hostStep, Option.map_eq_some_iff] at hs
    obtain ⟨⟨r, t⟩, hm, rfl⟩ := hs
    rw [internalMap_frame hm]; exact h
  | mapAbs a e i =>
    simp only [hostStep, Option.map_eq_some_iff] at hs
    obtain ⟨⟨r, t⟩, hm, rfl⟩ := hs
    rw [internalMap_frame hm]; exact h
  | mapContiguous a is =>
    simp only [hostStep, Option.map_eq_some_iff] at hs
    obtain ⟨⟨r, t⟩, hm, rfl⟩ := hs
    rw [mapContiguous_frame hm]; exact h
  | memRead a ex =>
    simp only [hostStep, Option.map_eq_some_iff] at hs
    obtain ⟨⟨w, e, t⟩, hm, rfl⟩ := hs
    rw [memRead_frame hm]; exact h
  | memWrite a w ex =>
    simp only [hostStep, Option.map_eq_some_iff] at hs
    obtain ⟨⟨e, t⟩, hm, rfl⟩ := hs
    rw [memWrite_frame hm]; exact h
  | setRegs f => simp only [hostStep] at hs; injection hs with hs; rw [← hs]; exact h

/-- A halted machine: one instruction HALT was executed. -/
example : ∃ s, next .debug (Demo.start [instrWord 0x1E false false false 0 0 0]) = some s ∧
    s.halted = true := ⟨_, rfl, rfl⟩

/-! ## C38 -/

/-- **C38.** No step changes the number of components, the mapping table or the cached names, identifiers
and metadata. -/
theorem C38_step_keeps_hardware {s s' : Machine D} (h : next pf s = some s') :
    s'.devs.length = s.devs.length ∧ s'.mappings = s.mappings ∧ s'.hwbCache = s.hwbCache ∧
      s'.memCache = s.memCache := by
  cases hh : s.halted with
  | true => unfold next at h; rw [if_pos hh] at h; injection h with h; subst h; exact ⟨rfl, rfl, rfl, rfl⟩
  | false =>
    rcases next_inv h hh with ⟨devs, c, d, _, _, hl, rfl⟩ | ⟨w, devs, _, hl, hr⟩
    · exact ⟨hl, rfl, rfl, rfl⟩
    · rcases hr with ⟨t, c, d, _, he, _, rfl⟩ | ⟨t, _, he, rfl⟩
      · exact ⟨he.hw.1.trans hl, he.hw.2⟩
      · split
        · exact ⟨he.hw.1.trans hl, he.hw.2⟩
        · exact ⟨he.hw.1.trans hl, he.hw.2⟩

/-- **C38**, for any number of steps. -/
theorem C38_program_keeps_hardware {n : Nat} {s s' : Machine D} (h : nextN pf n s = some s') :
    s'.devs.length = s.devs.length ∧ s'.mappings = s.mappings ∧ s'.hwbCache = s.hwbCache ∧
      s'.memCache = s.memCache := by
  induction n generalizing s with
  | zero => injection h with h; subst h; exact ⟨rfl, rfl, rfl, rfl⟩
  | succ n ih =>
    unfold nextN at h
    simp only [Option.bind_eq_bind, Option.bind_eq_some_iff] at h
    obtain ⟨t, ht, h⟩ := h
    have h1 := C38_step_keeps_hardware ht
    have h2 := ih h
    exact ⟨h2.1.trans h1.1, h2.2.1.trans h1.2.1, h2.2.2.1.trans h1.2.2.1, h2.2.2.2.trans h1.2.2.2⟩

/-- Three steps of a program that pushes, swaps and resets components. -/
example : ∃ s, nextN .debug 3 (Demo.start
    [instrWord 0x01 false false false 0x18 0x00 0x80, instrWord 0x19 false false false 0x12 0x34 0,
     instrWord 0x1F false false false 0x10 0 0]) = some s ∧ s.regs.ssp = 0x7C := ⟨_, rfl, rfl⟩

/-! ## C02 -/

/-- **C02.** Each step of a running CPU adds exactly one to the cycle counter (modulo `2 ^ 128`), even when
the fetch or the instruction raises an exception, unless the instruction was RESET with processor mode 0,
after which the counter is 0. -/
theorem C02_cycle_count {s s' : Machine D} (h : next pf s = some s') (hh : s.halted = false) :
    s'.cycles = s.cycles + 1 ∨
    ∃ r0 r1 r2 p0 p1 p2 devs mode, Fetches pf s (instrWord 0x1F r0 r1 r2 p0 p1 p2) devs ∧
      Val1 s.regs r0 p0 mode ∧ mode.toNat / 16 % 16 = 0 ∧ s'.cycles = 0 := by
  rcases next_inv h hh with ⟨devs, c, d, _, _, hl, rfl⟩ | ⟨w, devs, hf, hl, hr⟩
  · exact .inl rfl
  · obtain ⟨op, r0, r1, r2, p0, p1, p2, rfl⟩ := exists_instrWord w
    by_cases hop : op = 0x1F#5
    · subst hop
      have ho : (fieldsOf (instrWord 0x1F#5 r0 r1 r2 p0 p1 p2)).opcode.toNat = 0x1F := by
        rw [fields_opcode]; rfl
      rcases hr with ⟨t, c, d, hrun, _⟩ | ⟨t, hrun, _, rfl⟩
      · rw [runInstr_reset ho] at hrun
        obtain ⟨c, d, rfl⟩ := execReset_ex hrun
        exact .inl rfl
      · rw [runInstr_reset ho] at hrun
        obtain ⟨v, hv, hc⟩ := execReset_ok hrun
        rw [fieldsOf_instrWord] at hv
        rcases hc with ⟨hz, ht⟩ | ⟨_, ht⟩
        · right
          refine ⟨r0, r1, r2, p0, p1, p2, devs, v, hf, hv, ?_, ?_⟩
          · have : ∀ k, 4 ≤ k → k < 8 → v.getLsbD k = false := by
              intro k h4 h8
              have := congrArg (fun x => x.getLsbD k) hz
              simp only [BitVec.getLsbD_and] at this
              have hk : (0xF0#32).getLsbD k = true := by
                have : k = 4 ∨ k = 5 ∨ k = 6 ∨ k = 7 := by omega
                rcases this with rfl | rfl | rfl | rfl <;> rfl
              rw [hk, Bool.and_true] at this
              simpa using this
            have e4 := this 4 (by omega) (by omega); have e5 := this 5 (by omega) (by omega)
            have e6 := this 6 (by omega) (by omega); have e7 := this 7 (by omega) (by omega)
            rw [← BitVec.testBit_toNat] at e4 e5 e6 e7
            simp only [Nat.testBit_eq_decide_div_mod_eq, decide_eq_false_iff_not] at e4 e5 e6 e7
            omega
          · have : t.changedPc = true := by rw [ht]; rfl
            rw [if_pos this, ht]; rfl
        · left
          split
          · rw [ht]; rfl
          · rw [ht]; rfl
    · have ho : (fieldsOf (instrWord op r0 r1 r2 p0 p1 p2)).opcode.toNat ≠ 0x1F := by
        rw [fields_opcode]
        intro hn
        exact hop (BitVec.eq_of_toNat_eq hn)
      left
      rcases hr with ⟨t, c, d, _, he, _, rfl⟩ | ⟨t, _, he, rfl⟩
      · exact (he.cycles ho).1
      · split
        · exact (he.cycles ho).1
        · exact (he.cycles ho).1

theorem resetsCpu_opcode {r : Regs} {w : Word} (h : ResetsCpu r w) : opcode w = 0x1F := by
  obtain ⟨r0, r1, r2, p0, p1, p2, _, rfl, _⟩ := h
  exact opcode_instrWord _ _ _ _ _ _ _

/-- **C02**, over a history: as long as the CPU runs and fetches no RESET with processor mode 0, the counter
grows by the number of calls of `next`. -/
theorem C02_cycle_count_history {n : Nat} {s s' : Machine D} (h : nextN pf n s = some s')
    (hrun : ∀ k < n, ∀ t, nextN pf k s = some t → t.halted = false ∧
      ∀ w devs, Fetches pf t w devs → ¬ ResetsCpu t.regs w) :
    s'.cycles = s.cycles + BitVec.ofNat 128 n := by
  induction n generalizing s with
  | zero => injection h with h; subst h; simp
  | succ n ih =>
    unfold nextN at h
    simp only [Option.bind_eq_bind, Option.bind_eq_some_iff] at h
    obtain ⟨t, ht, h⟩ := h
    have h0 := hrun 0 (by omega) s rfl
    have hc : t.cycles = s.cycles + 1 := by
      rcases C02_cycle_count ht h0.1 with h1 | ⟨r0, r1, r2, p0, p1, p2, devs, m, hf, hv, hz, _⟩
      · exact h1
      · exact absurd ⟨r0, r1, r2, p0, p1, p2, m, rfl, hv, hz⟩ (h0.2 _ _ hf)
    have h2 := ih h (fun k hk u hu => hrun (k + 1) (by omega) u (by
      unfold nextN
      rw [ht]
      exact hu))
    rw [h2, hc, BitVec.add_assoc]
    congr 1
    rw [show (1 : U128) = BitVec.ofNat 128 1 from rfl, ← BitVec.ofNat_add, Nat.add_comm]

/-- A step that raises an exception (opcode 0) still counts. -/
example : ∃ s, next .debug (Demo.start [0]) = some s ∧ s.cycles = 1 ∧ s.regs.et = 0x01010000 :=
  ⟨_, rfl, rfl, rfl⟩

/-- Two steps, of which none fetches RESET. -/
example : ∃ s, nextN .debug 2 (Demo.start [instrWord 0x01 false false false 0 0 5,
    instrWord 0x01 false false false 1 0 6]) = some s ∧ s.cycles = 2 := ⟨_, rfl, rfl⟩

/-! ## C05 -/

theorem resetAll_forall {devs devs' : List D} (h : resetAll devs = some devs') :
    devs.map Bus.reset = devs'.map some := by
  induction devs generalizing devs' with
  | nil => injection h with h; subst h; rfl
  | cons d ds ih =>
    simp only [resetAll, Option.bind_eq_bind, Option.bind_eq_some_iff] at h
    obtain ⟨d', hd, ds', hds, h⟩ := h
    injection h with h; subst h
    rw [List.map_cons, List.map_cons, hd, ih hds]

/-- **C05.** After `MotherBoard::reset`, from any state, every register is 0 except `smt`, which is 1, the
cycle counter is 0, the CPU runs, mappings and caches are unchanged, and every component has been reset
exactly once. -/
theorem C05_reset {s s' : Machine D} (h : boardReset s = some s') :
    (∀ n < 32, reg s'.regs n = if n = 0x1F then 1 else 0) ∧ s'.cycles = 0 ∧ s'.halted = false ∧
    s'.mappings = s.mappings ∧ s'.hwbCache = s.hwbCache ∧ s'.memCache = s.memCache ∧
    s.devs.map Bus.reset = s'.devs.map some := by
  simp only [boardReset, Option.bind_eq_bind, Option.bind_eq_some_iff] at h
  obtain ⟨devs, hd, h⟩ := h
  injection h with h; subst h
  refine ⟨?_, rfl, rfl, rfl, rfl, rfl, resetAll_forall hd⟩
  cases32 <;> rfl

/-- **C05.** `MotherBoard::reset` panics only if a component's reset does. -/
theorem C05_reset_total (s : Machine D) (h : ∀ d ∈ s.devs, (Bus.reset d).isSome) :
    (boardReset s).isSome := by
  have : ∀ devs : List D, (∀ d ∈ devs, (Bus.reset d).isSome) → (resetAll devs).isSome := by
    intro devs
    induction devs with
    | nil => intro _; rfl
    | cons d ds ih =>
      intro h
      obtain ⟨d', hd⟩ := Option.isSome_iff_exists.mp (h d (by simp))
      obtain ⟨ds', hds⟩ := Option.isSome_iff_exists.mp (ih (fun x hx => h x (by simp [hx])))
      simp [resetAll, hd, hds]
  obtain ⟨devs, hd⟩ := Option.isSome_iff_exists.mp (this s.devs h)
  have hd' : resetAll s.cpuReset.devs = some devs := hd
  simp [boardReset, hd']

/-- **C05.** A freshly created board has nothing mapped and is halted: it does nothing until a reset. -/
theorem C05_new_board_waits {devs : List D} {s : Machine D} (h : newBoard pf devs = some s) :
    s.halted = true ∧ s.mappings = [] ∧ s.devs = devs ∧ s.cycles = 0 ∧ s.regs = startup ∧
    ∀ n, nextN pf n s = some s := by
  simp only [newBoard, Option.bind_eq_bind, Option.bind_eq_some_iff] at h
  obtain ⟨_, _, mc, _, hc, _, h⟩ := h
  injection h with h
  have hh : s.halted = true := by rw [← h]
  refine ⟨hh, ?_, ?_, ?_, ?_, fun n => C01_halted_does_nothing s hh n⟩ <;> rw [← h] <;> rfl

example : ∃ s, newBoard .debug (Demo.devices [1, 2, 3]) = some s ∧ (boardReset s).isSome := ⟨_, rfl, rfl⟩

/-! ## C06 -/

/-- **C06**, fetch. When the fetch is refused with code `c` and data `d`, the step does nothing but enter
the exception exactly as documented (and count a cycle); only the component holding the MMU tables may
have been read. -/
theorem C06_fetch_exception {s t : Machine D} (hh : s.halted = false)
    (h : cpuExec pf s.regs.pc { s with cycles := s.cycles + 1 } = .ex t) :
    ∃ c d, c ∈ [0x05, 0x06, 0xA0] ∧ d < 65536 ∧ Steps pf s (trap s.regs c d) t.devs := by
  rw [cpuExec_eq] at h
  cases ha : accRead pf s.regs s.mappings s.devs s.regs.pc with
  | done a d => simp only [ha, Acc.toOut] at h; cases h
  | panic => simp only [ha, Acc.toOut] at h; cases h
  | fault c d devs =>
    have hn : next pf s = some t := by
      unfold next
      rw [if_neg (by simp [hh])]
      dsimp only
      rw [cpuExec_eq, h]
    simp only [ha, Acc.toOut] at h
    injection h with h
    refine ⟨c.toNat, d.toNat, ?_, d.isLt, t, hn, ?_, rfl, ?_, ?_, ?_, ?_, ?_⟩
    · have := accDo_fault ha
      simp only [fetchCodes, List.mem_cons, List.not_mem_nil, or_false] at this
      rcases this with rfl | rfl | rfl <;> decide
    · rw [← h, exception_regs]
    all_goals (rw [← h]; rfl)

/-- **C06**, instructions. When an instruction other than EX raises an exception, the registers are those
of the documented exception entry: `et` holds the current mode, the code and the data, `pc` is `ev`, `smt`
is 1, and nothing else changed, except `af` for arithmetic instructions and the stack pointers for POP.
(EX: see `C31`.) -/
theorem C06_instruction_exception {s s' : Machine D} {w : Word} {devs : List D}
    (hf : Fetches pf s w devs) (hne : opcode w ≠ 0x02)
    (h : runInstr pf (fieldsOf w) (atExec s devs) = .ex s') :
    next pf s = some s' ∧
    ∃ c d af ssp usp, c ∈ exceptionCodes ∧ d < 65536 ∧
      s'.regs = trap { s.regs with af := af, ssp := ssp, usp := usp } c d ∧
      (opcode w ∉ [3,4,5,6,7,8,9,10,11,12,13] → af = s.regs.af) ∧
      (opcode w ≠ 0x1A → ssp = s.regs.ssp ∧ usp = s.regs.usp) := by
  have hn : next pf s = some s' := by
    rw [next_of_fetch hf]
    unfold execWord
    change (match runInstr pf (fieldsOf w) (atExec s devs) with
      | .panic => none | .ex s => some s | .ok () s => _) = some s'
    rw [h]
  refine ⟨hn, ?_⟩
  have hs := runInstr_summary (pf := pf) (f := fieldsOf w) (D := D) (atExec s devs) (atExec s devs)
    (.refl _)
  rw [h] at hs
  obtain ⟨t, c, d, _, hc, hs'⟩ := hs
  have hk := runInstr_faultKeeps (pf := pf) (f := fieldsOf w) (D := D)
    (by rw [fieldsOf_opcode]; exact hne) _ _ h
  obtain ⟨u, c', d', hk, hs''⟩ := hk
  rw [fieldsOf_opcode] at hk
  have het : s'.regs.et = (u.exception c' d').regs.et := by rw [hs'']
  have hcc : c' = c := by
    have h1 : (t.exception c d).regs.et = (u.exception c' d').regs.et := by rw [← hs', hs'']
    rw [exception_regs, exception_regs] at h1
    have h2 := congrArg BitVec.toNat h1
    simp only [trap, BitVec.toNat_ofNat] at h2
    apply BitVec.eq_of_toNat_eq
    have := c.isLt; have := c'.isLt; have := d.isLt; have := d'.isLt
    split at h2 <;> split at h2 <;> omega
  subst hcc
  refine ⟨c'.toNat, d'.toNat, u.regs.af, u.regs.ssp, u.regs.usp, ?_, d'.isLt, ?_, hk.2.1, hk.2.2⟩
  · have hall : ∀ c ∈ faultCodes, c.toNat ∈ exceptionCodes := by decide
    exact hall _ hc.1
  · rw [hs'', exception_regs]
    congr 1
    apply Regs.ext_get
    intro n hn
    by_cases hm : n ∈ [0x17, 0x18, 0x19]
    · simp only [List.mem_cons, List.not_mem_nil, or_false] at hm
      rcases hm with rfl | rfl | rfl <;> rfl
    · rw [hk.1 n hn hm]
      show reg s.regs n = _
      symm
      revert hm
      revert n
      cases32 <;> first | (intro _; rfl) | (intro hm; simp at hm)

/-- **C06**, ITR. The instruction enters the exception `0xF0` carrying its parameter. -/
theorem C06_itr {s : Machine D} {devs : List D} {r0 r1 r2 : Bool} {p0 p1 p2 : U8} {v : Word}
    (hf : Fetches pf s (instrWord 0x10 r0 r1 r2 p0 p1 p2) devs) (hv : Val1 s.regs r0 p0 v) :
    Steps pf s (trap s.regs 0xF0 (v.toNat % 65536)) devs := by
  have he : runInstr pf ⟨(0x10#5).setWidth 8, r0, r1, r2, p0, p1, p2⟩ (atExec s devs) =
      .ok () ((atExec s devs).exception 0xF0 (v.setWidth 16)) := by
    show execItr _ _ = _
    unfold execItr
    rw [M.bind_ok (regOrLit1_val (s := atExec s devs) hv)]
    rfl
  have := steps_ok (cp := true) (r := ((atExec s devs).exception 0xF0 (v.setWidth 16)).regs)
    (devs' := devs) hf he
  rw [if_pos rfl, exception_regs, BitVec.toNat_setWidth] at this
  exact this

/-- A program that raises interruption 7 and one whose first instruction is unknown. -/
example : Fetches .debug (Demo.start [instrWord 0x10 false false false 7 0 0])
    (instrWord 0x10 false false false 7 0 0) (Demo.devices [instrWord 0x10 false false false 7 0 0]) :=
  ⟨rfl, rfl⟩

example : ∃ s', runInstr .debug (fieldsOf 0) (atExec (Demo.start [0]) (Demo.devices [0])) = .ex s' :=
  ⟨_, rfl⟩

/-- A fetch at an unaligned address. -/
example : ∃ t, cpuExec .debug 0x12 { Demo.start [0] with cycles := 1 } = .ex t := ⟨_, rfl⟩

/-! ## C07 -/

/-- The contents of `et` after an exception, as documented: mode, code, data. -/
def Spec.isException (et : Word) : Prop :=
  ∃ (sv : Bool) (code data : Nat), code ∈ exceptionCodes ∧ data < 65536 ∧
    et.toNat = (if sv then 2 ^ 24 else 0) + code * 2 ^ 16 + data

theorem trap_et (r : Regs) {c d : Nat} (hc : c ∈ exceptionCodes) (hd : d < 65536) :
    (trap r c d).et.toNat = (if supervisor r then 2 ^ 24 else 0) + c * 2 ^ 16 + d := by
  have : c < 256 := by
    have : ∀ c ∈ exceptionCodes, c < 256 := by decide
    exact this c hc
  show (BitVec.ofNat 32 _).toNat = _
  rw [BitVec.toNat_ofNat, Nat.mod_eq_of_lt]
  split <;> omega

theorem trap_isException (r : Regs) {c d : Nat} (hc : c ∈ exceptionCodes) (hd : d < 65536) :
    isException (trap r c d).et := ⟨supervisor r, c, d, hc, hd, trap_et r hc hd⟩

theorem faultCodes_mem : ∀ c ∈ faultCodes, c.toNat ∈ exceptionCodes := by decide
theorem faultCodes_doc (c : U8) {d : U16} (h : GoodFault c d) : c.toNat ∈ exceptionCodes := faultCodes_mem c h.1
theorem fetchCodes_doc : ∀ c ∈ fetchCodes, c.toNat ∈ exceptionCodes := by decide

/-- **C07.** In every step, either `et` is unchanged, or the CPU is in its startup state, or an exception
with a documented code has just been entered: `et` describes it, `pc` is the exception vector in force and
the CPU is in supervisor mode. -/
theorem C07_et_describes_exception {s s' : Machine D} (h : next pf s = some s') :
    s'.regs.et = s.regs.et ∨ s'.regs = startup ∨
    ∃ r c d, c ∈ exceptionCodes ∧ d < 65536 ∧ s'.regs = trap r c d := by
  cases hh : s.halted with
  | true => unfold next at h; rw [if_pos hh] at h; injection h with h; subst h; exact .inl rfl
  | false =>
    rcases next_inv h hh with ⟨devs, c, d, hc, _, hl, rfl⟩ | ⟨w, devs, hf, hl, hr⟩
    · exact .inr (.inr ⟨_, _, _, fetchCodes_doc c hc, d.isLt, exception_regs ..⟩)
    · rcases hr with ⟨t, c, d, _, he, hc, rfl⟩ | ⟨t, hrun, he, rfl⟩
      · exact .inr (.inr ⟨_, _, _, faultCodes_doc c hc, d.isLt, exception_regs ..⟩)
      · by_cases h10 : (fieldsOf w).opcode.toNat = 0x10
        · rw [runInstr_itr h10] at hrun
          rcases execItr_eq (atExec s devs) (fieldsOf w) with ⟨v, _, hv⟩ | ⟨_, _, hv⟩
          · rw [hv] at hrun
            injection hrun with _ hrun
            have hcp : t.changedPc = true := by rw [← hrun]; rfl
            rw [if_pos hcp, ← hrun]
            exact .inr (.inr ⟨_, _, _, by decide, (v.setWidth 16).isLt, exception_regs _ 0xF0 _⟩)
          · rw [hv] at hrun; cases hrun
        · by_cases h1F : (fieldsOf w).opcode.toNat = 0x1F
          · rw [runInstr_reset h1F] at hrun
            obtain ⟨v, _, ⟨_, ht⟩ | ⟨_, ht⟩⟩ := execReset_ok hrun
            · have hcp : t.changedPc = true := by rw [ht]; rfl
              rw [if_pos hcp, ht]
              exact .inr (.inl rfl)
            · left
              split <;> (rw [ht]; rfl)
          · left
            have := (he.hidden h1F h10).2.1
            split
            · exact this
            · exact this

/-- **C07**, over a history: from startup, `et` is 0 or describes a documented exception. -/
theorem C07_et_history {n : Nat} {s s' : Machine D} (h0 : s.regs.et = 0)
    (h : nextN pf n s = some s') : s'.regs.et = 0 ∨ isException s'.regs.et := by
  have : ∀ n (s : Machine D), (s.regs.et = 0 ∨ isException s.regs.et) → nextN pf n s = some s' →
      (s'.regs.et = 0 ∨ isException s'.regs.et) := by
    intro n
    induction n with
    | zero => intro s hs h; injection h with h; subst h; exact hs
    | succ n ih =>
      intro s hs h
      unfold nextN at h
      simp only [Option.bind_eq_bind, Option.bind_eq_some_iff] at h
      obtain ⟨t, ht, h⟩ := h
      refine ih t ?_ h
      rcases C07_et_describes_exception ht with he | he | ⟨r, c, d, hc, hd, he⟩
      · rw [he]; exact hs
      · rw [he]; exact .inl rfl
      · rw [he]; exact .inr (trap_isException r hc hd)
  exact this n s (.inl h0) h

/-- Division by zero raises `0x0A` in supervisor mode. -/
example : ∃ s, nextN .debug 1 (Demo.start [instrWord 0x06 false false false 0 0 0]) = some s ∧
    s.regs.et = 0x010A0000 := ⟨_, rfl, rfl⟩

/-! ## C08 -/

/-- In every step `era` is left unchanged, or the CPU is reset (and `era` is 0). -/
theorem C08_era_never_written_step {s s' : Machine D} (h : next pf s = some s') :
    s'.regs.era = s.regs.era ∨ s'.regs.era = 0 := by
  cases hh : s.halted with
  | true => unfold next at h; rw [if_pos hh] at h; injection h with h; subst h; exact .inl rfl
  | false =>
    rcases next_inv h hh with ⟨devs, c, d, hc, _, hl, rfl⟩ | ⟨w, devs, hf, hl, hr⟩
    · exact .inl rfl
    · have key : ∀ t, Effs pf (fieldsOf w) (atExec s devs) t →
          (t.regs.era = s.regs.era ∨ t.regs.era = 0) := by
        intro t he
        refine he.inv (P := fun t => t.regs.era = s.regs.era ∨ t.regs.era = 0) (.inl rfl) ?_
        intro t u ht hu
        cases hu with
        | busRead _ hr => rw [memRead_frame hr]; exact ht
        | busWrite _ hr => rw [memWrite_frame hr]; exact ht
        | sp v _ => unfold Machine.setSp; split <;> exact ht
        | regWrite hd hu h17 h1A h1B hw =>
          obtain ⟨hlt, hr⟩ := write_setReg hw
          rw [Ne, BitVec.toNat_eq] at h1B
          subst hr
          have := reg_setReg_ne t.regs _ 0x1B ‹Word› hlt (by decide) h1B
          show reg _ 0x1B = _ ∨ reg _ 0x1B = _
          rw [this]; exact ht
        | cpuReset => exact .inr rfl
        | _ => exact ht
      rcases hr with ⟨t, c, d, _, he, hc, rfl⟩ | ⟨t, hrun, he, rfl⟩
      · exact key t he
      · split
        · exact key t he
        · exact key t he

/-- **C08**, partial. The documented use of `era` (the address that raised the last exception) is not
implemented: no step ever writes an address to it. From startup it is 0 for ever. Missing: the recording of
the faulting address itself, which the code does not do (`C08_era_refuted`). -/
theorem C08_era_always_zero_partial {n : Nat} {s s' : Machine D} (h0 : s.regs.era = 0)
    (h : nextN pf n s = some s') : s'.regs.era = 0 := by
  induction n generalizing s with
  | zero => injection h with h; subst h; exact h0
  | succ n ih =>
    unfold nextN at h
    simp only [Option.bind_eq_bind, Option.bind_eq_some_iff] at h
    obtain ⟨t, ht, h⟩ := h
    refine ih ?_ h
    rcases C08_era_never_written_step ht with he | he
    · rw [he]; exact h0
    · exact he

/-- The documented claim is false of the code: an exception raised by the instruction at address 4 leaves
`era` at 0. -/
theorem C08_era_refuted : ∃ s s' : Machine Demo.Dev, s.halted = false ∧ next .debug s = some s' ∧
    s'.regs.et = 0x01010000 ∧ s.regs.pc = 4 ∧ s'.regs.era ≠ s.regs.pc := by
  refine ⟨{ Demo.start [0, 0] with regs := { startup with pc := 4 } }, _, rfl, rfl, rfl, rfl, ?_⟩
  decide

/-! ## C09 -/

/-- An action that never ends normally. -/
def NeverOk (m : M D α) : Prop := ∀ s a t, m s ≠ .ok a t

theorem NeverOk.bind {m : M D α} {k : α → M D β} (h : ∀ a, NeverOk (k a)) : NeverOk (m >>= k) := by
  intro s b t he
  rw [M.bind_def] at he
  cases hm : m s with
  | ok a s1 => rw [hm] at he; exact h a s1 b t he
  | ex _ => rw [hm] at he; cases he
  | panic => rw [hm] at he; cases he

theorem NeverOk.bind_left {m : M D α} {k : α → M D β} (h : NeverOk m) : NeverOk (m >>= k) := by
  intro s b t he
  rw [M.bind_def] at he
  cases hm : m s with
  | ok a s1 => exact h s a s1 hm
  | ex _ => rw [hm] at he; cases he
  | panic => rw [hm] at he; cases he

theorem writeReg_neverOk {c : U8} (h : c.toNat ∈ [0x17, 0x1A, 0x1B]) (w : Word) :
    NeverOk (writeReg c w : M D Unit) := by
  intro s a t he
  have : mayWrite (supervisor s.regs) c.toNat = false := by
    simp only [List.mem_cons, List.not_mem_nil, or_false] at h
    rcases h with h | h | h <;> rw [h] <;> rfl
  rw [writeReg_fault w this] at he
  cases he

/-- **C09.** An instruction that names `af`, `et` or `era` as a destination never completes, in any mode: it
always ends in an exception, and those registers do not receive the value the program chose (`af` keeps
its value unless the instruction is arithmetic, `era` is unchanged, `et` describes the exception). -/
theorem C09_protected_destination {s s' : Machine D} {w : Word} {devs : List D} {n : Nat}
    (hf : Fetches pf s w devs) (h : next pf s = some s') (hn : n ∈ destinations w)
    (hp : n ∈ [0x17, 0x1A, 0x1B]) :
    ∃ r c d, c ∈ exceptionCodes ∧ d < 65536 ∧ s'.regs = trap r c d ∧ s'.regs.era = s.regs.era ∧
      (opcode w ∉ [3,4,5,6,7,8,9,10,11,12,13] → s'.regs.af = s.regs.af) := by
  have hnever : NeverOk (runInstr pf (fieldsOf w) : M D Unit) := by
    have hd : ∃ c ∈ destRegs (fieldsOf w), c.toNat = n := by
      rw [← destRegs_eq] at hn
      simpa using hn
    obtain ⟨c, hc, rfl⟩ := hd
    have wr := fun v => writeReg_neverOk (D := D) hp v
    have alu : c = (fieldsOf w).p0 → NeverOk (execAlu (fieldsOf w) : M D Unit) := fun hc => by
      subst hc
      exact .bind fun _ => .bind fun _ => .bind fun _ => wr _
    have div : c = (fieldsOf w).p0 → ∀ mk, NeverOk (execDiv mk (fieldsOf w) : M D Unit) :=
      fun hc mk => by
        subst hc
        exact .bind fun _ => .bind fun _ => .bind fun _ => .bind fun _ => wr _
    unfold runInstr
    split
    all_goals first
      | (next h => simp [destRegs, h] at hc; done)
      | (next h => exact alu (by simpa [destRegs, h] using hc))
      | (next h => exact div (by simpa [destRegs, h] using hc) _)
      | skip
    · next h =>
      simp only [destRegs, h, List.mem_singleton] at hc; subst hc; exact .bind fun _ => wr _
    · next h =>
      simp only [destRegs, h, List.mem_cons, List.not_mem_nil, or_false] at hc
      rcases hc with rfl | rfl
      · exact .bind fun _ => .bind fun _ => .bind_left (wr _)
      · exact .bind fun _ => .bind fun _ => .bind fun _ => wr _
    · next h =>
      simp only [destRegs, h, List.mem_singleton] at hc; subst hc
      exact .bind fun _ => .bind fun _ => .bind fun _ => wr _
    · next h =>
      simp only [destRegs, h, List.mem_singleton] at hc; subst hc
      exact .bind fun _ => .bind fun _ => .bind fun _ => .bind fun _ => .bind fun _ => .bind fun _ =>
        .bind fun _ => wr _
    · next h =>
      simp only [destRegs, h, List.mem_singleton] at hc; subst hc
      exact .bind fun _ => .bind fun _ => wr _
    · next h =>
      simp only [destRegs, h, List.mem_singleton] at hc; subst hc
      refine .bind fun _ => .bind fun _ => ?_
      split
      · exact .bind fun _ => wr _
      · exact .bind fun _ => wr _
    · next h =>
      simp only [destRegs, h, List.mem_singleton] at hc; subst hc; exact .bind fun _ => wr _
  rcases next_inv h hf.1 with ⟨devs', c, d, hc, ha, hl, rfl⟩ | ⟨w', devs', hf', hl, hr⟩
  · rw [fetches_iff, ha] at hf
    cases hf.2
  · have hw : w' = w := by
      rw [fetches_iff] at hf hf'
      rw [hf.2] at hf'
      have := hf'.2
      injection this with h1 _; exact h1.symm
    subst hw
    rcases hr with ⟨t, c, d, _, he, hc, rfl⟩ | ⟨t, hrun, he, rfl⟩
    · have hne : opcode w' ≠ 0x1F ∧ opcode w' ≠ 0x10 := by
        constructor <;> intro ho <;> simp [destinations, ho] at hn
      have hh := he.hidden (by rw [fieldsOf_opcode]; exact hne.1) (by rw [fieldsOf_opcode]; exact hne.2)
      refine ⟨_, _, _, faultCodes_doc c hc, d.isLt, exception_regs .., hh.1, ?_⟩
      intro ho
      exact hh.2.2 (by rw [fieldsOf_opcode]; exact ho)
    · exact absurd hrun (hnever _ _ _)

/-- **C09.** Outside exceptions, `af` changes only by the flags of an arithmetic, bitwise or compare
instruction, and by a reset of the CPU. -/
theorem C09_af_only_flags {s s' : Machine D} {w : Word} {devs : List D}
    (hf : Fetches pf s w devs) (h : next pf s = some s')
    (ho : opcode w ∉ [3,4,5,6,7,8,9,10,11,12,13]) :
    s'.regs.af = s.regs.af ∨ s'.regs = startup := by
  rcases next_inv h hf.1 with ⟨devs', c, d, hc, ha, hl, rfl⟩ | ⟨w', devs', hf', hl, hr⟩
  · exact .inl rfl
  · have hw : w' = w := by
      rw [fetches_iff] at hf hf'
      rw [hf.2] at hf'
      have := hf'.2
      injection this with h1 _; exact h1.symm
    subst hw
    by_cases h1F : (fieldsOf w').opcode.toNat = 0x1F
    · rcases hr with ⟨t, c, d, hrun, he, hc, _⟩ | ⟨t, hrun, he, rfl⟩
      · rw [runInstr_reset h1F] at hrun
        obtain ⟨c, d, rfl⟩ := execReset_ex hrun
        exact .inl rfl
      · rw [runInstr_reset h1F] at hrun
        obtain ⟨v, _, ⟨_, ht⟩ | ⟨_, ht⟩⟩ := execReset_ok hrun
        · have hcp : t.changedPc = true := by rw [ht]; rfl
          rw [if_pos hcp, ht]; exact .inr rfl
        · left; split <;> (rw [ht]; rfl)
    · by_cases h10 : (fieldsOf w').opcode.toNat = 0x10
      · rcases execItr_eq (atExec s devs') (fieldsOf w') with ⟨v, _, hv⟩ | ⟨_, _, hv⟩
        · rcases hr with ⟨t, c, d, hrun, _⟩ | ⟨t, hrun, he, rfl⟩
          · rw [runInstr_itr h10, hv] at hrun; cases hrun
          · rw [runInstr_itr h10, hv] at hrun
            injection hrun with _ hrun
            have hcp : t.changedPc = true := by rw [← hrun]; rfl
            rw [if_pos hcp, ← hrun]; exact .inl rfl
        · rcases hr with ⟨t, c, d, hrun, _⟩ | ⟨t, hrun, he, rfl⟩
          · rw [runInstr_itr h10, hv] at hrun
            injection hrun with hrun
            rw [← hrun]; exact .inl rfl
          · rw [runInstr_itr h10, hv] at hrun; cases hrun
      · left
        rw [← fieldsOf_opcode] at ho
        rcases hr with ⟨t, c, d, _, he, hc, rfl⟩ | ⟨t, hrun, he, rfl⟩
        · exact (he.hidden h1F h10).2.2 ho
        · have := (he.hidden h1F h10).2.2 ho
          split
          · exact this
          · exact this

/-- `CPY af, 5` in supervisor mode. -/
example : Fetches .debug (Demo.start [instrWord 0x01 false false false 0x17 0 5])
    (instrWord 0x01 false false false 0x17 0 5) (Demo.devices [instrWord 0x01 false false false 0x17 0 5]) ∧
    0x17 ∈ destinations (instrWord 0x01 false false false 0x17 0 5) :=
  ⟨⟨rfl, rfl⟩, by decide⟩

/-! ## C03, C04 -/

/-- **C03.** An instruction that is not a jump, a conditional, LSM, ITR or RESET and does not name `pc` as a
destination either advances `pc` by exactly 4 (modulo `2 ^ 32`) or raises an exception. -/
theorem C03_pc_advances {s s' : Machine D} {w : Word} {devs : List D}
    (hf : Fetches pf s w devs) (h : next pf s = some s')
    (ho : opcode w ∉ [0x0E, 0x0F, 0x10, 0x11, 0x12, 0x13, 0x1B, 0x1F])
    (hd : 0x16 ∉ destinations w) :
    s'.regs.pc = s.regs.pc + 4 ∨ ∃ r c d, c ∈ exceptionCodes ∧ d < 65536 ∧ s'.regs = trap r c d := by
  rcases next_inv h hf.1 with ⟨devs', c, d, hc, ha, hl, rfl⟩ | ⟨w', devs', hf', hl, hr⟩
  · exact .inr ⟨_, _, _, fetchCodes_doc c hc, d.isLt, exception_regs ..⟩
  · have hw : w' = w := by
      rw [fetches_iff] at hf hf'
      rw [hf.2] at hf'
      have := hf'.2
      injection this with h1 _; exact h1.symm
    subst hw
    rcases hr with ⟨t, c, d, _, he, hc, rfl⟩ | ⟨t, hrun, he, rfl⟩
    · exact .inr ⟨_, _, _, faultCodes_doc c hc, d.isLt, exception_regs ..⟩
    · left
      have key : t.regs.pc = s.regs.pc ∧ t.changedPc = false := by
        rw [← fieldsOf_opcode] at ho
        simp only [List.mem_cons, List.not_mem_nil, or_false, not_or] at ho
        obtain ⟨h0E, h0F, h10, h11, h12, h13, h1B, h1F⟩ := ho
        refine he.inv (P := fun t => t.regs.pc = s.regs.pc ∧ t.changedPc = false) ⟨rfl, rfl⟩ ?_
        intro t u ht hu
        cases hu with
        | busRead _ hr => rw [memRead_frame hr]; exact ht
        | busWrite _ hr => rw [memWrite_frame hr]; exact ht
        | sp v _ => unfold Machine.setSp; split <;> exact ht
        | regWrite hdr hu _ _ _ hw =>
          obtain ⟨hlt, hr⟩ := write_setReg hw
          subst hr
          have hne : ‹U8›.toNat ≠ 0x16 := by
            intro he
            apply hd
            rw [← destRegs_eq, ← he]
            exact List.mem_map_of_mem hdr
          refine ⟨?_, ?_⟩
          · exact (reg_setReg_ne t.regs _ 0x16 ‹Word› hlt (by decide) hne).trans ht.1
          · show (if _ then _ else _) = _
            rw [if_neg (by intro he; subst he; exact hne rfl)]; exact ht.2
        | jump _ h => simp [h0E, h1B] at h
        | lsm _ h => exact absurd h h0F
        | skip h => simp [h11, h12, h13] at h
        | itr _ h => exact absurd h h10
        | cpuReset h => exact absurd h h1F
        | _ => exact ht
      rw [if_neg (by simp [key.2])]
      show t.regs.pc + 4 = _
      rw [key.1]

/-- `CPY a0, 5`. -/
example : ∃ s, next .debug (Demo.start [instrWord 0x01 false false false 0 0 5]) = some s ∧
    s.regs.pc = 4 ∧ opcode (instrWord 0x01 false false false 0 0 5) = 1 := ⟨_, rfl, rfl, by decide⟩

/-- **C04**, format. Every word is exactly one instruction word: strongest bit first, 5 bits of opcode, 3
register bits, 3 parameter bytes. -/
theorem C04_instruction_format (w : Word) : ∃ op r0 r1 r2 p0 p1 p2,
    w = instrWord op r0 r1 r2 p0 p1 p2 ∧
    w.toNat = op.toNat * 2 ^ 27 + r0.toNat * 2 ^ 26 + r1.toNat * 2 ^ 25 + r2.toNat * 2 ^ 24 +
      p0.toNat * 2 ^ 16 + p1.toNat * 2 ^ 8 + p2.toNat := by
  obtain ⟨op, r0, r1, r2, p0, p1, p2, rfl⟩ := exists_instrWord w
  refine ⟨op, r0, r1, r2, p0, p1, p2, rfl, ?_⟩
  show (headByte op r0 r1 r2 ++ p0 ++ p1 ++ p2).toNat = _
  rw [toNat_be]
  have : ∀ (op : BitVec 5) (r0 r1 r2 : Bool), (headByte op r0 r1 r2).toNat =
      op.toNat * 8 + r0.toNat * 4 + r1.toNat * 2 + r2.toNat := by decide +kernel
  rw [this]
  omega

/-- **C04.** A step of a running CPU whose `pc` is aligned reads one word at the address given by the
translation of `pc`; that word is the instruction executed. With the MMU off this is the word at physical
address `pc`. -/
theorem C04_fetch_is_word_at_pc {s : Machine D} {w : Word} {devs : List D} (hm : s.regs.mtt = 0) :
    Fetches pf s w devs ↔ s.halted = false ∧ s.regs.pc.toNat % 4 = 0 ∧
      memRead pf s s.regs.pc 0 = some (w, 0, { s with devs := devs }) := by
  rw [fetches_iff]
  have hal : s.regs.pc % 4 = 0 ↔ s.regs.pc.toNat % 4 = 0 := by
    rw [BitVec.toNat_eq, BitVec.toNat_umod]; rfl
  constructor
  · rintro ⟨h0, h⟩
    unfold accRead accDo transl at h
    split at h
    · cases h
    · next ha =>
      refine ⟨h0, hal.mp (Decidable.not_not.mp ha), ?_⟩
      dsimp only at h
      split at h
      · cases h
      · next hd =>
        split at h
        · cases h
        · next hex =>
          injection h with h1 h2
          subst h1; subst h2
          rw [memRead_eq, hd, Decidable.not_not.mp hex]; rfl
  · rintro ⟨h0, ha, h⟩
    refine ⟨h0, ?_⟩
    rw [memRead_eq, Option.map_eq_some_iff] at h
    obtain ⟨⟨a, b, c⟩, hd, h⟩ := h
    injection h with h1 h; injection h with h2 h3
    have h3' : c = devs := congrArg Machine.devs h3
    unfold accRead accDo transl
    rw [if_neg (by simpa using hal.mpr ha), if_pos hm]
    dsimp only
    rw [hd]
    simp only at h1 h2
    subst h1; subst h2; subst h3'
    rfl

example : Fetches .debug (Demo.start [0xDEADBEEF]) 0xDEADBEEF (Demo.devices [0xDEADBEEF]) ∧
    (Demo.start [0xDEADBEEF]).regs.mtt = 0 := ⟨⟨rfl, rfl⟩, rfl⟩

end Lrvm
