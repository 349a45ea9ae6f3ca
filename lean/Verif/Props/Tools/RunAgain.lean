import Verif.Props.Tools.RunLines

/-!
# Runs compared with one another: C97, C98
-/

namespace Lrvm

open Spec

variable {D : Type} [Bus D] {pf : Profile}

/-- Two configurations run the machine under the same conditions: they differ only in what is printed. -/
def SameRun (cfg cfg' : RunConfig) : Prop :=
  cfg'.cyclesLimit = cfg.cyclesLimit ∧ cfg'.haltOnException = cfg.haltOnException

theorem stopsAfter_sameRun {cfg cfg' : RunConfig} (hc : SameRun cfg cfg') {s s' : Machine D} {n : Nat} :
    StopsAfter pf cfg' s n s' ↔ StopsAfter pf cfg s n s' := by
  unfold StopsAfter Over Signals
  rw [hc.1, hc.2]

theorem stopsAfter_unique {cfg : RunConfig} {s s1 s2 : Machine D} {n m : Nat} (h1 : StopsAfter pf cfg s n s1)
    (h2 : StopsAfter pf cfg s m s2) : n = m ∧ s1 = s2 := by
  obtain rfl : m = n := by
    refine Nat.le_antisymm (Nat.le_of_not_lt fun hl => ?_) (Nat.le_of_not_lt fun hl => ?_)
    · have := h2.2.2 n _ hl h1.1
      exact h1.2.1.elim this.1 (fun hx => this.2 hx.1 hx.2)
    · have := h1.2.2 m _ hl h2.1
      exact h2.2.1.elim this.1 (fun hx => this.2 hx.1 hx.2)
  refine ⟨rfl, ?_⟩
  have := h1.1.symm.trans h2.1
  injection this

theorem describesEt_unique {e e' : ExWithMode} {et : Word} (h : DescribesEt e et) (h' : DescribesEt e' et) : e = e' := by
  obtain ⟨r, m, c, a⟩ := e
  obtain ⟨r', m', c', a'⟩ := e'
  obtain ⟨h1, h2, h3, h4⟩ := h
  obtain ⟨g1, g2, g3, g4⟩ := h'
  dsimp only at *
  rw [h1, g1, BitVec.eq_of_toNat_eq (h3.trans g3.symm), BitVec.eq_of_toNat_eq (h4.trans g4.symm)]
  have : m = m' := by
    have := h2.trans g2.symm
    cases m <;> cases m' <;> simp_all
  rw [this]

theorem lastAddr_unique {s : Machine D} {n : Nat} {a b : Word} (h : LastAddr pf s n a) (h' : LastAddr pf s n b) : a = b := by
  cases n with
  | zero => exact Eq.trans h (Eq.symm h')
  | succ k =>
    obtain ⟨t, ht, rfl⟩ := h
    obtain ⟨u, hu, rfl⟩ := h'
    rw [ht] at hu; injection hu with hu; rw [hu]

theorem reports_unique {cfg : RunConfig} {s s' : Machine D} {n : Nat} {st st' : StoppedState}
    (h : Reports pf cfg s n s' st) (h' : Reports pf cfg s n s' st') : st = st' := by
  obtain ⟨h1, h2, h3, h4⟩ := h
  obtain ⟨g1, g2, g3, g4⟩ := h'
  obtain ⟨c, a, x⟩ := st
  obtain ⟨c', a', x'⟩ := st'
  dsimp only at *
  rw [h1, g1, lastAddr_unique h2 g2]
  congr 1
  by_cases hs : 0 < n ∧ Signals cfg s'
  · obtain ⟨e, rfl, he⟩ := h3 hs
    obtain ⟨e', rfl, he'⟩ := g3 hs
    rw [describesEt_unique he he']
  · rw [h4 hs, g4 hs]

theorem reports_sameRun {cfg cfg' : RunConfig} (hc : SameRun cfg cfg') {s s' : Machine D} {n : Nat} {st : StoppedState} :
    Reports pf cfg' s n s' st ↔ Reports pf cfg s n s' st := by
  unfold Reports Signals
  rw [hc.2]

/-- **C97**: what is printed has no influence on the run: two runs from the same machine under the same conditions leave the
same machine (components included) and return the same state. -/
theorem C97_same {cfg cfg' : RunConfig} (hc : SameRun cfg cfg') {s s1 s2 : Machine D} {st1 st2 : StoppedState}
    {out1 out2 : List Text} (h1 : RunVm pf cfg s (some (s1, st1, out1))) (h2 : RunVm pf cfg' s (some (s2, st2, out2))) :
    s1 = s2 ∧ st1 = st2 := by
  obtain ⟨n, a1, b1⟩ := C61_returns h1
  obtain ⟨m, a2, b2⟩ := C61_returns h2
  rw [stopsAfter_sameRun hc] at a2
  rw [reports_sameRun hc] at b2
  obtain ⟨rfl, rfl⟩ := stopsAfter_unique a1 a2
  exact ⟨rfl, reports_unique b1 b2⟩

/-- **C97**: a run that prints neither exceptions nor the last line returns whenever a run under the same conditions returns. -/
theorem C97_quiet_returns {cfg cfg' : RunConfig} (hc : SameRun cfg cfg') (hp : cfg'.printExceptions = false)
    (hf : cfg'.printFinish = false) {s s1 : Machine D} {st : StoppedState} {out : List Text}
    (h : RunVm pf cfg s (some (s1, st, out))) : ∃ out', RunVm pf cfg' s (some (s1, st, out')) := by
  obtain ⟨n, a, b⟩ := C61_returns h
  obtain ⟨st', out', h', b'⟩ := C61_stops ((stopsAfter_sameRun hc).mpr a) fun k t _ _ _ => .inl ⟨hp, hf⟩
  rw [reports_sameRun hc] at b'
  exact ⟨out', by rw [reports_unique b b']; exact h'⟩

/-- The machine that prints: its quiet and its verbose runs both return. -/
example : (∃ s' st out, RunVm .debug RunConfig.verbose onceMachine (some (s', st, out)) ∧ out ≠ []) ∧
    ∃ s' st, RunVm .debug RunConfig.quiet onceMachine (some (s', st, [])) ∧ SameRun RunConfig.verbose RunConfig.quiet :=
  ⟨⟨_, _, _, ⟨some (_, _, _, _), .again rfl (.again rfl (.again rfl (.again rfl (.exit rfl)))), rfl⟩, by simp⟩,
    _, _, ⟨some (_, _, _, _), .again rfl (.again rfl (.again rfl (.again rfl (.exit rfl)))), rfl⟩, rfl, rfl⟩

/-- **C97**, refutation of "printing has no influence" for the way a run ends: asking for the exceptions to be printed turns a
run that returns into a panic. -/
theorem C97_panic_refuted : (∃ s' st, RunVm .debug (RunConfig.quiet.withCyclesLimit (some 0)) unprintableMachine
      (some (s', st, []))) ∧ RunVm .debug (RunConfig.default.withCyclesLimit (some 0)) unprintableMachine none ∧
    SameRun (RunConfig.quiet.withCyclesLimit (some 0)) (RunConfig.default.withCyclesLimit (some 0)) :=
  ⟨⟨_, _, some (_, _, _, _), .again rfl (.exit rfl), rfl⟩, ⟨none, .panic rfl, rfl⟩, rfl, rfl⟩

/-- **C97**, partial: if one run returns, a run under the same conditions returns too, with the same machine and state, unless
it has to print a content of `et` that has no text. Missing: that case (`C97_panic_refuted`). -/
theorem C97_returns_partial {cfg cfg' : RunConfig} (hc : SameRun cfg cfg') {s s1 : Machine D} {st : StoppedState}
    {out : List Text} (h : RunVm pf cfg s (some (s1, st, out)))
    (hp : ∀ k t, nextN pf k s = some t → ¬ Unprintable t.regs.et) : ∃ out', RunVm pf cfg' s (some (s1, st, out')) := by
  obtain ⟨n, a, b⟩ := C61_returns h
  obtain ⟨st', out', h', b'⟩ := C61_stops ((stopsAfter_sameRun hc).mpr a) fun k t _ _ ht => .inr (hp k t ht)
  rw [reports_sameRun hc] at b'
  exact ⟨out', by rw [reports_unique b b']; exact h'⟩

/-- The hypotheses of `C97_returns_partial` are met by a machine that halts at once. -/
example : ∃ s' st out, RunVm .debug RunConfig.quiet (Demo.start [Instr.encodeWord .halt]) (some (s', st, out)) ∧
    ∀ k t, nextN .debug k (Demo.start [Instr.encodeWord .halt]) = some t → ¬ Unprintable t.regs.et := by
  refine ⟨_, _, _, ⟨some (_, _, _, _), .again rfl (.exit rfl), rfl⟩, ?_⟩
  have key : ∃ s1 : Machine Demo.Dev, next .debug (Demo.start [Instr.encodeWord .halt]) = some s1 ∧ s1.halted = true ∧
      s1.regs.et = 0 := ⟨_, rfl, rfl, rfl⟩
  obtain ⟨s1, h1, h2, h3⟩ := key
  intro k t hk
  cases k with
  | zero => injection hk with hk; subst hk; exact not_unprintable_zero
  | succ k =>
    unfold nextN at hk
    rw [h1] at hk
    replace hk : nextN .debug k s1 = some t := hk
    rw [C01_halted_does_nothing _ h2] at hk
    injection hk with hk; subst hk
    rw [h3]; exact not_unprintable_zero

/-! ## C98: pause and resume -/

theorem nextN_append {n m : Nat} {s t : Machine D} (h : nextN pf n s = some t) : nextN pf (n + m) s = nextN pf m t := by
  induction n generalizing s with
  | zero => injection h with h; subst h; rw [Nat.zero_add]
  | succ n ih =>
    rw [Nat.succ_add]
    unfold nextN at h
    show (next pf s).bind _ = _
    cases hn : next pf s with
    | none => rw [hn] at h; cases h
    | some u => rw [hn] at h; exact ih h

/-- The second limit is not below the first one. -/
def LimitLe : Option U128 → Option U128 → Prop
  | _, none => True
  | none, some _ => False
  | some l, some l' => l.toNat ≤ l'.toNat

theorem over_mono {cfg cfg' : RunConfig} (hl : LimitLe cfg.cyclesLimit cfg'.cyclesLimit) {s : Machine D}
    (h : Over cfg' s) : Over cfg s := by
  rcases h with h | ⟨l', h, hlt⟩
  · exact .inl h
  · right
    rw [h] at hl
    cases hc : cfg.cyclesLimit with
    | none => rw [hc] at hl; exact absurd hl (by simp [LimitLe])
    | some l => rw [hc] at hl; exact ⟨l, rfl, Nat.lt_of_le_of_lt hl hlt⟩

theorem stopsAfter_resume {cfg cfg' : RunConfig} (hh : cfg'.haltOnException = cfg.haltOnException)
    (hl : LimitLe cfg.cyclesLimit cfg'.cyclesLimit) {s s1 s2 : Machine D} {n m : Nat} (h1 : StopsAfter pf cfg s n s1)
    (hx : ¬ (0 < n ∧ Signals cfg s1)) (h2 : StopsAfter pf cfg' s1 m s2) : StopsAfter pf cfg' s (n + m) s2 := by
  have hsig : ∀ t : Machine D, Signals cfg' t ↔ Signals cfg t := fun t => by unfold Signals; rw [hh]
  refine ⟨(nextN_append h1.1).trans h2.1, ?_, ?_⟩
  · exact h2.2.1.imp id fun x => ⟨by omega, x.2⟩
  · intro k t hk hkt
    by_cases hkn : k < n
    · have := h1.2.2 k t hkn hkt
      exact ⟨fun h => this.1 (over_mono hl h), fun h0 hs => this.2 h0 ((hsig t).mp hs)⟩
    · obtain ⟨j, rfl⟩ : ∃ j, k = n + j := ⟨k - n, by omega⟩
      rw [nextN_append h1.1] at hkt
      have := h2.2.2 j t (by omega) hkt
      refine ⟨this.1, fun h0 hs => ?_⟩
      cases j with
      | zero =>
        injection hkt with hkt; subst hkt
        exact hx ⟨by omega, (hsig _).mp hs⟩
      | succ j => exact this.2 (by omega) hs

/-- **C98**: a run that was stopped by its cycle limit can be resumed with a larger limit or none: the two runs leave the same
machine as one run with the second configuration, with the same cycle count and exception, and the same address if the second
run ran at least one cycle. -/
theorem C98_resume {cfg cfg' : RunConfig} (hh : cfg'.haltOnException = cfg.haltOnException)
    (hl : LimitLe cfg.cyclesLimit cfg'.cyclesLimit) {s s1 s2 s3 : Machine D} {st1 st2 st3 : StoppedState}
    {out1 out2 out3 : List Text} (h1 : RunVm pf cfg s (some (s1, st1, out1))) (hx : st1.ex = none)
    (h2 : RunVm pf cfg' s1 (some (s2, st2, out2))) (h3 : RunVm pf cfg' s (some (s3, st3, out3))) :
    s3 = s2 ∧ st3.cycles = st2.cycles ∧ st3.ex = st2.ex ∧ (¬ Over cfg' s1 → st3.addr = st2.addr) := by
  obtain ⟨n, a1, b1⟩ := C61_returns h1
  obtain ⟨m, a2, b2⟩ := C61_returns h2
  obtain ⟨p, a3, b3⟩ := C61_returns h3
  have hx' : ¬ (0 < n ∧ Signals cfg s1) := fun h => by
    obtain ⟨e, he, _⟩ := b1.2.2.1 h
    rw [hx] at he; cases he
  obtain ⟨rfl, rfl⟩ := stopsAfter_unique (stopsAfter_resume hh hl a1 hx' a2) a3
  have hsig : Signals cfg' s1 ↔ Signals cfg s1 := by unfold Signals; rw [hh]
  refine ⟨rfl, b3.1.trans b2.1.symm, ?_, ?_⟩
  · by_cases hs : 0 < m ∧ Signals cfg' s2
    · obtain ⟨e, he, hd⟩ := b2.2.2.1 hs
      obtain ⟨e', he', hd'⟩ := b3.2.2.1 ⟨by omega, hs.2⟩
      rw [he, he', describesEt_unique hd hd']
    · rw [b2.2.2.2 hs]
      refine b3.2.2.2 fun h => hs ⟨?_, h.2⟩
      cases m with
      | zero =>
        obtain ⟨rfl, _⟩ := stopsAfter_zero.mp a2
        exact absurd ⟨by omega, hsig.mp h.2⟩ hx'
      | succ m => omega
  · intro ho
    cases m with
    | zero => obtain ⟨rfl, h⟩ := stopsAfter_zero.mp a2; exact absurd h ho
    | succ m =>
      obtain ⟨t, ht, h⟩ := b2.2.1
      obtain ⟨u, hu, h'⟩ := b3.2.1
      replace hu : nextN pf (n + m) s = some u := hu
      rw [nextN_append a1.1, ht] at hu
      injection hu with hu; rw [h', h, hu]

/-- **C98**: whenever the two runs return, the single run returns too, if it prints no text that cannot be made. -/
theorem C98_resume_returns {cfg cfg' : RunConfig} (hh : cfg'.haltOnException = cfg.haltOnException)
    (hl : LimitLe cfg.cyclesLimit cfg'.cyclesLimit) {s s1 s2 : Machine D} {st1 st2 : StoppedState}
    {out1 out2 : List Text} (h1 : RunVm pf cfg s (some (s1, st1, out1))) (hx : st1.ex = none)
    (h2 : RunVm pf cfg' s1 (some (s2, st2, out2)))
    (hp : ∀ k t, nextN pf k s = some t → Printable cfg' t) :
    ∃ st3 out3, RunVm pf cfg' s (some (s2, st3, out3)) := by
  obtain ⟨n, a1, b1⟩ := C61_returns h1
  obtain ⟨m, a2, b2⟩ := C61_returns h2
  have hx' : ¬ (0 < n ∧ Signals cfg s1) := fun h => by
    obtain ⟨e, he, _⟩ := b1.2.2.1 h
    rw [hx] at he; cases he
  obtain ⟨st, out, h, _⟩ := C61_stops (stopsAfter_resume hh hl a1 hx' a2) fun k t _ _ ht => hp k t ht
  exact ⟨st, out, h⟩

theorem printed_append {cfg : RunConfig} {n m : Nat} {s t : Machine D} {l l' : List Text} (h : RunLines.Printed pf cfg n s l)
    (hn : nextN pf n s = some t) (h' : RunLines.Printed pf cfg m t l') : RunLines.Printed pf cfg (n + m) s (l ++ l') := by
  induction h with
  | zero => injection hn with hn; subst hn; rw [Nat.zero_add]; exact h'
  | @succ n s u l hu _ ih =>
    rw [Nat.succ_add, List.append_assoc]
    unfold nextN at hn
    rw [hu] at hn
    exact .succ hu (ih hn)

theorem printed_unique {cfg : RunConfig} {n : Nat} {s : Machine D} {l l' : List Text} (h : RunLines.Printed pf cfg n s l)
    (h' : RunLines.Printed pf cfg n s l') : l = l' := by
  induction h generalizing l' with
  | zero => cases h'; rfl
  | succ hu _ ih =>
    cases h' with
    | succ hu' h' => rw [hu] at hu'; injection hu' with hu'; subst hu'; rw [ih h']

theorem printed_flags {cfg cfg' : RunConfig} (h1 : cfg'.printCycles = cfg.printCycles)
    (h2 : cfg'.printExceptions = cfg.printExceptions) (h3 : cfg'.haltOnException = cfg.haltOnException)
    (h4 : cfg'.printFinish = cfg.printFinish) {n : Nat} {s : Machine D} {l : List Text} (h : RunLines.Printed pf cfg n s l) :
    RunLines.Printed pf cfg' n s l := by
  induction h with
  | zero => exact .zero _
  | @succ n s t l hu _ ih =>
    have ha : RunLines.announced cfg s = RunLines.announced cfg' s := by unfold RunLines.announced; rw [h1]
    have hr : RunLines.reported cfg s t = RunLines.reported cfg' s t := by
      unfold RunLines.reported
      have : RunLines.reportsWhileRunning cfg ↔ RunLines.reportsWhileRunning cfg' := by
        unfold RunLines.reportsWhileRunning; rw [h2, h3, h4]
      simp only [this]
    rw [ha, hr]
    exact .succ hu ih

/-- **C98**: if the last line is not asked for, what the two runs print is, together, what the single run prints. -/
theorem C98_lines {cfg cfg' : RunConfig} (hh : cfg'.haltOnException = cfg.haltOnException)
    (hl : LimitLe cfg.cyclesLimit cfg'.cyclesLimit) (hc : cfg'.printCycles = cfg.printCycles)
    (he : cfg'.printExceptions = cfg.printExceptions) (hf : cfg.printFinish = false) (hf' : cfg'.printFinish = false)
    {s s1 s2 s3 : Machine D} {st1 st2 st3 : StoppedState}
    {out1 out2 out3 : List Text} (h1 : RunVm pf cfg s (some (s1, st1, out1))) (hx : st1.ex = none)
    (h2 : RunVm pf cfg' s1 (some (s2, st2, out2))) (h3 : RunVm pf cfg' s (some (s3, st3, out3))) : out3 = out1 ++ out2 := by
  have hfin : ∀ st, RunLines.finish cfg st = [] := fun st => by unfold RunLines.finish; rw [if_neg (by rw [hf]; simp)]
  have hfin' : ∀ st, RunLines.finish cfg' st = [] := fun st => by unfold RunLines.finish; rw [if_neg (by rw [hf']; simp)]
  obtain ⟨n, l1, a1, p1, e1⟩ := C95_lines h1
  obtain ⟨m, l2, a2, p2, e2⟩ := C95_lines h2
  obtain ⟨p, l3, a3, p3, e3⟩ := C95_lines h3
  have hx' : ¬ (0 < n ∧ Signals cfg s1) := fun h => by
    obtain ⟨n', a1', b1⟩ := C61_returns h1
    obtain ⟨rfl, _⟩ := stopsAfter_unique a1 a1'
    obtain ⟨e, he, _⟩ := b1.2.2.1 h
    rw [hx] at he; cases he
  obtain ⟨rfl, rfl⟩ := stopsAfter_unique (stopsAfter_resume hh hl a1 hx' a2) a3
  have := printed_unique p3 (printed_append (printed_flags hc he hh (hf'.trans hf.symm) p1) a1.1 p2)
  rw [e1, e2, e3, hfin, hfin', hfin', this, List.append_nil, List.append_nil, List.append_nil]

/-- A run of one cycle, then the rest: `C98_resume` applies. -/
example : ∃ s1 s2 s3 st1 st2 st3 out1 out2 out3,
    RunVm .debug (RunConfig.verbose.withCyclesLimit (some 0)) shortMachine (some (s1, st1, out1)) ∧ st1.ex = none ∧
    st1.cycles = 1 ∧ RunVm .debug RunConfig.verbose s1 (some (s2, st2, out2)) ∧ st2.cycles = 2 ∧
    RunVm .debug RunConfig.verbose shortMachine (some (s3, st3, out3)) ∧ ¬ Over RunConfig.verbose s1 :=
  ⟨_, _, _, _, _, _, _, _, _, ⟨some (_, _, _, _), .again rfl (.exit rfl), rfl⟩, rfl, rfl,
    ⟨some (_, _, _, _), .again rfl (.exit rfl), rfl⟩, rfl,
    ⟨some (_, _, _, _), .again rfl (.again rfl (.exit rfl)), rfl⟩, by rintro (h | ⟨_, h, _⟩) <;> cases h⟩

/-- **C98**, refutation of "a machine stopped by an exception can be resumed": after an exception that the program handles, the
runner configured to stop on exceptions stops again after every single cycle, on the same exception, although no cycle raises
any. -/
theorem C98_exception_refuted : ∃ s1 s2 s3 st1 st2 st3,
    RunVm .debug (RunConfig.haltOnEx.beQuiet) onceMachine (some (s1, st1, [])) ∧
    RunVm .debug (RunConfig.haltOnEx.beQuiet) s1 (some (s2, st2, [])) ∧
    RunVm .debug (RunConfig.haltOnEx.beQuiet) s2 (some (s3, st3, [])) ∧
    st1 = ⟨2, 4, some ⟨0x01010000, true, 1, 0⟩⟩ ∧
    st2 = ⟨3, 12, some ⟨0x01010000, true, 1, 0⟩⟩ ∧ s2.regs.a[0] = 1 ∧
    st3 = ⟨4, 16, some ⟨0x01010000, true, 1, 0⟩⟩ ∧ s3.halted = true :=
  ⟨_, _, _, _, _, _, ⟨some (_, _, _, _), .again rfl (.stop rfl), rfl⟩, ⟨some (_, _, _, _), .stop rfl, rfl⟩,
    ⟨some (_, _, _, _), .stop rfl, rfl⟩, rfl, rfl, rfl, rfl, rfl⟩

/-- **C98**, after an exception, partial: a machine in which `et` is not 0 (it was stopped by an exception) and that is not
over runs exactly one cycle, unless that cycle runs RESET. -/
theorem C98_exception_partial {cfg : RunConfig} {s s1 : Machine D} (hh : cfg.haltOnException = true) (he : s.regs.et ≠ 0)
    (ho : ¬ Over cfg s) (hr : ∀ w devs, Fetches pf s w devs → opcode w ≠ 0x1F) (hn : next pf s = some s1) :
    StopsAfter pf cfg s 1 s1 := by
  refine (stopsAfter_succ ho hn).mpr (.inl ⟨rfl, rfl, .inr ⟨hh, ?_⟩⟩)
  rcases et_after hn with ⟨c, d, h⟩ | h | ⟨⟨w, devs, hf, h⟩, _⟩
  · exact h.et.choose_spec.2.2
  · rw [h]; exact he
  · exact absurd h (hr w devs hf)

end Lrvm
