import Verif.Spec.Run
import Verif.Props.Tools.Extended
import Verif.Props.Contiguous

/-!
# The runner: C61, C62
-/

namespace Lrvm

open Spec

variable {D : Type} [Bus D] {pf : Profile}

theorem limitExceeded_iff {cfg : RunConfig} {s : Machine D} :
    (s.halted || limitExceeded cfg s) = true ↔ Over cfg s := by
  unfold limitExceeded Over
  rw [Bool.or_eq_true]
  cases cfg.cyclesLimit with
  | none => simp
  | some l =>
    constructor
    · rintro (h | h)
      · exact .inl h
      · exact .inr ⟨l, rfl, by simpa [BitVec.lt_def] using h⟩
    · rintro (h | ⟨_, h, hl⟩)
      · exact .inl h
      · injection h with h; subst h
        exact .inr (by simpa [BitVec.lt_def] using hl)

theorem runTurn_exit {cfg : RunConfig} {s : Machine D} : runTurn pf cfg s = .exit ↔ Over cfg s := by
  rw [← limitExceeded_iff]
  unfold runTurn
  by_cases h : (s.halted || limitExceeded cfg s) = true
  · simp [h]
  · rw [if_neg h]
    simp only [h, iff_false]
    cases next pf s with
    | none => simp
    | some t =>
      dsimp only
      split
      · cases exceptionLine cfg s.regs.pc (exWithMode t.regs.et) with
        | none => simp
        | some l => dsimp only; split <;> simp
      · simp

theorem runTurn_not_over {cfg : RunConfig} {s : Machine D} (h : ¬ Over cfg s) : runTurn pf cfg s =
    match next pf s with
    | none => .panic
    | some s' =>
      if s'.regs.et != 0 then
        match exceptionLine cfg s.regs.pc (exWithMode s'.regs.et) with
        | none => .panic
        | some l => if cfg.haltOnException then .stop s' (exWithMode s'.regs.et) (cycleLine cfg s ++ l)
          else .again s' (cycleLine cfg s ++ l)
      else .again s' (cycleLine cfg s) := by
  rw [← limitExceeded_iff] at h
  unfold runTurn
  rw [if_neg h]
  cases next pf s <;> rfl

theorem runTurn_again {cfg : RunConfig} {s s' : Machine D} {l : List Text} (h : runTurn pf cfg s = .again s' l) :
    ¬ Over cfg s ∧ next pf s = some s' ∧ ¬ Signals cfg s' := by
  have ho : ¬ Over cfg s := fun ho => by rw [runTurn_exit.mpr ho] at h; cases h
  rw [runTurn_not_over ho] at h
  refine ⟨ho, ?_⟩
  cases hn : next pf s with
  | none => rw [hn] at h; cases h
  | some t =>
    rw [hn] at h
    dsimp only at h
    split at h
    · rename_i he
      cases hx : exceptionLine cfg s.regs.pc (exWithMode t.regs.et) with
      | none => rw [hx] at h; cases h
      | some l' =>
        rw [hx] at h; dsimp only at h
        split at h
        · cases h
        · rename_i hh
          injection h with h1 h2; subst h1
          exact ⟨rfl, fun hs => hh hs.1⟩
    · rename_i he
      injection h with h1 h2; subst h1
      exact ⟨rfl, fun hs => he (by simpa using hs.2)⟩

theorem runTurn_stop {cfg : RunConfig} {s s' : Machine D} {ex : ExWithMode} {l : List Text}
    (h : runTurn pf cfg s = .stop s' ex l) :
    ¬ Over cfg s ∧ next pf s = some s' ∧ Signals cfg s' ∧ ex = exWithMode s'.regs.et := by
  have ho : ¬ Over cfg s := fun ho => by rw [runTurn_exit.mpr ho] at h; cases h
  rw [runTurn_not_over ho] at h
  refine ⟨ho, ?_⟩
  cases hn : next pf s with
  | none => rw [hn] at h; cases h
  | some t =>
    rw [hn] at h
    dsimp only at h
    split at h
    · rename_i he
      cases hx : exceptionLine cfg s.regs.pc (exWithMode t.regs.et) with
      | none => rw [hx] at h; cases h
      | some l' =>
        rw [hx] at h; dsimp only at h
        split at h
        · rename_i hh
          injection h with h1 h2; subst h1
          exact ⟨rfl, ⟨hh, by simpa using he⟩, h2.symm⟩
        · cases h
    · cases h

theorem runTurn_panic {cfg : RunConfig} {s : Machine D} (h : runTurn pf cfg s = .panic) :
    ¬ Over cfg s ∧ (next pf s = none ∨ ∃ s', next pf s = some s' ∧ s'.regs.et ≠ 0 ∧
      exceptionLine cfg s.regs.pc (exWithMode s'.regs.et) = none) := by
  have ho : ¬ Over cfg s := fun ho => by rw [runTurn_exit.mpr ho] at h; cases h
  rw [runTurn_not_over ho] at h
  refine ⟨ho, ?_⟩
  cases hn : next pf s with
  | none => exact .inl rfl
  | some t =>
    rw [hn] at h
    dsimp only at h
    split at h
    · rename_i he
      cases hx : exceptionLine cfg s.regs.pc (exWithMode t.regs.et) with
      | none => exact .inr ⟨t, rfl, by simpa using he, hx⟩
      | some l' =>
        rw [hx] at h; dsimp only at h
        split at h <;> cases h
    · cases h

theorem exWithMode_describes (et : Word) : DescribesEt (exWithMode et) et := by
  have := et.isLt
  refine ⟨rfl, ?_, ?_, ?_⟩
  · show (((et >>> 24).setWidth 8 : U8) != 0) = true ↔ _
    rw [bne_iff_ne, Ne, ← BitVec.toNat_inj]
    simp only [BitVec.toNat_setWidth, BitVec.toNat_ushiftRight, Nat.shiftRight_eq_div_pow]
    rw [Nat.mod_eq_of_lt (by omega)]
    rfl
  · show ((et >>> 16).setWidth 8 : U8).toNat = _
    simp only [BitVec.toNat_setWidth, BitVec.toNat_ushiftRight, Nat.shiftRight_eq_div_pow]
  · show (((et >>> 8).setWidth 8 : U8) ++ (et.setWidth 8 : U8)).toNat = _
    rw [BitVec.toNat_append]
    simp only [BitVec.toNat_setWidth, BitVec.toNat_ushiftRight, Nat.shiftRight_eq_div_pow]
    rw [← Nat.shiftLeft_add_eq_or_of_lt (by omega), Nat.shiftLeft_eq]
    omega

/-! ### The loop and the cycles -/

theorem stopsAfter_zero {cfg : RunConfig} {s s' : Machine D} : StopsAfter pf cfg s 0 s' ↔ s' = s ∧ Over cfg s := by
  constructor
  · rintro ⟨h, ho, _⟩
    injection h with h; subst h
    refine ⟨rfl, ?_⟩
    rcases ho with h | ⟨h, _⟩
    · exact h
    · omega
  · rintro ⟨rfl, h⟩
    exact ⟨rfl, .inl h, fun k t hk => by omega⟩

/-- A run in two parts: the first cycle, then the others. -/
theorem stopsAfter_succ {cfg : RunConfig} {s s1 s' : Machine D} {n : Nat} (ho : ¬ Over cfg s)
    (hn : next pf s = some s1) : StopsAfter pf cfg s (n + 1) s' ↔
      (n = 0 ∧ s' = s1 ∧ (Over cfg s1 ∨ Signals cfg s1)) ∨ (0 < n ∧ ¬ Signals cfg s1 ∧ StopsAfter pf cfg s1 n s') := by
  have ha : ∀ k, nextN pf (k + 1) s = nextN pf k s1 := fun k => by
    show (next pf s).bind _ = _; rw [hn]; rfl
  constructor
  · rintro ⟨h, hs, hb⟩
    rw [ha] at h
    cases n with
    | zero =>
      injection h with h; subst h
      exact .inl ⟨rfl, rfl, hs.imp id (·.2)⟩
    | succ n =>
      have h1 := hb 1 s1 (by omega) (by rw [ha]; rfl)
      refine .inr ⟨by omega, h1.2 (by omega), h, hs.imp id (fun x => ⟨by omega, x.2⟩), ?_⟩
      intro k t hk hkt
      have := hb (k + 1) t (by omega) (by rw [ha]; exact hkt)
      exact ⟨this.1, fun _ => this.2 (by omega)⟩
  · rintro (⟨rfl, rfl, hs⟩ | ⟨hn0, hg, h, hs, hb⟩)
    · refine ⟨by rw [ha]; rfl, hs.imp id (fun x => ⟨by omega, x⟩), ?_⟩
      intro k t hk hkt
      obtain rfl : k = 0 := by omega
      injection hkt with hkt; subst hkt
      exact ⟨ho, fun h => by omega⟩
    · refine ⟨by rw [ha]; exact h, hs.imp id (fun x => ⟨by omega, x.2⟩), ?_⟩
      intro k t hk hkt
      cases k with
      | zero => injection hkt with hkt; subst hkt; exact ⟨ho, fun h => by omega⟩
      | succ k =>
        rw [ha] at hkt
        have := hb k t (by omega) hkt
        refine ⟨this.1, fun _ => ?_⟩
        cases k with
        | zero => injection hkt with hkt; subst hkt; exact hg
        | succ k => exact this.2 (by omega)

theorem lastAddr_succ {s s1 : Machine D} {n : Nat} {a : Word} (hn : next pf s = some s1) :
    LastAddr pf s (n + 1) a ↔ if n = 0 then a = s.regs.pc else LastAddr pf s1 n a := by
  cases n with
  | zero => simp [LastAddr, nextN]
  | succ n =>
    rw [if_neg (by omega)]
    show (∃ t, (next pf s).bind (nextN pf n) = some t ∧ _) ↔ ∃ t, nextN pf n s1 = some t ∧ _
    rw [hn]; rfl

/-- What a finished loop did. -/
theorem runLoop_sound {cfg : RunConfig} {s s' : Machine D} {a0 a : Word} {ls ls' : List Text} {ex : Option ExWithMode}
    (h : RunLoop pf cfg s a0 ls (some (s', a, ex, ls'))) :
    ∃ n, StopsAfter pf cfg s n s' ∧ (n = 0 → a = a0) ∧ (0 < n → LastAddr pf s n a) ∧
      (0 < n ∧ Signals cfg s' → ex = some (exWithMode s'.regs.et)) ∧ (¬ (0 < n ∧ Signals cfg s') → ex = none) := by
  generalize hr : some (s', a, ex, ls') = r at h
  induction h with
  | exit h =>
    injection hr with hr; injection hr with h1 h2; injection h2 with h2 h3; injection h3 with h3 h4
    subst h1 h2 h3 h4
    exact ⟨0, stopsAfter_zero.mpr ⟨rfl, runTurn_exit.mp h⟩, fun _ => rfl, fun h => by omega, fun h => by omega, fun _ => rfl⟩
  | @again s s1 b ls l r h hl ih =>
    obtain ⟨n, h1, h2, h3, h4, h5⟩ := ih hr
    obtain ⟨ho, hn, hg⟩ := runTurn_again h
    refine ⟨n + 1, (stopsAfter_succ ho hn).mpr ?_, fun h => by omega, fun _ => (lastAddr_succ hn).mpr ?_, ?_, ?_⟩
    · cases n with
      | zero =>
        obtain ⟨rfl, hv⟩ := stopsAfter_zero.mp h1
        exact .inl ⟨rfl, rfl, .inl hv⟩
      | succ n => exact .inr ⟨by omega, hg, h1⟩
    · split
      · rename_i h0; exact h2 h0
      · rename_i h0; exact h3 (by omega)
    · rintro ⟨_, hs⟩
      refine h4 ⟨?_, hs⟩
      cases n with
      | zero => obtain ⟨rfl, _⟩ := stopsAfter_zero.mp h1; exact absurd hs hg
      | succ n => omega
    · intro hs
      exact h5 fun ⟨_, hx⟩ => hs ⟨by omega, hx⟩
  | stop h =>
    injection hr with hr; injection hr with h1 h2; injection h2 with h2 h3; injection h3 with h3 h4
    subst h1 h2 h3 h4
    obtain ⟨ho, hn, hg, rfl⟩ := runTurn_stop h
    exact ⟨1, (stopsAfter_succ ho hn).mpr (.inl ⟨rfl, rfl, .inr hg⟩), fun h => by omega,
      fun _ => (lastAddr_succ hn).mpr (by rw [if_pos rfl]), fun _ => rfl, fun h => absurd ⟨by omega, hg⟩ h⟩
  | panic h => cases hr

/-- **C61**: when `run_vm` returns, it has run exactly the cycles after which it had to stop, and reports the cycle
count, the address of the last instruction run and the exception. -/
theorem C61_returns {cfg : RunConfig} {s s' : Machine D} {st : StoppedState} {out : List Text}
    (h : RunVm pf cfg s (some (s', st, out))) :
    ∃ n, StopsAfter pf cfg s n s' ∧ Reports pf cfg s n s' st := by
  obtain ⟨e, hl, he⟩ := h
  cases e with
  | none => cases he
  | some e =>
    obtain ⟨t, a, ex, ls⟩ := e
    have hst : t = s' ∧ st = ⟨s'.cycles, a, ex⟩ := by
      replace he : some (s', st, out) = runFinish cfg t a ex ls := he
      unfold runFinish at he
      split at he
      · cases hp : prettifyStop { cycles := t.cycles, addr := a, ex := ex } with
        | none => simp only [hp] at he; cases he
        | some x =>
          simp only [hp] at he
          injection he with he; injection he with h1 h2; injection h2 with h2 h3
          subst h1; exact ⟨rfl, h2⟩
      · injection he with he; injection he with h1 h2; injection h2 with h2 h3
        subst h1; exact ⟨rfl, h2⟩
    obtain ⟨rfl, rfl⟩ := hst
    obtain ⟨n, h1, h2, h3, h4, h5⟩ := runLoop_sound hl
    refine ⟨n, h1, rfl, ?_, ?_, h5⟩
    · cases n with
      | zero => exact h2 rfl
      | succ n => exact h3 (by omega)
    · intro hs
      exact ⟨_, h4 hs, exWithMode_describes _⟩

/-! ### Texts that cannot be made -/

theorem fromCode_none_iff (c : U8) : Reg.fromCode c = none ↔ 32 ≤ c.toNat := by
  refine ⟨fromCode_none, fun h => ?_⟩
  cases hr : Reg.fromCode c with
  | none => rfl
  | some r =>
    have := fromCode_some hr
    have h2 := r.code_lt
    rw [← this] at h2; omega

theorem prettify_none (et : Word) : prettifyExWithMode (exWithMode et) = none ↔ Unprintable et := by
  obtain ⟨_, _, hc, hd⟩ := exWithMode_describes et
  unfold Unprintable
  rw [← hc]
  have hlow : et.toNat % 256 = ((exWithMode et).associated.setWidth 8 : U8).toNat := by
    rw [BitVec.toNat_setWidth, hd]; omega
  rw [hlow]
  unfold prettifyExWithMode NativeException.decodeParts
  generalize (exWithMode et).associated = d
  generalize (exWithMode et).code.toNat = n
  simp only [Option.map_some]
  rw [← fromCode_none_iff]
  split
  · rename_i e he
    split at he <;> first
      | (injection he with he; subst he; simp [NativeException.display]; done)
      | skip
    · injection he with he; subst he
      simp only [NativeException.display]
      cases Reg.fromCode (BitVec.setWidth 8 d) <;> simp
    · injection he with he; subst he
      simp only [NativeException.display]
      cases Reg.fromCode (BitVec.setWidth 8 d) <;> simp
    · cases hx : AuxHwException.decode d with
      | none => simp only [Option.bind_eq_bind, Option.bind_some, hx] at he; cases he
      | some x =>
        simp only [Option.bind_eq_bind, Option.bind_some, hx] at he
        injection he with he; subst he
        simp [NativeException.display]
    · cases he
  · rename_i he
    split at he <;> first | (cases he; done) | simp_all

theorem not_unprintable_zero : ¬ Unprintable 0 := by
  rintro ⟨h | h, _⟩ <;> exact absurd h (by decide)

theorem exceptionLine_some {cfg : RunConfig} {a et : Word} (h : cfg.printExceptions = false ∨ ¬ Unprintable et) :
    ∃ l, exceptionLine cfg a (exWithMode et) = some l := by
  unfold exceptionLine
  split
  · rename_i hp
    rcases h with h | h
    · rw [h] at hp; cases hp
    · cases ht : prettifyExWithMode (exWithMode et) with
      | none => exact absurd ((prettify_none et).mp ht) h
      | some t => exact ⟨_, rfl⟩
  · exact ⟨_, rfl⟩

/-- The texts of the run can be made, or are not asked for. -/
def Printable (cfg : RunConfig) (s : Machine D) : Prop :=
  (cfg.printExceptions = false ∧ cfg.printFinish = false) ∨ ¬ Unprintable s.regs.et

theorem runLoop_complete {cfg : RunConfig} {s' : Machine D} {n : Nat} : ∀ {s : Machine D} {a0 : Word} {ls : List Text},
    StopsAfter pf cfg s n s' → (∀ k t, 0 < k → k ≤ n → nextN pf k s = some t → Printable cfg t) →
    ∃ a ex ls', RunLoop pf cfg s a0 ls (some (s', a, ex, ls')) := by
  induction n with
  | zero =>
    intro s a0 ls h _
    obtain ⟨rfl, ho⟩ := stopsAfter_zero.mp h
    exact ⟨_, _, _, .exit (runTurn_exit.mpr ho)⟩
  | succ n ih =>
    intro s a0 ls h hp
    have ho := (h.2.2 0 s (by omega) rfl).1
    cases hn : next pf s with
    | none => have := h.1; unfold nextN at this; rw [hn] at this; cases this
    | some s1 =>
      have ha : ∀ k, nextN pf (k + 1) s = nextN pf k s1 := fun k => by
        show (next pf s).bind _ = _; rw [hn]; rfl
      have hp1 := hp 1 s1 (by omega) (by omega) (by rw [ha]; rfl)
      obtain ⟨l, hl⟩ := exceptionLine_some (cfg := cfg) (a := s.regs.pc) (et := s1.regs.et) (hp1.imp (·.1) id)
      have hturn := runTurn_not_over (pf := pf) ho
      rw [hn] at hturn
      dsimp only at hturn
      rcases (stopsAfter_succ ho hn).mp h with ⟨rfl, rfl, hs⟩ | ⟨h0, hg, h1⟩
      · by_cases hg : Signals cfg s'
        · rw [if_pos (by simpa using hg.2), hl] at hturn
          dsimp only at hturn
          rw [if_pos hg.1] at hturn
          exact ⟨_, _, _, .stop hturn⟩
        · have hov : Over cfg s' := hs.resolve_right hg
          split at hturn
          · rename_i he
            rw [hl] at hturn
            dsimp only at hturn
            rw [if_neg (fun hh => hg ⟨hh, by simpa using he⟩)] at hturn
            exact ⟨_, _, _, .again hturn (.exit (runTurn_exit.mpr hov))⟩
          · exact ⟨_, _, _, .again hturn (.exit (runTurn_exit.mpr hov))⟩
      · have hp' : ∀ k t, 0 < k → k ≤ n → nextN pf k s1 = some t → Printable cfg t := fun k t hk hkn hkt =>
          hp (k + 1) t (by omega) (by omega) (by rw [ha]; exact hkt)
        split at hturn
        · rename_i he
          rw [hl] at hturn
          dsimp only at hturn
          rw [if_neg (fun hh => hg ⟨hh, by simpa using he⟩)] at hturn
          obtain ⟨a, ex, ls', hr⟩ := ih (a0 := s.regs.pc) (ls := ls ++ (cycleLine cfg s ++ l)) h1 hp'
          exact ⟨_, _, _, .again hturn hr⟩
        · obtain ⟨a, ex, ls', hr⟩ := ih (a0 := s.regs.pc) (ls := ls ++ (cycleLine cfg s)) h1 hp'
          exact ⟨_, _, _, .again hturn hr⟩

/-- **C61**: `run_vm` returns if there is a number of cycles after which it must stop and the texts it has to print can be
made. -/
theorem C61_stops {cfg : RunConfig} {s s' : Machine D} {n : Nat} (h : StopsAfter pf cfg s n s')
    (hp : ∀ k t, 0 < k → k ≤ n → nextN pf k s = some t → Printable cfg t) :
    ∃ st out, RunVm pf cfg s (some (s', st, out)) ∧ Reports pf cfg s n s' st := by
  obtain ⟨a, ex, ls, hl⟩ := runLoop_complete (a0 := s.regs.pc) (ls := []) h hp
  have hfin : ∃ out, runFinish cfg s' a ex ls = some (s', ⟨s'.cycles, a, ex⟩, out) := by
    unfold runFinish
    split
    · rename_i hpf
      have : ∃ t, prettifyStop { cycles := s'.cycles, addr := a, ex := ex } = some t := by
        unfold prettifyStop
        cases hex : ex with
        | none => exact ⟨_, rfl⟩
        | some e =>
          obtain ⟨m, h1, _, _, h4, h5⟩ := runLoop_sound hl
          have hs : 0 < m ∧ Signals cfg s' := by
            refine Classical.byContradiction fun hc => ?_
            rw [h5 hc] at hex; cases hex
          rw [h4 hs] at hex; injection hex with hex; subst hex
          have hn0 : 0 < n := by
            cases n with
            | zero =>
              obtain ⟨rfl, ho⟩ := stopsAfter_zero.mp h
              exact absurd ho (h1.2.2 0 _ (by omega) rfl).1
            | succ n => omega
          have hpr := hp n s' hn0 (by omega) h.1
          cases ht : prettifyExWithMode (exWithMode s'.regs.et) with
          | none =>
            rcases hpr with hpr | hpr
            · rw [hpr.2] at hpf; cases hpf
            · exact absurd ((prettify_none _).mp ht) hpr
          | some t => simp [ht]
      obtain ⟨t, ht⟩ := this
      simp [ht]
    · exact ⟨_, rfl⟩
  obtain ⟨out, hout⟩ := hfin
  have hrun : RunVm pf cfg s (some (s', ⟨s'.cycles, a, ex⟩, out)) := ⟨_, hl, hout.symm⟩
  refine ⟨_, _, hrun, ?_⟩
  obtain ⟨m, h1, h2⟩ := C61_returns hrun
  have hmn : m = n := by
    rcases Nat.lt_trichotomy m n with hlt | heq | hgt
    · have := h.2.2 m s' hlt h1.1
      rcases h1.2.1 with ho | ⟨h0, hg⟩
      · exact absurd ho this.1
      · exact absurd hg (this.2 h0)
    · exact heq
    · have := h1.2.2 n s' hgt h.1
      rcases h.2.1 with ho | ⟨h0, hg⟩
      · exact absurd ho this.1
      · exact absurd hg (this.2 h0)
  rw [← hmn]; exact h2

theorem runLoop_unique {cfg : RunConfig} {s : Machine D} {a : Word} {ls : List Text} {e e'}
    (h : RunLoop pf cfg s a ls e) (h' : RunLoop pf cfg s a ls e') : e = e' := by
  induction h with
  | exit h =>
    cases h' <;> rename_i h2 <;> try (rw [h] at h2; cases h2; done)
    · rfl
    · rename_i h3; rw [h] at h3; cases h3
  | again h hl ih =>
    cases h' with
    | exit h2 => rw [h] at h2; cases h2
    | again h2 hl2 => rw [h] at h2; injection h2 with h3 h4; subst h3 h4; exact ih hl2
    | stop h2 => rw [h] at h2; cases h2
    | panic h2 => rw [h] at h2; cases h2
  | stop h =>
    cases h' with
    | exit h2 => rw [h] at h2; cases h2
    | again h2 hl2 => rw [h] at h2; cases h2
    | stop h2 => rw [h] at h2; injection h2 with h3 h4 h5; subst h3 h4 h5; rfl
    | panic h2 => rw [h] at h2; cases h2
  | panic h =>
    cases h' with
    | exit h2 => rw [h] at h2; cases h2
    | again h2 hl2 => rw [h] at h2; cases h2
    | stop h2 => rw [h] at h2; cases h2
    | panic h2 => rfl

/-- **C61**: the outcome of `run_vm` is determined by the machine and the configuration. -/
theorem C61_deterministic {cfg : RunConfig} {s : Machine D} {r r'} (h : RunVm pf cfg s r) (h' : RunVm pf cfg s r') :
    r = r' := by
  obtain ⟨e, h1, rfl⟩ := h
  obtain ⟨e', h2, rfl⟩ := h'
  rw [runLoop_unique h1 h2]

theorem runLoop_panic {cfg : RunConfig} {s : Machine D} {a : Word} {ls : List Text} (h : RunLoop pf cfg s a ls none) :
    ∃ n t, nextN pf n s = some t ∧ ¬ Over cfg t ∧ (∀ k u, k ≤ n → nextN pf k s = some u → ¬ Over cfg u) ∧
      (next pf t = none ∨ ∃ t', next pf t = some t' ∧ cfg.printExceptions = true ∧ Unprintable t'.regs.et) := by
  generalize hr : none = r at h
  induction h with
  | exit h => cases hr
  | @again s s1 b ls l r h hl ih =>
    obtain ⟨n, t, h1, h2, h3, h4⟩ := ih hr
    obtain ⟨ho, hn, hg⟩ := runTurn_again h
    have ha : ∀ k, nextN pf (k + 1) s = nextN pf k s1 := fun k => by
      show (next pf s).bind _ = _; rw [hn]; rfl
    refine ⟨n + 1, t, by rw [ha]; exact h1, h2, ?_, h4⟩
    intro k u hk hku
    cases k with
    | zero => injection hku with hku; subst hku; exact ho
    | succ k => rw [ha] at hku; exact h3 k u (by omega) hku
  | stop h => cases hr
  | @panic s b ls h =>
    obtain ⟨ho, hx⟩ := runTurn_panic h
    refine ⟨0, s, rfl, ho, ?_, ?_⟩
    · intro k u hk hku
      obtain rfl : k = 0 := by omega
      injection hku with hku; subst hku; exact ho
    · refine hx.imp id ?_
      rintro ⟨t, hn, he, hl⟩
      refine ⟨t, hn, ?_⟩
      unfold exceptionLine at hl
      split at hl
      · rename_i hp
        rw [Bool.and_eq_true] at hp
        refine ⟨hp.1, ?_⟩
        cases hq : prettifyExWithMode (exWithMode t.regs.et) with
        | none => exact (prettify_none _).mp hq
        | some x => rw [hq] at hl; cases hl
      · cases hl

/-- **C61**: `run_vm` panics only if the processor crashes in one of the cycles, or if it has to print a content of `et`
that has no text. -/
theorem C61_panics {cfg : RunConfig} {s : Machine D} (h : RunVm pf cfg s none) :
    ∃ n t, nextN pf n s = some t ∧
      (next pf t = none ∨ (cfg.printExceptions = true ∨ cfg.printFinish = true) ∧ 0 < n ∧ Unprintable t.regs.et) := by
  obtain ⟨e, hl, he⟩ := h
  cases e with
  | none =>
    obtain ⟨n, t, h1, -, -, h2 | ⟨t', h2, h3, h4⟩⟩ := runLoop_panic hl
    · exact ⟨n, t, h1, .inl h2⟩
    · refine ⟨n + 1, t', ?_, .inr ⟨.inl h3, by omega, h4⟩⟩
      clear h3 h4 hl
      induction n generalizing s with
      | zero => injection h1 with h1; subst h1; unfold nextN; rw [h2]; rfl
      | succ n ih =>
        unfold nextN at h1 ⊢
        cases hn : next pf s with
        | none => rw [hn] at h1; cases h1
        | some s1 => rw [hn] at h1; exact ih h1
  | some e =>
    obtain ⟨s', a, ex, ls⟩ := e
    obtain ⟨n, h1, _, _, h4, h5⟩ := runLoop_sound hl
    refine ⟨n, s', h1.1, .inr ?_⟩
    replace he : none = runFinish cfg s' a ex ls := he
    unfold runFinish at he
    split at he
    · rename_i hp
      refine ⟨.inr hp, ?_⟩
      unfold prettifyStop at he
      cases hex : ex with
      | none => rw [hex] at he; cases he
      | some e =>
        have hs : 0 < n ∧ Signals cfg s' := by
          refine Classical.byContradiction fun hc => ?_
          rw [h5 hc] at hex; cases hex
        refine ⟨hs.1, ?_⟩
        rw [h4 hs] at he
        rw [← prettify_none]
        cases hq : prettifyExWithMode (exWithMode s'.regs.et) with
        | none => rfl
        | some x => simp [hq] at he
    · cases he

/-- The processor never fetches a RESET instruction. -/
def NoReset (pf : Profile) (s : Machine D) : Prop :=
  ∀ n t, nextN pf n s = some t → ∀ w devs, Fetches pf t w devs → opcode w ≠ 0x1F

theorem runLoop_limit {cfg : RunConfig} {l : U128} (hl : cfg.cyclesLimit = some l) (hlt : l.toNat + 1 < 2 ^ 128) {m : Nat} :
    ∀ {s : Machine D} {a : Word} {ls : List Text}, NoReset pf s → l.toNat + 1 - s.cycles.toNat ≤ m →
    ∃ e, RunLoop pf cfg s a ls e := by
  induction m with
  | zero =>
    intro s a ls _ hm
    exact ⟨_, .exit (runTurn_exit.mpr (.inr ⟨l, hl, by omega⟩))⟩
  | succ m ih =>
    intro s a ls hr hm
    cases ht : runTurn pf cfg s with
    | exit => exact ⟨_, .exit ht⟩
    | stop s' ex l => exact ⟨_, .stop ht⟩
    | panic => exact ⟨_, .panic ht⟩
    | again s' l' =>
      obtain ⟨ho, hn, _⟩ := runTurn_again ht
      have hh : s.halted = false := by
        cases hb : s.halted with
        | false => rfl
        | true => exact absurd (.inl hb) ho
      have hle : s.cycles.toNat ≤ l.toNat := by
        refine Nat.le_of_not_lt fun h => ho (.inr ⟨l, hl, h⟩)
      have hc : s'.cycles = s.cycles + 1 := by
        rcases C02_cycle_count hn hh with h1 | ⟨r0, r1, r2, p0, p1, p2, devs, m, hf, _, _, _⟩
        · exact h1
        · exact absurd (opcode_instrWord _ _ _ _ _ _ _) (hr 0 s rfl _ _ hf)
      have hc' : s'.cycles.toNat = s.cycles.toNat + 1 := by
        rw [hc, BitVec.toNat_add, show (1 : U128).toNat = 1 from rfl, Nat.mod_eq_of_lt (by omega)]
      have hr' : NoReset pf s' := fun n t hnt => hr (n + 1) t (by
        show (next pf s).bind _ = _; rw [hn]; exact hnt)
      obtain ⟨e, he⟩ := ih (s := s') (a := s.regs.pc) (ls := ls ++ l') hr' (by omega)
      exact ⟨e, .again ht he⟩

/-- **C61**, the limit, partial: with a cycle limit below the largest number, `run_vm` ends, if the program does not run
the RESET instruction. Missing: RESET sets the cycle counter back to 0 (`C61_limit_refuted`), and a counter that contains
the largest number never exceeds the limit. -/
theorem C61_limit_partial {cfg : RunConfig} {s : Machine D} {l : U128} (hl : cfg.cyclesLimit = some l)
    (hlt : l.toNat + 1 < 2 ^ 128) (hr : NoReset pf s) : ∃ r, RunVm pf cfg s r := by
  obtain ⟨e, he⟩ := runLoop_limit hl hlt (a := s.regs.pc) (ls := []) hr (Nat.le_refl _)
  exact ⟨_, e, he, rfl⟩

/-- If the machine comes back to itself, `run_vm` never ends. -/
theorem run_forever {cfg : RunConfig} {s : Machine D} (hn : next pf s = some s) (ho : ¬ Over cfg s)
    (he : s.regs.et = 0) : ¬ ∃ r, RunVm pf cfg s r := by
  have hN : ∀ n, nextN pf n s = some s := fun n => by
    induction n with
    | zero => rfl
    | succ n ih => show (next pf s).bind _ = _; rw [hn]; exact ih
  rintro ⟨r, h⟩
  cases r with
  | some r =>
    obtain ⟨s', st, out⟩ := r
    obtain ⟨n, h1, _⟩ := C61_returns h
    have := h1.1
    rw [hN n] at this; injection this with this; subst this
    rcases h1.2.1 with h | ⟨_, h⟩
    · exact ho h
    · exact h.2 he
  | none =>
    obtain ⟨n, t, h1, h2⟩ := C61_panics h
    rw [hN n] at h1; injection h1 with h1; subst h1
    rcases h2 with h2 | ⟨_, _, h2⟩
    · rw [hn] at h2; cases h2
    · rw [he] at h2; exact not_unprintable_zero h2

/-- A machine whose only instruction is `reset 0`. -/
def resetMachine : Machine Demo.Dev := Demo.start [Instr.encodeWord (.reset (.lit 0))]

/-- **C61**, refutation of "with a limit it always returns": a program that runs RESET is back at cycle 0 after each
cycle; whatever the limit, `run_vm` never ends. -/
theorem C61_limit_refuted (l : U128) :
    ¬ ∃ r, RunVm .debug (RunConfig.haltOnEx.withCyclesLimit (some l)) resetMachine r := by
  refine run_forever (by rfl) ?_ rfl
  rintro (h | ⟨_, _, h⟩)
  · cases h
  · exact absurd h (Nat.not_lt_zero _)

/-- A machine in userland mode whose first instruction reads the register with code `0x40`, which does not exist. -/
def unprintableMachine : Machine Demo.Dev :=
  { Demo.start [instrWord 0x01 false true false 0 0x40 0] with regs := Regs.zero }

/-- **C61**, refutation: with the default configuration a userland program can make `run_vm` panic although the processor
does not crash. Reading a register that does not exist in userland mode raises a "protected register" exception, whose
text looks the register up. -/
theorem C61_text_refuted : RunVm .debug RunConfig.default unprintableMachine none ∧
    ∃ s', next .debug unprintableMachine = some s' ∧ s'.regs.et = 0x00030040 ∧ Unprintable s'.regs.et :=
  ⟨⟨none, .panic rfl, rfl⟩, _, rfl, rfl, .inl rfl, by decide +kernel⟩

/-- A two-instruction program, `cpy a0, 7` then `halt`. -/
def shortMachine : Machine Demo.Dev :=
  Demo.start [Instr.encodeWord (.cpy .a0 (.lit 7)), Instr.encodeWord .halt]

/-- It stops after two cycles; the hypotheses of `C61_stops` are met. -/
example : ∃ s', StopsAfter .debug RunConfig.verbose shortMachine 2 s' ∧ s'.regs.a[0] = 7 ∧
    ∀ k t, 0 < k → k ≤ 2 → nextN .debug k shortMachine = some t → Printable RunConfig.verbose t := by
  refine ⟨_, ⟨rfl, .inl (.inl rfl), ?_⟩, rfl, ?_⟩
  · intro k t hk hkt
    match k, hk, hkt with
    | 0, _, hkt =>
      injection hkt with hkt; subst hkt
      exact ⟨(by rintro (h | ⟨_, h, _⟩) <;> cases h), by omega⟩
    | 1, _, hkt =>
      injection hkt with hkt; subst hkt
      exact ⟨(by rintro (h | ⟨_, h, _⟩) <;> cases h), fun _ h => by cases h.1⟩
  · intro k t hk hk2 hkt
    match k, hk, hk2, hkt with
    | 1, _, _, hkt => injection hkt with hkt; subst hkt; exact .inr not_unprintable_zero
    | 2, _, _, hkt => injection hkt with hkt; subst hkt; exact .inr not_unprintable_zero

/-- What it prints, and what is returned. -/
example : ∃ s', RunVm .debug (RunConfig.verbose.withCyclesLimit (some 10)) shortMachine (some (s', ⟨2, 4, none⟩,
    ["[lrvm] Running cycle 0x00000000 at address 0x00000000".toList,
      "[lrvm] Running cycle 0x00000001 at address 0x00000004".toList,
      "[lrvm] Cycle 0x00000002: CPU halted at address 0x00000004".toList])) :=
  ⟨_, some (_, _, _, _), .again rfl (.again rfl (.exit rfl)), by rfl⟩

/-- An exception stops the run. -/
example : ∃ s' out, RunVm .debug RunConfig.haltOnEx (Demo.start [0]) (some (s', ⟨1, 0, some ⟨0x01010000, true, 1, 0⟩⟩, out)) :=
  ⟨_, _, some (_, _, _, _), .stop rfl, by rfl⟩

/-! ## C62 -/

/-- Ranges that follow one another and never start at 0 do not wrap. -/
theorem packed_no_wrap {l : List Mapping} : ∀ {a : Word}, Packed a l → (∀ m ∈ l, RangeOk pf m) →
    (∀ m ∈ l, m.addr ≠ 0) → a.toNat + totalSize l ≤ 2 ^ 32 ∧
      ∀ k m, l[k]? = some m → m.addr.toNat = a.toNat + totalSize (l.take k) := by
  induction l with
  | nil =>
    intro a _ _ _
    refine ⟨?_, fun k m h => by simp at h⟩
    have := a.isLt
    show _ + 0 ≤ _
    omega
  | cons x xs ih =>
    intro a hp hr h0
    obtain ⟨hx, hp⟩ := hp
    have hfit : a.toNat + x.size.toNat ≤ 2 ^ 32 := by
      have := (hr x (by simp)).fits
      rw [hx] at this
      have : room pf ≤ 2 ^ 32 := by cases pf <;> simp [room]
      omega
    have hts : totalSize (x :: xs) = x.size.toNat + totalSize xs := by simp [totalSize]
    cases xs with
    | nil =>
      refine ⟨by rw [hts]; exact hfit, ?_⟩
      intro k m hk
      cases k with
      | zero => injection hk with hk; subst hk; rw [hx]; rfl
      | succ k => cases hk
    | cons y ys =>
      have hy : a + x.size ≠ 0 := by rw [← hp.1]; exact h0 y (by simp)
      have hn : (a + x.size).toNat = a.toNat + x.size.toNat := by
        rw [BitVec.toNat_add]
        refine Nat.mod_eq_of_lt ?_
        refine Nat.lt_of_le_of_ne hfit fun he => hy (BitVec.eq_of_toNat_eq ?_)
        rw [BitVec.toNat_add, he]; rfl
      obtain ⟨h1, h2⟩ := ih hp (fun m hm => hr m (by simp [hm])) (fun m hm => h0 m (by simp [hm]))
      refine ⟨by rw [hts]; omega, ?_⟩
      intro k m hk
      cases k with
      | zero => injection hk with hk; subst hk; rw [hx]; rfl
      | succ k =>
        rw [h2 k m hk, hn, List.take_succ_cons, show totalSize (x :: (y :: ys).take k) =
          x.size.toNat + totalSize ((y :: ys).take k) from by simp [totalSize]]
        omega

/-- A correct table that is packed from 0: each range starts where the ranges before it end, in the numbers and not only
modulo `2 ^ 32`. -/
theorem packed_exact {l : List Mapping} (hp : Packed 0 l) (ht : TableOk pf l) : totalSize l ≤ 2 ^ 32 ∧
    ∀ k m, l[k]? = some m → m.addr.toNat = totalSize (l.take k) := by
  cases l with
  | nil => exact ⟨by simp [totalSize], fun k m h => by simp at h⟩
  | cons x xs =>
    obtain ⟨hx, hp⟩ := hp
    have hd := ht.disjoint
    rw [List.pairwise_cons] at hd
    have hfit : x.size.toNat ≤ 2 ^ 32 := Nat.le_of_lt x.size.isLt
    have h0 : ∀ m ∈ xs, m.addr ≠ 0 := by
      intro m hm he
      refine hd.1 m hm 0 ⟨⟨?_, ?_⟩, ?_, ?_⟩
      · rw [hx]; exact Nat.le_refl _
      · rw [hx]; have := (ht.ranges x (by simp)).nonempty; simpa using this
      · rw [he]; exact Nat.le_refl _
      · rw [he]; have := (ht.ranges m (by simp [hm])).nonempty; simpa using this
    obtain ⟨h1, h2⟩ := packed_no_wrap (pf := pf) hp (fun m hm => ht.ranges m (by simp [hm])) h0
    rw [show (0 + x.size).toNat = x.size.toNat from congrArg _ (BitVec.zero_add _)] at h1 h2
    refine ⟨by simpa [totalSize] using h1, ?_⟩
    intro k m hk
    cases k with
    | zero => injection hk with hk; subst hk; rw [hx]; rfl
    | succ k => rw [h2 k m hk]; simp [totalSize]

/-- **C62**: when `prepare_vm` returns, the processor is running in its startup state with its counter at zero, every
component is mapped, in order, contiguously from address 0, with the size and identifier it advertises, and has been
reset. -/
theorem C62_ready {ds : List D} {s : Machine D} (h : prepareVm pf ds = some s) :
    s.regs = startup ∧ s.halted = false ∧ s.cycles = 0 ∧ s.memCache = s.hwbCache ∧ resetAll ds = some s.devs ∧
    s.mappings.map (·.auxId) = List.range ds.length ∧ TableOk pf s.mappings ∧ totalSize s.mappings ≤ 2 ^ 32 ∧
    (∀ k m, s.mappings[k]? = some m → m.addr.toNat = totalSize (s.mappings.take k)) ∧
    ∀ m ∈ s.mappings, ∃ c, s.memCache[m.auxId]? = some c ∧ m.size = c.size ∧ m.auxHwId = c.hwId := by
  unfold prepareVm at h
  simp only [Option.bind_eq_bind, Option.bind_eq_some_iff] at h
  obtain ⟨s0, h0, ⟨r, s1⟩, h1, h2⟩ := h
  have hlay := C47_layout h1
  unfold newBoard at h0
  simp only [Option.bind_eq_bind, Option.bind_eq_some_iff] at h0
  obtain ⟨_, _, c1, hc1, c2, hc2, h0⟩ := h0
  injection h0 with h0; subst h0
  obtain ⟨new, hs1, hp, hids, hnew⟩ := hlay.2.1
  cases hr : r.mapping with
  | error e => rw [hr] at h2; cases h2
  | ok rng =>
    simp only [hr] at h2
    have hm := (hlay.2.2.2 rng hr).1
    unfold boardReset at h2
    simp only [Option.bind_eq_bind, Option.bind_eq_some_iff] at h2
    obtain ⟨devs, hd, h2⟩ := h2
    injection h2 with h2; subst h2
    have hcc : c1 = c2 := by rw [hc1] at hc2; injection hc2
    subst hs1 hcc
    have ht := mapContiguous_tableOk (pf := pf) ⟨by simp, .nil, .nil⟩ h1
    have hx := packed_exact hp ht
    exact ⟨rfl, rfl, rfl, rfl, hd, hids.trans hm, ht, hx.1, hx.2, hnew⟩

/-- **C62**: `prepare_vm` panics only if a component's metadata cannot be used, there are too many components, some
component cannot be mapped, or a component's own reset panics. -/
theorem C62_panics {ds : List D} (h : prepareVm pf ds = none) :
    newBoard pf ds = none ∨ ∃ s0, newBoard pf ds = some s0 ∧
      (mapContiguous pf s0 0 (List.range ds.length) = none ∨
        (∃ r s1 fs, mapContiguous pf s0 0 (List.range ds.length) = some (r, s1) ∧ r.mapping = .error fs ∧ fs ≠ []) ∨
        resetAll ds = none) := by
  unfold prepareVm at h
  cases h0 : newBoard pf ds with
  | none => exact .inl rfl
  | some s0 =>
    refine .inr ⟨s0, rfl, ?_⟩
    cases h1 : mapContiguous pf s0 0 (List.range ds.length) with
    | none => exact .inl rfl
    | some p =>
      obtain ⟨r, s1⟩ := p
      right
      have hlay := C47_layout h1
      obtain ⟨new, hs1, _⟩ := hlay.2.1
      cases hr : r.mapping with
      | error fs => exact .inl ⟨r, s1, fs, rfl, hr, (hlay.2.2.1 fs hr).2⟩
      | ok rng =>
        right
        simp only [h0, h1, Option.bind_eq_bind, Option.bind_some, hr] at h
        unfold newBoard at h0
        simp only [Option.bind_eq_bind, Option.bind_eq_some_iff] at h0
        obtain ⟨_, _, c1, hc1, c2, hc2, h0⟩ := h0
        injection h0 with h0; subst h0 hs1
        unfold boardReset at h
        cases hd : resetAll ds with
        | none => rfl
        | some devs => simp [hd, Machine.cpuReset] at h

/-- The example board is one that `prepare_vm` makes. -/
example : prepareVm .debug (Demo.devices [0x12345678]) = some (Demo.start [0x12345678]) := by rfl

end Lrvm
