import Verif.Spec.RunLines
import Verif.Props.Tools.Run
import Verif.Props.Tools.Lasm
import Verif.Lemmas.LastException

/-!
# What the runner prints: C95, C96
-/

namespace Lrvm

open Spec Spec.RunLines

variable {D : Type} [Bus D] {pf : Profile}

/-! ## Texts -/

theorem upperDigit_toUpper {n : Nat} (h : n < 16) : upperDigit n = n.digitChar.toUpper := by
  have : ∀ k : Fin 16, upperDigit k = (k.val.digitChar).toUpper := by decide
  exact this ⟨n, h⟩

theorem digits_toDigits {base : Nat} (h2 : 2 ≤ base) (hb : base ≤ 16) (n : Nat) :
    digits base n = (Nat.toDigits base n).map Char.toUpper := by
  induction n using Nat.strongRecOn with
  | _ n ih =>
    rw [Nat.toDigits_eq_if (by omega)]
    split
    · rename_i h
      have : digits base n = [upperDigit n] := by unfold digits; simp [digitsAux, h]
      rw [this, upperDigit_toUpper (by omega)]; rfl
    · rename_i h
      have hm := Nat.mod_lt n (show 0 < base by omega)
      rw [digits_step h2 (by omega), ih _ (Nat.div_lt_self (by omega) (by omega)), List.map_append,
        upperDigit_toUpper (by omega)]
      rfl

theorem digits_ten (n : Nat) : digits 10 n = Nat.toDigits 10 n := by
  rw [digits_toDigits (by omega) (by omega)]
  refine (List.map_congr_left fun c hc => ?_).trans (List.map_id' _)
  have h := Nat.isDigit_of_mem_toDigits (by omega) (by omega) hc
  unfold Char.toUpper
  rw [dif_neg]
  unfold Char.isDigit at h
  simp only [Bool.and_eq_true, decide_eq_true_eq] at h
  intro hh
  have h1 := h.2; have h2 := hh.1
  exact absurd (UInt32.le_trans h2 h1) (by decide)

theorem fmtHex_hex (w n : Nat) : fmtHex (w + 2) n = hex w n := by
  unfold fmtHex hex zeroes padLeft
  rw [digits_toDigits (by omega) (by omega)]
  rfl

theorem registerName {c : U8} {r : Reg} (h : Reg.fromCode c = some r) : registerNames.getD c.toNat "" = r.name := by
  rw [fromCode_some h]
  cases r <;> rfl

theorem hardware_text (d : U16) : (AuxHwException.decode d).map AuxHwException.display = hardwareText d.toNat := by
  have h1 : ((d >>> 8).setWidth 8 : U8).toNat = d.toNat / 256 := by
    rw [BitVec.toNat_setWidth, BitVec.toNat_ushiftRight, Nat.shiftRight_eq_div_pow]
    have := d.isLt; omega
  have h2 : (d.setWidth 8 : U8).toNat = d.toNat % 256 := by rw [BitVec.toNat_setWidth]
  unfold AuxHwException.decode AuxHwException.decodeParts hardwareText
  rw [h1, ← h2, ← fmtHex_hex]
  generalize d.toNat / 256 = m
  generalize (d.setWidth 8 : U8) = lo
  simp only [Option.map_some]
  split
  case h_10 => simp
  all_goals rfl

/-- The text of a printable content of `et`. -/
theorem prettify_text {et : Word} (h : ¬ Unprintable et) : prettifyExWithMode (exWithMode et) = some (etText et) := by
  rw [← prettify_none] at h
  obtain ⟨_, _, hc, hd⟩ := exWithMode_describes et
  unfold etText
  rw [← hc, ← hd]
  revert h
  unfold prettifyExWithMode
  generalize ho : NativeException.decodeParts (exWithMode et).code (some (exWithMode et).associated) = o
  revert ho
  unfold NativeException.decodeParts
  generalize (exWithMode et).associated = d
  generalize (exWithMode et).code.toNat = n
  have h2 : d.toNat % 256 = (d.setWidth 8 : U8).toNat := by rw [BitVec.toNat_setWidth]
  simp only [Option.map_some]
  unfold exceptionText
  rw [h2]
  simp only [← fmtHex_hex]
  intro ho
  split at ho <;> intro h
  case h_17 =>
    simp only [Option.bind_eq_bind, Option.bind_some] at ho
    rw [← hardware_text, ← ho]
    cases AuxHwException.decode d <;> rfl
  case h_3 =>
    subst ho
    dsimp only [NativeException.display] at h ⊢
    cases hr : Reg.fromCode (d.setWidth 8) with
    | none => rw [hr] at h; exact absurd rfl h
    | some r => rw [registerName hr]; rfl
  case h_4 =>
    subst ho
    dsimp only [NativeException.display] at h ⊢
    cases hr : Reg.fromCode (d.setWidth 8) with
    | none => rw [hr] at h; exact absurd rfl h
    | some r => rw [registerName hr]; rfl
  case h_5 =>
    subst ho
    dsimp only [NativeException.display, fmtDec]
    rw [digits_ten]; rfl
  case h_19 =>
    subst ho
    clear h hc hd h2
    refine congrArg some ?_
    split <;> first | contradiction | rfl
  all_goals (subst ho; rfl)

/-! ## Lines -/

theorem cycleLine_eq (cfg : RunConfig) (s : Machine D) : cycleLine cfg s = announced cfg s := by
  unfold cycleLine announced
  simp only [fmtHex_hex 8]

theorem exceptionLine_eq {cfg : RunConfig} {s t : Machine D} {l : List Text} (he : t.regs.et ≠ 0)
    (h : exceptionLine cfg s.regs.pc (exWithMode t.regs.et) = some l) : l = reported cfg s t := by
  unfold exceptionLine at h
  unfold reported
  split at h
  · rename_i hc
    have hr : reportsWhileRunning cfg := by
      unfold reportsWhileRunning
      revert hc
      cases cfg.printExceptions <;> cases cfg.haltOnException <;> cases cfg.printFinish <;> simp
    rw [if_pos ⟨hr, he⟩]
    cases hp : prettifyExWithMode (exWithMode t.regs.et) with
    | none => rw [hp] at h; cases h
    | some x =>
      have hx := prettify_text fun hu => by rw [(prettify_none _).mpr hu] at hp; cases hp
      rw [hp] at hx h; injection hx with hx; subst hx
      injection h with h
      rw [← h, fmtHex_hex 8]
  · rename_i hc
    injection h with h
    rw [if_neg, ← h]
    rintro ⟨hr, _⟩
    unfold reportsWhileRunning at hr
    refine hc ?_
    revert hr
    cases cfg.printExceptions <;> cases cfg.haltOnException <;> cases cfg.printFinish <;> simp

theorem reported_zero {cfg : RunConfig} {s t : Machine D} (he : t.regs.et = 0) : reported cfg s t = [] := by
  unfold reported
  rw [if_neg fun h => h.2 he]

theorem runTurn_lines {cfg : RunConfig} {s t : Machine D} {l : List Text}
    (h : runTurn pf cfg s = .again t l ∨ ∃ ex, runTurn pf cfg s = .stop t ex l) :
    l = announced cfg s ++ reported cfg s t := by
  have ho : ¬ Over cfg s := fun ho => by
    rw [runTurn_exit.mpr ho] at h; rcases h with h | ⟨_, h⟩ <;> cases h
  rw [runTurn_not_over ho] at h
  cases hn : next pf s with
  | none => rw [hn] at h; rcases h with h | ⟨_, h⟩ <;> cases h
  | some u =>
    rw [hn] at h; dsimp only at h
    split at h
    · rename_i he
      cases hx : exceptionLine cfg s.regs.pc (exWithMode u.regs.et) with
      | none => rw [hx] at h; rcases h with h | ⟨_, h⟩ <;> cases h
      | some l' =>
        rw [hx] at h; dsimp only at h
        rw [exceptionLine_eq (by simpa using he) hx] at h
        split at h
        · rcases h with h | ⟨_, h⟩
          · cases h
          · injection h with h1 h2 h3; rw [← h3, ← h1, cycleLine_eq]
        · rcases h with h | ⟨_, h⟩
          · injection h with h1 h3; rw [← h3, ← h1, cycleLine_eq]
          · cases h
    · rename_i he
      have he' : u.regs.et = 0 := by simpa using he
      rcases h with h | ⟨_, h⟩
      · injection h with h1 h3; rw [← h3, ← h1, cycleLine_eq, reported_zero he', List.append_nil]
      · cases h

/-- What a finished loop printed. -/
theorem runLoop_lines {cfg : RunConfig} {s s' : Machine D} {a0 a : Word} {ls ls' : List Text} {ex : Option ExWithMode}
    (h : RunLoop pf cfg s a0 ls (some (s', a, ex, ls'))) :
    ∃ n l, StopsAfter pf cfg s n s' ∧ Printed pf cfg n s l ∧ ls' = ls ++ l := by
  generalize hr : some (s', a, ex, ls') = r at h
  induction h with
  | exit h =>
    injection hr with hr; injection hr with h1 h2; injection h2 with h2 h3; injection h3 with h3 h4
    subst h1 h2 h3 h4
    exact ⟨0, [], stopsAfter_zero.mpr ⟨rfl, runTurn_exit.mp h⟩, .zero _, (List.append_nil _).symm⟩
  | @again s s1 b ls l r h hl ih =>
    obtain ⟨n, l', h1, h2, h3⟩ := ih hr
    obtain ⟨ho, hn, hg⟩ := runTurn_again h
    refine ⟨n + 1, _, (stopsAfter_succ ho hn).mpr ?_, .succ hn h2, ?_⟩
    · cases n with
      | zero =>
        obtain ⟨rfl, hv⟩ := stopsAfter_zero.mp h1
        exact .inl ⟨rfl, rfl, .inl hv⟩
      | succ n => exact .inr ⟨by omega, hg, h1⟩
    · rw [h3, runTurn_lines (.inl h), List.append_assoc]
  | stop h =>
    injection hr with hr; injection hr with h1 h2; injection h2 with h2 h3; injection h3 with h3 h4
    subst h1 h2 h3 h4
    obtain ⟨ho, hn, hg, rfl⟩ := runTurn_stop h
    refine ⟨1, _, (stopsAfter_succ ho hn).mpr (.inl ⟨rfl, rfl, .inr hg⟩), .succ hn (.zero _), ?_⟩
    rw [runTurn_lines (.inr ⟨_, h⟩), List.append_nil]
  | panic h => cases hr

theorem runFinish_lines {cfg : RunConfig} {s s' : Machine D} {a : Word} {ex : Option ExWithMode} {ls out : List Text}
    {st : StoppedState} (hex : ∀ e, ex = some e → ∃ et, e = exWithMode et)
    (h : runFinish cfg s a ex ls = some (s', st, out)) : out = ls ++ finish cfg st := by
  unfold runFinish at h
  unfold finish
  split at h
  · rename_i hp
    rw [if_pos hp]
    cases hq : prettifyStop { cycles := s.cycles, addr := a, ex := ex } with
    | none => simp only [hq] at h; cases h
    | some x =>
      simp only [hq] at h
      injection h with h; injection h with h1 h2; injection h2 with h2 h3
      subst h2 h3
      rw [List.append_assoc]
      refine congrArg _ (congrArg _ (congrArg (fun x => [x]) ?_))
      unfold prettifyStop at hq
      simp only [fmtHex_hex 8] at hq
      cases ex with
      | none =>
        injection hq with hq
        rw [← hq]; simp
      | some e =>
        obtain ⟨et, rfl⟩ := hex e rfl
        cases hy : prettifyExWithMode (exWithMode et) with
        | none => simp only [hy] at hq; cases hq
        | some y =>
          have hx := prettify_text fun hu => by rw [(prettify_none et).mpr hu] at hy; cases hy
          rw [hy] at hx; injection hx with hx; subst hx
          simp only [hy] at hq
          injection hq with hq
          have hm : (if (exWithMode et).svMode then "supervisor" else "userland").toList =
              if et.toNat / 2 ^ 24 = 0 then "userland".toList else "supervisor".toList := by
            have := (exWithMode_describes et).2.1
            by_cases h0 : et.toNat / 2 ^ 24 = 0
            · rw [if_pos h0, if_neg fun h => this.mp h h0]
            · rw [if_neg h0, if_pos (this.mpr h0)]
          rw [← hq, hm]
          simp only [List.append_assoc]
          rfl
  · rename_i hp
    rw [if_neg hp]
    injection h with h; injection h with h1 h2; injection h2 with h2 h3
    rw [← h3, List.append_nil]

/-- **C95**: when `run_vm` returns, the lines it has printed are exactly those announced and reported for the cycles it
ran, then the last lines if they are asked for. -/
theorem C95_lines {cfg : RunConfig} {s s' : Machine D} {st : StoppedState} {out : List Text}
    (h : RunVm pf cfg s (some (s', st, out))) :
    ∃ n ls, StopsAfter pf cfg s n s' ∧ Printed pf cfg n s ls ∧ out = ls ++ finish cfg st := by
  obtain ⟨e, hl, he⟩ := h
  cases e with
  | none => cases he
  | some e =>
    obtain ⟨t, a, ex, ls⟩ := e
    replace he : some (s', st, out) = runFinish cfg t a ex ls := he
    obtain ⟨n, _, _, _, h4, h5⟩ := runLoop_sound hl
    have hf := runFinish_lines (fun e h => by
      refine ⟨t.regs.et, ?_⟩
      by_cases hs : 0 < n ∧ Signals cfg t
      · rw [h4 hs] at h; injection h with h; exact h.symm
      · rw [h5 hs] at h; cases h) he.symm
    obtain ⟨m, l, h1, h2, h3⟩ := runLoop_lines hl
    have ht : t = s' := by
      replace he := he.symm
      unfold runFinish at he
      split at he
      · cases hp : prettifyStop { cycles := t.cycles, addr := a, ex := ex } with
        | none => simp only [hp] at he; cases he
        | some x => simp only [hp] at he; injection he with he; injection he
      · injection he with he; injection he
    subst ht
    exact ⟨m, l, h1, h2, by rw [hf, h3, List.nil_append]⟩

/-- **C95**: a quiet run prints nothing. -/
theorem C95_quiet {cfg : RunConfig} {s s' : Machine D} {st : StoppedState} {out : List Text}
    (h1 : cfg.printCycles = false) (h2 : cfg.printExceptions = false) (h3 : cfg.printFinish = false)
    (h : RunVm pf cfg s (some (s', st, out))) : out = [] := by
  obtain ⟨n, ls, hs, hp, rfl⟩ := C95_lines h
  have : ls = [] := by
    clear h hs
    induction hp with
    | zero => rfl
    | succ _ _ ih =>
      rw [ih]
      unfold announced reported reportsWhileRunning
      simp [h1, h2]
  rw [this]
  unfold finish
  rw [if_neg (by simp [h3])]; rfl

/-- The hypotheses are met: a run that prints cycles, an exception and the last line. -/
example : ∃ s' out, RunVm .debug (RunConfig.verbose.withCyclesLimit (some 0)) (Demo.start [0])
    (some (s', ⟨1, 0, none⟩, out)) ∧ out =
    ["[lrvm] Running cycle 0x00000000 at address 0x00000000".toList,
      "[lrvm] At address 0x00000000 - Exception occurred: Unknown opcode 0x00".toList,
      "[lrvm] Cycle 0x00000001: CPU halted at address 0x00000000".toList] :=
  ⟨_, _, ⟨some (_, _, _, _), .again rfl (.exit rfl), rfl⟩, rfl⟩

/-! ## C96: one report per exception -/

/-- A program with one exception: it sets the vector to 12, has an unknown opcode at address 4, and its handler at address 12
runs `cpy a0, 1` and `halt`. -/
def onceMachine : Machine Demo.Dev :=
  Demo.start [Instr.encodeWord (.cpy .ev (.lit 12)), 0, 0, Instr.encodeWord (.cpy .a0 (.lit 1)), Instr.encodeWord .halt]

/-- The report of the exception, at a given address. -/
def onceLine (a : String) : Text := "[lrvm] At address ".toList ++ a.toList ++ " - Exception occurred: Unknown opcode 0x00".toList

/-- **C96**, refutation of "an exception is reported once, when it occurs": `et` is not 0 until the processor is reset, so after
an exception handled by the program itself, the runner reports it again after every later cycle, at addresses of instructions
that ran without exception. -/
theorem C96_once_refuted : ∃ (s2 s3 s4 : Machine Demo.Dev) (st : StoppedState) (last : Text),
    RunVm .debug RunConfig.default onceMachine (some (s4, st,
      [onceLine "0x00000004", onceLine "0x0000000C", onceLine "0x00000010", last])) ∧
    nextN .debug 2 onceMachine = some s2 ∧ Raised s2 0x01 0 ∧ s2.regs.pc = 12 ∧
    next .debug s2 = some s3 ∧ s3.regs.a[0] = 1 ∧ s3.regs.pc = 16 ∧
    next .debug s3 = some s4 ∧ s4.halted = true ∧ st.ex = none :=
  ⟨_, _, _, _, _, ⟨some (_, _, _, _), .again rfl (.again rfl (.again rfl (.again rfl (.exit rfl)))), rfl⟩, rfl,
    ⟨by decide, by decide, _, rfl⟩, rfl, rfl, rfl, rfl, rfl, rfl, rfl⟩

theorem printed_silent {cfg : RunConfig} {n : Nat} : ∀ {s : Machine D} {ls : List Text}, Printed pf cfg n s ls →
    (∀ k t, 0 < k → k ≤ n → nextN pf k s = some t → t.regs.et = 0) →
    Printed pf { cfg with printExceptions := false } n s ls := by
  induction n with
  | zero => intro s ls h _; cases h; exact .zero _
  | succ n ih =>
    intro s ls h hk
    cases h with
    | @succ _ _ t l hn h =>
      have ha : ∀ k, nextN pf (k + 1) s = nextN pf k t := fun k => by
        show (next pf s).bind _ = _; rw [hn]; rfl
      have := ih h fun k u h0 hle hu => hk (k + 1) u (by omega) (by omega) (by rw [ha]; exact hu)
      have he := hk 1 t (by omega) (by omega) (by rw [ha]; rfl)
      rw [reported_zero he]
      have h2 := Printed.succ (cfg := { cfg with printExceptions := false }) hn this
      rw [reported_zero he] at h2
      exact h2

theorem printed_last {cfg : RunConfig} {n : Nat} : ∀ {s s' : Machine D} {ls : List Text}, Printed pf cfg (n + 1) s ls →
    nextN pf (n + 1) s = some s' → (∀ k t, 0 < k → k ≤ n → nextN pf k s = some t → t.regs.et = 0) →
    ∃ l t, Printed pf { cfg with printExceptions := false } (n + 1) s l ∧ nextN pf n s = some t ∧
      ls = l ++ reported cfg t s' := by
  induction n with
  | zero =>
    intro s s' ls h hs _
    cases h with
    | @succ _ _ t l hn h =>
      cases h
      have : t = s' := by unfold nextN at hs; rw [hn] at hs; injection hs
      subst this
      have h2 := Printed.succ (cfg := { cfg with printExceptions := false }) hn (.zero _)
      refine ⟨_, s, h2, rfl, ?_⟩
      have h3 : reported { cfg with printExceptions := false } s t = [] := by
        unfold reported reportsWhileRunning; simp
      rw [h3]; simp [announced]
  | succ n ih =>
    intro s s' ls h hs hk
    cases h with
    | @succ _ _ t l hn h =>
      have ha : ∀ k, nextN pf (k + 1) s = nextN pf k t := fun k => by
        show (next pf s).bind _ = _; rw [hn]; rfl
      obtain ⟨l', u, h1, h2, h3⟩ := ih h (by rw [← ha]; exact hs) fun k u h0 hle hu =>
        hk (k + 1) u (by omega) (by omega) (by rw [ha]; exact hu)
      have he := hk 1 t (by omega) (by omega) (by rw [ha]; rfl)
      refine ⟨_, u, .succ hn h1, by rw [ha]; exact h2, ?_⟩
      rw [reported_zero he, reported_zero he, h3]
      simp [announced]

/-- **C96**, partial: when the runner stops on exceptions, it reports the exception that stopped it, once (in a line of its
own, or in the last line if there is one), and nothing else: besides that line, the lines are those of a run that is not asked
to print exceptions. Missing: the runs that do not stop on exceptions (`C96_once_refuted`, `C96_every_cycle_partial`). -/
theorem C96_halting_partial {cfg : RunConfig} {s s' : Machine D} {st : StoppedState} {out : List Text}
    (hh : cfg.haltOnException = true) (h : RunVm pf cfg s (some (s', st, out))) :
    ∃ n ls, StopsAfter pf cfg s n s' ∧ Printed pf { cfg with printExceptions := false } n s ls ∧
      out = ls ++ (match st.ex with
        | some e => if cfg.printExceptions = true ∧ cfg.printFinish = false then
            ["[lrvm] At address ".toList ++ hex 8 st.addr.toNat ++ " - Exception occurred: ".toList ++ etText e.raw]
          else []
        | none => []) ++ finish cfg st := by
  obtain ⟨n, ls, h1, h2, h3⟩ := C95_lines h
  obtain ⟨m, h4, h5⟩ := C61_returns h
  obtain rfl : m = n := by
    refine Nat.le_antisymm (Nat.le_of_not_lt fun hl => ?_) (Nat.le_of_not_lt fun hl => ?_)
    · have := h4.2.2 n _ hl h1.1
      exact h1.2.1.elim this.1 (fun hx => this.2 hx.1 hx.2)
    · have := h1.2.2 m _ hl h4.1
      exact h4.2.1.elim this.1 (fun hx => this.2 hx.1 hx.2)
  have hz : ∀ k t, 0 < k → k < m → nextN pf k s = some t → t.regs.et = 0 := fun k t h0 hk hkt =>
    Classical.byContradiction fun he => (h1.2.2 k t hk hkt).2 h0 ⟨hh, he⟩
  cases m with
  | zero =>
    cases h2
    refine ⟨0, [], h1, .zero _, ?_⟩
    rw [h5.2.2.2 (by omega), h3]
    rfl
  | succ n =>
    obtain ⟨l, t, h6, h7, rfl⟩ := printed_last h2 h1.1 fun k t h0 hk => hz k t h0 (by omega)
    refine ⟨n + 1, l, h1, h6, ?_⟩
    rw [h3]
    refine congrArg (· ++ _) (congrArg (l ++ ·) ?_)
    by_cases hs : Signals cfg s'
    · obtain ⟨e, he, hd⟩ := h5.2.2.1 ⟨by omega, hs⟩
      rw [he]
      dsimp only
      have hr : (reportsWhileRunning cfg ∧ s'.regs.et ≠ 0) ↔ cfg.printExceptions = true ∧ cfg.printFinish = false := by
        constructor
        · rintro ⟨⟨a, b⟩, _⟩
          refine ⟨a, ?_⟩
          cases hf : cfg.printFinish with
          | false => rfl
          | true => exact absurd ⟨hh, hf⟩ b
        · rintro ⟨a, b⟩
          exact ⟨⟨a, fun c => by rw [b] at c; cases c.2⟩, hs.2⟩
      obtain ⟨u, hu, ha⟩ := h5.2.1
      rw [h7] at hu; injection hu with hu; subst hu
      unfold reported
      by_cases hc : cfg.printExceptions = true ∧ cfg.printFinish = false
      · rw [if_pos hc, if_pos (hr.mpr hc), ha, hd.1]
      · rw [if_neg hc, if_neg fun h => hc (hr.mp h)]
    · rw [h5.2.2.2 fun h => hs h.2]
      refine reported_zero (Classical.byContradiction fun he => hs ⟨hh, he⟩)

theorem et_persists {s t : Machine D} {j : Nat} (hr : NoReset pf s) (he : s.regs.et ≠ 0) (h : nextN pf j s = some t) :
    t.regs.et ≠ 0 := by
  induction j generalizing s with
  | zero => injection h with h; subst h; exact he
  | succ j ih =>
    unfold nextN at h
    cases hn : next pf s with
    | none => rw [hn] at h; cases h
    | some u =>
      rw [hn] at h
      refine ih (fun n v hv => hr (n + 1) v (by show (next pf s).bind _ = _; rw [hn]; exact hv)) ?_ h
      rcases et_after hn with ⟨c, d, h⟩ | h | ⟨⟨w, devs, hf, ho⟩, _⟩
      · exact h.et.choose_spec.2.2
      · rw [h]; exact he
      · exact absurd ho (hr 0 s rfl w devs hf)

/-- **C96**, partial: when the runner prints exceptions and does not stop on them and the program does not run RESET, every
cycle after an exception is reported as an exception, with the text of the last one: `et` is not 0 any more. -/
theorem C96_every_cycle_partial {cfg : RunConfig} {s t t' : Machine D} {code data j : Nat} (hp : cfg.printExceptions = true)
    (hh : cfg.haltOnException = false) (hx : Raised s code data) (hr : NoReset pf s) (h1 : nextN pf j s = some t)
    (h2 : next pf t = some t') : reported cfg t t' =
      ["[lrvm] At address ".toList ++ hex 8 t.regs.pc.toNat ++ " - Exception occurred: ".toList ++ etText t'.regs.et] := by
  have he : t'.regs.et ≠ 0 := by
    refine et_persists (j := 1) (fun n u hu => ?_) (et_persists hr hx.et.choose_spec.2.2 h1) (show (next pf t).bind _ = _ by rw [h2]; rfl)
    refine hr (j + n) u ?_
    clear h2 hx hp hh hr
    induction j generalizing s with
    | zero => injection h1 with h1; subst h1; rw [Nat.zero_add]; exact hu
    | succ j ih =>
      rw [Nat.succ_add]
      unfold nextN at h1 ⊢
      cases hn : next pf s with
      | none => rw [hn] at h1; cases h1
      | some v => rw [hn] at h1; exact ih h1
  unfold reported reportsWhileRunning
  rw [if_pos ⟨⟨hp, by rw [hh]; simp⟩, he⟩]

/-- A run that stops on the exception and has no last line: one report. -/
example : ∃ s' st, RunVm .debug (RunConfig.haltOnEx.withPrintFinish false) onceMachine
    (some (s', st, [onceLine "0x00000004"])) :=
  ⟨_, _, some (_, _, _, _), .again rfl (.stop rfl), rfl⟩

/-- The hypotheses of `C96_every_cycle_partial` are met by the machine of `C96_once_refuted` after its exception. -/
example : ∃ s2 s3 : Machine Demo.Dev, nextN .debug 2 onceMachine = some s2 ∧ Raised s2 0x01 0 ∧ NoReset .debug s2 ∧
    next .debug s2 = some s3 := by
  have key : ∃ s2 s3 s4 : Machine Demo.Dev, nextN .debug 2 onceMachine = some s2 ∧ Raised s2 0x01 0 ∧
      next .debug s2 = some s3 ∧ next .debug s3 = some s4 ∧ s4.halted = true ∧
      (∃ d, Fetches .debug s2 (Instr.encodeWord (.cpy .a0 (.lit 1))) d) ∧
      ∃ d, Fetches .debug s3 (Instr.encodeWord .halt) d :=
    ⟨_, _, _, rfl, ⟨by decide, by decide, _, rfl⟩, rfl, rfl, rfl, ⟨_, rfl, rfl⟩, _, rfl, rfl⟩
  obtain ⟨s2, s3, s4, h2, hr, h3, h4, hh, ⟨d2, f2⟩, d3, f3⟩ := key
  refine ⟨s2, s3, h2, hr, ?_, h3⟩
  intro n t hn w devs hf
  match n, hn with
  | 0, hn => injection hn with hn; subst hn; rw [(fetches_unique f2 hf).1]; decide
  | 1, hn =>
    unfold nextN at hn
    rw [h3] at hn; injection hn with hn; subst hn; rw [(fetches_unique f3 hf).1]; decide
  | n + 2, hn =>
    unfold nextN at hn
    rw [h3] at hn
    replace hn : nextN .debug (n + 1) s3 = some t := hn
    unfold nextN at hn
    rw [h4] at hn
    replace hn : nextN .debug n s4 = some t := hn
    rw [C01_halted_does_nothing _ hh] at hn
    injection hn with hn; subst hn
    rw [hf.1] at hh; cases hh

end Lrvm
