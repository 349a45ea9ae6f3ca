import Verif.Lemmas.ProgramLoops
import Verif.Props.Data

/-!
# Following a program: memory, stack and arithmetic instructions, and runs that end with an exception
-/

namespace Lrvm.Prog

open Spec Lrvm

variable {D : Type} [Bus D] {pf : Profile} {fx : Fixed} {s : Machine D} {R : Nat → Word} {devs devs' : List D} {cyc : U128}
  {a : Word} {P : Machine D → Word → Prop}

theorem reg_avr (r : Regs) (w : Word) {n : Nat} (hn : n < 32) :
    reg (advance { r with avr := w }) n = if n = 21 then w else if n = 22 then reg r 22 + 4 else reg r n := by
  rw [show ({ r with avr := w } : Regs) = setReg r 21 w from rfl, reg_advance _ hn, setReg_all _ _ (by decide) hn,
    setReg_all _ _ (by decide) (by decide)]
  by_cases h : n = 22
  · subst h; rfl
  · rw [if_neg h, if_neg h]

theorem Go.lea {r0 r1 r2 : Bool} {p0 p1 p2 : U8} {w : Word} (hP : Closed pf P) (h : Shows fx s R devs cyc)
    (hf : Fetched pf fx R devs (instrWord 0x15 r0 r1 r2 p0 p1 p2)) (hr0 : r0 = true → p0.toNat < 32)
    (hr1 : r1 = true → p1.toNat < 32) (hr2 : r2 = true → p2.toNat < 32)
    (hal : (opVal1 R r0 p0 + opVal1 R r1 p1 * opVal1 R r2 p2).toNat % 4 = 0)
    (hl : Reads pf fx.maps devs (opVal1 R r0 p0 + opVal1 R r1 p1 * opVal1 R r2 p2) w devs')
    (hk : ∀ s', Shows fx s' (put R 21 w) devs' (cyc + 1) → P s' (R 22)) : P s a := by
  have hmtt : s.regs.mtt = 0 := (h.regs 29 (by decide)).trans hf.plain.mtt
  have hst := C29_lea (hf.fetches h) (h.val1 hf.plain hr0) (h.val1 hf.plain hr1) (h.val1 hf.plain hr2)
    ((C26_load_iff hmtt).1.2 ⟨hal, hl s h.maps⟩)
  refine Go.of_steps hP h hst ?_ ?_ hk
  · intro n hn
    rw [reg_avr _ _ hn, h.regs 22 (by decide), h.regs n hn]
    rfl
  · unfold put
    rw [if_neg (by decide), if_neg (by decide), hf.plain.et]

theorem Go.wea {r0 r1 r2 : Bool} {p0 p1 p2 : U8} (hP : Closed pf P) (h : Shows fx s R devs cyc)
    (hf : Fetched pf fx R devs (instrWord 0x17 r0 r1 r2 p0 p1 p2)) (hr0 : r0 = true → p0.toNat < 32)
    (hr1 : r1 = true → p1.toNat < 32) (hr2 : r2 = true → p2.toNat < 32)
    (hal : (opVal1 R r0 p0 + opVal1 R r1 p1 * opVal1 R r2 p2).toNat % 4 = 0)
    (hl : Writes pf fx.maps devs (opVal1 R r0 p0 + opVal1 R r1 p1 * opVal1 R r2 p2) (R 21) devs')
    (hk : ∀ s', Shows fx s' (pass R) devs' (cyc + 1) → P s' (R 22)) : P s a := by
  have hmtt : s.regs.mtt = 0 := (h.regs 29 (by decide)).trans hf.plain.mtt
  have havr : s.regs.avr = R 21 := h.regs 21 (by decide)
  have hst := C29_wea (hf.fetches h) (h.val1 hf.plain hr0) (h.val1 hf.plain hr1) (h.val1 hf.plain hr2)
    ((C26_load_iff hmtt).2.2 ⟨hal, by rw [havr]; exact hl s h.maps⟩)
  refine Go.of_steps hP h hst (R' := pass R) ?_ hf.plain.et hk
  intro n hn
  rw [reg_advance _ hn, h.regs 22 (by decide), h.regs n hn]
  rfl

theorem Shows.advSp (h : Shows fx s R devs cyc) (hp : Plain R) (v : Word) {n : Nat} (hn : n < 32) :
    reg (advance (withStackPtr s.regs v)) n = pass (moved R v) n := by
  have hsp : withStackPtr s.regs v = setReg s.regs 24 v := by
    unfold withStackPtr
    rw [h.sv hp.sv, if_pos rfl]; rfl
  rw [hsp, reg_advance _ hn, setReg_all _ _ (by decide) (by decide), setReg_all _ _ (by decide) hn, h.regs n hn, h.regs 22 (by decide)]
  rfl

theorem Go.push {r0 r1 r2 : Bool} {p0 p1 p2 : U8} (hP : Closed pf P) (h : Shows fx s R devs cyc)
    (hf : Fetched pf fx R devs (instrWord 0x19 r0 r1 r2 p0 p1 p2)) (hr : r0 = true → p0.toNat < 32)
    (hal : (R 24 - 4).toNat % 4 = 0) (hl : Writes pf fx.maps devs (R 24 - 4) (opVal2 R r0 p0 p1) devs')
    (hk : ∀ s', Shows fx s' (pass (moved R (R 24 - 4))) devs' (cyc + 1) → P s' (R 22)) : P s a := by
  have hmtt : s.regs.mtt = 0 := (h.regs 29 (by decide)).trans hf.plain.mtt
  have hst := C33_push (hf.fetches h) (h.val2 hf.plain hr)
    ((C26_load_iff hmtt).2.2 ⟨by rw [h.sp hf.plain]; exact hal, by rw [h.sp hf.plain]; exact hl s h.maps⟩)
  refine Go.of_steps hP h hst (R' := pass (moved R (R 24 - 4))) ?_ hf.plain.et hk
  intro n hn
  rw [h.advSp hf.plain _ hn, h.sp hf.plain]

theorem Go.pop {r0 r1 r2 : Bool} {p0 p1 p2 : U8} {w : Word} (hP : Closed pf P) (h : Shows fx s R devs cyc)
    (hf : Fetched pf fx R devs (instrWord 0x1A r0 r1 r2 p0 p1 p2)) (hw : mayWrite true p0.toNat = true) (h22 : p0.toNat ≠ 22)
    (hal : (R 24).toNat % 4 = 0) (hl : Reads pf fx.maps devs (R 24) w devs')
    (hk : ∀ s', Shows fx s' (put (moved R (R 24 + 4)) p0.toNat w) devs' (cyc + 1) → P s' (R 22)) : P s a := by
  obtain ⟨h32, h23, h26⟩ := lt_of_mayWrite hw
  have hmtt : s.regs.mtt = 0 := (h.regs 29 (by decide)).trans hf.plain.mtt
  have hst := C33_pop (hf.fetches h) (by rw [h.sv hf.plain.sv]; exact hw)
    ((C26_load_iff hmtt).1.2 ⟨by rw [h.sp hf.plain]; exact hal, by rw [h.sp hf.plain]; exact hl s h.maps⟩)
  have hsp : ∀ v, withStackPtr s.regs v = setReg s.regs 24 v := by
    intro v
    unfold withStackPtr
    rw [h.sv hf.plain.sv, if_pos rfl]; rfl
  refine Go.of_steps hP h hst (R' := put (moved R (R 24 + 4)) p0.toNat w) ?_ ?_ hk
  · intro n hn
    rw [reg_assign_all _ _ h32 hn h22, hsp, setReg_all _ _ (by decide) (by decide), setReg_all _ _ (by decide) hn, h.sp hf.plain,
      h.regs 22 (by decide), h.regs n hn]
    rfl
  · unfold put
    rw [if_neg (Ne.symm h26), if_neg (by decide)]
    exact hf.plain.et

/-- An instruction that writes a register and the flags, whatever the flags. -/
theorem Go.aluAny {c : Nat} {w f : Word} (hP : Closed pf P) (h : Shows fx s R devs cyc) (hp : Plain R)
    (hst : Steps pf s (assign { s.regs with af := f } c w) devs) (hw : mayWrite true c = true) (h22 : c ≠ 22)
    (hk : ∀ s' f, Shows fx s' (put (flagged R f) c w) devs (cyc + 1) → P s' (R 22)) : P s a :=
  Go.alu hP h hp hst hw h22 (fun s' => hk s' f)

theorem Go.mul {r0 r1 r2 : Bool} {p0 p1 p2 : U8} (hP : Closed pf P) (h : Shows fx s R devs cyc)
    (hf : Fetched pf fx R devs (instrWord 0x05 r0 r1 r2 p0 p1 p2)) (hw : mayWrite true p0.toNat = true)
    (h22 : p0.toNat ≠ 22) (hr : r1 = true → p1.toNat < 32)
    (hk : ∀ s' f, Shows fx s' (put (flagged R f) p0.toNat (R p0.toNat * opVal2 R r1 p1 p2)) devs (cyc + 1) → P s' (R 22)) :
    P s a := by
  have hst := C16_mul (hf.fetches h) (by rw [h.sv hf.plain.sv]; exact hw) (h.val2 hf.plain hr)
  obtain ⟨h32, h23, h26⟩ := lt_of_mayWrite hw
  rw [h.regs _ h32] at hst
  dsimp only at hst
  have e : BitVec.ofNat 32 ((R p0.toNat).toNat * (opVal2 R r1 p1 p2).toNat) = R p0.toNat * opVal2 R r1 p1 p2 := by
    apply BitVec.eq_of_toNat_eq; simp
  rw [e] at hst
  exact Go.aluAny hP h hf.plain hst hw h22 hk

theorem Go.shr {r0 r1 r2 : Bool} {p0 p1 p2 : U8} (hP : Closed pf P) (h : Shows fx s R devs cyc)
    (hf : Fetched pf fx R devs (instrWord 0x0C r0 r1 r2 p0 p1 p2)) (hw : mayWrite true p0.toNat = true)
    (h22 : p0.toNat ≠ 22) (hr : r1 = true → p1.toNat < 32)
    (hk : ∀ s' f, Shows fx s' (put (flagged R f) p0.toNat (R p0.toNat >>> ((opVal1 R r1 p1).toNat % 32))) devs (cyc + 1) →
      P s' (R 22)) : P s a := by
  have hst := C18_shr (hf.fetches h) (by rw [h.sv hf.plain.sv]; exact hw) (h.val1 hf.plain hr)
  obtain ⟨h32, h23, h26⟩ := lt_of_mayWrite hw
  rw [h.regs _ h32] at hst
  dsimp only at hst
  have e : ∀ k, BitVec.ofNat 32 ((R p0.toNat).toNat / 2 ^ k) = R p0.toNat >>> k := by
    intro k; apply BitVec.eq_of_toNat_eq
    rw [BitVec.toNat_ofNat, BitVec.toNat_ushiftRight, Nat.shiftRight_eq_div_pow, Nat.mod_eq_of_lt]
    exact Nat.lt_of_le_of_lt (Nat.div_le_self _ _) (R p0.toNat).isLt
  rw [e] at hst
  exact Go.aluAny hP h hf.plain hst hw h22 hk

/-- MOD of a number below 2^31 by a positive literal: every mode gives the same. -/
theorem Go.modSmall {r0 r2 : Bool} {p0 p1 p2 : U8} (hP : Closed pf P) (h : Shows fx s R devs cyc)
    (hf : Fetched pf fx R devs (instrWord 0x07 r0 false r2 p0 p1 p2)) (hw : mayWrite true p0.toNat = true)
    (h22 : p0.toNat ≠ 22) (hr2 : r2 = true → p2.toNat < 32) (hy : p1.toNat ≠ 0) (hx : (R p0.toNat).toNat < 2 ^ 31)
    (hk : ∀ s' f, Shows fx s' (put (flagged R f) p0.toNat (BitVec.ofNat 32 ((R p0.toNat).toNat % p1.toNat))) devs (cyc + 1) →
      P s' (R 22)) : P s a := by
  obtain ⟨h32, h23, h26⟩ := lt_of_mayWrite hw
  have hv := h.val1 hf.plain (isReg := false) (p := p1) (by simp)
  have hm := h.val1 hf.plain hr2
  have hp1 := p1.isLt
  have hyn : (opVal1 R false p1).toNat = p1.toNat := by
    unfold opVal1; rw [if_neg (by decide), BitVec.toNat_ofNat]; omega
  have hy0 : opVal1 R false p1 ≠ 0 := fun h0 => hy (by rw [← hyn, h0]; rfl)
  have hwr : mayWrite (supervisor s.regs) p0.toNat = true := by rw [h.sv hf.plain.sv]; exact hw
  have hxr : reg s.regs p0.toNat = R p0.toNat := h.regs _ h32
  rcases Nat.mod_two_eq_zero_or_one ((opVal1 R r2 p2).toNat / 16) with hu | hu
  · have hst := C17_unsigned (.inr rfl) (hf.fetches h) hwr hv hm hy0 hu
    rw [hxr, hyn] at hst
    dsimp only at hst
    rw [if_neg (by decide)] at hst
    exact Go.aluAny hP h hf.plain hst hw h22 hk
  · have hyi : (opVal1 R false p1).toInt = p1.toNat := by
      rw [BitVec.toInt_eq_toNat_of_lt (by rw [hyn]; omega), hyn]
    have hxi : (R p0.toNat).toInt = (R p0.toNat).toNat := BitVec.toInt_eq_toNat_of_lt (by omega)
    have hst := C17_signed (.inr rfl) (hf.fetches h) hwr hv hm hy0 hu (by rw [hyi]; omega)
    rw [hxr, hyi] at hst
    dsimp only at hst
    rw [hxi, if_neg (by decide), Int.tmod_eq_emod_of_nonneg (by omega), ← Int.natCast_emod, BitVec.ofInt_natCast] at hst
    exact Go.aluAny hP h hf.plain hst hw h22 hk

/-! ## Runs that may end with an exception -/

/-- From `s`, the machine runs without exceptions until it halts or raises one; then `Q` holds of it, of the address of the
last instruction and of the exception (0 if there is none). -/
inductive Finishes (pf : Profile) (Q : Machine D → Word → Word → Prop) : Machine D → Word → Prop
  | halted {s : Machine D} {a : Word} : s.halted = true → Q s a 0 → Finishes pf Q s a
  | trap {s s' : Machine D} {a : Word} : s.halted = false → next pf s = some s' → s'.regs.et ≠ 0 →
      Q s' s.regs.pc s'.regs.et → Finishes pf Q s a
  | step {s s' : Machine D} {a : Word} : s.halted = false → next pf s = some s' → s'.regs.et = 0 →
      Finishes pf Q s' s.regs.pc → Finishes pf Q s a

variable {Q : Machine D → Word → Word → Prop}

theorem Finishes.closed : Closed pf (Finishes pf Q) := fun _ _ _ h1 h2 h3 h4 => .step h1 h2 h3 h4

/-- An instruction that raises an exception ends the run. -/
theorem Finishes.of_steps {regs : Regs} (h : Shows fx s R devs cyc) (hst : Steps pf s regs devs') (het : regs.et ≠ 0)
    (hq : ∀ s', s'.devs = devs' → Q s' (R 22) regs.et) : Finishes pf Q s a := by
  obtain ⟨s', h1, h2, h3, _⟩ := hst
  refine .trap h.running h1 (by rw [h2]; exact het) ?_
  rw [show s.regs.pc = R 22 from h.regs 22 (by decide), h2]
  exact hq s' h3

theorem runLoop_of_finishes {cfg : RunConfig} (hl : cfg.cyclesLimit = none) (hc : cfg.printCycles = false)
    (hh : cfg.haltOnException = true) (h : Finishes pf Q s a) (ls : List Text) :
    ∃ s' a' e, Q s' a' e ∧
      (e = 0 → RunLoop pf cfg s a ls (some (s', a', none, ls))) ∧
      (e ≠ 0 → ∀ l, exceptionLine cfg a' (exWithMode e) = some l → RunLoop pf cfg s a ls (some (s', a', some (exWithMode e), ls ++ l))) := by
  have over : ∀ {s : Machine D}, s.halted = false → ¬ (s.halted = true ∨ ∃ l, cfg.cyclesLimit = some l ∧ s.cycles > l) := by
    rintro s h1 (h | ⟨l, h, _⟩)
    · rw [h1] at h; cases h
    · rw [hl] at h; cases h
  have noLine : ∀ s : Machine D, cycleLine cfg s = [] := by intro s; unfold cycleLine; rw [hc]; rfl
  induction h with
  | halted h1 h2 => exact ⟨_, _, 0, h2, fun _ => .exit (runTurn_exit.2 (.inl h1)), fun h => absurd rfl h⟩
  | trap h1 h2 h3 h4 =>
    refine ⟨_, _, _, h4, fun h => absurd h h3, fun _ l hx => .stop ?_⟩
    rw [runTurn_not_over (over h1), h2]
    simp only
    rw [if_pos (by simpa using h3), hx]
    simp only
    rw [if_pos hh, noLine, List.nil_append]
  | @step s0 s1 _ h1 h2 h3 _ ih =>
    obtain ⟨s', a', e, h4, h5, h6⟩ := ih
    have ht : runTurn pf cfg s0 = .again s1 [] := by
      rw [runTurn_not_over (over h1), h2]
      simp only
      rw [if_neg (by simp [h3]), noLine]
    exact ⟨s', a', e, h4, fun h => .again ht (by rw [List.append_nil]; exact h5 h),
      fun h l hx => .again ht (by rw [List.append_nil]; exact h6 h l hx)⟩

/-- The result of `exec_vm` with `RunConfig::halt_on_ex().with_print_finish(false)`. -/
theorem execVm_of_finishes {ds : List D} (hp : prepareVm pf ds = some s) (h : Finishes pf Q s s.regs.pc) :
    ∃ s' a' e, Q s' a' e ∧
      (e = 0 → ∀ r, ExecVm pf ds (RunConfig.haltOnEx.withPrintFinish false) r ↔ r = some (s', ⟨s'.cycles, a', none⟩, [])) ∧
      (e ≠ 0 → ∀ l, prettifyExWithMode (exWithMode e) = some l →
        ∀ r, ExecVm pf ds (RunConfig.haltOnEx.withPrintFinish false) r ↔ r = some (s', ⟨s'.cycles, a', some (exWithMode e)⟩,
          ["[lrvm] At address ".toList ++ fmtHex 10 a'.toNat ++ " - Exception occurred: ".toList ++ l])) := by
  obtain ⟨s', a', e, hq, h1, h2⟩ := runLoop_of_finishes (cfg := RunConfig.haltOnEx.withPrintFinish false) rfl rfl rfl h []
  refine ⟨s', a', e, hq, fun he r => ?_, fun he l hx r => ?_⟩
  · have hr : RunVm pf (RunConfig.haltOnEx.withPrintFinish false) s (some (s', ⟨s'.cycles, a', none⟩, [])) := ⟨_, h1 he, rfl⟩
    unfold ExecVm
    rw [hp]
    exact ⟨fun h => C61_deterministic h hr, fun h => h ▸ hr⟩
  · have hline : exceptionLine (RunConfig.haltOnEx.withPrintFinish false) a' (exWithMode e) =
        some ["[lrvm] At address ".toList ++ fmtHex 10 a'.toNat ++ " - Exception occurred: ".toList ++ l] := by
      unfold exceptionLine
      refine (if_pos rfl).trans ?_
      rw [hx]
      rfl
    have hr : RunVm pf (RunConfig.haltOnEx.withPrintFinish false) s (some (s', ⟨s'.cycles, a', some (exWithMode e)⟩,
        ["[lrvm] At address ".toList ++ fmtHex 10 a'.toNat ++ " - Exception occurred: ".toList ++ l])) := ⟨_, h2 he _ hline, rfl⟩
    unfold ExecVm
    rw [hp]
    exact ⟨fun h => C61_deterministic h hr, fun h => h ▸ hr⟩

end Lrvm.Prog
