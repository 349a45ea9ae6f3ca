import Verif.Lemmas.Access

/-!
# Effect summaries

Every instruction is a sequence of primitive effects (`Eff`), possibly ended by an exception. The
theorem `runInstr_summary` establishes this once for all opcodes; invariants over instructions are then
proved on the primitive effects only.
-/

namespace Lrvm

variable {D : Type} [Bus D]

/-- Codes of exceptions that stop an instruction. -/
def faultCodes : List U8 :=
  [0x01, 0x02, 0x03, 0x04, 0x05, 0x06, 0x09, 0x0A, 0x0B, 0x0C, 0x0D, 0x10, 0x11, 0x12, 0xA0]

/-- Shape of the data of an exception: only five of the codes come with data wider than one byte, two with none. -/
def DataShape (c : U8) (d : U16) : Prop :=
  c ∈ [0x06#8, 0x10#8, 0x11#8, 0x12#8, 0xA0#8] ∨ d.toNat = 0 ∨ (c ∉ [0x0A#8, 0x0B#8] ∧ d.toNat < 256)

/-- An exception that stops an instruction. -/
def GoodFault (c : U8) (d : U16) : Prop := c ∈ faultCodes ∧ DataShape c d

/-- Registers an instruction names as destinations. -/
def destRegs (f : Fields) : List U8 :=
  match f.opcode.toNat with
  | 0x01 | 0x03 | 0x04 | 0x05 | 0x06 | 0x07 | 0x08 | 0x09 | 0x0A | 0x0B | 0x0C
  | 0x14 | 0x1A | 0x1C | 0x1D => [f.p0]
  | 0x02 => [f.p0, f.p1]
  | 0x18 => [f.p2]
  | _ => []

/-- Assignment of the current mode's stack pointer. -/
def Machine.setSp (s : Machine D) (v : Word) : Machine D :=
  if s.svMode then { s with regs := { s.regs with ssp := v } }
  else { s with regs := { s.regs with usp := v } }

/-- Opcodes that read memory while executing (or its translation tables). -/
def memOps : List Nat := [0x14, 0x15, 0x16, 0x17, 0x18, 0x19, 0x1A, 0x1B]

/-- Opcodes that write memory. -/
def storeOps : List Nat := [0x16, 0x17, 0x18, 0x19, 0x1B]

/-- One primitive effect of the instruction with fields `f`. -/
inductive Eff (pf : Profile) (f : Fields) : Machine D → Machine D → Prop
  | regWrite {s : Machine D} {code : U8} {w : Word} {r : Regs}
      (hd : code ∈ destRegs f) (hu : s.svMode = false → code < 0x17#8)
      (h17 : code ≠ 0x17#8) (h1A : code ≠ 0x1A#8) (h1B : code ≠ 0x1B#8)
      (hw : s.regs.write code w = some r) :
      Eff pf f s { s with regs := r, changedPc := if code = 0x16#8 then true else s.changedPc }
  | flags {s : Machine D} (r : Word) (c o : Bool) (h : f.opcode.toNat ∈ [3,4,5,6,7,8,9,10,11,12,13]) :
      Eff pf f s { s with regs := { s.regs with af := flagsOf r c o } }
  | jump {s : Machine D} (v : Word) (h : f.opcode.toNat ∈ [0x0E, 0x1B]) :
      Eff pf f s { s with regs := { s.regs with pc := v }, changedPc := true }
  | lsm {s : Machine D} (v : Word) (h : f.opcode.toNat = 0x0F) (hs : s.svMode = true) :
      Eff pf f s { s with regs := { s.regs with pc := v, smt := 0 } }
  | skip {s : Machine D} (h : f.opcode.toNat ∈ [0x11, 0x12, 0x13]) :
      Eff pf f s { s with regs := { s.regs with pc := s.regs.pc + 4 } }
  | itr {s : Machine D} (d : U16) (h : f.opcode.toNat = 0x10) : Eff pf f s (s.exception 0xF0 d)
  | avr {s : Machine D} (w : Word) (h : f.opcode.toNat = 0x15) :
      Eff pf f s { s with regs := { s.regs with avr := w } }
  | sp {s : Machine D} (v : Word) (h : f.opcode.toNat ∈ [0x19, 0x1A, 0x1B]) : Eff pf f s (s.setSp v)
  | busRead {s s' : Machine D} {addr w : Word} {ex : U16} (h : f.opcode.toNat ∈ memOps)
      (hr : memRead pf s addr 0 = some (w, ex, s')) : Eff pf f s s'
  | busWrite {s s' : Machine D} {addr w : Word} {ex : U16} (h : f.opcode.toNat ∈ storeOps)
      (hr : memWrite pf s addr w 0 = some (ex, s')) : Eff pf f s s'
  | devReset {s : Machine D} {id : Nat} {devs : List D} (h : f.opcode.toNat = 0x1F)
      (hr : bridgeReset s.devs id = some (some devs)) : Eff pf f s { s with devs := devs }
  | halt {s : Machine D} (h : f.opcode.toNat = 0x1E) : Eff pf f s { s with halted := true }
  | cpuReset {s : Machine D} (h : f.opcode.toNat = 0x1F) : Eff pf f s s.cpuReset

/-- A finite sequence of effects. -/
inductive Effs (pf : Profile) (f : Fields) : Machine D → Machine D → Prop
  | refl (s : Machine D) : Effs pf f s s
  | tail {s t u : Machine D} : Effs pf f s t → Eff pf f t u → Effs pf f s u

/-- Summary of an outcome. -/
def Summary (pf : Profile) (f : Fields) (s0 : Machine D) : Out (Machine D) α → Prop
  | .ok _ s => Effs pf f s0 s
  | .ex s => ∃ s1 c d, Effs pf f s0 s1 ∧ GoodFault c d ∧ s = s1.exception c d
  | .panic => True

/-- The action's effects are effects of the instruction `f`. -/
def Has (pf : Profile) (f : Fields) (m : M D α) : Prop :=
  ∀ s0 s, Effs pf f s0 s → Summary pf f s0 (m s)

variable {pf : Profile} {f : Fields}

theorem has_pure (a : α) : Has pf f (pure a : M D α) := fun _ _ h => h

theorem has_bind {m : M D α} {k : α → M D β} (hm : Has pf f m) (hk : ∀ a, Has pf f (k a)) :
    Has pf f (m >>= k) := by
  intro s0 s h
  have := hm s0 s h
  show Summary pf f s0 (M.bind m k s)
  unfold M.bind
  cases hms : m s with
  | ok a s' => rw [hms] at this; exact hk a s0 s' this
  | ex s' => rw [hms] at this; exact this
  | panic => trivial

theorem has_ite {c : Prop} [Decidable c] {m n : M D α} (hm : c → Has pf f m) (hn : ¬c → Has pf f n) :
    Has pf f (if c then m else n) := by
  split
  · exact hm ‹_›
  · exact hn ‹_›

theorem has_getsM (g : Machine D → α) : Has pf f (getsM g) := fun _ _ h => h

theorem has_getM : Has pf f (getM : M D (Machine D)) := fun _ _ h => h

theorem has_liftRes (r : Res α) : Has pf f (liftRes r : M D α) := by
  intro s0 s h
  cases r with
  | none => trivial
  | some a => exact h

theorem wide_lt (x : U8) : (x.setWidth 16 : U16).toNat < 256 := by
  rw [BitVec.toNat_setWidth]; have := x.isLt; omega

theorem has_raise (c : U8) (d : U16) (hc : c ∈ faultCodes) (hd : DataShape c d) : Has pf f (raise c d : M D α) :=
  fun _ s h => ⟨s, c, d, h, ⟨hc, hd⟩, rfl⟩

theorem has_modifyM (g : Machine D → Machine D) (hg : ∀ s, Eff pf f s (g s)) : Has pf f (modifyM g) :=
  fun _ s h => .tail h (hg s)

theorem has_readReg (code : U8) : Has pf f (readReg code : M D Word) := by
  intro s0 s h
  unfold Lrvm.readReg
  split
  · exact has_raise 0x03 _ (by decide) (.inr (.inr ⟨by decide, wide_lt _⟩)) s0 s h
  · split
    · exact h
    · exact has_raise 0x02 _ (by decide) (.inr (.inr ⟨by decide, wide_lt _⟩)) s0 s h

theorem has_regOrLit1 (b : Bool) (p : U8) : Has pf f (regOrLit1 b p : M D Word) := by
  unfold Lrvm.regOrLit1; split
  · exact has_readReg p
  · exact has_pure _

theorem has_regOrLit2 (b : Bool) (p q : U8) : Has pf f (regOrLit2 b p q : M D Word) := by
  unfold Lrvm.regOrLit2; split
  · exact has_readReg p
  · exact has_pure _

theorem readReg_ok {s s' : Machine D} {code : U8} {v : Word} (e : readReg code s = .ok v s') :
    s' = s ∧ s.regs.read code = some v := by
  unfold readReg at e
  split at e
  · cases e
  · split at e
    · next h => injection e with e1 e2; exact ⟨e2.symm, by rw [h, e1]⟩
    · cases e

theorem regOrLit1_ok {s s' : Machine D} {b : Bool} {p : U8} {v : Word}
    (e : regOrLit1 b p s = .ok v s') : s' = s := by
  cases b
  · injection e with _ e; exact e.symm
  · exact (readReg_ok e).1

theorem regOrLit2_ok {s s' : Machine D} {b : Bool} {p q : U8} {v : Word}
    (e : regOrLit2 b p q s = .ok v s') : s' = s := by
  cases b
  · injection e with _ e; exact e.symm
  · exact (readReg_ok e).1

theorem has_writeReg (code : U8) (w : Word) (hd : code ∈ destRegs f) :
    Has pf f (writeReg code w : M D Unit) := by
  intro s0 s h
  unfold Lrvm.writeReg
  split
  · exact has_raise 0x04 _ (by decide) (.inr (.inr ⟨by decide, wide_lt _⟩)) s0 s h
  · split
    · exact has_raise 0x04 _ (by decide) (.inr (.inr ⟨by decide, wide_lt _⟩)) s0 s h
    · next h1 h2 =>
      simp only [not_or] at h2
      have hu : s.svMode = false → code < 0x17#8 := by
        intro hs
        rcases Decidable.not_and_iff_or_not.mp h1 with h1 | h1
        · exact BitVec.not_le.mp h1
        · exact absurd hs h1
      cases hw : s.regs.write code w with
      | some r =>
        have key := Eff.regWrite (pf := pf) (s := s) hd hu h2.1 h2.2.1 h2.2.2 hw
        by_cases hc : code = 0x16#8
        · simp only [hc, if_true] at key hw ⊢
          simp only [hw]
          exact .tail h key
        · simp only [hc, if_false] at key ⊢
          simp only [hw]
          exact .tail h key
      | none =>
        have hne : code ≠ 0x16#8 := by
          rintro rfl
          simp [Regs.write] at hw
        simp only [hne, if_false, hw]
        exact has_raise 0x02 _ (by decide) (.inr (.inr ⟨by decide, wide_lt _⟩)) s0 s h

theorem divCore_error {b : Bool} {mode : U8} {x y : Word} {c : U8}
    (h : divCore b mode x y = .error c) : c = 0x0A#8 ∨ c = 0x0B#8 := by
  unfold divCore at h
  dsimp only at h
  repeat' split at h
  all_goals first | (injection h with h; subst h; simp) | cases h

theorem computeCore_error {x y : Word} {op : Op} {c : U8}
    (h : computeCore x y op = .error c) : c = 0x0A#8 ∨ c = 0x0B#8 := by
  unfold computeCore at h
  split at h
  all_goals first | exact divCore_error h | cases h

theorem has_compute (x y : Word) (op : Op) (h : f.opcode.toNat ∈ [3,4,5,6,7,8,9,10,11,12,13]) :
    Has pf f (compute x y op : M D Word) := by
  unfold Lrvm.compute
  cases hc : computeCore x y op with
  | error c =>
    refine has_raise _ _ ?_ (.inr (.inl rfl))
    rcases computeCore_error hc with rfl | rfl <;> decide
  | ok p =>
    obtain ⟨r, c, o⟩ := p
    exact has_bind (has_modifyM _ fun s => .flags r c o h) fun _ => has_pure _

/-- A read of the memory only changes the components. -/
theorem memRead_frame {s s' : Machine D} {addr w : Word} {ex ex' : U16}
    (h : memRead pf s addr ex = some (w, ex', s')) : s' = { s with devs := s'.devs } := by
  unfold memRead at h
  simp only [Option.bind_eq_bind, Option.bind_eq_some_iff] at h
  obtain ⟨_, _, o, _, h⟩ := h
  cases o with
  | none => simp at h; rw [← h.2.2]
  | some m =>
    simp only [Option.bind_eq_some_iff] at h
    obtain ⟨off, _, r, _, h⟩ := h
    cases r with
    | none => simp at h
    | some r => simp at h; rw [← h.2.2]

/-- A write to the memory only changes the components. -/
theorem memWrite_frame {s s' : Machine D} {addr w : Word} {ex ex' : U16}
    (h : memWrite pf s addr w ex = some (ex', s')) : s' = { s with devs := s'.devs } := by
  unfold memWrite at h
  simp only [Option.bind_eq_bind, Option.bind_eq_some_iff] at h
  obtain ⟨_, _, o, _, h⟩ := h
  cases o with
  | none => simp at h; rw [← h.2]
  | some m =>
    simp only [Option.bind_eq_some_iff] at h
    obtain ⟨off, _, r, _, h⟩ := h
    cases r with
    | none => simp at h
    | some r => simp at h; rw [← h.2]

/-- Either translation does nothing, or it performs exactly one bus read (of a table entry). -/
theorem translate_cases {s s' : Machine D} {v : Word} {act : MemAction} {r}
    (h : translate pf s v act = some (r, s')) :
    s' = s ∨ ∃ a w ex, memRead pf s a 0 = some (w, ex, s') := by
  rw [translate_eq, Option.map_eq_some_iff] at h
  obtain ⟨⟨r1, devs1⟩, h, he⟩ := h
  injection he with _ he
  unfold transl at h
  split at h
  · injection h with h; injection h with _ h; left; rw [← he, ← h]
  · right
    simp only [Option.bind_eq_bind, Option.bind_eq_some_iff] at h
    obtain ⟨a, _, ⟨e, ex, devs2⟩, h1, h2⟩ := h
    refine ⟨a, e, ex, ?_⟩
    rw [memRead_eq, h1]
    have : devs2 = devs1 := by
      dsimp only at h2
      split at h2
      · injection h2 with h2; injection h2
      · split at h2 <;> (injection h2 with h2; injection h2)
    rw [← he, ← this]; rfl

theorem translate_effs {s0 s s' : Machine D} {v : Word} {act : MemAction} {r}
    (hop : f.opcode.toNat ∈ memOps) (h0 : Effs pf f s0 s)
    (h : translate pf s v act = some (r, s')) : Effs pf f s0 s' := by
  rcases translate_cases h with rfl | ⟨a, w, ex, hr⟩
  · exact h0
  · exact .tail h0 (.busRead hop hr)

theorem has_memDo {act : MemAction} {v : Word} {handler : Machine D → Word → U16 → Res (α × U16 × Machine D)}
    (hop : f.opcode.toNat ∈ memOps)
    (hh : ∀ s p ex a s', handler s p 0 = some (a, ex, s') → Eff pf f s s') :
    Has pf f (memDo pf act v handler) := by
  unfold Lrvm.memDo
  refine has_bind ?_ fun v => ?_
  · unfold ensureAligned
    split
    · exact has_raise _ _ (by decide) (.inr (.inr ⟨by decide, by
        rw [BitVec.toNat_setWidth, BitVec.toNat_umod]; have := v.isLt; simp; omega⟩))
    · exact has_pure _
  · intro s0 s h
    dsimp only
    cases ht : translate pf s v act with
    | none => trivial
    | some p =>
      obtain ⟨r, s1⟩ := p
      have h1 := translate_effs hop h ht
      cases r with
      | error o =>
        cases o with
        | none => exact has_raise 0x06 _ (by decide) (.inl (by decide)) s0 s1 h1
        | some ex => exact has_raise 0xA0 _ (by decide) (.inl (by decide)) s0 s1 h1
      | ok p =>
        dsimp only
        cases hr : handler s1 p 0 with
        | none => trivial
        | some q =>
          obtain ⟨a, ex, s2⟩ := q
          have h2 : Effs pf f s0 s2 := .tail h1 (hh _ _ _ _ _ hr)
          dsimp only
          split
          · exact has_raise 0xA0 _ (by decide) (.inl (by decide)) s0 s2 h2
          · exact h2

theorem has_cpuRead (v : Word) (hop : f.opcode.toNat ∈ memOps) :
    Has pf f (cpuRead pf v : M D Word) :=
  has_memDo hop fun _ _ _ _ _ h => .busRead hop h

theorem storeOps_sub {n : Nat} (h : n ∈ storeOps) : n ∈ memOps := by
  simp [storeOps, memOps] at *; omega

theorem has_cpuWrite (v w : Word) (hop : f.opcode.toNat ∈ storeOps) :
    Has pf f (cpuWrite pf v w : M D Unit) := by
  refine has_memDo (storeOps_sub hop) fun s p ex a s' h => ?_
  split at h
  · cases h
  · next e t hw =>
    injection h with h
    injection h with h1 h2
    injection h2 with h2 h3
    subst h3
    exact .busWrite hop hw

theorem resetLoop_effs (test : Nat → Bool) (hop : f.opcode.toNat = 0x1F) (s0 : Machine D) :
    ∀ (n id : Nat) (s : Machine D) (devs : List D), Effs pf f s0 s →
      resetLoop test id n s.devs = some devs → Effs pf f s0 { s with devs := devs } := by
  intro n
  induction n with
  | zero => intro id s devs h hr; simp [resetLoop] at hr; subst hr; exact h
  | succ n ih =>
    intro id s devs h hr
    unfold resetLoop at hr
    split at hr
    · split at hr
      · next devs' hb =>
        exact ih (id + 1) { s with devs := devs' } devs (.tail h (.devReset hop hb)) hr
      · simp at hr
    · exact ih (id + 1) s devs h hr

/-- POP's branches change only the stack pointer of the mode they were started in. -/
theorem cpuRead_ok_regs {s s' : Machine D} {v w : Word} {act} 
    (h : memDo pf act v (fun s p ex => memRead pf s p ex) s = .ok w s') :
    s' = { s with devs := s'.devs } := by
  unfold memDo at h
  change M.bind _ _ s = _ at h
  unfold M.bind ensureAligned at h
  split at h
  · next a t hok =>
    split at hok
    · simp [raise] at hok
    · change Out.ok v s = Out.ok a t at hok
      injection hok with h1 h2; subst h1; subst h2
      dsimp only at h
      split at h
      · simp at h
      · next p s1 ht =>
        split at h
        · simp at h
        · next ret ex s2 hr =>
          split at h
          · simp [raise] at h
          · injection h with h1 h2
            subst h2
            have e1 := memRead_frame hr
            rcases translate_cases ht with rfl | ⟨_, _, _, hr'⟩
            · exact e1
            · have e2 := memRead_frame hr'
              rw [e2] at e1
              exact e1
      · simp [raise] at h
      · simp [raise] at h
  · simp at h
  · simp at h

theorem has_execPop (hop : f.opcode.toNat = 0x1A) : Has pf f (execPop pf f : M D Unit) := by
  have hd : f.p0 ∈ destRegs f := by simp [destRegs, hop]
  have hm : f.opcode.toNat ∈ memOps := by simp [memOps, hop]
  have hs : f.opcode.toNat ∈ [0x19, 0x1A, 0x1B] := by simp [hop]
  unfold Lrvm.execPop
  intro s0 s h
  change Summary pf f s0 (M.bind (Lrvm.getsM _) _ s)
  unfold M.bind
  dsimp only [Lrvm.getsM]
  have main : ∀ (m : M D Word), Summary pf f s0 (m s) →
      Summary pf f s0 ((m >>= fun word => writeReg f.p0 word) s) := by
    intro m hm
    change Summary pf f s0 (M.bind _ _ s)
    unfold M.bind
    split
    · next a s' e => rw [e] at hm; exact has_writeReg _ _ hd s0 s' hm
    · next s' e => rw [e] at hm; exact hm
    · trivial
  apply main
  cases hsv : s.svMode with
  | true =>
    simp only [if_true]
    change Summary pf f s0 (M.bind (Lrvm.getsM _) _ s)
    unfold M.bind
    dsimp only [Lrvm.getsM]
    change Summary pf f s0 (M.bind _ _ s)
    have hr := has_cpuRead (pf := pf) (f := f) (D := D) s.regs.ssp hm s0 s h
    unfold M.bind
    split
    · next w s' e =>
      rw [e] at hr
      have e' := cpuRead_ok_regs e
      have : s'.svMode = true := by rw [e']; exact hsv
      have key := Eff.sp (pf := pf) (f := f) (s := s') (s'.regs.ssp + 4) hs
      simp only [Machine.setSp, this, if_true] at key
      exact .tail hr key
    · next e => rw [e] at hr; exact hr
    · trivial
  | false =>
    simp only [Bool.false_eq_true, if_false]
    change Summary pf f s0 (M.bind (Lrvm.getsM _) _ s)
    unfold M.bind
    dsimp only [Lrvm.getsM]
    change Summary pf f s0 (M.bind _ _ s)
    have hr := has_cpuRead (pf := pf) (f := f) (D := D) s.regs.usp hm s0 s h
    unfold M.bind
    split
    · next w s' e =>
      rw [e] at hr
      have e' := cpuRead_ok_regs e
      have : s'.svMode = false := by rw [e']; exact hsv
      have key := Eff.sp (pf := pf) (f := f) (s := s') (s'.regs.usp + 4) hs
      simp only [Machine.setSp, this, Bool.false_eq_true, if_false] at key
      exact .tail hr key
    · next e => rw [e] at hr; exact hr
    · trivial

theorem has_execLsm (hop : f.opcode.toNat = 0x0F) : Has pf f (execLsm f : M D Unit) := by
  unfold Lrvm.execLsm
  intro s0 s h
  change Summary pf f s0 (M.bind (Lrvm.getsM _) _ s)
  unfold M.bind
  dsimp only [Lrvm.getsM]
  split
  · next hsv =>
    have hr := has_regOrLit2 (pf := pf) (f := f) (D := D) f.r0 f.p0 f.p1 s0 s h
    change Summary pf f s0 (M.bind _ _ s)
    unfold M.bind
    cases e : (Lrvm.regOrLit2 f.r0 f.p0 f.p1 : M D Word) s with
    | ok v s' =>
      rw [e] at hr
      have : s' = s := regOrLit2_ok e
      subst this
      exact .tail hr (.lsm v hop hsv)
    | ex s' => rw [e] at hr; exact hr
    | panic => trivial
  · exact has_raise 0x09 _ (by decide) (.inr (.inr ⟨by decide, wide_lt _⟩)) s0 s h

theorem has_resetDevs (mode : Nat) (hop : f.opcode.toNat = 0x1F) :
    Has pf f (resetDevs mode : M D Unit) := by
  intro s0 s h
  have loop : ∀ test, Summary pf f s0 ((do
      let devs ← liftRes (resetLoop test 0 s.devs.length s.devs)
      modifyM (fun s => { s with devs := devs }) : M D Unit) s) := by
    intro test
    cases hl : resetLoop test 0 s.devs.length s.devs with
    | none => trivial
    | some devs => exact resetLoop_effs test hop s0 _ _ s devs h hl
  unfold resetDevs
  rw [getM_bind]
  split
  · exact loop _
  · cases hb : bridgeReset s.devs s.regs.avr.toNat with
    | none => trivial
    | some o =>
      cases o with
      | none => exact has_raise 0x10 _ (by decide) (.inl (by decide)) s0 s h
      | some devs => exact .tail h (.devReset hop hb)
  · exact loop _
  · exact loop _
  · exact loop _
  · exact h

theorem has_execReset (hop : f.opcode.toNat = 0x1F) : Has pf f (execReset f : M D Unit) := by
  unfold execReset
  refine has_bind (has_regOrLit1 _ _) fun mode => has_bind (has_resetDevs _ hop) fun _ => ?_
  exact has_ite (fun _ => has_modifyM _ fun s => .cpuReset hop) fun _ => has_pure _

theorem has_execCpy (hd : f.p0 ∈ destRegs f) : Has pf f (execCpy f : M D Unit) :=
  has_bind (has_regOrLit2 _ _ _) fun _ => has_writeReg _ _ hd

theorem has_execEx (hd : f.p0 ∈ destRegs f) (hd' : f.p1 ∈ destRegs f) :
    Has pf f (execEx f : M D Unit) :=
  has_bind (has_readReg _) fun _ => has_bind (has_readReg _) fun _ =>
    has_bind (has_writeReg _ _ hd) fun _ => has_writeReg _ _ hd'

theorem has_execAlu (hd : f.p0 ∈ destRegs f) (h : f.opcode.toNat ∈ [3,4,5,6,7,8,9,10,11,12,13]) :
    Has pf f (execAlu f : M D Unit) :=
  has_bind (has_regOrLit2 _ _ _) fun _ => has_bind (has_readReg _) fun _ =>
    has_bind (has_compute _ _ _ h) fun _ => has_writeReg _ _ hd

theorem has_execDiv (mk : U8 → Op) (hd : f.p0 ∈ destRegs f)
    (h : f.opcode.toNat ∈ [3,4,5,6,7,8,9,10,11,12,13]) : Has pf f (execDiv mk f : M D Unit) :=
  has_bind (has_regOrLit1 _ _) fun _ => has_bind (has_regOrLit1 _ _) fun _ =>
    has_bind (has_readReg _) fun _ =>
    has_bind (has_compute _ _ _ h) fun _ => has_writeReg _ _ hd

theorem has_execCmp (h : f.opcode.toNat ∈ [3,4,5,6,7,8,9,10,11,12,13]) :
    Has pf f (execCmp f : M D Unit) :=
  has_bind (has_regOrLit2 _ _ _) fun _ => has_bind (has_readReg _) fun _ =>
    has_bind (has_compute _ _ _ h) fun _ => has_pure _

theorem has_execJpr (h : f.opcode.toNat ∈ [0x0E, 0x1B]) : Has pf f (execJpr f : M D Unit) :=
  has_bind (has_regOrLit2 _ _ _) fun _ => has_modifyM _ fun _ => .jump _ h

theorem has_execItr (h : f.opcode.toNat = 0x10) : Has pf f (execItr f : M D Unit) :=
  has_bind (has_regOrLit1 _ _) fun _ => has_modifyM _ fun _ => .itr _ h

theorem has_skipNext (h : f.opcode.toNat ∈ [0x11, 0x12, 0x13]) : Has pf f (skipNext : M D Unit) :=
  has_modifyM _ fun _ => .skip h

theorem has_execIf (b : Bool) (h : f.opcode.toNat ∈ [0x11, 0x12, 0x13]) :
    Has pf f (execIf b f : M D Unit) :=
  has_bind (has_regOrLit1 _ _) fun _ => has_ite (fun _ => has_raise _ _ (by decide) (.inr (.inr ⟨by decide, wide_lt _⟩))) fun _ =>
    has_bind has_getM fun _ => has_ite (fun _ => has_skipNext h) fun _ => has_pure _

theorem has_execIf2 (h : f.opcode.toNat ∈ [0x11, 0x12, 0x13]) :
    Has pf f (execIf2 pf f : M D Unit) := by
  refine has_bind (has_regOrLit1 _ _) fun _ => has_bind (has_regOrLit1 _ _) fun _ =>
    has_bind (has_regOrLit1 _ _) fun _ => has_bind has_getM fun _ => has_bind (has_liftRes _) fun _ =>
    has_bind (has_liftRes _) fun _ => ?_
  split
  · exact has_raise _ _ (by decide) (.inr (.inr ⟨by decide, wide_lt _⟩))
  · exact has_ite (fun _ => has_skipNext h) fun _ => has_pure _

theorem has_execLsa (hd : f.p0 ∈ destRegs f) (hm : f.opcode.toNat ∈ memOps) :
    Has pf f (execLsa pf f : M D Unit) :=
  has_bind (has_regOrLit1 _ _) fun _ => has_bind (has_regOrLit1 _ _) fun _ =>
    has_bind (has_cpuRead _ hm) fun _ => has_writeReg _ _ hd

theorem has_execLea (h : f.opcode.toNat = 0x15) : Has pf f (execLea pf f : M D Unit) :=
  has_bind (has_regOrLit1 _ _) fun _ => has_bind (has_regOrLit1 _ _) fun _ =>
    has_bind (has_regOrLit1 _ _) fun _ =>
    has_bind (has_cpuRead _ (by simp [memOps, h])) fun _ => has_modifyM _ fun _ => .avr _ h

theorem has_execWsa (h : f.opcode.toNat ∈ storeOps) : Has pf f (execWsa pf f : M D Unit) :=
  has_bind (has_regOrLit1 _ _) fun _ => has_bind (has_regOrLit1 _ _) fun _ =>
    has_bind (has_regOrLit1 _ _) fun _ => has_cpuWrite _ _ h

theorem has_execWea (h : f.opcode.toNat ∈ storeOps) : Has pf f (execWea pf f : M D Unit) :=
  has_bind (has_regOrLit1 _ _) fun _ => has_bind (has_regOrLit1 _ _) fun _ =>
    has_bind (has_regOrLit1 _ _) fun _ => has_bind (has_getsM _) fun _ => has_cpuWrite _ _ h

theorem has_execSrm (hd : f.p2 ∈ destRegs f) (h : f.opcode.toNat ∈ storeOps) :
    Has pf f (execSrm pf f : M D Unit) :=
  has_bind (has_regOrLit1 _ _) fun _ => has_bind (has_regOrLit1 _ _) fun _ =>
    has_bind (has_liftRes _) fun _ => has_bind (has_cpuRead _ (storeOps_sub h)) fun _ =>
    has_bind (has_readReg _) fun _ => has_bind (has_liftRes _) fun _ =>
    has_bind (has_cpuWrite _ _ h) fun _ => has_writeReg _ _ hd

theorem has_setSp (v : Word) (hs : f.opcode.toNat ∈ [0x19, 0x1A, 0x1B]) :
    Has pf f (setSp v : M D Unit) :=
  has_modifyM _ fun _ => .sp v hs

theorem has_execPush (h : f.opcode.toNat = 0x19) : Has pf f (execPush pf f : M D Unit) :=
  has_bind (has_regOrLit2 _ _ _) fun _ => has_bind (has_getsM _) fun _ =>
    has_bind (has_cpuWrite _ _ (by simp [storeOps, h])) fun _ => has_setSp _ (by simp [h])

theorem has_execCall (h : f.opcode.toNat = 0x1B) : Has pf f (execCall pf f : M D Unit) :=
  has_bind (has_regOrLit2 _ _ _) fun _ => has_bind (has_getsM _) fun _ =>
    has_bind (has_getsM _) fun _ => has_bind (has_liftRes _) fun _ =>
    has_bind (has_cpuWrite _ _ (by simp [storeOps, h])) fun _ =>
    has_bind (has_setSp _ (by simp [h])) fun _ => has_modifyM _ fun _ => .jump _ (by simp [h])

theorem has_getHwInfo (info : Word) (id : Nat) : Has pf f (getHwInfo pf info id : M D Word) := by
  intro s0 s h
  unfold getHwInfo
  split
  · exact has_raise _ _ (by decide) (.inl (by decide)) s0 s h
  · dsimp only
    repeat' split
    all_goals first
      | exact h
      | exact has_raise _ _ (by decide) (.inl (by decide)) s0 s h
      | exact has_liftRes _ s0 s h

theorem has_execHwd (hd : f.p0 ∈ destRegs f) : Has pf f (execHwd pf f : M D Unit) :=
  has_bind (has_regOrLit1 _ _) fun _ => has_bind (has_regOrLit1 _ _) fun _ =>
    has_ite (fun _ => has_bind (has_getsM _) fun _ => has_writeReg _ _ hd) fun _ =>
      has_bind (has_getHwInfo _ _) fun _ => has_writeReg _ _ hd

theorem has_execCycles (hd : f.p0 ∈ destRegs f) : Has pf f (execCycles f : M D Unit) :=
  has_bind (has_getsM _) fun _ => has_writeReg _ _ hd

theorem has_execHalt (h : f.opcode.toNat = 0x1E) : Has pf f (execHalt : M D Unit) :=
  has_modifyM _ fun _ => .halt h

theorem runInstr_big (h : 32 ≤ f.opcode.toNat) : (runInstr pf f : M D Unit) = fun _ => .panic := by
  obtain ⟨n, hn⟩ : ∃ n, f.opcode.toNat = n + 32 := ⟨f.opcode.toNat - 32, by omega⟩
  unfold runInstr
  rw [hn]
  rfl

/-- Every instruction only performs effects listed in `Eff`, possibly followed by one exception. -/
theorem runInstr_summary : Has pf f (runInstr pf f : M D Unit) := by
  by_cases hbig : 32 ≤ f.opcode.toNat
  · rw [runInstr_big hbig]; exact fun _ _ _ => trivial
  unfold runInstr
  split
  · exact has_raise _ _ (by decide) (.inr (.inr ⟨by decide, wide_lt _⟩))
  · next h => exact has_execCpy (by simp [destRegs, h])
  · next h => exact has_execEx (by simp [destRegs, h]) (by simp [destRegs, h])
  · next h => exact has_execAlu (by simp [destRegs, h]) (by simp [h])
  · next h => exact has_execAlu (by simp [destRegs, h]) (by simp [h])
  · next h => exact has_execAlu (by simp [destRegs, h]) (by simp [h])
  · next h => exact has_execDiv _ (by simp [destRegs, h]) (by simp [h])
  · next h => exact has_execDiv _ (by simp [destRegs, h]) (by simp [h])
  · next h => exact has_execAlu (by simp [destRegs, h]) (by simp [h])
  · next h => exact has_execAlu (by simp [destRegs, h]) (by simp [h])
  · next h => exact has_execAlu (by simp [destRegs, h]) (by simp [h])
  · next h => exact has_execAlu (by simp [destRegs, h]) (by simp [h])
  · next h => exact has_execAlu (by simp [destRegs, h]) (by simp [h])
  · next h => exact has_execCmp (by simp [h])
  · next h => exact has_execJpr (by simp [h])
  · next h => exact has_execLsm h
  · next h => exact has_execItr h
  · next h => exact has_execIf _ (by simp [h])
  · next h => exact has_execIf _ (by simp [h])
  · next h => exact has_execIf2 (by simp [h])
  · next h => exact has_execLsa (by simp [destRegs, h]) (by simp [memOps, h])
  · next h => exact has_execLea h
  · next h => exact has_execWsa (by simp [storeOps, h])
  · next h => exact has_execWea (by simp [storeOps, h])
  · next h => exact has_execSrm (by simp [destRegs, h]) (by simp [storeOps, h])
  · next h => exact has_execPush h
  · next h => exact has_execPop h
  · next h => exact has_execCall h
  · next h => exact has_execHwd (by simp [destRegs, h])
  · next h => exact has_execCycles (by simp [destRegs, h])
  · next h => exact has_execHalt h
  · next h => exact has_execReset h
  · exfalso; simp only [imp_false] at *; omega

end Lrvm
