import Verif.Props.Arith

/-!
# Flags, conditionals, jumps and register access: C03, C10, C19, C20, C21, C22, C23, C24
-/

namespace Lrvm

open Spec

variable {D : Type} [Bus D] {pf : Profile}

/-! ## C19 -/

theorem writeReg_ok_inv {c : U8} {w : Word} {s t : Machine D} (h : writeReg c w s = .ok () t) :
    mayWrite (supervisor s.regs) c.toNat = true := by
  cases hw : mayWrite (supervisor s.regs) c.toNat with
  | true => rfl
  | false => rw [writeReg_fault w hw] at h; cases h

theorem compute_ok_inv {x y : Word} {op : Op} {r : Word} {s t : Machine D}
    (h : compute x y op s = .ok r t) :
    ∃ cf of, computeCore x y op = .ok (r, cf, of) ∧ t = { s with regs := { s.regs with af := flagsOf r cf of } } := by
  unfold compute at h
  cases hc : computeCore x y op with
  | error c => rw [hc] at h; cases h
  | ok p =>
    obtain ⟨res, cf, of⟩ := p
    rw [hc] at h
    injection h with h1 h2
    subst h1
    exact ⟨cf, of, rfl, h2.symm⟩

theorem readReg_inv {c : U8} {s t : Machine D} {v : Word} (h : readReg c s = .ok v t) :
    t = s ∧ v = reg s.regs c.toNat ∧ mayRead (supervisor s.regs) c.toNat = true := by
  rw [readReg_eq] at h
  split at h
  · next hr => injection h with h1 h2; exact ⟨h2.symm, h1.symm, hr⟩
  · cases h

theorem reg_assign {r : Regs} {c : Nat} {w : Word} (h : c < 32) : reg (assign r c w) c = w := by
  unfold assign
  split
  · exact reg_setReg_same _ _ _ h
  · next hne =>
    have h1 : advance (setReg r c w) = setReg (setReg r c w) 0x16 ((setReg r c w).pc + 4) := rfl
    rw [h1, reg_setReg_ne _ _ _ _ (by decide) h (fun e => hne e.symm)]
    exact reg_setReg_same _ _ _ h

theorem af_assign {r : Regs} {c : Nat} {w : Word} (h : c < 32) (h17 : c ≠ 0x17) :
    (assign r c w).af = r.af := by
  have h2 := reg_setReg_ne r c 0x17 w h (by decide) h17
  unfold assign
  split
  · exact h2
  · exact h2

/-- Arithmetic and bitwise instructions that complete: where the flags come from. -/
theorem alu_complete {s t : Machine D} {f : Fields} (h : execAlu f s = .ok () t) :
    mayWrite (supervisor s.regs) f.p0.toNat = true ∧ ∃ y, Val2 s.regs f.r1 f.p1 f.p2 y ∧
      ∃ res cf of, computeCore (reg s.regs f.p0.toNat)
        (if (f.opcode = 0x0B#8 ∨ f.opcode = 0x0C#8) ∧ f.r1 = false then y >>> 8 else y)
        (aluOp f.opcode.toNat) = .ok (res, cf, of) := by
  unfold execAlu at h
  obtain ⟨y, s1, h1, ha⟩ := M.bind_ok_inv h
  obtain ⟨rfl, hy⟩ := regOrLit2_inv h1
  obtain ⟨x, s2, h2, hb⟩ := M.bind_ok_inv ha
  obtain ⟨rfl, rfl, _⟩ := readReg_inv h2
  obtain ⟨res, s3, h3, hd⟩ := M.bind_ok_inv hb
  obtain ⟨cf, of, hc, rfl⟩ := compute_ok_inv h3
  have hw := writeReg_ok_inv hd
  exact ⟨hw, y, hy, res, cf, of, hc⟩

theorem div_complete {s t : Machine D} {f : Fields} {mk : U8 → Op} (h : execDiv mk f s = .ok () t) :
    mayWrite (supervisor s.regs) f.p0.toNat = true ∧ ∃ y m, Val1 s.regs f.r1 f.p1 y ∧
      Val1 s.regs f.r2 f.p2 m ∧
      ∃ res cf of, computeCore (reg s.regs f.p0.toNat) y (mk (m.setWidth 8)) = .ok (res, cf, of) := by
  unfold execDiv at h
  obtain ⟨y, s1, h1, ha⟩ := M.bind_ok_inv h
  obtain ⟨rfl, hy⟩ := regOrLit1_inv h1
  obtain ⟨m, s2, h1', hb⟩ := M.bind_ok_inv ha
  obtain ⟨rfl, hm⟩ := regOrLit1_inv h1'
  obtain ⟨x, s3, h2, hd⟩ := M.bind_ok_inv hb
  obtain ⟨rfl, rfl, _⟩ := readReg_inv h2
  obtain ⟨res, s4, h3, he⟩ := M.bind_ok_inv hd
  obtain ⟨cf, of, hc, rfl⟩ := compute_ok_inv h3
  have hw := writeReg_ok_inv he
  exact ⟨hw, y, m, hy, hm, res, cf, of, hc⟩

theorem Spec.Steps.next {s s' : Machine D} {r : Regs} {devs : List D} (h : Steps pf s r devs)
    (hn : Lrvm.next pf s = some s') : s'.regs = r ∧ s'.devs = devs := by
  obtain ⟨t, ht, h1, h2, _⟩ := h
  rw [ht] at hn
  injection hn with hn
  subst hn; exact ⟨h1, h2⟩

/-- **C19**, partial. After an arithmetic or bitwise instruction that completes, `af` holds, in bits 7 to 2,
ZF, CF, OF, SF, EF and ZUF with their documented meaning for the value left in the destination (the values of
CF and OF are given by C16, C17 and C18), and every bit outside 7..1 is 0. Missing: ZLF, which the code
computes as bit 16 of the result instead of "lower bits are zeros" (`C19_zlf_refuted`), and CF of MUL, which
reports the signed overflow (`C19_mul_carry_refuted`). -/
theorem C19_flags_partial {s s' : Machine D} {devs : List D} {op : BitVec 5} {r0 r1 r2 : Bool}
    {p0 p1 p2 : U8} (hf : Fetches pf s (instrWord op r0 r1 r2 p0 p1 p2) devs)
    (hop : op.toNat ∈ [3, 4, 5, 6, 7, 8, 9, 10, 11, 12]) (h : next pf s = some s') :
    (∃ cf of, s'.regs.af = flagsFor (reg s'.regs p0.toNat) cf of (zlfCode (reg s'.regs p0.toNat))) ∨
    ∃ r c d, c ∈ exceptionCodes ∧ d < 65536 ∧ s'.regs = trap r c d := by
  rcases next_inv h hf.1 with ⟨devs', c, d, hc, ha, hl, rfl⟩ | ⟨w', devs', hf', hl, hr⟩
  · exact .inr ⟨_, _, _, fetchCodes_doc c hc, d.isLt, exception_regs ..⟩
  · obtain ⟨rfl, rfl⟩ := fetches_unique hf hf'
    rcases hr with ⟨t, c, d, _, he, hc, rfl⟩ | ⟨t, hrun, he, hs'⟩
    · exact .inr ⟨_, _, _, faultCodes_doc c hc, d.isLt, exception_regs ..⟩
    · left
      rw [fieldsOf_instrWord] at hrun
      have fin : ∀ {res : Word} {cf of : Bool}, mayWrite (supervisor s.regs) p0.toNat = true →
          Steps pf s (assign { s.regs with af := flagsOf res cf of } p0.toNat res) devs' →
          ∃ cf of, s'.regs.af = flagsFor (reg s'.regs p0.toNat) cf of (zlfCode (reg s'.regs p0.toNat)) := by
        intro res cf of hw hst
        have hlt := mayWrite_lt hw
        rw [(hst.next h).1, reg_assign hlt, af_assign hlt]
        · exact ⟨cf, of, flagsOf_eq ..⟩
        · intro he; rw [he] at hw; revert hw; cases supervisor s.regs <;> decide
      have hdiv : op = 6#5 ∨ op = 7#5 ∨ op ∈ [3#5, 4#5, 5#5, 8#5, 9#5, 10#5, 11#5, 12#5] := by
        have : ∀ op : BitVec 5, op.toNat ∈ [3, 4, 5, 6, 7, 8, 9, 10, 11, 12] →
          op = 6#5 ∨ op = 7#5 ∨ op ∈ [3#5, 4#5, 5#5, 8#5, 9#5, 10#5, 11#5, 12#5] := by decide
        exact this op hop
      have hd2 : op = 6#5 ∨ op = 7#5 →
          ∃ cf of, s'.regs.af = flagsFor (reg s'.regs p0.toNat) cf of (zlfCode (reg s'.regs p0.toNat)) := by
        intro hd
        rw [runInstr_div hd] at hrun
        obtain ⟨hw, y, m, hy, hm, res, cf, of, hc⟩ := div_complete hrun
        refine fin hw (div_step hf hd hw hy hm (res := res) (cf := cf) (of := of) ?_)
        rcases hd with rfl | rfl <;> exact hc
      rcases hdiv with hd | hd | hd
      · exact hd2 (.inl hd)
      · exact hd2 (.inr hd)
      · rw [runInstr_alu hd] at hrun
        obtain ⟨hw, y, hy, res, cf, of, hc⟩ := alu_complete hrun
        refine fin hw (alu_step hf hd hw hy (res := res) (cf := cf) (of := of) ?_)
        have h8 : (op.setWidth 8).toNat = op.toNat := by simp; have := op.isLt; omega
        simp only [setWidth8_eq, h8] at hc
        exact hc

/-- Non-vacuity: `SUB a0, 1` on a zero register completes and sets CF and SF. -/
example : ∃ s s' : Machine Demo.Dev,
    Fetches .debug s (instrWord 0x04 false false false 0 0 1) s.devs ∧ next .debug s = some s' ∧
    (0x04 : BitVec 5).toNat ∈ [3, 4, 5, 6, 7, 8, 9, 10, 11, 12] ∧ reg s'.regs 0 = 0xFFFFFFFF ∧
    flag s'.regs.af 1 = true ∧ flag s'.regs.af 3 = true ∧ s'.regs.et = 0 :=
  ⟨Demo.start [instrWord 0x04 false false false 0 0 1], _, ⟨rfl, rfl⟩, rfl, by decide, rfl, rfl, rfl, rfl⟩

/-- **C19**, CMP: the flags of the difference, nothing else changes but `pc`. -/
theorem C19_cmp_partial {s : Machine D} {devs : List D} {r0 r1 r2 : Bool} {p0 p1 p2 : U8} {y : Word}
    (hf : Fetches pf s (instrWord 0x0D r0 r1 r2 p0 p1 p2) devs)
    (hr : mayRead (supervisor s.regs) p0.toNat = true) (hv : Val2 s.regs r1 p1 p2 y) :
    let x := reg s.regs p0.toNat
    let res := BitVec.ofInt 32 ((x.toNat : Int) - y.toNat)
    Steps pf s (advance { s.regs with
      af := flagsFor res (decide (x.toNat < y.toNat)) (!fitsSigned (x.toInt - y.toInt))
        (zlfCode res) }) devs := by
  intro x res
  have hres : res = x - y := by
    apply BitVec.eq_of_toNat_eq
    simp only [res, BitVec.toNat_sub, BitVec.toNat_ofInt]
    have := x.isLt; have := y.isLt
    omega
  have := cmp_step hf hr hv
  rw [flagsOf_eq, usubOverflow_spec, ssubOverflow_spec] at this
  rw [hres]; exact this

/-- Non-vacuity: `CMP a0, 5` at startup. -/
example : Fetches .debug (Demo.run1 startup (instrWord 0x0D false false false 0 0 5))
    (instrWord 0x0D false false false 0 0 5) (Demo.devices [instrWord 0x0D false false false 0 0 5]) ∧
    mayRead (supervisor startup) 0 = true ∧ Val2 startup false 0 5 5 := ⟨Demo.run1_fetches _ _ rfl rfl, rfl, rfl⟩

/-- The documented meaning of ZLF is false of the code: the result `0x40000` has 16 zero lower bits, and ZLF
is clear. -/
theorem C19_zlf_refuted : ∃ s s' : Machine Demo.Dev,
    Fetches .debug s (instrWord 0x03 false false false 0 0 0) s.devs ∧ next .debug s = some s' ∧
    reg s'.regs 0 = 0x40000 ∧ zlfDoc (reg s'.regs 0) = true ∧ flag s'.regs.af 6 = false :=
  ⟨Demo.run1 (setReg startup 0 0x40000) (instrWord 0x03 false false false 0 0 0), _,
    Demo.run1_fetches _ _ rfl rfl, rfl, rfl, rfl, rfl⟩

/-- The documented meaning of CF ("Result would be too large to fit in 32 bits") is false of MUL:
`0x7FFFFFFF * 2` fits in 32 bits and sets CF, `0xFFFFFFFF * 0xFFFFFFFF` does not fit and clears it. -/
theorem C19_mul_carry_refuted :
    (∃ s s' : Machine Demo.Dev, Fetches .debug s (instrWord 0x05 false true false 0 1 0) s.devs ∧
      next .debug s = some s' ∧ (reg s.regs 0).toNat * (reg s.regs 1).toNat < 2 ^ 32 ∧
      flag s'.regs.af 1 = true) ∧
    (∃ s s' : Machine Demo.Dev, Fetches .debug s (instrWord 0x05 false true false 0 1 0) s.devs ∧
      next .debug s = some s' ∧ 2 ^ 32 ≤ (reg s.regs 0).toNat * (reg s.regs 1).toNat ∧
      flag s'.regs.af 1 = false) :=
  ⟨⟨Demo.run1 (setReg (setReg startup 0 0x7FFFFFFF) 1 2) (instrWord 0x05 false true false 0 1 0), _,
      Demo.run1_fetches _ _ rfl rfl, rfl, by decide, rfl⟩,
    ⟨Demo.run1 (setReg (setReg startup 0 0xFFFFFFFF) 1 0xFFFFFFFF) (instrWord 0x05 false true false 0 1 0), _,
      Demo.run1_fetches _ _ rfl rfl, rfl, by decide, rfl⟩⟩

/-- The flags register determines each flag. -/
theorem flag_flagWord : ∀ a b c d e f g : Bool,
    flag (flagWord a b c d e f g) 0 = a ∧ flag (flagWord a b c d e f g) 1 = b ∧
    flag (flagWord a b c d e f g) 2 = c ∧ flag (flagWord a b c d e f g) 3 = d ∧
    flag (flagWord a b c d e f g) 4 = e ∧ flag (flagWord a b c d e f g) 5 = f ∧
    flag (flagWord a b c d e f g) 6 = g := by decide

/-! ## C21, C22 -/

theorem flag_test (af : Word) (n : Nat) (h : n ≤ 7) :
    (af &&& (1#32 <<< (7 - n)) != 0) = flag af n := by
  unfold flag
  rw [Bool.eq_iff_iff, bne_iff_ne, beq_iff_eq]
  have hb : af &&& (1#32 <<< (7 - n)) ≠ 0 ↔ af.getLsbD (7 - n) = true := by
    constructor
    · intro hne
      cases hg : af.getLsbD (7 - n) with
      | true => rfl
      | false =>
        exfalso; apply hne
        apply BitVec.eq_of_getLsbD_eq
        intro i hi
        by_cases hi2 : i = 7 - n
        · subst hi2; simp [hg]
        · simp
          intro _
          omega
    · intro hg h0
      have := congrArg (fun x => x.getLsbD (7 - n)) h0
      simp [hg] at this
      omega
  rw [hb, BitVec.getLsbD, Nat.testBit_eq_decide_div_mod_eq, decide_eq_true_eq]

/-- Registers after a conditional instruction: the next instruction is run or skipped. -/
def Spec.runNextIf (r : Regs) (cond : Bool) : Regs := if cond then advance r else advance (advance r)

/-- **C21**, partial: IF (`wanted = true`, opcode `0x11`) and IFN (`wanted = false`, opcode `0x12`) with a
documented flag number run the next instruction iff the flag is set (clear), otherwise `pc` advances by 8;
nothing else changes. Missing: flag number 7 does not exist but raises no exception
(`C21_flag7_refuted`); larger numbers are `C21_unknown_flag_partial`. -/
theorem C21_if_partial {s : Machine D} {devs : List D} {op : BitVec 5} {r0 r1 r2 : Bool} {p0 p1 p2 : U8}
    {n : Word} {wanted : Bool} (hop : (op = 0x11#5 ∧ wanted = true) ∨ (op = 0x12#5 ∧ wanted = false))
    (hf : Fetches pf s (instrWord op r0 r1 r2 p0 p1 p2) devs) (hv : Val1 s.regs r0 p0 n)
    (hn : n.toNat ≤ 6) :
    Steps pf s (runNextIf s.regs (flag s.regs.af n.toNat == wanted)) devs := by
  have hrun : (runInstr pf ⟨op.setWidth 8, r0, r1, r2, p0, p1, p2⟩ : M D Unit) =
      execIf wanted ⟨op.setWidth 8, r0, r1, r2, p0, p1, p2⟩ := by
    rcases hop with ⟨rfl, rfl⟩ | ⟨rfl, rfl⟩ <;> rfl
  have hlt : ¬ (7#32 < n) := by rw [BitVec.lt_def]; simp; omega
  have key : execIf wanted ⟨op.setWidth 8, r0, r1, r2, p0, p1, p2⟩ (atExec s devs) =
      if flag s.regs.af n.toNat != wanted then skipNext (atExec s devs) else .ok () (atExec s devs) := by
    unfold execIf
    rw [M.bind_ok (regOrLit1_val (s := atExec s devs) hv), if_neg hlt, getM_bind]
    rw [show (atExec s devs).regs = s.regs from rfl, flag_test _ _ (by omega)]
    exact ite_apply_M _ _ _
  cases hc : flag s.regs.af n.toNat == wanted with
  | true =>
    refine steps_ok (cp := false) (r := s.regs) (devs' := devs) hf ?_
    rw [hrun, key, bne, hc]; rfl
  | false =>
    refine steps_ok (cp := false) (r := advance s.regs) (devs' := devs) hf ?_
    rw [hrun, key, bne, hc]; rfl

/-- Non-vacuity: `IF ZF` with ZF clear. -/
example : Fetches .debug (Demo.run1 startup (instrWord 0x11 false false false 0 0 0))
    (instrWord 0x11 false false false 0 0 0) (Demo.devices [instrWord 0x11 false false false 0 0 0]) ∧
    Val1 startup false 0 0 ∧ flag startup.af 0 = false := ⟨Demo.run1_fetches _ _ rfl rfl, rfl, rfl⟩

/-- **C21**, unknown flags: numbers above 7 raise `0x0C` with the flag's low byte. -/
theorem C21_unknown_flag_partial {s : Machine D} {devs : List D} {op : BitVec 5} {r0 r1 r2 : Bool}
    {p0 p1 p2 : U8} {n : Word} (hop : op = 0x11#5 ∨ op = 0x12#5)
    (hf : Fetches pf s (instrWord op r0 r1 r2 p0 p1 p2) devs) (hv : Val1 s.regs r0 p0 n)
    (hn : 7 < n.toNat) :
    Steps pf s (trap s.regs 0x0C (n.toNat % 256)) devs := by
  have := steps_ex (c := 0x0C) (d := (n.setWidth 8).setWidth 16) (r := s.regs) (devs' := devs) (cp := false)
    hf (by
      have hlt : 7#32 < n := by rw [BitVec.lt_def]; simpa using hn
      have : ∀ wanted, execIf wanted ⟨op.setWidth 8, r0, r1, r2, p0, p1, p2⟩ (atExec s devs) =
          .ex ((atExec s devs).exception 0x0C ((n.setWidth 8).setWidth 16)) := by
        intro wanted
        unfold execIf
        rw [M.bind_ok (regOrLit1_val (s := atExec s devs) hv), if_pos hlt]
        rfl
      rcases hop with rfl | rfl
      · exact this true
      · exact this false)
  have hd : ((n.setWidth 8).setWidth 16 : U16).toNat = n.toNat % 256 := by
    simp only [BitVec.toNat_setWidth]; omega
  rw [hd] at this; exact this

/-- Non-vacuity: `IFN 9`. -/
example : Fetches .debug (Demo.run1 startup (instrWord 0x12 false false false 9 0 0))
    (instrWord 0x12 false false false 9 0 0) (Demo.devices [instrWord 0x12 false false false 9 0 0]) ∧
    Val1 startup false 9 9 := ⟨Demo.run1_fetches _ _ rfl rfl, rfl⟩

/-- The full claim is false of the code: flag number 7 does not exist, but `IF 7` raises no exception. -/
theorem C21_flag7_refuted : ∃ s s' : Machine Demo.Dev,
    Fetches .debug s (instrWord 0x11 false false false 7 0 0) s.devs ∧ next .debug s = some s' ∧
    s'.regs.et = 0 ∧ s'.regs.pc = 8 :=
  ⟨Demo.run1 startup (instrWord 0x11 false false false 7 0 0), _, Demo.run1_fetches _ _ rfl rfl, rfl,
    rfl, rfl⟩

/-- The documented condition table of IF2. -/
def Spec.condition (code : Nat) (a b : Bool) : Option Bool :=
  match code with
  | 1 => some (decide (1 ≤ a.toNat + b.toNat))   -- at least one of the two flags is set
  | 2 => some (decide (a.toNat + b.toNat = 2))   -- both flags are set
  | 3 => some (decide (a.toNat + b.toNat = 1))   -- exactly one of the two flags is set
  | 4 => some (decide (a.toNat + b.toNat = 0))   -- none of the two flags is set
  | 5 => some (decide (a.toNat + b.toNat ≤ 1))   -- up to one of the two flags is set
  | 6 => some (decide (a = true ∧ b = false))    -- only the first flag is set
  | 7 => some (decide (a = false ∧ b = true))    -- only the second flag is set
  | _ => none

theorem if2Cond_eq (c : Word) (a b : Bool) : if2Cond c a b = condition c.toNat a b := by
  unfold if2Cond condition
  generalize c.toNat = n
  match n with
  | 0 => rfl
  | 1 | 2 | 3 | 4 | 5 | 6 | 7 => cases a <;> cases b <;> rfl
  | n + 8 => rfl

theorem flagTest_eq {n : Word} (af : Word) (h : n.toNat ≤ 7) : flagTest pf af n = some (flag af n.toNat) := by
  have hk : (7#32 - n).toNat = 7 - n.toNat := by
    rw [BitVec.toNat_sub]; simp; have := n.isLt; omega
  have h1 : pf.sub 7 n = some (7#32 - n) := by
    cases pf with
    | debug => exact if_pos (by simpa using h)
    | release => rfl
  have h2 : pf.oneShl (7#32 - n) = some (1#32 <<< (7 - n.toNat)) := by
    cases pf with
    | debug => simp only [Profile.oneShl]; rw [if_pos (by omega), hk]
    | release => simp only [Profile.oneShl]; rw [hk, Nat.mod_eq_of_lt (by omega)]
  unfold flagTest
  rw [h1]
  simp only [Option.bind_eq_bind, Option.bind_some, h2]
  rw [flag_test _ _ h]

theorem if2_eval {s : Machine D} {devs : List D} {f : Fields} {na nb c : Word}
    (ha : Val1 s.regs f.r0 f.p0 na) (hb : Val1 s.regs f.r1 f.p1 nb) (hc : Val1 s.regs f.r2 f.p2 c)
    (hna : na.toNat ≤ 7) (hnb : nb.toNat ≤ 7) :
    execIf2 pf f (atExec s devs) =
      match condition c.toNat (flag s.regs.af na.toNat) (flag s.regs.af nb.toNat) with
      | none => .ex ((atExec s devs).exception 0x0D ((c.setWidth 8).setWidth 16))
      | some b => if !b then skipNext (atExec s devs) else .ok () (atExec s devs) := by
  unfold execIf2
  rw [M.bind_ok (regOrLit1_val (s := atExec s devs) ha), M.bind_ok (regOrLit1_val (s := atExec s devs) hb),
    M.bind_ok (regOrLit1_val (s := atExec s devs) hc), getM_bind,
    show (atExec s devs).regs = s.regs from rfl, flagTest_eq _ hna, flagTest_eq _ hnb,
    liftRes_some_bind, liftRes_some_bind, if2Cond_eq]
  cases condition c.toNat (flag s.regs.af na.toNat) (flag s.regs.af nb.toNat) with
  | none => rfl
  | some b => cases b <;> rfl

/-- **C22**, partial: with existing flags, IF2 runs the next instruction iff the condition holds; an unknown
condition raises `0x0D` with its low byte. Missing: unknown flags, for which the code raises no exception
(`C22_unknown_flag_refuted`). -/
theorem C22_if2_partial {s : Machine D} {devs : List D} {r0 r1 r2 : Bool} {p0 p1 p2 : U8} {na nb c : Word}
    (hf : Fetches pf s (instrWord 0x13 r0 r1 r2 p0 p1 p2) devs)
    (ha : Val1 s.regs r0 p0 na) (hb : Val1 s.regs r1 p1 nb) (hc : Val1 s.regs r2 p2 c)
    (hna : na.toNat ≤ 6) (hnb : nb.toNat ≤ 6) :
    Steps pf s (match condition c.toNat (flag s.regs.af na.toNat) (flag s.regs.af nb.toNat) with
      | some b => runNextIf s.regs b
      | none => trap s.regs 0x0D (c.toNat % 256)) devs := by
  have key := if2_eval (pf := pf) (devs := devs) (f := ⟨0x13, r0, r1, r2, p0, p1, p2⟩) ha hb hc
    (by omega) (by omega)
  cases hcond : condition c.toNat (flag s.regs.af na.toNat) (flag s.regs.af nb.toNat) with
  | none =>
    rw [hcond] at key
    have := steps_ex (c := 0x0D) (d := (c.setWidth 8).setWidth 16) (r := s.regs) (devs' := devs) (cp := false)
      hf key
    have hd : ((c.setWidth 8).setWidth 16 : U16).toNat = c.toNat % 256 := by
      simp only [BitVec.toNat_setWidth]; omega
    rw [hd] at this; exact this
  | some b =>
    rw [hcond] at key
    cases b with
    | true => exact steps_ok (cp := false) (r := s.regs) (devs' := devs) hf key
    | false => exact steps_ok (cp := false) (r := advance s.regs) (devs' := devs) hf key

/-- The full claim is false of the code: with an unknown flag number IF2 panics in a debug build, and in a
release build runs on without an exception. -/
theorem C22_unknown_flag_refuted :
    (∃ s : Machine Demo.Dev, Fetches .debug s (instrWord 0x13 false false false 8 0 1) s.devs ∧
      next .debug s = none) ∧
    (∃ s s' : Machine Demo.Dev, Fetches .release s (instrWord 0x13 false false false 8 0 1) s.devs ∧
      next .release s = some s' ∧ s'.regs.et = 0) :=
  ⟨⟨Demo.run1 startup (instrWord 0x13 false false false 8 0 1), Demo.run1_fetches _ _ rfl rfl, rfl⟩,
    ⟨Demo.run1 startup (instrWord 0x13 false false false 8 0 1), _, ⟨rfl, rfl⟩, rfl, rfl⟩⟩

example : Fetches .debug (Demo.run1 { startup with af := 0xC0 } (instrWord 0x13 false false false 0 1 4))
      (instrWord 0x13 false false false 0 1 4) (Demo.devices [instrWord 0x13 false false false 0 1 4]) ∧
    condition 4 (flag 0xC0 0) (flag 0xC0 1) = some false :=
  ⟨Demo.run1_fetches _ _ rfl rfl, by decide⟩

/-! ## C20 -/

/-- The six compare-and-branch aliases and the unsigned relation each one stands for
(`docs/Architecture.md`, "Alias instructions"). -/
inductive Spec.Idiom
  | ifeq | ifnq | ifls | ifge | ifgt | ifle

/-- The instruction an alias stands for. -/
def Spec.Idiom.word : Idiom → Word
  | .ifeq => instrWord 0x11 false false false 0 0 0          -- IF ZF
  | .ifnq => instrWord 0x12 false false false 0 0 0          -- IFN ZF
  | .ifls => instrWord 0x11 false false false 1 0 0          -- IF CF
  | .ifge => instrWord 0x12 false false false 1 0 0          -- IFN CF
  | .ifgt => instrWord 0x13 false false false 0 1 4          -- IF2 ZF, CF, CMP_NOR
  | .ifle => instrWord 0x13 false false false 0 1 1          -- IF2 ZF, CF, CMP_OR

/-- The relation between unsigned numbers an alias tests. -/
def Spec.Idiom.holds : Idiom → Nat → Nat → Bool
  | .ifeq, x, y => decide (x = y)
  | .ifnq, x, y => decide (x ≠ y)
  | .ifls, x, y => decide (x < y)
  | .ifge, x, y => decide (x ≥ y)
  | .ifgt, x, y => decide (x > y)
  | .ifle, x, y => decide (x ≤ y)

/-- **C20.** When `CMP x, y` completes and the next instruction executed is one of the compare-and-branch
aliases, the instruction after it is run iff the relation holds between `x` and `y` as unsigned numbers. -/
theorem C20_compare_and_branch {s s1 : Machine D} {devs devs1 : List D} {r0 r1 r2 : Bool} {p0 p1 p2 : U8}
    {y : Word} (i : Idiom)
    (hf : Fetches pf s (instrWord 0x0D r0 r1 r2 p0 p1 p2) devs)
    (hr : mayRead (supervisor s.regs) p0.toNat = true) (hv : Val2 s.regs r1 p1 p2 y)
    (hn : next pf s = some s1) (hf1 : Fetches pf s1 i.word devs1) :
    Steps pf s1 (runNextIf s1.regs (i.holds (reg s.regs p0.toNat).toNat y.toNat)) devs1 := by
  have hcmp := ((C19_cmp_partial hf hr hv).next hn).1
  generalize hx : reg s.regs p0.toNat = x at hcmp ⊢
  have hz : (decide ((BitVec.ofInt 32 ((x.toNat : Int) - y.toNat)).toNat = 0)) = decide (x.toNat = y.toNat) := by
    rw [Bool.eq_iff_iff, decide_eq_true_eq, decide_eq_true_eq]
    have := x.isLt; have := y.isLt
    simp only [BitVec.toNat_ofInt]
    omega
  have haf : flag s1.regs.af 0 = decide (x.toNat = y.toNat) ∧
      flag s1.regs.af 1 = decide (x.toNat < y.toNat) := by
    rw [hcmp, ← hz]
    constructor
    · exact (flag_flagWord ..).1
    · exact (flag_flagWord ..).2.1
  have hval : ∀ p : U8, p.toNat < 256 → Val1 s1.regs false p (BitVec.ofNat 32 p.toNat) := fun _ _ => rfl
  cases i with
  | ifeq =>
    have h := C21_if_partial (wanted := true) (.inl ⟨rfl, rfl⟩) hf1 (n := 0) rfl (by decide)
    refine Eq.mp (congrArg (fun b => Steps pf s1 (runNextIf s1.regs b) devs1) ?_) h
    show (flag s1.regs.af 0 == true) = _
    rw [haf.1]
    simp only [Idiom.holds]
    cases decide (x.toNat = y.toNat) <;> rfl
  | ifnq =>
    have h := C21_if_partial (wanted := false) (.inr ⟨rfl, rfl⟩) hf1 (n := 0) rfl (by decide)
    refine Eq.mp (congrArg (fun b => Steps pf s1 (runNextIf s1.regs b) devs1) ?_) h
    show (flag s1.regs.af 0 == false) = _
    rw [haf.1]
    simp only [Idiom.holds]
    by_cases hxy : x.toNat = y.toNat <;> simp [hxy]
  | ifls =>
    have h := C21_if_partial (wanted := true) (.inl ⟨rfl, rfl⟩) hf1 (n := 1) rfl (by decide)
    refine Eq.mp (congrArg (fun b => Steps pf s1 (runNextIf s1.regs b) devs1) ?_) h
    show (flag s1.regs.af 1 == true) = _
    rw [haf.2]
    simp only [Idiom.holds]
    cases decide (x.toNat < y.toNat) <;> rfl
  | ifge =>
    have h := C21_if_partial (wanted := false) (.inr ⟨rfl, rfl⟩) hf1 (n := 1) rfl (by decide)
    refine Eq.mp (congrArg (fun b => Steps pf s1 (runNextIf s1.regs b) devs1) ?_) h
    show (flag s1.regs.af 1 == false) = _
    rw [haf.2]
    simp only [Idiom.holds]
    by_cases hxy : x.toNat < y.toNat <;> simp [hxy] <;> omega
  | ifgt =>
    have h := C22_if2_partial hf1 (na := 0) (nb := 1) (c := 4) rfl rfl rfl (by decide) (by decide)
    refine Eq.mp (congrArg (fun r => Steps pf s1 r devs1) ?_) h
    show runNextIf s1.regs (decide ((flag s1.regs.af 0).toNat + (flag s1.regs.af 1).toNat = 0)) = _
    rw [haf.1, haf.2]
    congr 1
    simp only [Idiom.holds]
    by_cases h1 : x.toNat = y.toNat <;> by_cases h2 : x.toNat < y.toNat <;> simp [h1, h2] <;> omega
  | ifle =>
    have h := C22_if2_partial hf1 (na := 0) (nb := 1) (c := 1) rfl rfl rfl (by decide) (by decide)
    refine Eq.mp (congrArg (fun r => Steps pf s1 r devs1) ?_) h
    show runNextIf s1.regs (decide (1 ≤ (flag s1.regs.af 0).toNat + (flag s1.regs.af 1).toNat)) = _
    rw [haf.1, haf.2]
    congr 1
    simp only [Idiom.holds]
    by_cases h1 : x.toNat = y.toNat <;> by_cases h2 : x.toNat < y.toNat <;> simp [h1, h2] <;> omega

/-- `CMP a0, 5` then IFGT, with `a0 = 9`. -/
example : ∃ s s1 : Machine Demo.Dev,
    Fetches .debug s (instrWord 0x0D false false false 0 0 5) s.devs ∧ next .debug s = some s1 ∧
    Fetches .debug s1 Idiom.ifgt.word s1.devs ∧ reg s.regs 0 = 9 :=
  ⟨{ Demo.start [instrWord 0x0D false false false 0 0 5, Idiom.ifgt.word] with regs := setReg startup 0 9 },
    _, ⟨rfl, rfl⟩, rfl, ⟨rfl, rfl⟩, rfl⟩

/-! ## C24 -/

/-- **C24.** JPR moves `pc` by the low 16 bits of its operand read in two's complement representation, modulo
`2 ^ 32`, and changes nothing else. -/
theorem C24_jpr {s : Machine D} {devs : List D} {r0 r1 r2 : Bool} {p0 p1 p2 : U8} {v : Word}
    (hf : Fetches pf s (instrWord 0x0E r0 r1 r2 p0 p1 p2) devs) (hv : Val2 s.regs r0 p0 p1 v) :
    let off : Int := if v.toNat % 65536 < 32768 then v.toNat % 65536 else v.toNat % 65536 - 65536
    Steps pf s { s.regs with pc := BitVec.ofInt 32 (s.regs.pc.toNat + off) } devs := by
  intro off
  have hpc : s.regs.pc + (v.setWidth 16 : U16).signExtend 32 = BitVec.ofInt 32 (s.regs.pc.toNat + off) := by
    have hse : (v.setWidth 16 : U16).signExtend 32 = BitVec.ofInt 32 off := by
      apply BitVec.eq_of_toInt_eq
      rw [BitVec.toInt_signExtend_of_le (by decide), BitVec.toInt_ofInt, BitVec.toInt_eq_toNat_cond]
      simp only [BitVec.toNat_setWidth, off, Int.bmod]
      have := v.isLt
      split <;> split <;> split <;> omega
    rw [hse]
    apply BitVec.eq_of_toNat_eq
    rw [BitVec.toNat_add, BitVec.toNat_ofInt, BitVec.toNat_ofInt]
    have := s.regs.pc.isLt
    omega
  rw [← hpc]
  refine steps_ok (cp := true) (r := { s.regs with pc := _ }) (devs' := devs) hf ?_
  show execJpr _ _ = _
  unfold execJpr
  rw [M.bind_ok (regOrLit2_val (s := atExec s devs) hv)]
  rfl

/-- `JPR -4`. -/
example : Fetches .debug (Demo.run1 startup (instrWord 0x0E false false false 0xFF 0xFC 0))
      (instrWord 0x0E false false false 0xFF 0xFC 0)
      (Demo.devices [instrWord 0x0E false false false 0xFF 0xFC 0]) ∧
    Val2 startup false 0xFF 0xFC 0xFFFC := ⟨Demo.run1_fetches _ _ rfl rfl, rfl⟩

/-! ## C10, C03 -/

/-- **C10**, and C03 for CPY. `CPY dst, src`: the table decides. If the source is a register that may not be
read the exception is `0x03` (userland) or `0x02` (unknown register, supervisor); otherwise, if the
destination may not be written, it is `0x04`, or `0x02` for an unknown register in supervisor mode; otherwise
the destination receives the value, and `pc` is the written value or the next instruction. -/
theorem C10_cpy {s : Machine D} {devs : List D} {r0 r1 r2 : Bool} {p0 p1 p2 : U8}
    (hf : Fetches pf s (instrWord 0x01 r0 r1 r2 p0 p1 p2) devs) :
    let sv := supervisor s.regs
    Steps pf s
      (if r1 = true ∧ mayRead sv p1.toNat = false then
        trap s.regs (if sv then 0x02 else 0x03) p1.toNat
      else if mayWrite sv p0.toNat = false then
        trap s.regs (if sv = true ∧ 0x20 ≤ p0.toNat then 0x02 else 0x04) p0.toNat
      else assign s.regs p0.toNat
        (if r1 then reg s.regs p1.toNat else BitVec.ofNat 32 (p1.toNat * 256 + p2.toNat))) devs := by
  intro sv
  have h16 : ∀ p : U8, (p.setWidth 16 : U16).toNat = p.toNat := by
    intro p; rw [BitVec.toNat_setWidth]; have := p.isLt; omega
  by_cases hsrc : r1 = true ∧ mayRead sv p1.toNat = false
  · rw [if_pos hsrc]
    have := steps_ex (c := readFault sv) (d := p1.setWidth 16) (r := s.regs) (devs' := devs) (cp := false)
      hf (by
        show execCpy _ _ = _
        unfold execCpy regOrLit2
        simp only [hsrc.1, if_true]
        refine M.bind_ex ?_
        rw [readReg_eq]
        have : mayRead (supervisor (atExec s devs).regs) p1.toNat = false := hsrc.2
        rw [if_neg (by simp [this])]
        rfl)
    rw [h16] at this
    have hc : (readFault sv).toNat = if sv then 0x02 else 0x03 := by
      unfold readFault; cases sv <;> rfl
    rw [hc] at this; exact this
  · rw [if_neg hsrc]
    have hv : Val2 s.regs r1 p1 p2
        (if r1 then reg s.regs p1.toNat else BitVec.ofNat 32 (p1.toNat * 256 + p2.toNat)) := by
      unfold Val2
      cases r1 with
      | false => rfl
      | true => simpa [sv] using hsrc
    cases hdst : mayWrite sv p0.toNat with
    | false =>
      rw [if_pos rfl]
      have := steps_ex (c := writeFault sv p0.toNat) (d := p0.setWidth 16) (r := s.regs) (devs' := devs)
        (cp := false) hf (by
          show execCpy _ _ = _
          unfold execCpy
          rw [M.bind_ok (regOrLit2_val (s := atExec s devs) hv)]
          exact writeReg_fault _ hdst)
      rw [h16] at this
      have hc : (writeFault sv p0.toNat).toNat = if sv = true ∧ 0x20 ≤ p0.toNat then 0x02 else 0x04 := by
        unfold writeFault; split <;> rfl
      rw [hc] at this; exact this
    | true =>
      rw [if_neg (by simp)]
      have := steps_ok (cp := if p0 = 0x16#8 then true else false) (devs' := devs)
        (r := setReg s.regs p0.toNat
          (if r1 then reg s.regs p1.toNat else BitVec.ofNat 32 (p1.toNat * 256 + p2.toNat))) hf (by
          show execCpy _ _ = _
          unfold execCpy
          rw [M.bind_ok (regOrLit2_val (s := atExec s devs) hv)]
          exact writeReg_val (s := atExec s devs) _ hdst)
      rw [assign_eq] at this; exact this

/-- **C10**, reads return the last value written: what a register holds after an assignment. -/
theorem C10_read_after_write (r : Regs) (c d : Nat) (w : Word) (hc : c < 32) (hd : d < 32) :
    reg (setReg r c w) d = if d = c then w else reg r d := by
  split
  · next h => subst h; exact reg_setReg_same r _ w hc
  · next h => exact reg_setReg_ne r c d w hc hd (fun e => h e.symm)

/-- **C10**, the register numbers of the table name all the registers: two register files that agree on the
32 numbers are equal. -/
theorem C10_registers_complete {r r' : Regs} (h : ∀ n, n < 32 → reg r n = reg r' n) : r = r' :=
  Regs.ext_get h

/-- **C03**, writes to `pc`: an instruction of the `assign` form (CPY: `C10_cpy`; arithmetic and bitwise: C16,
C17, C18; LSA: C29; POP, HWD, CYCLES) leaves exactly the written value in `pc` when `pc` is its destination, and
`pc + 4` otherwise. -/
theorem C03_assign_pc {s s' : Machine D} {r : Regs} {devs : List D} {c : Nat} {w : Word} (hc : c < 32)
    (h : Steps pf s (assign r c w) devs) (hn : next pf s = some s') :
    s'.regs.pc = if c = 0x16 then w else r.pc + 4 := by
  rw [(h.next hn).1]
  unfold assign
  split
  · next h => subst h; rfl
  · next h =>
    show (setReg r c w).pc + 4 = _
    exact congrArg (· + 4) (reg_setReg_ne r c 0x16 w hc (by decide) h)

example : Fetches .debug (Demo.user [instrWord 0x01 false true false 0 0x1C 0])
    (instrWord 0x01 false true false 0 0x1C 0) (Demo.devices [instrWord 0x01 false true false 0 0x1C 0]) ∧
    mayRead false 0x1C = false := ⟨⟨rfl, rfl⟩, rfl⟩

/-! ## C23 -/

/-- **C23**, ZRO (`XOR reg, reg`): the register becomes 0. -/
theorem C23_zro {s : Machine D} {devs : List D} {r0 r2 : Bool} {p0 p2 : U8}
    (hf : Fetches pf s (instrWord 0x0A r0 true r2 p0 p0 p2) devs)
    (hw : mayWrite (supervisor s.regs) p0.toNat = true) :
    ∃ af, Steps pf s (assign { s.regs with af := af } p0.toNat 0) devs := by
  have hr := mayRead_of_mayWrite hw
  have := alu_step hf (by simp) hw (y := reg s.regs p0.toNat) (by unfold Val2; simp [hr])
    (res := 0) (cf := false) (of := false) (by
      show Except.ok (_ ^^^ _, _, _) = _
      rw [shiftVal_other (by decide) (by decide), BitVec.xor_self]; rfl)
  exact ⟨_, this⟩

/-- Non-vacuity: `ZRO a3` with `a3 = 7`. -/
example : Fetches .debug (Demo.run1 (setReg startup 3 7) (instrWord 0x0A false true false 3 3 0))
    (instrWord 0x0A false true false 3 3 0) (Demo.devices [instrWord 0x0A false true false 3 3 0]) ∧
    mayWrite (supervisor (setReg startup 3 7)) 3 = true := ⟨Demo.run1_fetches _ _ rfl rfl, rfl⟩

/-- **C23**, INC (`ADD reg, 1`) and DEC (`SUB reg, 1`). -/
theorem C23_inc_dec {s : Machine D} {devs : List D} {r0 r2 : Bool} {p0 : U8} {op : BitVec 5} {δ : Word}
    (hop : (op = 0x03#5 ∧ δ = 1) ∨ (op = 0x04#5 ∧ δ = -1))
    (hf : Fetches pf s (instrWord op r0 false r2 p0 0 1) devs)
    (hw : mayWrite (supervisor s.regs) p0.toNat = true) :
    ∃ af, Steps pf s (assign { s.regs with af := af } p0.toNat (reg s.regs p0.toNat + δ)) devs := by
  rcases hop with ⟨rfl, rfl⟩ | ⟨rfl, rfl⟩
  · exact ⟨_, alu_step hf (by simp) hw (y := 1) rfl rfl⟩
  · exact ⟨_, alu_step hf (by simp) hw (y := 1) rfl (by
      show Except.ok (_ - _, _, _) = _
      rw [BitVec.sub_eq_add_neg]; rfl)⟩

/-- Non-vacuity: `DEC a3` at startup. -/
example : Fetches .debug (Demo.run1 startup (instrWord 0x04 false false false 3 0 1))
    (instrWord 0x04 false false false 3 0 1) (Demo.devices [instrWord 0x04 false false false 3 0 1]) ∧
    mayWrite (supervisor startup) 3 = true := ⟨Demo.run1_fetches _ _ rfl rfl, rfl⟩

/-- **C23**, JP (`CPY pc, value`): the CPU continues at the value; nothing else changes. -/
theorem C23_jp {s : Machine D} {devs : List D} {r0 r1 r2 : Bool} {p1 p2 : U8} {v : Word}
    (hf : Fetches pf s (instrWord 0x01 r0 r1 r2 0x16 p1 p2) devs) (hv : Val2 s.regs r1 p1 p2 v) :
    Steps pf s { s.regs with pc := v } devs := by
  refine steps_ok (cp := true) (r := { s.regs with pc := v }) (devs' := devs) hf ?_
  show execCpy _ _ = _
  unfold execCpy
  rw [M.bind_ok (regOrLit2_val (s := atExec s devs) hv)]
  exact writeReg_val (s := atExec s devs) (c := 0x16) v (by
    show mayWrite (supervisor s.regs) 22 = true
    cases supervisor s.regs <;> rfl)

/-- Non-vacuity: `JP 0x20` at startup; the CPU continues there (C03 for `pc`). -/
example : ∃ s' : Machine Demo.Dev,
    Fetches .debug (Demo.start [instrWord 0x01 false false false 0x16 0 0x20])
      (instrWord 0x01 false false false 0x16 0 0x20)
      (Demo.start [instrWord 0x01 false false false 0x16 0 0x20]).devs ∧
    next .debug (Demo.start [instrWord 0x01 false false false 0x16 0 0x20]) = some s' ∧ s'.regs.pc = 0x20 :=
  ⟨_, ⟨rfl, rfl⟩, rfl, rfl⟩

end Lrvm
