import Verif.Lemmas.Step

/-!
# Arithmetic: exact results, flags and steps
-/

namespace Lrvm

open Spec

variable {D : Type} [Bus D] {pf : Profile}

theorem trailingZeros_zero (w : Word) : (trailingZeros w == 0) = w.getLsbD 0 := by
  unfold trailingZeros
  cases h : w.getLsbD 0 with
  | true => rw [show List.range 32 = 0 :: (List.range 31).map (· + 1) from rfl, List.find?_cons, h]; rfl
  | false =>
    rw [show List.range 32 = 0 :: (List.range 31).map (· + 1) from rfl, List.find?_cons, h]
    dsimp only
    cases hf : List.find? (fun i => w.getLsbD i) ((List.range 31).map (· + 1)) with
    | none => rfl
    | some k =>
      have := List.mem_of_find?_eq_some hf
      simp only [List.mem_map] at this
      obtain ⟨j, _, rfl⟩ := this
      rfl

theorem sumFlags_eq : ∀ a b c d e f g : Bool,
    sumFlags 0 [a, b, c, d, e, f, g] 0 = flagWord a b c d e f g := by decide

/-- The flags register computed by the processor. The last flag is the one the code computes: bit 16 of the
result. -/
theorem flagsOf_eq (res : Word) (cf of : Bool) :
    flagsOf res cf of = flagsFor res cf of (zlfCode res) := by
  unfold flagsOf flagList flagsFor zlfCode
  rw [sumFlags_eq]
  congr 1
  · rw [Bool.eq_iff_iff]; simp [BitVec.toNat_eq]
  · rw [Bool.eq_iff_iff]
    have := res.isLt
    simp [BitVec.toNat_eq, Nat.shiftRight_eq_div_pow]
    omega
  · rw [Bool.eq_iff_iff]; simp [BitVec.toNat_eq]
  · rw [Bool.eq_iff_iff]; simp [BitVec.le_def]; omega
  · rw [trailingZeros_zero, Bool.eq_iff_iff]
    simp [BitVec.getLsbD, Nat.testBit_eq_decide_div_mod_eq]

theorem setReg_af (r : Regs) (af : Word) (sv : Bool) (c : Nat) (h : mayWrite sv c = true) :
    mayRead sv c = true := mayRead_of_mayWrite h

/-- The end of an arithmetic instruction: operands read, result written. -/
theorem assign_eq {c : U8} (r : Regs) (w : Word) :
    (if (if c = 0x16#8 then true else false) = true then setReg r c.toNat w
      else advance (setReg r c.toNat w)) = assign r c.toNat w := by
  unfold assign
  by_cases h : c = 0x16#8
  · subst h; rfl
  · rw [if_neg h, if_neg (by simp), if_neg (by intro he; exact h (BitVec.eq_of_toNat_eq he))]

theorem compute_ok {x y : Word} {op : Op} {res : Word} {cf of : Bool} {s : Machine D}
    (h : computeCore x y op = .ok (res, cf, of)) :
    compute x y op s = .ok res { s with regs := { s.regs with af := flagsOf res cf of } } := by
  unfold compute; rw [h]; rfl

theorem compute_error {x y : Word} {op : Op} {c : U8} {s : Machine D}
    (h : computeCore x y op = .error c) : compute x y op s = .ex (s.exception c 0) := by
  unfold compute; rw [h]; rfl

/-- The literal of SHL and SHR is on one byte. -/
def shiftVal (op : BitVec 5) (r1 : Bool) (v : Word) : Word :=
  if (op = 0x0B#5 ∨ op = 0x0C#5) ∧ r1 = false then v >>> 8 else v

theorem shiftVal_other {op : BitVec 5} {r1 : Bool} {v : Word} (h1 : op ≠ 0x0B#5) (h2 : op ≠ 0x0C#5) :
    shiftVal op r1 v = v := if_neg (by rintro ⟨h | h, _⟩ <;> contradiction)

theorem runInstr_alu {op : BitVec 5} (hop : op ∈ [3#5, 4#5, 5#5, 8#5, 9#5, 10#5, 11#5, 12#5])
    (r0 r1 r2 : Bool) (p0 p1 p2 : U8) :
    (runInstr pf ⟨op.setWidth 8, r0, r1, r2, p0, p1, p2⟩ : M D Unit)
      = execAlu ⟨op.setWidth 8, r0, r1, r2, p0, p1, p2⟩ := by
  simp only [List.mem_cons, List.not_mem_nil, or_false] at hop
  rcases hop with rfl | rfl | rfl | rfl | rfl | rfl | rfl | rfl <;> rfl

theorem setWidth8_eq (op : BitVec 5) : (op.setWidth 8 = 0x0B#8 ↔ op = 0x0B#5) ∧
    (op.setWidth 8 = 0x0C#8 ↔ op = 0x0C#5) := by
  revert op; decide

/-- ADD, SUB, MUL, AND, BOR, XOR, SHL, SHR: the exact step. -/
theorem alu_step {s : Machine D} {devs : List D} {op : BitVec 5} {r0 r1 r2 : Bool} {p0 p1 p2 : U8}
    {y res : Word} {cf of : Bool}
    (hf : Fetches pf s (instrWord op r0 r1 r2 p0 p1 p2) devs)
    (hop : op ∈ [3#5, 4#5, 5#5, 8#5, 9#5, 10#5, 11#5, 12#5])
    (hw : mayWrite (supervisor s.regs) p0.toNat = true) (hv : Val2 s.regs r1 p1 p2 y)
    (hc : computeCore (reg s.regs p0.toNat) (shiftVal op r1 y) (aluOp op.toNat) = .ok (res, cf, of)) :
    Steps pf s (assign { s.regs with af := flagsOf res cf of } p0.toNat res) devs := by
  have hs := steps_ok (cp := if p0 = 0x16#8 then true else false)
    (r := setReg { s.regs with af := flagsOf res cf of } p0.toNat res) (devs' := devs) hf (by
    rw [runInstr_alu hop]
    unfold execAlu
    rw [M.bind_ok (regOrLit2_val (s := atExec s devs) hv)]
    dsimp only
    rw [M.bind_ok (readReg_val (s := atExec s devs) (mayRead_of_mayWrite hw))]
    have : (if (op.setWidth 8 = 0x0B#8 ∨ op.setWidth 8 = 0x0C#8) ∧ r1 = false then y >>> 8 else y)
        = shiftVal op r1 y := by
      unfold shiftVal; simp only [setWidth8_eq]
    rw [this]
    have h8 : (op.setWidth 8).toNat = op.toNat := by simp; have := op.isLt; omega
    rw [h8]
    refine (M.bind_ok (compute_ok (s := atExec s devs) hc)).trans ?_
    exact writeReg_val (s := { atExec s devs with regs := { s.regs with af := flagsOf res cf of } }) res hw)
  rwa [assign_eq] at hs

theorem runInstr_div {op : BitVec 5} (hop : op = 6#5 ∨ op = 7#5)
    (r0 r1 r2 : Bool) (p0 p1 p2 : U8) :
    (runInstr pf ⟨op.setWidth 8, r0, r1, r2, p0, p1, p2⟩ : M D Unit)
      = execDiv (if op = 6#5 then .div else .mod) ⟨op.setWidth 8, r0, r1, r2, p0, p1, p2⟩ := by
  rcases hop with rfl | rfl <;> rfl

/-- DIV and MOD: the exact step. -/
theorem div_step {s : Machine D} {devs : List D} {op : BitVec 5} {r0 r1 r2 : Bool} {p0 p1 p2 : U8}
    {y m res : Word} {cf of : Bool}
    (hf : Fetches pf s (instrWord op r0 r1 r2 p0 p1 p2) devs)
    (hop : op = 6#5 ∨ op = 7#5)
    (hw : mayWrite (supervisor s.regs) p0.toNat = true) (hv : Val1 s.regs r1 p1 y)
    (hm : Val1 s.regs r2 p2 m)
    (hc : divCore (op = 6#5) (m.setWidth 8) (reg s.regs p0.toNat) y = .ok (res, cf, of)) :
    Steps pf s (assign { s.regs with af := flagsOf res cf of } p0.toNat res) devs := by
  have hs := steps_ok (cp := if p0 = 0x16#8 then true else false)
    (r := setReg { s.regs with af := flagsOf res cf of } p0.toNat res) (devs' := devs) hf (by
    rw [runInstr_div hop]
    unfold execDiv
    rw [M.bind_ok (regOrLit1_val (s := atExec s devs) hv),
      M.bind_ok (regOrLit1_val (s := atExec s devs) hm)]
    dsimp only
    rw [M.bind_ok (readReg_val (s := atExec s devs) (mayRead_of_mayWrite hw))]
    refine (M.bind_ok (compute_ok (s := atExec s devs) (res := res) (cf := cf) (of := of)
      (by rcases hop with rfl | rfl <;> exact hc))).trans ?_
    exact writeReg_val (s := { atExec s devs with regs := { s.regs with af := flagsOf res cf of } }) res hw)
  rwa [assign_eq] at hs

/-- DIV and MOD raising an arithmetic exception. -/
theorem div_trap {s : Machine D} {devs : List D} {op : BitVec 5} {r0 r1 r2 : Bool} {p0 p1 p2 : U8}
    {y m : Word} {c : U8}
    (hf : Fetches pf s (instrWord op r0 r1 r2 p0 p1 p2) devs)
    (hop : op = 6#5 ∨ op = 7#5)
    (hr : mayRead (supervisor s.regs) p0.toNat = true) (hv : Val1 s.regs r1 p1 y)
    (hm : Val1 s.regs r2 p2 m)
    (hc : divCore (op = 6#5) (m.setWidth 8) (reg s.regs p0.toNat) y = .error c) :
    Steps pf s (trap s.regs c.toNat 0) devs := by
  refine steps_ex (c := c) (d := 0) (r := s.regs) (devs' := devs) (cp := false) hf ?_
  rw [runInstr_div hop]
  unfold execDiv
  rw [M.bind_ok (regOrLit1_val (s := atExec s devs) hv),
    M.bind_ok (regOrLit1_val (s := atExec s devs) hm)]
  dsimp only
  rw [M.bind_ok (readReg_val (s := atExec s devs) hr)]
  exact M.bind_ex (compute_error (s := atExec s devs) (c := c) (by rcases hop with rfl | rfl <;> exact hc))

/-- CMP: the exact step. -/
theorem cmp_step {s : Machine D} {devs : List D} {r0 r1 r2 : Bool} {p0 p1 p2 : U8} {y : Word}
    (hf : Fetches pf s (instrWord 0x0D r0 r1 r2 p0 p1 p2) devs)
    (hr : mayRead (supervisor s.regs) p0.toNat = true) (hv : Val2 s.regs r1 p1 p2 y) :
    Steps pf s (advance { s.regs with
      af := flagsOf (reg s.regs p0.toNat - y) (BitVec.usubOverflow (reg s.regs p0.toNat) y)
        (BitVec.ssubOverflow (reg s.regs p0.toNat) y) }) devs := by
  refine steps_ok (cp := false) (r := { s.regs with af := _ }) (devs' := devs) hf ?_
  show execCmp _ _ = _
  unfold execCmp
  rw [M.bind_ok (regOrLit2_val (s := atExec s devs) hv)]
  dsimp only
  rw [M.bind_ok (readReg_val (s := atExec s devs) hr)]
  exact M.bind_ok (compute_ok (s := atExec s devs) rfl)

end Lrvm
