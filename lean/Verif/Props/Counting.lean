import Verif.Props.Modes
import Verif.Lemmas.Programs

/-!
# HALT and CYCLES: C90
-/

namespace Lrvm

open Spec

variable {D : Type} [Bus D] {pf : Profile}

/-! ## HALT -/

theorem Eff.keeps_running {f : Fields} {s t : Machine D} (h : Eff pf f s t) (ho : f.opcode.toNat ≠ 0x1E)
    (hs : s.halted = false) : t.halted = false := by
  cases h with
  | busRead _ hr => rw [memRead_frame hr]; exact hs
  | busWrite _ hr => rw [memWrite_frame hr]; exact hs
  | halt h => exact absurd h ho
  | cpuReset _ => rfl
  | sp v _ => unfold Machine.setSp; split <;> exact hs
  | _ => exact hs

theorem Effs.keeps_running {f : Fields} {s t : Machine D} (h : Effs pf f s t) (ho : f.opcode.toNat ≠ 0x1E)
    (hs : s.halted = false) : t.halted = false := by
  induction h with
  | refl => exact hs
  | tail _ he ih => exact he.keeps_running ho ih

/-- **C90.** HALT, in supervisor mode as in userland and whatever its parameters, stops the processor: the cycle is
counted, `pc` is left on the following instruction, nothing else changes, and any number of further cycles leaves
the machine and its components exactly so. -/
theorem C90_halt {s : Machine D} {devs : List D} {r0 r1 r2 : Bool} {p0 p1 p2 : U8}
    (hf : Fetches pf s (instrWord 0x1E r0 r1 r2 p0 p1 p2) devs) :
    ∃ s', (∀ n, nextN pf (n + 1) s = some s') ∧ s'.halted = true ∧ s'.regs = advance s.regs ∧ s'.devs = devs ∧
      s'.cycles = s.cycles + 1 ∧ s'.mappings = s.mappings ∧ s'.hwbCache = s.hwbCache ∧ s'.memCache = s.memCache := by
  have hn : next pf s = some
      { s with cycles := s.cycles + 1, devs := devs, halted := true, changedPc := false, regs := advance s.regs } := by
    rw [next_of_fetch hf, execWord_instr]; rfl
  refine ⟨{ s with cycles := s.cycles + 1, devs := devs, halted := true, changedPc := false, regs := advance s.regs },
    fun n => ?_, rfl, rfl, rfl, rfl, rfl, rfl, rfl⟩
  unfold nextN
  rw [hn]
  exact C01_halted_does_nothing _ rfl n

/-- Nothing but HALT stops a running processor: no exception, reset or other instruction does. -/
theorem C90_only_halt {s s' : Machine D} (h : next pf s = some s') (hh : s.halted = false) (hs : s'.halted = true) :
    ∃ w devs, Fetches pf s w devs ∧ opcode w = 0x1E := by
  rcases next_inv h hh with ⟨devs, c, d, _, _, _, rfl⟩ | ⟨w, devs, hf, _, hr⟩
  · change s.halted = true at hs; rw [hh] at hs; cases hs
  · refine ⟨w, devs, hf, ?_⟩
    obtain ⟨op, r0, r1, r2, p0, p1, p2, rfl⟩ := exists_instrWord w
    rw [opcode_instrWord]
    refine Classical.byContradiction fun ho => ?_
    have ho' : (fieldsOf (instrWord op r0 r1 r2 p0 p1 p2)).opcode.toNat ≠ 0x1E := by rw [fields_opcode]; exact ho
    rcases hr with ⟨t, c, d, _, he, _, rfl⟩ | ⟨t, _, he, rfl⟩
    · have := he.keeps_running ho' hh
      rw [show (Machine.exception t c d).halted = t.halted from rfl, this] at hs; cases hs
    · have := he.keeps_running ho' hh
      split at hs
      · rw [this] at hs; cases hs
      · rw [show ({ t with regs := advance t.regs } : Machine D).halted = t.halted from rfl, this] at hs; cases hs

/-- So a machine that ran for `n` cycles is stopped only if one of them fetched HALT. -/
theorem C90_stopped_by_halt {n : Nat} {s s' : Machine D} (h : nextN pf n s = some s') (hh : s.halted = false)
    (hs : s'.halted = true) : ∃ k < n, ∃ t w devs, nextN pf k s = some t ∧ Fetches pf t w devs ∧ opcode w = 0x1E := by
  induction n generalizing s with
  | zero => injection h with h; rw [h, hs] at hh; cases hh
  | succ n ih =>
    unfold nextN at h
    simp only [Option.bind_eq_bind, Option.bind_eq_some_iff] at h
    obtain ⟨t, ht, h⟩ := h
    cases htt : t.halted with
    | true =>
      obtain ⟨w, devs, hf, ho⟩ := C90_only_halt ht hh htt
      exact ⟨0, by omega, s, w, devs, rfl, hf, ho⟩
    | false =>
      obtain ⟨k, hk, u, w, devs, hu, hf, ho⟩ := ih h htt
      refine ⟨k + 1, by omega, u, w, devs, ?_, hf, ho⟩
      unfold nextN
      rw [ht]
      exact hu

/-- A userland HALT: stopped for ever, on the next word. -/
example : ∃ s : Machine Demo.Dev, nextN .debug 5 (Demo.user [instrWord 0x1E true true true 1 2 3]) = some s ∧
    supervisor s.regs = false ∧ s.halted = true ∧ s.regs.pc = 4 ∧ s.cycles = 1 := ⟨_, rfl, rfl, rfl, rfl, rfl⟩

example : ∃ devs, Fetches .debug (Demo.user [instrWord 0x1E true true true 1 2 3])
    (instrWord 0x1E true true true 1 2 3) devs := ⟨_, rfl, rfl⟩

/-! ## CYCLES -/

/-- **C90.** CYCLES puts the number of cycles counted so far, its own included, in the register: the 32 weakest bits
of the 128-bit counter. Nothing else changes. -/
theorem C90_cycles {s : Machine D} {devs : List D} {r0 r1 r2 : Bool} {p0 p1 p2 : U8}
    (hf : Fetches pf s (instrWord 0x1D r0 r1 r2 p0 p1 p2) devs)
    (hw : mayWrite (supervisor s.regs) p0.toNat = true) :
    Steps pf s (assign s.regs p0.toNat (BitVec.ofNat 32 (s.cycles.toNat + 1))) devs := by
  have e : (s.cycles + 1).setWidth 32 = BitVec.ofNat 32 (s.cycles.toNat + 1) := by
    apply BitVec.eq_of_toNat_eq
    rw [BitVec.toNat_setWidth, BitVec.toNat_add, BitVec.toNat_ofNat]
    show (s.cycles.toNat + 1) % 2 ^ 128 % 2 ^ 32 = _
    omega
  have := steps_ok (cp := if p0 = 0x16#8 then true else false) (devs' := devs)
    (r := setReg s.regs p0.toNat (BitVec.ofNat 32 (s.cycles.toNat + 1))) hf (by
      show execCycles _ _ = _
      unfold execCycles
      rw [getsM_bind, show (atExec s devs).cycles = s.cycles + 1 from rfl, e]
      exact writeReg_val (s := atExec s devs) _ hw)
  rwa [assign_eq] at this

/-- CYCLES into a register that may not be written raises the exception of a forbidden or unknown register and does
nothing else. -/
theorem C90_cycles_refused {s : Machine D} {devs : List D} {r0 r1 r2 : Bool} {p0 p1 p2 : U8}
    (hf : Fetches pf s (instrWord 0x1D r0 r1 r2 p0 p1 p2) devs)
    (hw : mayWrite (supervisor s.regs) p0.toNat = false) :
    Steps pf s (trap s.regs (if supervisor s.regs = true ∧ 0x20 ≤ p0.toNat then 0x02 else 0x04) p0.toNat) devs := by
  have := steps_ex (c := writeFault (supervisor s.regs) p0.toNat) (d := p0.setWidth 16) (r := s.regs) (devs' := devs)
    (cp := false) hf (by
      show execCycles _ _ = _
      unfold execCycles
      rw [getsM_bind]
      exact writeReg_fault (s := atExec s devs) _ hw)
  have e1 : (writeFault (supervisor s.regs) p0.toNat).toNat =
      if supervisor s.regs = true ∧ 0x20 ≤ p0.toNat then 0x02 else 0x04 := by unfold writeFault; split <;> rfl
  have e2 : (p0.setWidth 16).toNat = p0.toNat := by
    rw [BitVec.toNat_setWidth]; have := p0.isLt; omega
  rwa [e1, e2] at this

theorem reg_assign_self (r : Regs) {c : Nat} (w : Word) (h : c < 32) : reg (assign r c w) c = w := by
  by_cases h22 : c = 22
  · subst h22; rfl
  · rw [Prog.reg_assign_all r w h h h22, if_pos rfl]

/-- **C90**, for a program that measures time: between two CYCLES instructions, as long as the processor ran and no
RESET with processor mode 0 was fetched, the difference of the two values read is the number of cycles in between, modulo `2 ^ 32`. -/
theorem C90_elapsed {n : Nat} {s t : Machine D} {devs devs' : List D} {r0 r1 r2 q0 q1 q2 : Bool}
    {p0 p1 p2 o0 o1 o2 : U8} (h : nextN pf n s = some t)
    (hrun : ∀ k < n, ∀ u, nextN pf k s = some u → u.halted = false ∧ ∀ w devs, Fetches pf u w devs → ¬ ResetsCpu u.regs w)
    (hf : Fetches pf s (instrWord 0x1D r0 r1 r2 p0 p1 p2) devs)
    (hw : mayWrite (supervisor s.regs) p0.toNat = true)
    (hf' : Fetches pf t (instrWord 0x1D q0 q1 q2 o0 o1 o2) devs')
    (hw' : mayWrite (supervisor t.regs) o0.toNat = true) :
    ∃ s1 t1, next pf s = some s1 ∧ next pf t = some t1 ∧
      reg t1.regs o0.toNat - reg s1.regs p0.toNat = BitVec.ofNat 32 n := by
  obtain ⟨s1, h1, hr1, -⟩ := C90_cycles hf hw
  obtain ⟨t1, h2, hr2, -⟩ := C90_cycles hf' hw'
  refine ⟨s1, t1, h1, h2, ?_⟩
  rw [hr1, hr2, reg_assign_self _ _ (mayWrite_lt hw), reg_assign_self _ _ (mayWrite_lt hw'),
    C02_cycle_count_history h hrun]
  apply BitVec.eq_of_toNat_eq
  rw [BitVec.toNat_sub]
  simp only [BitVec.toNat_ofNat, BitVec.toNat_add]
  omega

/-- Two CYCLES separated by two other instructions: the difference is 3. -/
example : ∃ s1 s4 : Machine Demo.Dev,
    let prog := [instrWord 0x1D false false false 0 0 0, instrWord 0x01 false false false 2 0 6,
      instrWord 0x01 false false false 2 0 7, instrWord 0x1D false false false 1 0 0]
    nextN .debug 1 (Demo.user prog) = some s1 ∧ nextN .debug 4 (Demo.user prog) = some s4 ∧
    reg s1.regs 0 = 1 ∧ reg s4.regs 1 = 4 := ⟨_, _, rfl, rfl, rfl, rfl⟩

/-- CYCLES into `af` is refused. -/
example : ∃ s1 : Machine Demo.Dev,
    nextN .debug 1 (Demo.user [instrWord 0x1D false false false 0x17 0 0]) = some s1 ∧ s1.regs.et = 0x00040017 :=
  ⟨_, rfl, rfl⟩

end Lrvm
