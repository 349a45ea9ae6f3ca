import Verif.Lemmas.Eval

/-!
# From instruction bodies to steps
-/

namespace Lrvm

open Spec

variable {D : Type} [Bus D] {pf : Profile}

/-- The machine when a fetched instruction starts. -/
def atExec (s : Machine D) (devs : List D) : Machine D :=
  { s with cycles := s.cycles + 1, devs := devs, changedPc := false }

theorem next_of_fetch {s : Machine D} {w : Word} {devs : List D} (h : Fetches pf s w devs) :
    next pf s = execWord pf w { s with cycles := s.cycles + 1, devs := devs } := by
  unfold next
  rw [if_neg (by simp [h.1])]
  dsimp only
  rw [h.2]

theorem execWord_instr (s : Machine D) (op : BitVec 5) (r0 r1 r2 : Bool) (p0 p1 p2 : U8)
    (devs : List D) :
    execWord pf (instrWord op r0 r1 r2 p0 p1 p2) { s with cycles := s.cycles + 1, devs := devs } =
      match runInstr pf ⟨op.setWidth 8, r0, r1, r2, p0, p1, p2⟩ (atExec s devs) with
      | .panic => none
      | .ex s => some s
      | .ok () s => if s.changedPc then some s
          else some { s with regs := { s.regs with pc := s.regs.pc + 4 } } := by
  unfold execWord; rw [fieldsOf_instrWord]; rfl

theorem steps_ok {s : Machine D} {op : BitVec 5} {r0 r1 r2 : Bool} {p0 p1 p2 : U8}
    {devs devs' : List D} {r : Regs} {cp : Bool}
    (h : Fetches pf s (instrWord op r0 r1 r2 p0 p1 p2) devs)
    (hr : runInstr pf ⟨op.setWidth 8, r0, r1, r2, p0, p1, p2⟩ (atExec s devs) =
      .ok () { atExec s devs with regs := r, devs := devs', changedPc := cp }) :
    Steps pf s (if cp then r else advance r) devs' := by
  have hn : next pf s = some (if cp then { atExec s devs with regs := r, devs := devs', changedPc := cp }
      else { atExec s devs with regs := advance r, devs := devs', changedPc := cp }) := by
    rw [next_of_fetch h, execWord_instr, hr]
    cases cp <;> rfl
  refine ⟨_, hn, ?_⟩
  cases cp <;> exact ⟨rfl, rfl, rfl, rfl, rfl, rfl, rfl⟩

theorem steps_ex {s : Machine D} {op : BitVec 5} {r0 r1 r2 : Bool} {p0 p1 p2 : U8}
    {devs devs' : List D} {r : Regs} {cp : Bool} {c : U8} {d : U16}
    (h : Fetches pf s (instrWord op r0 r1 r2 p0 p1 p2) devs)
    (hr : runInstr pf ⟨op.setWidth 8, r0, r1, r2, p0, p1, p2⟩ (atExec s devs) =
      .ex ({ atExec s devs with regs := r, devs := devs', changedPc := cp }.exception c d)) :
    Steps pf s (trap r c.toNat d.toNat) devs' := by
  refine ⟨({ atExec s devs with regs := r, devs := devs', changedPc := cp }.exception c d), ?_,
    exception_regs _ _ _, rfl, rfl, rfl, rfl, rfl, rfl⟩
  rw [next_of_fetch h, execWord_instr, hr]

theorem next_panic {s : Machine D} {op : BitVec 5} {r0 r1 r2 : Bool} {p0 p1 p2 : U8}
    {devs : List D}
    (h : Fetches pf s (instrWord op r0 r1 r2 p0 p1 p2) devs)
    (hr : runInstr pf ⟨op.setWidth 8, r0, r1, r2, p0, p1, p2⟩ (atExec s devs) = .panic) :
    next pf s = none := by
  rw [next_of_fetch h, execWord_instr, hr]

/-! ### Memory accesses in a step -/

theorem toOut_ok {s s' : Machine D} {x : Acc D α} {a : α} (h : x.toOut s = .ok a s') :
    ∃ devs, x = .done a devs ∧ s' = { s with devs := devs } := by
  cases x with
  | done b devs => injection h with h1 h2; subst h1; exact ⟨devs, rfl, h2.symm⟩
  | fault => cases h
  | panic => cases h

theorem loads_iff {s : Machine D} {devs devs' : List D} {v w : Word} :
    Loads pf s devs v w devs' ↔ accRead pf s.regs s.mappings devs v = .done w devs' := by
  unfold Loads
  rw [cpuRead_eq]
  constructor
  · intro h
    obtain ⟨d, h1, h2⟩ := toOut_ok h
    have : devs' = d := congrArg Machine.devs h2
    rw [this]; exact h1
  · intro h
    show (accRead pf s.regs s.mappings devs v).toOut _ = _
    rw [h]; rfl

theorem stores_iff {s : Machine D} {devs devs' : List D} {v w : Word} :
    Stores pf s devs v w devs' ↔ accWrite pf s.regs s.mappings devs v w = .done () devs' := by
  unfold Stores
  rw [cpuWrite_eq]
  constructor
  · intro h
    obtain ⟨d, h1, h2⟩ := toOut_ok h
    have : devs' = d := congrArg Machine.devs h2
    rw [this]; exact h1
  · intro h
    show (accWrite pf s.regs s.mappings devs v w).toOut _ = _
    rw [h]; rfl

theorem fetches_iff {s : Machine D} {devs : List D} {w : Word} :
    Fetches pf s w devs ↔
      s.halted = false ∧ accRead pf s.regs s.mappings s.devs s.regs.pc = .done w devs := by
  unfold Fetches
  rw [cpuExec_eq]
  constructor
  · rintro ⟨h0, h⟩
    obtain ⟨d, h1, h2⟩ := toOut_ok h
    have : devs = d := congrArg Machine.devs h2
    rw [this]; exact ⟨h0, h1⟩
  · rintro ⟨h0, h⟩
    refine ⟨h0, ?_⟩
    show (accRead pf s.regs s.mappings s.devs s.regs.pc).toOut _ = _
    rw [h]; rfl

theorem Spec.Loads.at {s : Machine D} {devs devs' : List D} {v w : Word} {r : Regs} {c : U128} {cp : Bool}
    (h : Loads pf s devs v w devs') (h1 : r.mtt = s.regs.mtt := by rfl)
    (h2 : r.pda = s.regs.pda := by rfl) (h3 : r.smt = s.regs.smt := by rfl) :
    cpuRead pf v { s with devs := devs, regs := r, cycles := c, changedPc := cp } =
      .ok w { s with devs := devs', regs := r, cycles := c, changedPc := cp } := by
  rw [loads_iff, ← accRead_congr h1 h2 h3] at h
  rw [cpuRead_eq]
  show (accRead pf r s.mappings devs v).toOut _ = _
  rw [h]; rfl

theorem Spec.Stores.at {s : Machine D} {devs devs' : List D} {v w : Word} {r : Regs} {c : U128} {cp : Bool}
    (h : Stores pf s devs v w devs') (h1 : r.mtt = s.regs.mtt := by rfl)
    (h2 : r.pda = s.regs.pda := by rfl) (h3 : r.smt = s.regs.smt := by rfl) :
    cpuWrite pf v w { s with devs := devs, regs := r, cycles := c, changedPc := cp } =
      .ok () { s with devs := devs', regs := r, cycles := c, changedPc := cp } := by
  rw [stores_iff, ← accWrite_congr h1 h2 h3] at h
  rw [cpuWrite_eq]
  show (accWrite pf r s.mappings devs v w).toOut _ = _
  rw [h]; rfl

end Lrvm
