import Verif.Lemmas.Step

/-!
# Case analysis of one step
-/

namespace Lrvm

open Spec

variable {D : Type} [Bus D] {pf : Profile}

/-- Codes a fetch can raise. -/
def fetchCodes : List U8 := [0x05, 0x06, 0xA0]

theorem accDo_fault {r : Regs} {maps : List Mapping} {devs devs' : List D} {v : Word} {α : Type}
    {hd : List D → Word → Res (α × U16 × List D)} {c : U8} {d : U16}
    (h : accDo pf r maps devs v hd = .fault c d devs') : c ∈ fetchCodes := by
  unfold accDo at h
  repeat' split at h
  all_goals first
    | (injection h with h1 h2 h3; subst h1; decide)
    | cases h

theorem bridgeRead_length {devs devs' : List D} {id : Nat} {a w : Word} {ex ex' : U16}
    (h : bridgeRead devs id a ex = some (some (w, ex', devs'))) : devs'.length = devs.length := by
  unfold bridgeRead at h
  cases ha : assert (a % 4 == 0) with
  | none => rw [ha] at h; cases h
  | some u =>
    simp only [ha, Option.bind_eq_bind, Option.bind_some] at h
    cases hd : devs[id]? with
    | none => simp [hd] at h
    | some d =>
      simp only [hd] at h
      cases hr : Bus.read d a ex with
      | none => simp [hr] at h
      | some p =>
        simp [hr] at h
        rw [← h.2.2, List.length_set]

theorem bridgeWrite_length {devs devs' : List D} {id : Nat} {a w : Word} {ex ex' : U16}
    (h : bridgeWrite devs id a w ex = some (some (ex', devs'))) : devs'.length = devs.length := by
  unfold bridgeWrite at h
  cases ha : assert (a % 4 == 0) with
  | none => rw [ha] at h; cases h
  | some u =>
    simp only [ha, Option.bind_eq_bind, Option.bind_some] at h
    cases hd : devs[id]? with
    | none => simp [hd] at h
    | some d =>
      simp only [hd] at h
      cases hr : Bus.write d a w ex with
      | none => simp [hr] at h
      | some p =>
        simp [hr] at h
        rw [← h.2, List.length_set]

theorem bridgeReset_length {devs devs' : List D} {id : Nat}
    (h : bridgeReset devs id = some (some devs')) : devs'.length = devs.length := by
  unfold bridgeReset at h
  cases hd : devs[id]? with
  | none => simp [hd] at h
  | some d =>
    simp only [hd] at h
    cases hr : Bus.reset d with
    | none => simp [hr] at h
    | some p =>
      simp [hr] at h
      rw [← h, List.length_set]

theorem devRead_length {maps : List Mapping} {devs devs' : List D} {a w : Word} {ex ex' : U16}
    (h : devRead pf maps devs a ex = some (w, ex', devs')) : devs'.length = devs.length := by
  unfold devRead at h
  simp only [Option.bind_eq_bind, Option.bind_eq_some_iff] at h
  obtain ⟨_, _, o, _, h⟩ := h
  cases o with
  | none => simp at h; rw [h.2.2]
  | some m =>
    simp only [Option.bind_eq_some_iff] at h
    obtain ⟨off, _, r, hr, h⟩ := h
    cases r with
    | none => simp at h
    | some r => simp at h; subst h; exact bridgeRead_length hr

theorem devWrite_length {maps : List Mapping} {devs devs' : List D} {a w : Word} {ex ex' : U16}
    (h : devWrite pf maps devs a w ex = some (ex', devs')) : devs'.length = devs.length := by
  unfold devWrite at h
  simp only [Option.bind_eq_bind, Option.bind_eq_some_iff] at h
  obtain ⟨_, _, o, _, h⟩ := h
  cases o with
  | none => simp at h; rw [h.2]
  | some m =>
    simp only [Option.bind_eq_some_iff] at h
    obtain ⟨off, _, r, hr, h⟩ := h
    cases r with
    | none => simp at h
    | some r => simp at h; subst h; exact bridgeWrite_length hr

theorem memRead_length {s s' : Machine D} {a w : Word} {ex ex' : U16}
    (h : memRead pf s a ex = some (w, ex', s')) : s'.devs.length = s.devs.length := by
  rw [memRead_eq, Option.map_eq_some_iff] at h
  obtain ⟨⟨x, y, z⟩, hd, h⟩ := h
  injection h with h1 h; injection h with h2 h; rw [← h]; exact devRead_length hd

theorem memWrite_length {s s' : Machine D} {a w : Word} {ex ex' : U16}
    (h : memWrite pf s a w ex = some (ex', s')) : s'.devs.length = s.devs.length := by
  rw [memWrite_eq, Option.map_eq_some_iff] at h
  obtain ⟨⟨x, z⟩, hd, h⟩ := h
  injection h with h1 h; rw [← h]; exact devWrite_length hd

theorem transl_length {r : Regs} {maps : List Mapping} {devs devs' : List D} {v : Word}
    {x : Except (Option U16) Word}
    (h : transl pf r maps devs v = some (x, devs')) : devs'.length = devs.length := by
  unfold transl at h
  split at h
  · simp at h; rw [h.2]
  · simp only [Option.bind_eq_bind, Option.bind_eq_some_iff] at h
    obtain ⟨a, _, ⟨e, ex, d1⟩, hr, h⟩ := h
    have := devRead_length hr
    repeat' split at h
    all_goals (simp at h; rw [← h.2]; exact this)

theorem accRead_length {r : Regs} {maps : List Mapping} {devs devs' : List D} {v : Word} :
    (∀ w, accRead pf r maps devs v = .done w devs' → devs'.length = devs.length) ∧
    (∀ c d, accRead pf r maps devs v = .fault c d devs' → devs'.length = devs.length) := by
  unfold accRead accDo
  constructor <;> intro a
  · intro h
    repeat' split at h
    all_goals first
      | cases h; done
      | skip
    next ht _ _ _ _ hh _ => injection h with h1 h2; subst h2; rw [devRead_length hh, transl_length ht]
  · intro d h
    repeat' split at h
    all_goals first
      | cases h; done
      | skip
    · injection h with h1 h2 h3; rw [h3]
    · next ht _ _ _ _ hh _ =>
        injection h with h1 h2 h3; subst h3; rw [devRead_length hh, transl_length ht]
    · next ht => injection h with h1 h2 h3; subst h3; exact transl_length ht
    · next ht => injection h with h1 h2 h3; subst h3; exact transl_length ht

/-- One step of a running CPU: the fetch fails, or an instruction is fetched and raises an exception
after some effects, or completes after some effects. -/
theorem next_inv {s s' : Machine D} (h : next pf s = some s') (hh : s.halted = false) :
    (∃ devs c d, c ∈ fetchCodes ∧ accRead pf s.regs s.mappings s.devs s.regs.pc = .fault c d devs ∧
      devs.length = s.devs.length ∧
      s' = { s with cycles := s.cycles + 1, devs := devs }.exception c d) ∨
    (∃ w devs, Fetches pf s w devs ∧ devs.length = s.devs.length ∧
      ((∃ t c d, runInstr pf (fieldsOf w) (atExec s devs) = .ex s' ∧
          Effs pf (fieldsOf w) (atExec s devs) t ∧ GoodFault c d ∧ s' = t.exception c d) ∨
        (∃ t, runInstr pf (fieldsOf w) (atExec s devs) = .ok () t ∧
          Effs pf (fieldsOf w) (atExec s devs) t ∧
          s' = if t.changedPc then t else { t with regs := advance t.regs }))) := by
  unfold next at h
  rw [if_neg (by simp [hh])] at h
  dsimp only at h
  rw [cpuExec_eq] at h
  cases ha : accRead pf s.regs s.mappings s.devs s.regs.pc with
  | panic => simp only [ha, Acc.toOut] at h; cases h
  | fault c d devs =>
    simp only [ha, Acc.toOut] at h
    injection h with h
    exact .inl ⟨devs, c, d, accDo_fault ha, rfl, accRead_length.2 _ _ ha, h.symm⟩
  | done w devs =>
    simp only [ha, Acc.toOut] at h
    refine .inr ⟨w, devs, fetches_iff.mpr ⟨hh, ha⟩, accRead_length.1 _ ha, ?_⟩
    have hs := runInstr_summary (pf := pf) (f := fieldsOf w) (D := D) (atExec s devs) (atExec s devs)
      (.refl _)
    unfold execWord at h
    change (match runInstr pf (fieldsOf w) (atExec s devs) with
      | .panic => none | .ex s => some s | .ok () s => _) = some s' at h
    cases hr : runInstr pf (fieldsOf w) (atExec s devs) with
    | panic => rw [hr] at h; cases h
    | ex t =>
      rw [hr] at h hs
      injection h with h
      subst h
      obtain ⟨t1, c, d, h1, h2, h3⟩ := hs
      exact .inl ⟨t1, c, d, rfl, h1, h2, h3⟩
    | ok u t =>
      rw [hr] at h hs
      refine .inr ⟨t, rfl, hs, ?_⟩
      change (if t.changedPc then some t else some { t with regs := advance t.regs }) = some s' at h
      split at h
      · next hc => rw [if_pos hc]; exact (Option.some.inj h).symm
      · next hc => rw [if_neg hc]; exact (Option.some.inj h).symm

/-- Induction over the effects of an instruction. -/
theorem Effs.inv {f : Fields} {P : Machine D → Prop} {s u : Machine D} (h : Effs pf f s u) (h0 : P s)
    (hstep : ∀ t u, P t → Eff pf f t u → P u) : P u := by
  induction h with
  | refl => exact h0
  | tail _ he ih => exact hstep _ _ ih he

theorem fieldsOf_opcode (w : Word) : (fieldsOf w).opcode.toNat = opcode w := by
  show (beByte w 0 >>> 3).toNat = _
  rw [BitVec.toNat_ushiftRight, toNat_beByte, Nat.shiftRight_eq_div_pow]
  unfold opcode
  have := w.isLt
  omega

theorem opcode_instrWord (op : BitVec 5) (r0 r1 r2 : Bool) (p0 p1 p2 : U8) :
    opcode (instrWord op r0 r1 r2 p0 p1 p2) = op.toNat := by
  rw [← fieldsOf_opcode, fieldsOf_instrWord]
  show (op.setWidth 8).toNat = _
  rw [BitVec.toNat_setWidth]
  exact Nat.mod_eq_of_lt (by have := op.isLt; omega)

theorem fields_opcode (op : BitVec 5) (r0 r1 r2 : Bool) (p0 p1 p2 : U8) :
    (fieldsOf (instrWord op r0 r1 r2 p0 p1 p2)).opcode.toNat = op.toNat := by
  rw [fieldsOf_instrWord]
  show (op.setWidth 8).toNat = _
  rw [BitVec.toNat_setWidth]
  exact Nat.mod_eq_of_lt (by have := op.isLt; omega)

end Lrvm
