import Verif.Lemmas.Frame

/-!
# The RESET instruction
-/

namespace Lrvm

open Spec

variable {D : Type} [Bus D] {pf : Profile} {f : Fields}

theorem destRegs_eq (w : Word) : (destRegs (fieldsOf w)).map BitVec.toNat = destinations w := by
  have h1 : (fieldsOf w).p0.toNat = byte w 1 := toNat_beByte w 1
  have h2 : (fieldsOf w).p1.toNat = byte w 2 := toNat_beByte w 2
  have h3 : (fieldsOf w).p2.toNat = byte w 3 := toNat_beByte w 3
  unfold destRegs destinations
  rw [fieldsOf_opcode]
  have hlt : opcode w < 32 := by unfold opcode; have := w.isLt; omega
  revert hlt
  generalize opcode w = n
  revert n
  cases32 <;> simp [h1, h2, h3]

theorem resetDevs_ok {m : Nat} {s t : Machine D} (h : resetDevs m s = .ok () t) :
    t = { s with devs := t.devs } := by
  unfold resetDevs at h
  rw [getM_bind] at h
  split at h
  · cases hl : resetLoop (fun _ => true) 0 s.devs.length s.devs with
    | none => rw [hl] at h; cases h
    | some d => rw [hl] at h; injection h with _ h; subst h; rfl
  · cases hl : bridgeReset s.devs s.regs.avr.toNat with
    | none => rw [hl] at h; cases h
    | some o =>
      rw [hl] at h
      cases o with
      | none => cases h
      | some d => injection h with _ h; subst h; rfl
  iterate 3
    · cases hl : resetLoop (resetTest _ s.regs.avr.toNat) 0 s.devs.length s.devs with
      | none => rw [hl] at h; cases h
      | some d => rw [hl] at h; injection h with _ h; subst h; rfl
  · injection h with _ h; subst h; rfl

theorem resetDevs_ex {m : Nat} {s t : Machine D} (h : resetDevs m s = .ex t) :
    t = s.exception 0x10 (s.regs.avr.setWidth 16) ∧ m = 1 := by
  unfold resetDevs at h
  rw [getM_bind] at h
  split at h
  · cases hl : resetLoop (fun _ => true) 0 s.devs.length s.devs with
    | none => rw [hl] at h; cases h
    | some d => rw [hl] at h; cases h
  · cases hl : bridgeReset s.devs s.regs.avr.toNat with
    | none => rw [hl] at h; cases h
    | some o =>
      rw [hl] at h
      cases o with
      | none => injection h with h; exact ⟨h.symm, rfl⟩
      | some d => cases h
  iterate 3
    · cases hl : resetLoop (resetTest _ s.regs.avr.toNat) 0 s.devs.length s.devs with
      | none => rw [hl] at h; cases h
      | some d => rw [hl] at h; cases h
  · cases h

theorem regOrLit1_inv {s t : Machine D} {b : Bool} {p : U8} {v : Word}
    (h : regOrLit1 b p s = .ok v t) : t = s ∧ Val1 s.regs b p v := by
  refine ⟨regOrLit1_ok h, ?_⟩
  unfold Val1
  cases b with
  | false =>
    injection h with h _
    rw [if_neg (by simp), ← h]
    apply BitVec.eq_of_toNat_eq; simp
  | true =>
    rw [if_pos rfl]
    change readReg p s = _ at h
    rw [readReg_eq] at h
    split at h
    · next hm => injection h with h _; exact ⟨hm, h.symm⟩
    · cases h

theorem regOrLit2_inv {s t : Machine D} {b : Bool} {p q : U8} {v : Word}
    (h : regOrLit2 b p q s = .ok v t) : t = s ∧ Val2 s.regs b p q v := by
  refine ⟨regOrLit2_ok h, ?_⟩
  cases b with
  | false =>
    have : regOrLit2 false p q s = .ok (BitVec.ofNat 32 (p.toNat * 256 + q.toNat)) s :=
      regOrLit2_val (by simp [Val2])
    rw [this] at h
    injection h with h _
    simp [Val2, ← h]
  | true =>
    unfold Val2
    rw [if_pos rfl]
    change readReg p s = _ at h
    rw [readReg_eq] at h
    split at h
    · next hm => injection h with h _; exact ⟨hm, h.symm⟩
    · cases h

theorem execReset_ok {s t : Machine D} (h : execReset f s = .ok () t) :
    ∃ v, Val1 s.regs f.r0 f.p0 v ∧
      (v &&& 0xF0#32 = 0 ∧ t = { s.cpuReset with devs := t.devs } ∨
        v &&& 0xF0#32 ≠ 0 ∧ t = { s with devs := t.devs }) := by
  unfold execReset at h
  rw [M.bind_def] at h
  cases hv : regOrLit1 f.r0 f.p0 s with
  | ex _ => rw [hv] at h; cases h
  | panic => rw [hv] at h; cases h
  | ok v s1 =>
    rw [hv] at h
    obtain ⟨rfl, hval⟩ := regOrLit1_inv hv
    refine ⟨v, hval, ?_⟩
    dsimp only at h
    rw [M.bind_def] at h
    cases hd : resetDevs (v &&& 0x0F#32).toNat s1 with
    | ex _ => rw [hd] at h; cases h
    | panic => rw [hd] at h; cases h
    | ok u s2 =>
      rw [hd] at h
      have := resetDevs_ok hd
      dsimp only at h
      split at h
      · next hz =>
        injection h with _ h
        left; refine ⟨hz, ?_⟩
        rw [← h, this]; rfl
      · next hz =>
        injection h with _ h
        right; refine ⟨hz, ?_⟩
        rw [← h, this]

theorem execReset_ex {s t : Machine D} (h : execReset f s = .ex t) : ∃ c d, t = s.exception c d := by
  unfold execReset at h
  rw [M.bind_def] at h
  cases hv : regOrLit1 f.r0 f.p0 s with
  | ex s1 =>
    rw [hv] at h; injection h with h; subst h
    cases hr : f.r0 with
    | false => rw [hr] at hv; cases hv
    | true =>
      rw [hr] at hv
      change readReg f.p0 s = _ at hv
      rw [readReg_eq] at hv
      split at hv
      · cases hv
      · injection hv with hv; exact ⟨_, _, hv.symm⟩
  | panic => rw [hv] at h; cases h
  | ok v s1 =>
    rw [hv] at h
    obtain ⟨rfl, hval⟩ := regOrLit1_inv hv
    dsimp only at h
    rw [M.bind_def] at h
    cases hd : resetDevs (v &&& 0x0F#32).toNat s1 with
    | ex s2 => rw [hd] at h; injection h with h; subst h; exact ⟨_, _, (resetDevs_ex hd).1⟩
    | panic => rw [hd] at h; cases h
    | ok u s2 =>
      rw [hd] at h
      dsimp only at h
      split at h <;> cases h

theorem runInstr_reset (h : f.opcode.toNat = 0x1F) : (runInstr pf f : M D Unit) = execReset f := by
  unfold runInstr; rw [h]; rfl

theorem runInstr_itr (h : f.opcode.toNat = 0x10) : (runInstr pf f : M D Unit) = execItr f := by
  unfold runInstr; rw [h]; rfl

end Lrvm
