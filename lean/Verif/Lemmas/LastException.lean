import Verif.Props.Footprint

/-!
# The exception register between exceptions
-/

namespace Lrvm

open Spec

variable {D : Type} [Bus D] {pf : Profile}

theorem Eff.et {f : Fields} {t u : Machine D} (h : Eff pf f t u) (hop : f.opcode.toNat ≠ 0x10) :
    u.regs.et = t.regs.et ∨ f.opcode.toNat = 0x1F ∧ u.regs.et = 0 := by
  cases h with
  | busRead _ hr => rw [memRead_frame hr]; exact .inl rfl
  | busWrite _ hr => rw [memWrite_frame hr]; exact .inl rfl
  | cpuReset h => exact .inr ⟨h, rfl⟩
  | itr _ h => exact absurd h hop
  | sp v hs => left; unfold Machine.setSp; split <;> rfl
  | regWrite hd _ _ h1A _ hw =>
    left
    obtain ⟨hlt, hr⟩ := write_setReg hw
    subst hr
    exact reg_setReg_ne _ _ 0x1A _ hlt (by decide) (fun h' => h1A (BitVec.eq_of_toNat_eq h'))
  | _ => exact .inl rfl

theorem Effs.et {f : Fields} {t u : Machine D} (h : Effs pf f t u) (hop : f.opcode.toNat ≠ 0x10) :
    u.regs.et = t.regs.et ∨ f.opcode.toNat = 0x1F ∧ u.regs.et = 0 :=
  h.inv (P := fun u => u.regs.et = t.regs.et ∨ f.opcode.toNat = 0x1F ∧ u.regs.et = 0) (.inl rfl) fun _ _ ih he => by
    rcases he.et hop with h | h
    · rw [h]; exact ih
    · exact .inr h

/-- The step from `s` to `s'` raised an exception: the registers are those of the documented entry in an exception. -/
def Raised (s' : Machine D) (code data : Nat) : Prop :=
  code ∈ exceptionCodes ∧ data < 65536 ∧ ∃ r, s'.regs = trap r code data

/-- A step either raises an exception, and `et` then describes it, or leaves `et` as it is, or sets it to 0, which
only RESET does. -/
theorem et_after {s s' : Machine D} (h : next pf s = some s') :
    (∃ code data, Raised s' code data) ∨ s'.regs.et = s.regs.et ∨
    (∃ w devs, Fetches pf s w devs ∧ opcode w = 0x1F) ∧ s'.regs.et = 0 := by
  cases hh : s.halted with
  | true =>
    unfold next at h; rw [if_pos hh] at h; injection h with h; subst h
    exact .inr (.inl rfl)
  | false =>
    rcases next_inv h hh with ⟨devs, c, d, hc, _, hl, rfl⟩ | ⟨w, devs, hf, hl, hr⟩
    · exact .inl ⟨c.toNat, d.toNat, fetchCodes_doc c hc, d.isLt, _, exception_regs ..⟩
    · by_cases h10 : (fieldsOf w).opcode.toNat = 0x10
      · left
        rcases hr with ⟨t, c', d, hrun, he, hc', rfl⟩ | ⟨t, hrun, he, rfl⟩
        · exact ⟨_, _, faultCodes_doc c' hc', d.isLt, _, exception_regs ..⟩
        · rw [runInstr_itr h10] at hrun
          rcases execItr_eq (atExec s devs) (fieldsOf w) with ⟨v, _, hv⟩ | ⟨_, _, hv⟩
          · rw [hv] at hrun
            injection hrun with _ hrun
            have hcp : t.changedPc = true := by rw [← hrun]; rfl
            refine ⟨_, _, ?_, ?_, _, by rw [if_pos hcp, ← hrun]; exact exception_regs ..⟩
            · decide
            · exact BitVec.isLt _
          · rw [hv] at hrun; cases hrun
      · rcases hr with ⟨t, c', d, hrun, he, hc', rfl⟩ | ⟨t, hrun, he, rfl⟩
        · exact .inl ⟨_, _, faultCodes_doc c' hc', d.isLt, _, exception_regs ..⟩
        · right
          have key : ∀ x : Word, x = t.regs.et → x = s.regs.et ∨
              (∃ w devs, Fetches pf s w devs ∧ opcode w = 0x1F) ∧ x = 0 := by
            rintro x rfl
            rcases he.et h10 with h | ⟨h, h0⟩
            · exact .inl h
            · exact .inr ⟨⟨w, devs, hf, (fieldsOf_opcode w).symm.trans h⟩, h0⟩
          split
          · exact key _ rfl
          · exact key _ rfl

/-- A raised exception leaves its description in `et`: mode, code, data; it is never 0. -/
theorem Raised.et {s' : Machine D} {code data : Nat} (h : Raised s' code data) :
    ∃ r, s'.regs = trap r code data ∧ s'.regs.et.toNat = (if supervisor r then 2 ^ 24 else 0) + code * 2 ^ 16 + data ∧
      s'.regs.et ≠ 0 := by
  obtain ⟨hc, hd, r, hr⟩ := h
  have hlt : code < 256 ∧ 0 < code := by revert hc; unfold exceptionCodes; intro hc; simp at hc; omega
  have ht : s'.regs.et.toNat = (if supervisor r then 2 ^ 24 else 0) + code * 2 ^ 16 + data := by
    rw [hr]
    show (BitVec.ofNat 32 _).toNat = _
    rw [BitVec.toNat_ofNat]
    refine Nat.mod_eq_of_lt ?_
    split <;> omega
  refine ⟨r, hr, ht, fun h0 => ?_⟩
  rw [h0] at ht
  have : (0 : Word).toNat = 0 := rfl
  omega

end Lrvm
