import Verif.Model.Board

/-!
# Evaluation lemmas for the CPU monad
-/

namespace Lrvm

variable {D : Type u}

theorem M.bind_def (m : M D α) (k : α → M D β) (s : Machine D) :
    (m >>= k) s = match m s with
      | .ok a s' => k a s'
      | .ex s' => .ex s'
      | .panic => .panic := rfl

theorem M.bind_ok {m : M D α} {k : α → M D β} {s s' : Machine D} {a : α} (h : m s = .ok a s') :
    (m >>= k) s = k a s' := by rw [M.bind_def, h]

theorem M.bind_ex {m : M D α} {k : α → M D β} {s s' : Machine D} (h : m s = .ex s') :
    (m >>= k) s = .ex s' := by rw [M.bind_def, h]

theorem M.bind_panic {m : M D α} {k : α → M D β} {s : Machine D} (h : m s = .panic) :
    (m >>= k) s = .panic := by rw [M.bind_def, h]

theorem M.bind_ok_inv {m : M D α} {k : α → M D β} {s t : Machine D} {b : β}
    (h : (m >>= k) s = .ok b t) : ∃ a s', m s = .ok a s' ∧ k a s' = .ok b t := by
  rw [M.bind_def] at h
  cases hm : m s with
  | ok a s' => rw [hm] at h; exact ⟨a, s', rfl, h⟩
  | ex s' => rw [hm] at h; cases h
  | panic => rw [hm] at h; cases h

@[simp] theorem pure_apply (a : α) (s : Machine D) : (pure a : M D α) s = .ok a s := rfl

@[simp] theorem pure_bind_apply (a : α) (k : α → M D β) (s : Machine D) :
    ((pure a : M D α) >>= k) s = k a s := rfl

@[simp] theorem getM_apply (s : Machine D) : (getM : M D (Machine D)) s = .ok s s := rfl

@[simp] theorem getM_bind (k : Machine D → M D β) (s : Machine D) : (getM >>= k) s = k s s := rfl

@[simp] theorem getsM_apply (g : Machine D → α) (s : Machine D) : getsM g s = .ok (g s) s := rfl

@[simp] theorem getsM_bind (g : Machine D → α) (k : α → M D β) (s : Machine D) :
    (getsM g >>= k) s = k (g s) s := rfl

@[simp] theorem modifyM_apply (g : Machine D → Machine D) (s : Machine D) :
    modifyM g s = .ok () (g s) := rfl

@[simp] theorem modifyM_bind (g : Machine D → Machine D) (k : Unit → M D β) (s : Machine D) :
    (modifyM g >>= k) s = k () (g s) := rfl

@[simp] theorem modRegs_apply (g : Regs → Regs) (s : Machine D) :
    modRegs g s = .ok () { s with regs := g s.regs } := rfl

@[simp] theorem modRegs_bind (g : Regs → Regs) (k : Unit → M D β) (s : Machine D) :
    (modRegs g >>= k) s = k () { s with regs := g s.regs } := rfl

@[simp] theorem raise_apply (c : U8) (d : U16) (s : Machine D) :
    (raise c d : M D α) s = .ex (s.exception c d) := rfl

@[simp] theorem raise_bind (c : U8) (d : U16) (k : α → M D β) (s : Machine D) :
    ((raise c d : M D α) >>= k) s = .ex (s.exception c d) := rfl

@[simp] theorem liftRes_some (a : α) (s : Machine D) : liftRes (some a) s = .ok a s := rfl

@[simp] theorem liftRes_none (s : Machine D) : (liftRes (none : Res α)) s = .panic := rfl

@[simp] theorem liftRes_some_bind (a : α) (k : α → M D β) (s : Machine D) :
    (liftRes (some a) >>= k) s = k a s := rfl

@[simp] theorem liftRes_none_bind (k : α → M D β) (s : Machine D) :
    (liftRes (none : Res α) >>= k) s = .panic := rfl

theorem ite_apply_M {c : Prop} [Decidable c] (m n : M D α) (s : Machine D) :
    (if c then m else n) s = if c then m s else n s := by split <;> rfl

end Lrvm
