import Verif.Props.Modes
import Verif.Spec.Hidden

/-!
# Two runs that differ in the supervisor's hidden registers
-/

namespace Lrvm

open Spec

variable {D : Type} [Bus D] {pf : Profile}

/-- Four values for the hidden registers. -/
structure Hide where
  ssp : Word
  et : Word
  era : Word
  ev : Word

def Hide.regs (h : Hide) (r : Regs) : Regs := withHidden r h.ssp h.et h.era h.ev

def Hide.on (h : Hide) (s : Machine D) : Machine D := { s with regs := h.regs s.regs }

/-- The outcomes of the same action on two such machines correspond. -/
def Corr (h : Hide) : Out (Machine D) α → Out (Machine D) α → Prop
  | .ok a u, .ok b v => a = b ∧ u.svMode = false ∧ v = h.on u
  | .ex u, .ex v => ∃ t c d, t.svMode = false ∧ u = t.exception c d ∧ v = (h.on t).exception c d
  | .panic, .panic => True
  | _, _ => False

/-- The action does not depend on the hidden registers, in userland. -/
def Blind (h : Hide) (m : M D α) : Prop := ∀ s, s.svMode = false → Corr h (m s) (m (h.on s))

variable {h : Hide}

theorem Hide.sv (s : Machine D) : (h.on s).svMode = s.svMode := rfl

theorem blind_bind {m : M D α} {k : α → M D β} (h1 : Blind h m) (h2 : ∀ a, Blind h (k a)) : Blind h (m >>= k) := by
  intro s hs
  have := h1 s hs
  rw [M.bind_def, M.bind_def]
  cases e1 : m s <;> cases e2 : m (h.on s) <;> rw [e1, e2] at this <;> try exact this.elim
  · obtain ⟨rfl, hu, rfl⟩ := this; exact h2 _ _ hu
  · exact this
  · trivial

theorem blind_pure (a : α) : Blind h (pure a : M D α) := fun _ hs => ⟨rfl, hs, rfl⟩

theorem blind_raise (c : U8) (d : U16) : Blind h (raise c d : M D α) := fun s hs => ⟨s, c, d, hs, rfl, rfl⟩

theorem blind_gets (g : Machine D → α) (hg : ∀ s, s.svMode = false → g (h.on s) = g s) : Blind h (getsM g) :=
  fun s hs => ⟨(hg s hs).symm, hs, rfl⟩

theorem blind_get {k : Machine D → M D β} (hk : ∀ s, s.svMode = false → Corr h (k s s) (k (h.on s) (h.on s))) :
    Blind h (getM >>= k) := fun s hs => hk s hs

theorem blind_modify (g : Machine D → Machine D)
    (hg : ∀ s, s.svMode = false → g (h.on s) = h.on (g s) ∧ (g s).svMode = false) : Blind h (modifyM g) :=
  fun s hs => ⟨rfl, (hg s hs).2, (hg s hs).1⟩

theorem blind_modRegs (g : Regs → Regs) (hg : ∀ r, g (h.regs r) = h.regs (g r)) (hs : ∀ r, (g r).smt = r.smt) :
    Blind h (modRegs g : M D Unit) := by
  refine blind_modify _ fun s hsv => ⟨?_, ?_⟩
  · show { s with regs := g (h.regs s.regs) } = _
    rw [hg]; rfl
  · show ((g s.regs).smt != 0) = false
    rw [hs]; exact hsv

theorem blind_lift (r : Res α) : Blind h (liftRes r : M D α) := by
  intro s hs
  cases r with
  | none => trivial
  | some a => exact ⟨rfl, hs, rfl⟩

theorem blind_ite {c : Prop} [Decidable c] {m n : M D α} (h1 : Blind h m) (h2 : Blind h n) :
    Blind h (if c then m else n) := by split <;> assumption

theorem read_hide (r : Regs) (code : U8) (hc : ¬ 0x18#8 ≤ code) : (h.regs r).read code = r.read code := by
  unfold Regs.read
  have hc : code.toNat < 0x18 := by
    rw [BitVec.le_def] at hc
    exact Nat.lt_of_not_le hc
  repeat' split
  all_goals first
    | rfl
    | (exfalso; omega)

theorem blind_readReg (code : U8) : Blind h (readReg code : M D Word) := by
  intro s hs
  unfold readReg
  rw [Hide.sv, hs]
  by_cases hc : 0x18#8 ≤ code
  · rw [if_pos ⟨hc, rfl⟩, if_pos ⟨hc, rfl⟩]; exact blind_raise _ _ s hs
  · rw [if_neg (fun hh => hc hh.1), if_neg (fun hh => hc hh.1)]
    show Corr h _ (match (h.regs s.regs).read code with | some w => .ok w (h.on s) | none => _)
    rw [read_hide _ _ hc]
    cases s.regs.read code with
    | none => exact blind_raise _ _ s hs
    | some w => exact ⟨rfl, hs, rfl⟩

theorem write_hide (r : Regs) (code : U8) (w : Word) (hc : ¬ 0x17#8 ≤ code) :
    ∃ r', r.write code w = some r' ∧ (h.regs r).write code w = some (h.regs r') ∧ r'.smt = r.smt := by
  have hc : code.toNat < 0x17 := by
    rw [BitVec.le_def] at hc
    exact Nat.lt_of_not_le hc
  unfold Regs.write
  by_cases h1 : code.toNat < 0x08
  · rw [dif_pos h1, dif_pos h1]; exact ⟨_, rfl, rfl, rfl⟩
  rw [dif_neg h1, dif_neg h1]
  by_cases h1 : code.toNat < 0x0A
  · rw [dif_pos h1, dif_pos h1]; exact ⟨_, rfl, rfl, rfl⟩
  rw [dif_neg h1, dif_neg h1]
  by_cases h1 : code.toNat < 0x0D
  · rw [dif_pos h1, dif_pos h1]; exact ⟨_, rfl, rfl, rfl⟩
  rw [dif_neg h1, dif_neg h1]
  by_cases h1 : code.toNat < 0x15
  · rw [dif_pos h1, dif_pos h1]; exact ⟨_, rfl, rfl, rfl⟩
  rw [dif_neg h1, dif_neg h1]
  have : code.toNat = 0x15 ∨ code.toNat = 0x16 := by omega
  rcases this with e | e <;> rw [e] <;> exact ⟨_, rfl, rfl, rfl⟩

theorem blind_writeReg (code : U8) (w : Word) : Blind h (writeReg code w : M D Unit) := by
  intro s hs
  unfold writeReg
  rw [Hide.sv, hs]
  by_cases hc : 0x17#8 ≤ code
  · rw [if_pos ⟨hc, rfl⟩, if_pos ⟨hc, rfl⟩]; exact blind_raise _ _ s hs
  · have hnu : ¬ (0x17#8 ≤ code ∧ false = false) := fun hh => hc hh.1
    rw [if_neg hnu, if_neg hnu]
    have hno : ¬ (code = 0x17#8 ∨ code = 0x1A#8 ∨ code = 0x1B#8) := by
      rintro (rfl | rfl | rfl) <;> exact hc (by decide)
    rw [if_neg hno, if_neg hno]
    obtain ⟨r', e1, e2, e3⟩ := write_hide (h := h) s.regs code w hc
    by_cases h16 : code = 0x16#8
    · dsimp only
      rw [if_pos h16, if_pos h16]
      show Corr h (match s.regs.write code w with | some r => _ | none => _)
        (match (h.regs s.regs).write code w with | some r => _ | none => _)
      rw [e1, e2]
      refine ⟨rfl, ?_, rfl⟩
      show (r'.smt != 0) = false
      rw [e3]; exact hs
    · dsimp only
      rw [if_neg h16, if_neg h16]
      show Corr h (match s.regs.write code w with | some r => _ | none => _)
        (match (h.regs s.regs).write code w with | some r => _ | none => _)
      rw [e1, e2]
      refine ⟨rfl, ?_, rfl⟩
      show (r'.smt != 0) = false
      rw [e3]; exact hs

theorem corr_acc {s : Machine D} (hs : s.svMode = false) (a : Acc D α) : Corr h (a.toOut s) (a.toOut (h.on s)) := by
  cases a with
  | done a devs => exact ⟨rfl, hs, rfl⟩
  | fault c d devs => exact ⟨{ s with devs := devs }, c, d, hs, rfl, rfl⟩
  | panic => trivial

theorem blind_cpuRead (v : Word) : Blind h (cpuRead pf v : M D Word) := by
  intro s hs
  rw [cpuRead_eq, cpuRead_eq]
  exact corr_acc hs _

theorem blind_cpuExec (v : Word) : Blind h (cpuExec pf v : M D Word) := by
  intro s hs
  rw [cpuExec_eq, cpuExec_eq]
  exact corr_acc hs _

theorem blind_cpuWrite (v w : Word) : Blind h (cpuWrite pf v w : M D Unit) := by
  intro s hs
  rw [cpuWrite_eq, cpuWrite_eq]
  exact corr_acc hs _

theorem blind_rol1 (b : Bool) (p : U8) : Blind h (regOrLit1 b p : M D Word) := by
  cases b
  · exact blind_pure _
  · exact blind_readReg p

theorem blind_rol2 (b : Bool) (p q : U8) : Blind h (regOrLit2 b p q : M D Word) := by
  cases b
  · exact blind_pure _
  · exact blind_readReg p

theorem blind_compute (a b : Word) (op : Op) : Blind h (compute a b op : M D Word) := by
  unfold compute
  split
  · exact blind_raise _ _
  · exact blind_bind (blind_modRegs _ (fun _ => rfl) (fun _ => rfl)) fun _ => blind_pure _

theorem blind_hwInfo (info : Word) (id : Nat) : Blind h (getHwInfo pf info id : M D Word) := by
  intro s hs
  unfold getHwInfo
  rw [show (h.on s).hwbCache = s.hwbCache from rfl, show (h.on s).getMapping id = s.getMapping id from rfl]
  generalize s.getMapping id = g
  cases s.hwbCache[id]? with
  | none => exact blind_raise _ _ s hs
  | some cache =>
    dsimp only
    generalize info.toNat = n
    split
    all_goals first
      | exact ⟨rfl, hs, rfl⟩
      | skip
    · cases g with
      | none => exact blind_raise _ _ s hs
      | some m => exact ⟨rfl, hs, rfl⟩
    · cases g with
      | none => exact blind_raise _ _ s hs
      | some m => exact blind_lift _ s hs
    · split
      · exact ⟨rfl, hs, rfl⟩
      · exact blind_raise _ _ s hs

theorem sp_hide (s : Machine D) (hs : s.svMode = false) : (h.on s).sp = s.sp := by
  unfold Machine.sp
  rw [Hide.sv, hs]; rfl

theorem blind_setSp (v : Word) : Blind h (setSp v : M D Unit) := by
  refine blind_modify _ fun s hs => ?_
  rw [Hide.sv, hs]
  exact ⟨rfl, hs⟩

theorem blind_skip : Blind h (skipNext : M D Unit) := blind_modRegs _ (fun _ => rfl) (fun _ => rfl)

theorem blind_pc (g : Regs → Word) (hg : ∀ r, g (h.regs r) = g r) :
    Blind h (modifyM (fun s => { s with regs := { s.regs with pc := g s.regs }, changedPc := true }) : M D Unit) := by
  refine blind_modify _ fun s hs => ⟨?_, hs⟩
  show ({ s with regs := { (h.regs s.regs) with pc := g (h.regs s.regs) }, changedPc := true } : Machine D) = _
  rw [hg]; rfl

/-- Every instruction but ITR and RESET ignores the hidden registers in userland. -/
theorem blind_runInstr (f : Fields) (hlt : f.opcode.toNat < 32) (h10 : f.opcode.toNat ≠ 0x10) (h1F : f.opcode.toNat ≠ 0x1F) :
    Blind h (runInstr pf f : M D Unit) := by
  have alu : Blind h (execAlu f : M D Unit) :=
    blind_bind (blind_rol2 _ _ _) fun _ => blind_bind (blind_readReg _) fun _ => blind_bind (blind_compute _ _ _) fun _ =>
      blind_writeReg _ _
  have div : ∀ mk, Blind h (execDiv mk f : M D Unit) := fun mk =>
    blind_bind (blind_rol1 _ _) fun _ => blind_bind (blind_rol1 _ _) fun _ => blind_bind (blind_readReg _) fun _ =>
      blind_bind (blind_compute _ _ _) fun _ => blind_writeReg _ _
  have cond : ∀ b, Blind h (execIf b f : M D Unit) := fun b => by
    refine blind_bind (blind_rol1 _ _) fun v => blind_ite (blind_raise _ _) (blind_get fun s hs => ?_)
    exact blind_ite blind_skip (blind_pure _) s hs
  unfold runInstr
  split
  · exact blind_raise _ _
  · exact blind_bind (blind_rol2 _ _ _) fun _ => blind_writeReg _ _
  · exact blind_bind (blind_readReg _) fun _ => blind_bind (blind_readReg _) fun _ => blind_bind (blind_writeReg _ _)
      fun _ => blind_writeReg _ _
  all_goals first
    | exact alu
    | exact div _
    | exact cond _
    | skip
  · exact blind_bind (blind_rol2 _ _ _) fun _ => blind_bind (blind_readReg _) fun _ => blind_bind (blind_compute _ _ _)
      fun _ => blind_pure _
  · exact blind_bind (blind_rol2 _ _ _) fun _ => blind_pc (fun r => r.pc + _) fun _ => rfl
  · -- LSM
    refine fun s hs => ?_
    have : ∀ u : Machine D, u.svMode = false → execLsm f u = .ex (u.exception 0x09 (f.opcode.setWidth 16)) := by
      intro u hu
      unfold execLsm
      rw [getsM_bind, hu]; rfl
    show Corr h (execLsm f s) (execLsm f (h.on s))
    rw [this s hs, this (h.on s) hs]
    exact ⟨s, _, _, hs, rfl, rfl⟩
  · next e => exact absurd e h10
  · -- IF2
    refine blind_bind (blind_rol1 _ _) fun a => blind_bind (blind_rol1 _ _) fun b => blind_bind (blind_rol1 _ _) fun c =>
      blind_get fun s hs => ?_
    show Corr h ((liftRes (flagTest pf s.regs.af a) >>= fun x => _) s) ((liftRes (flagTest pf s.regs.af a) >>= fun x => _) (h.on s))
    refine blind_bind (blind_lift _) (fun x => blind_bind (blind_lift _) fun y => ?_) s hs
    cases if2Cond c x y with
    | none => exact blind_raise _ _
    | some r => exact blind_ite blind_skip (blind_pure _)
  · exact blind_bind (blind_rol1 _ _) fun _ => blind_bind (blind_rol1 _ _) fun _ => blind_bind (blind_cpuRead _) fun _ =>
      blind_writeReg _ _
  · exact blind_bind (blind_rol1 _ _) fun _ => blind_bind (blind_rol1 _ _) fun _ => blind_bind (blind_rol1 _ _) fun _ =>
      blind_bind (blind_cpuRead _) fun _ => blind_modRegs _ (fun _ => rfl) (fun _ => rfl)
  · exact blind_bind (blind_rol1 _ _) fun _ => blind_bind (blind_rol1 _ _) fun _ => blind_bind (blind_rol1 _ _) fun _ =>
      blind_cpuWrite _ _
  · exact blind_bind (blind_rol1 _ _) fun _ => blind_bind (blind_rol1 _ _) fun _ => blind_bind (blind_rol1 _ _) fun _ =>
      blind_bind (blind_gets _ fun _ _ => rfl) fun _ => blind_cpuWrite _ _
  · exact blind_bind (blind_rol1 _ _) fun _ => blind_bind (blind_rol1 _ _) fun _ => blind_bind (blind_lift _) fun _ =>
      blind_bind (blind_cpuRead _) fun _ => blind_bind (blind_readReg _) fun _ => blind_bind (blind_lift _) fun _ =>
      blind_bind (blind_cpuWrite _ _) fun _ => blind_writeReg _ _
  · exact blind_bind (blind_rol2 _ _ _) fun _ => blind_bind (blind_gets _ sp_hide) fun _ =>
      blind_bind (blind_cpuWrite _ _) fun _ => blind_setSp _
  · -- POP
    refine blind_bind (m := (getsM (·.svMode) >>= fun sv => if sv then _ else _)) ?_ fun _ => blind_writeReg _ _
    refine fun s hs => ?_
    rw [getsM_bind, getsM_bind, Hide.sv, hs]
    rw [if_neg Bool.false_ne_true]
    have key : Blind h (do
        let sp ← getsM (·.regs.usp)
        let word ← cpuRead pf sp
        modRegs (fun r => { r with usp := r.usp + 4 })
        pure word : M D Word) :=
      blind_bind (blind_gets _ fun _ _ => rfl) fun _ => blind_bind (blind_cpuRead _) fun _ =>
        blind_bind (blind_modRegs _ (fun _ => rfl) (fun _ => rfl)) fun _ => blind_pure _
    exact key s hs
  · exact blind_bind (blind_rol2 _ _ _) fun _ => blind_bind (blind_gets _ sp_hide) fun _ =>
      blind_bind (blind_gets _ fun _ _ => rfl) fun _ => blind_bind (blind_lift _) fun _ =>
      blind_bind (blind_cpuWrite _ _) fun _ => blind_bind (blind_setSp _) fun _ => blind_pc (fun _ => _) fun _ => rfl
  · refine blind_bind (blind_rol1 _ _) fun _ => blind_bind (blind_rol1 _ _) fun _ => blind_ite ?_ ?_
    · exact blind_bind (blind_gets _ fun _ _ => rfl) fun _ => blind_writeReg _ _
    · exact blind_bind (blind_hwInfo _ _) fun _ => blind_writeReg _ _
  · exact blind_bind (blind_gets _ fun _ _ => rfl) fun _ => blind_writeReg _ _
  · exact blind_modify _ fun s hs => ⟨rfl, hs⟩
  · next e => exact absurd e h1F
  · exfalso; simp only [imp_false] at *; omega

end Lrvm
