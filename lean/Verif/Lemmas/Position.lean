import Verif.Spec.Position
import Verif.Lemmas.Next

/-!
# Two runs of the same instruction at two places
-/

namespace Lrvm

open Spec

variable {D : Type} [Bus D] {pf : Profile} {δ : Word}

/-- The registers with another `pc`. -/
def moveRegs (δ : Word) (r : Regs) : Regs := { r with pc := r.pc + δ }

/-- The machine elsewhere. -/
def moveOn (δ : Word) (s : Machine D) : Machine D := { s with regs := moveRegs δ s.regs }

/-- The outcomes of an action on two machines: corresponding, or the same. -/
def Moved2 (δ : Word) : Out (Machine D) α → Out (Machine D) α → Prop
  | .ok a u, .ok b v => a = b ∧ (v = moveOn δ u ∨ v = u)
  | .ex u, .ex v => v = u
  | .panic, .panic => True
  | _, _ => False

theorem moved_refl (o : Out (Machine D) α) : Moved2 δ o o := by
  cases o with
  | ok a u => exact ⟨rfl, .inr rfl⟩
  | ex u => rfl
  | panic => trivial

/-- The action does not look at `pc`. -/
def Astray (δ : Word) (m : M D α) : Prop := ∀ s, Moved2 δ (m s) (m (moveOn δ s))

theorem astray_bind {m : M D α} {k : α → M D β} (h1 : Astray δ m) (h2 : ∀ a, Astray δ (k a)) : Astray δ (m >>= k) := by
  intro s
  have := h1 s
  rw [M.bind_def, M.bind_def]
  cases e1 : m s <;> cases e2 : m (moveOn δ s) <;> rw [e1, e2] at this <;> try exact this.elim
  · obtain ⟨rfl, rfl | rfl⟩ := this
    · exact h2 _ _
    · exact moved_refl _
  · exact this
  · trivial

theorem astray_pure (a : α) : Astray δ (pure a : M D α) := fun _ => ⟨rfl, .inl rfl⟩

theorem astray_raise (c : U8) (d : U16) : Astray δ (raise c d : M D α) := fun _ => rfl

theorem astray_gets (g : Machine D → α) (hg : ∀ s, g (moveOn δ s) = g s) : Astray δ (getsM g) :=
  fun s => ⟨(hg s).symm, .inl rfl⟩

theorem astray_get {k : Machine D → M D β} (hk : ∀ s, Moved2 δ (k s s) (k (moveOn δ s) (moveOn δ s))) :
    Astray δ (getM >>= k) := fun s => hk s

theorem astray_modify (g : Machine D → Machine D) (hg : ∀ s, g (moveOn δ s) = moveOn δ (g s)) : Astray δ (modifyM g) :=
  fun s => ⟨rfl, .inl (hg s)⟩

theorem astray_same (g : Machine D → Machine D) (hg : ∀ s, g (moveOn δ s) = g s) : Astray δ (modifyM g) :=
  fun s => ⟨rfl, .inr (hg s)⟩

theorem astray_modRegs (g : Regs → Regs) (hg : ∀ r, g (moveRegs δ r) = moveRegs δ (g r)) :
    Astray δ (modRegs g : M D Unit) :=
  astray_modify _ fun s => by
    show { s with regs := g (moveRegs δ s.regs) } = _
    rw [hg]; rfl

theorem astray_lift (r : Res α) : Astray δ (liftRes r : M D α) := by
  intro s
  cases r with
  | none => trivial
  | some a => exact ⟨rfl, .inl rfl⟩

theorem astray_ite {c : Prop} [Decidable c] {m n : M D α} (h1 : Astray δ m) (h2 : Astray δ n) :
    Astray δ (if c then m else n) := by split <;> assumption

theorem read_moved (r : Regs) (code : U8) (hc : code.toNat ≠ 0x16) : (moveRegs δ r).read code = r.read code := by
  unfold Regs.read
  repeat' split
  all_goals first
    | rfl
    | (exfalso; omega)

theorem astray_readReg (code : U8) (hc : code.toNat ≠ 0x16) : Astray δ (readReg code : M D Word) := by
  intro s
  unfold readReg
  rw [show (moveOn δ s).svMode = s.svMode from rfl]
  by_cases h : 0x18#8 ≤ code ∧ s.svMode = false
  · rw [if_pos h, if_pos h]; exact astray_raise _ _ s
  · rw [if_neg h, if_neg h]
    show Moved2 δ _ (match (moveRegs δ s.regs).read code with | some w => .ok w (moveOn δ s) | none => _)
    rw [read_moved _ _ hc]
    cases s.regs.read code with
    | none => exact astray_raise _ _ s
    | some w => exact ⟨rfl, .inl rfl⟩

theorem write_moved (r : Regs) (code : U8) (w : Word) (hc : code.toNat ≠ 0x16) :
    (moveRegs δ r).write code w = (r.write code w).map (moveRegs δ) := by
  unfold Regs.write
  by_cases h1 : code.toNat < 0x08
  · rw [dif_pos h1, dif_pos h1]; rfl
  rw [dif_neg h1, dif_neg h1]
  by_cases h1 : code.toNat < 0x0A
  · rw [dif_pos h1, dif_pos h1]; rfl
  rw [dif_neg h1, dif_neg h1]
  by_cases h1 : code.toNat < 0x0D
  · rw [dif_pos h1, dif_pos h1]; rfl
  rw [dif_neg h1, dif_neg h1]
  by_cases h1 : code.toNat < 0x15
  · rw [dif_pos h1, dif_pos h1]; rfl
  rw [dif_neg h1, dif_neg h1]
  split <;> first | rfl | (exfalso; omega)

theorem astray_writeReg (code : U8) (w : Word) : Astray δ (writeReg code w : M D Unit) := by
  intro s
  unfold writeReg
  rw [show (moveOn δ s).svMode = s.svMode from rfl]
  by_cases h : 0x17#8 ≤ code ∧ s.svMode = false
  · rw [if_pos h, if_pos h]; exact astray_raise _ _ s
  rw [if_neg h, if_neg h]
  by_cases h : code = 0x17#8 ∨ code = 0x1A#8 ∨ code = 0x1B#8
  · rw [if_pos h, if_pos h]; exact astray_raise _ _ s
  rw [if_neg h, if_neg h]
  by_cases h16 : code = 0x16#8
  · subst h16
    exact ⟨rfl, .inr rfl⟩
  · dsimp only
    rw [if_neg h16, if_neg h16]
    have hne : code.toNat ≠ 0x16 := fun he => h16 (BitVec.eq_of_toNat_eq he)
    show Moved2 δ (match s.regs.write code w with | some r => _ | none => _)
      (match (moveRegs δ s.regs).write code w with | some r => _ | none => _)
    rw [write_moved _ _ _ hne]
    cases s.regs.write code w with
    | none => exact astray_raise _ _ s
    | some r => exact ⟨rfl, .inl rfl⟩

theorem astray_acc (s : Machine D) (a : Acc D α) : Moved2 δ (a.toOut s) (a.toOut (moveOn δ s)) := by
  cases a with
  | done a devs => exact ⟨rfl, .inl rfl⟩
  | fault c d devs => rfl
  | panic => trivial

theorem astray_cpuRead (v : Word) : Astray δ (cpuRead pf v : M D Word) := by
  intro s
  rw [cpuRead_eq, cpuRead_eq]
  exact astray_acc s _

theorem astray_cpuWrite (v w : Word) : Astray δ (cpuWrite pf v w : M D Unit) := by
  intro s
  rw [cpuWrite_eq, cpuWrite_eq]
  exact astray_acc s _

theorem not_ifReg {b : Bool} {p : U8} {n : Nat} (h : n ∉ ifReg b p) : b = true → p.toNat ≠ n := by
  rintro rfl e
  exact h (by simp [ifReg, e])

theorem astray_rol1 (b : Bool) (p : U8) (h : 0x16 ∉ ifReg b p) : Astray δ (regOrLit1 b p : M D Word) := by
  cases b
  · exact astray_pure _
  · exact astray_readReg p (not_ifReg h rfl)

theorem astray_rol2 (b : Bool) (p q : U8) (h : 0x16 ∉ ifReg b p) : Astray δ (regOrLit2 b p q : M D Word) := by
  cases b
  · exact astray_pure _
  · exact astray_readReg p (not_ifReg h rfl)

theorem astray_compute (a b : Word) (op : Op) : Astray δ (compute a b op : M D Word) := by
  unfold compute
  split
  · exact astray_raise _ _
  · exact astray_bind (astray_modRegs _ (fun _ => rfl)) fun _ => astray_pure _

theorem astray_hwInfo (info : Word) (id : Nat) : Astray δ (getHwInfo pf info id : M D Word) := by
  intro s
  unfold getHwInfo
  rw [show (moveOn δ s).hwbCache = s.hwbCache from rfl, show (moveOn δ s).getMapping id = s.getMapping id from rfl]
  generalize s.getMapping id = g
  cases s.hwbCache[id]? with
  | none => exact astray_raise _ _ s
  | some cache =>
    dsimp only
    generalize info.toNat = n
    split
    all_goals first
      | exact ⟨rfl, .inl rfl⟩
      | skip
    · cases g with
      | none => exact astray_raise _ _ s
      | some m => exact ⟨rfl, .inl rfl⟩
    · cases g with
      | none => exact astray_raise _ _ s
      | some m => exact astray_lift _ s
    · split
      · exact ⟨rfl, .inl rfl⟩
      · exact astray_raise _ _ s

theorem astray_setSp (v : Word) : Astray δ (setSp v : M D Unit) := by
  refine astray_modify _ fun s => ?_
  rw [show (moveOn δ s).svMode = s.svMode from rfl]
  cases s.svMode <;> rfl

theorem add_right_comm_word (a b c : Word) : a + b + c = a + c + b := by
  rw [BitVec.add_assoc, BitVec.add_comm b c, ← BitVec.add_assoc]

theorem astray_skip : Astray δ (skipNext : M D Unit) := astray_modRegs _ fun r => by
  show ({ r with pc := r.pc + δ + 4 } : Regs) = { r with pc := r.pc + 4 + δ }
  rw [add_right_comm_word]

theorem astray_setDevs (devs : List D) : Astray δ (modifyM fun s => { s with devs := devs }) :=
  astray_modify (δ := δ) (fun s : Machine D => { s with devs := devs }) fun _ => rfl

theorem astray_resetDevs (m : Nat) : Astray δ (resetDevs m : M D Unit) := by
  refine astray_get fun s => ?_
  show Moved2 δ _ ((match m with | _ => _ : M D Unit) (moveOn δ s))
  split
  · exact astray_bind (astray_lift _) (fun devs => astray_setDevs devs) s
  · refine astray_bind (astray_lift _) (fun o => ?_) s
    cases o with
    | none => exact astray_raise _ _
    | some devs => exact astray_setDevs devs
  · exact astray_bind (astray_lift _) (fun devs => astray_setDevs devs) s
  · exact astray_bind (astray_lift _) (fun devs => astray_setDevs devs) s
  · exact astray_bind (astray_lift _) (fun devs => astray_setDevs devs) s
  · exact astray_pure _ s

theorem astray_runInstr (i : Parts) (hop : i.op ≠ 0x1B) (hs : 0x16 ∉ i.sources) (hsrm : i.op = 0x18 → i.p2.toNat ≠ 0x16) :
    Astray δ (runInstr pf ⟨i.op.setWidth 8, i.r0, i.r1, i.r2, i.p0, i.p1, i.p2⟩ : M D Unit) := by
  obtain ⟨op, r0, r1, r2, p0, p1, p2⟩ := i
  dsimp only at hop hsrm ⊢
  have hn : (op.setWidth 8).toNat = op.toNat := by
    rw [BitVec.toNat_setWidth]
    exact Nat.mod_eq_of_lt (by have := op.isLt; omega)
  have hlt := op.isLt
  have h1B : op.toNat ≠ 0x1B := fun e => hop (BitVec.eq_of_toNat_eq e)
  have h18 : op.toNat = 0x18 → p2.toNat ≠ 0x16 := fun e => hsrm (BitVec.eq_of_toNat_eq e)
  unfold Parts.sources at hs
  dsimp only at hs
  generalize hf : (⟨op.setWidth 8, r0, r1, r2, p0, p1, p2⟩ : Fields) = f
  have e0 : f.r0 = r0 := by rw [← hf]
  have e1 : f.r1 = r1 := by rw [← hf]
  have e2 : f.r2 = r2 := by rw [← hf]
  have q0 : f.p0 = p0 := by rw [← hf]
  have q1 : f.p1 = p1 := by rw [← hf]
  have q2 : f.p2 = p2 := by rw [← hf]
  have eo : f.opcode.toNat = op.toNat := by rw [← hf]; exact hn
  rw [← eo] at hs hlt h1B h18
  rw [← e0, ← e1, ← e2, ← q0, ← q1, ← q2] at hs
  rw [← q2] at h18
  clear hf hn eo e0 e1 e2 q0 q1 q2 hop hsrm
  have alu : 0x16 ∉ ifReg f.r1 f.p1 ++ [f.p0.toNat] → Astray δ (execAlu f : M D Unit) := fun h => by
    simp only [List.mem_append, List.mem_singleton, not_or] at h
    exact astray_bind (astray_rol2 _ _ _ h.1) fun _ => astray_bind (astray_readReg _ (Ne.symm h.2)) fun _ =>
      astray_bind (astray_compute _ _ _) fun _ => astray_writeReg _ _
  have div : ∀ mk, 0x16 ∉ ifReg f.r1 f.p1 ++ ifReg f.r2 f.p2 ++ [f.p0.toNat] → Astray δ (execDiv mk f : M D Unit) :=
    fun mk h => by
    simp only [List.mem_append, List.mem_singleton, not_or] at h
    exact astray_bind (astray_rol1 _ _ h.1.1) fun _ => astray_bind (astray_rol1 _ _ h.1.2) fun _ =>
      astray_bind (astray_readReg _ (Ne.symm h.2)) fun _ => astray_bind (astray_compute _ _ _) fun _ => astray_writeReg _ _
  have cond : ∀ b, 0x16 ∉ ifReg f.r0 f.p0 → Astray δ (execIf b f : M D Unit) := fun b h => by
    refine astray_bind (astray_rol1 _ _ h) fun v => astray_ite (astray_raise _ _) (astray_get fun s => ?_)
    exact astray_ite astray_skip (astray_pure _) s
  unfold runInstr
  split <;> rename_i ho <;> first | rw [ho] at hs h18 | skip
  all_goals first
    | exact alu hs
    | exact div _ hs
    | exact cond _ hs
    | exact absurd ho h1B
    | skip
  · exact astray_raise _ _
  · exact astray_bind (astray_rol2 _ _ _ hs) fun _ => astray_writeReg _ _
  · simp only [List.mem_cons, List.not_mem_nil, or_false, not_or] at hs
    exact astray_bind (astray_readReg _ (Ne.symm hs.1)) fun _ => astray_bind (astray_readReg _ (Ne.symm hs.2)) fun _ =>
      astray_bind (astray_writeReg _ _) fun _ => astray_writeReg _ _
  · simp only [List.mem_append, List.mem_singleton, not_or] at hs
    exact astray_bind (astray_rol2 _ _ _ hs.1) fun _ => astray_bind (astray_readReg _ (Ne.symm hs.2)) fun _ =>
      astray_bind (astray_compute _ _ _) fun _ => astray_pure _
  · -- JPR
    refine astray_bind (astray_rol2 _ _ _ hs) fun v => astray_modify _ fun s => ?_
    show ({ s with regs := { s.regs with pc := s.regs.pc + δ + _ }, changedPc := true } : Machine D) = _
    rw [add_right_comm_word]; rfl
  · -- LSM
    refine astray_bind (astray_gets _ fun _ => rfl) fun sv => astray_ite ?_ (astray_raise _ _)
    refine astray_bind (astray_rol2 _ _ _ hs) fun v => astray_bind (astray_same _ fun _ => rfl) fun _ => ?_
    exact astray_modRegs _ fun _ => rfl
  · -- ITR
    exact astray_bind (astray_rol1 _ _ hs) fun v => astray_same _ fun _ => rfl
  · -- IF2
    simp only [List.mem_append, not_or] at hs
    refine astray_bind (astray_rol1 _ _ hs.1.1) fun a => astray_bind (astray_rol1 _ _ hs.1.2) fun b =>
      astray_bind (astray_rol1 _ _ hs.2) fun c => astray_get fun s => ?_
    show Moved2 δ ((liftRes (flagTest pf s.regs.af a) >>= fun x => _) s)
      ((liftRes (flagTest pf s.regs.af a) >>= fun x => _) (moveOn δ s))
    refine astray_bind (astray_lift _) (fun x => astray_bind (astray_lift _) fun y => ?_) s
    cases if2Cond c x y with
    | none => exact astray_raise _ _
    | some r => exact astray_ite astray_skip (astray_pure _)
  · simp only [List.mem_append, not_or] at hs
    exact astray_bind (astray_rol1 _ _ hs.1) fun _ => astray_bind (astray_rol1 _ _ hs.2) fun _ =>
      astray_bind (astray_cpuRead _) fun _ => astray_writeReg _ _
  · simp only [List.mem_append, not_or] at hs
    exact astray_bind (astray_rol1 _ _ hs.1.1) fun _ => astray_bind (astray_rol1 _ _ hs.1.2) fun _ =>
      astray_bind (astray_rol1 _ _ hs.2) fun _ => astray_bind (astray_cpuRead _) fun _ => astray_modRegs _ (fun _ => rfl)
  · simp only [List.mem_append, not_or] at hs
    exact astray_bind (astray_rol1 _ _ hs.1.1) fun _ => astray_bind (astray_rol1 _ _ hs.1.2) fun _ =>
      astray_bind (astray_rol1 _ _ hs.2) fun _ => astray_cpuWrite _ _
  · simp only [List.mem_append, not_or] at hs
    exact astray_bind (astray_rol1 _ _ hs.1.1) fun _ => astray_bind (astray_rol1 _ _ hs.1.2) fun _ =>
      astray_bind (astray_rol1 _ _ hs.2) fun _ => astray_bind (astray_gets _ fun _ => rfl) fun _ => astray_cpuWrite _ _
  · simp only [List.mem_append, not_or] at hs
    exact astray_bind (astray_rol1 _ _ hs.1) fun _ => astray_bind (astray_rol1 _ _ hs.2) fun _ =>
      astray_bind (astray_lift _) fun _ => astray_bind (astray_cpuRead _) fun _ =>
      astray_bind (astray_readReg _ (h18 rfl)) fun _ => astray_bind (astray_lift _) fun _ =>
      astray_bind (astray_cpuWrite _ _) fun _ => astray_writeReg _ _
  · exact astray_bind (astray_rol2 _ _ _ hs) fun _ => astray_bind (astray_gets _ fun _ => rfl) fun _ =>
      astray_bind (astray_cpuWrite _ _) fun _ => astray_setSp _
  · -- POP
    refine astray_bind (astray_gets _ fun _ => rfl) fun sv => astray_bind (astray_ite ?_ ?_) fun _ => astray_writeReg _ _
    · exact astray_bind (astray_gets _ fun _ => rfl) fun _ => astray_bind (astray_cpuRead _) fun _ =>
        astray_bind (astray_modRegs _ fun _ => rfl) fun _ => astray_pure _
    · exact astray_bind (astray_gets _ fun _ => rfl) fun _ => astray_bind (astray_cpuRead _) fun _ =>
        astray_bind (astray_modRegs _ fun _ => rfl) fun _ => astray_pure _
  · simp only [List.mem_append, not_or] at hs
    refine astray_bind (astray_rol1 _ _ hs.1) fun _ => astray_bind (astray_rol1 _ _ hs.2) fun _ => astray_ite ?_ ?_
    · exact astray_bind (astray_gets _ fun _ => rfl) fun _ => astray_writeReg _ _
    · exact astray_bind (astray_hwInfo _ _) fun _ => astray_writeReg _ _
  · exact astray_bind (astray_gets _ fun _ => rfl) fun _ => astray_writeReg _ _
  · exact astray_modify _ fun _ => rfl
  · -- RESET
    refine astray_bind (astray_rol1 _ _ hs) fun v => astray_bind (astray_resetDevs _) fun _ => astray_ite ?_ (astray_pure _)
    exact astray_same _ fun _ => rfl
  · exfalso; simp only [imp_false] at *; omega

end Lrvm
