import Verif.Spec.ClearTable
import Verif.Lemmas.Next
import Verif.Lemmas.Position

/-!
# Two runs of the same instruction, with the MMU on and off
-/

namespace Lrvm

open Spec

variable {D : Type} [Bus D] {pf : Profile} {x : Word}

/-- The registers with another `mtt`. -/
def mttRegs (x : Word) (r : Regs) : Regs := { r with mtt := x }

/-- The machine with another `mtt`. -/
def withMtt (x : Word) (s : Machine D) : Machine D := { s with regs := mttRegs x s.regs }

/-- The table is clear. -/
def Clear (pf : Profile) (maps : List Mapping) (ds : List D) (pda : Word) : Prop :=
  ∀ v : Word, v.toNat % 4 = 0 → ∃ a e, entryAddr pf pda v = some a ∧ devRead pf maps ds a 0 = some (e, 0, ds) ∧
    (∀ smt, passBit smt e = true)

/-- Outcomes of an action on the two machines: corresponding, or the same. -/
def outMtt (x : Word) : Out (Machine D) α → Out (Machine D) α → Prop
  | .ok a u, .ok b v => a = b ∧ (v = withMtt x u ∨ v = u)
  | .ex u, .ex v => v = withMtt x u ∨ v = u
  | .panic, .panic => True
  | _, _ => False

/-- Outcomes of an action that leaves what accesses depend on. -/
def outMttI (x : Word) (s : Machine D) : Out (Machine D) α → Out (Machine D) α → Prop
  | .ok a u, .ok b v => a = b ∧ v = withMtt x u ∧ u.mappings = s.mappings ∧ u.devs = s.devs ∧ u.regs.pda = s.regs.pda
  | .ex u, .ex v => v = withMtt x u ∨ v = u
  | .panic, .panic => True
  | _, _ => False

/-- The action does not look at `mtt`. -/
def MttU (x : Word) (m : M D α) : Prop := ∀ s, outMtt x (m s) (m (withMtt x s))

/-- With a clear table, the action does not look at `mtt`. -/
def MttE (pf : Profile) (x : Word) (m : M D α) : Prop :=
  ∀ s, Clear pf s.mappings s.devs s.regs.pda → outMtt x (m s) (m (withMtt x s))

/-- The same, and it changes nothing accesses depend on. -/
def MttI (pf : Profile) (x : Word) (m : M D α) : Prop :=
  ∀ s, Clear pf s.mappings s.devs s.regs.pda → outMttI x s (m s) (m (withMtt x s))

omit [Bus D] in
theorem outMtt_refl (o : Out (Machine D) α) : outMtt x o o := by
  cases o with
  | ok a u => exact ⟨rfl, .inr rfl⟩
  | ex u => exact .inr rfl
  | panic => trivial

theorem MttU.e {m : M D α} (h : MttU x m) : MttE pf x m := fun s _ => h s

theorem MttI.e {m : M D α} (h : MttI pf x m) : MttE pf x m := by
  intro s hs
  have := h s hs
  revert this
  cases m s <;> cases m (withMtt x s) <;> intro h <;> first | exact h.elim | exact ⟨h.1, .inl h.2.1⟩ | exact h

omit [Bus D] in
theorem mttUU {m : M D α} {k : α → M D β} (h1 : MttU x m) (h2 : ∀ a, MttU x (k a)) : MttU x (m >>= k) := by
  intro s
  have := h1 s
  rw [M.bind_def, M.bind_def]
  cases e1 : m s <;> cases e2 : m (withMtt x s) <;> rw [e1, e2] at this <;> try exact this.elim
  · obtain ⟨rfl, rfl | rfl⟩ := this
    · exact h2 _ _
    · exact outMtt_refl _
  · exact this
  · trivial

theorem mttEU {m : M D α} {k : α → M D β} (h1 : MttE pf x m) (h2 : ∀ a, MttU x (k a)) : MttE pf x (m >>= k) := by
  intro s hs
  have := h1 s hs
  rw [M.bind_def, M.bind_def]
  cases e1 : m s <;> cases e2 : m (withMtt x s) <;> rw [e1, e2] at this <;> try exact this.elim
  · obtain ⟨rfl, rfl | rfl⟩ := this
    · exact h2 _ _
    · exact outMtt_refl _
  · exact this
  · trivial

theorem mttIE {m : M D α} {k : α → M D β} (h1 : MttI pf x m) (h2 : ∀ a, MttE pf x (k a)) : MttE pf x (m >>= k) := by
  intro s hs
  have := h1 s hs
  rw [M.bind_def, M.bind_def]
  cases e1 : m s <;> cases e2 : m (withMtt x s) <;> rw [e1, e2] at this <;> try exact this.elim
  · obtain ⟨rfl, rfl, h3, h4, h5⟩ := this
    exact h2 _ _ (by rw [h3, h4, h5]; exact hs)
  · exact this
  · trivial

theorem mttII {m : M D α} {k : α → M D β} (h1 : MttI pf x m) (h2 : ∀ a, MttI pf x (k a)) : MttI pf x (m >>= k) := by
  intro s hs
  have := h1 s hs
  rw [M.bind_def, M.bind_def]
  cases e1 : m s <;> cases e2 : m (withMtt x s) <;> rw [e1, e2] at this <;> try exact this.elim
  · next a t _ _ =>
    obtain ⟨rfl, rfl, h3, h4, h5⟩ := this
    have h6 := h2 a t (by rw [h3, h4, h5]; exact hs)
    dsimp only
    revert h6
    cases k a t <;> cases k a (withMtt x t) <;> intro h6 <;> try exact h6
    exact ⟨h6.1, h6.2.1, h6.2.2.1.trans h3, h6.2.2.2.1.trans h4, h6.2.2.2.2.trans h5⟩
  · exact this
  · trivial

omit [Bus D] in
theorem mtt_raise (c : U8) (d : U16) : MttU x (raise c d : M D α) := fun _ => .inl rfl
omit [Bus D] in
theorem mtt_pure (a : α) : MttU x (pure a : M D α) := fun _ => ⟨rfl, .inl rfl⟩
theorem mttI_pure (a : α) : MttI pf x (pure a : M D α) := fun _ _ => ⟨rfl, rfl, rfl, rfl, rfl⟩
theorem mttI_raise (c : U8) (d : U16) : MttI pf x (raise c d : M D α) := fun _ _ => .inl rfl

theorem mttI_gets (g : Machine D → α) (hg : ∀ s, g (withMtt x s) = g s) : MttI pf x (getsM g) :=
  fun s _ => ⟨(hg s).symm, rfl, rfl, rfl, rfl⟩

omit [Bus D] in
theorem mtt_modify (g : Machine D → Machine D) (hg : ∀ s, g (withMtt x s) = withMtt x (g s)) : MttU x (modifyM g) :=
  fun s => ⟨rfl, .inl (hg s)⟩

omit [Bus D] in
theorem mtt_same (g : Machine D → Machine D) (hg : ∀ s, g (withMtt x s) = g s) : MttU x (modifyM g) :=
  fun s => ⟨rfl, .inr (hg s)⟩

omit [Bus D] in
theorem mtt_modRegs (g : Regs → Regs) (hg : ∀ r, g (mttRegs x r) = mttRegs x (g r)) : MttU x (modRegs g : M D Unit) :=
  mtt_modify _ fun s => by
    show { s with regs := g (mttRegs x s.regs) } = _
    rw [hg]; rfl

theorem mttI_modRegs (g : Regs → Regs) (hg : ∀ r, g (mttRegs x r) = mttRegs x (g r) ∧ (g r).pda = r.pda) :
    MttI pf x (modRegs g : M D Unit) := by
  intro s _
  refine ⟨rfl, ?_, rfl, rfl, (hg s.regs).2⟩
  show ({ s with regs := g (mttRegs x s.regs) } : Machine D) = _
  rw [(hg _).1]; rfl

theorem mttI_lift (r : Res α) : MttI pf x (liftRes r : M D α) := by
  intro s _
  cases r with
  | none => trivial
  | some a => exact ⟨rfl, rfl, rfl, rfl, rfl⟩

omit [Bus D] in
theorem mtt_lift (r : Res α) : MttU x (liftRes r : M D α) := by
  intro s
  cases r with
  | none => trivial
  | some a => exact ⟨rfl, .inl rfl⟩

omit [Bus D] in
theorem mttU_ite {c : Prop} [Decidable c] {m n : M D α} (h1 : MttU x m) (h2 : MttU x n) : MttU x (if c then m else n) := by
  split <;> assumption

theorem mttE_ite {c : Prop} [Decidable c] {m n : M D α} (h1 : MttE pf x m) (h2 : MttE pf x n) : MttE pf x (if c then m else n) := by
  split <;> assumption

theorem mttI_ite {c : Prop} [Decidable c] {m n : M D α} (h1 : MttI pf x m) (h2 : MttI pf x n) : MttI pf x (if c then m else n) := by
  split <;> assumption

theorem mttE_get {k : Machine D → M D β} (hk : ∀ s, Clear pf s.mappings s.devs s.regs.pda →
    outMtt x (k s s) (k (withMtt x s) (withMtt x s))) : MttE pf x (getM >>= k) := fun s h => hk s h

omit [Bus D] in
theorem mttU_get {k : Machine D → M D β} (hk : ∀ s, outMtt x (k s s) (k (withMtt x s) (withMtt x s))) :
    MttU x (getM >>= k) := fun s => hk s

theorem read_mtt (r : Regs) (code : U8) (hc : code.toNat ≠ 0x1D) : (mttRegs x r).read code = r.read code := by
  unfold Regs.read
  repeat' split
  all_goals first
    | rfl
    | (exfalso; omega)

theorem mttI_readReg (code : U8) (hc : code.toNat ≠ 0x1D) : MttI pf x (readReg code : M D Word) := by
  intro s _
  unfold readReg
  rw [show (withMtt x s).svMode = s.svMode from rfl]
  by_cases h : 0x18#8 ≤ code ∧ s.svMode = false
  · rw [if_pos h, if_pos h]; exact .inl rfl
  · rw [if_neg h, if_neg h]
    show outMttI x s _ (match (mttRegs x s.regs).read code with | some w => .ok w (withMtt x s) | none => _)
    rw [read_mtt _ _ hc]
    cases s.regs.read code with
    | none => exact .inl rfl
    | some w => exact ⟨rfl, rfl, rfl, rfl, rfl⟩

theorem write_mtt (r : Regs) (code : U8) (w : Word) (hc : code.toNat ≠ 0x1D) :
    (mttRegs x r).write code w = (r.write code w).map (mttRegs x) := by
  unfold Regs.write
  by_cases h1 : code.toNat < 0x08
  · rw [dif_pos h1, dif_pos h1]; rfl
  rw [dif_neg h1, dif_neg h1]
  by_cases h1 : code.toNat < 0x0A
  · rw [dif_pos h1, dif_pos h1]; rfl
  rw [dif_neg h1, dif_neg h1]
  by_cases h1 : code.toNat < 0x0D
  · rw [dif_pos h1, dif_pos h1]; rfl
  rw [dif_neg h1, dif_neg h1]
  by_cases h1 : code.toNat < 0x15
  · rw [dif_pos h1, dif_pos h1]; rfl
  rw [dif_neg h1, dif_neg h1]
  split <;> first | rfl | (exfalso; omega)

theorem mtt_writeReg (code : U8) (w : Word) : MttU x (writeReg code w : M D Unit) := by
  intro s
  unfold writeReg
  rw [show (withMtt x s).svMode = s.svMode from rfl]
  by_cases h : 0x17#8 ≤ code ∧ s.svMode = false
  · rw [if_pos h, if_pos h]; exact mtt_raise _ _ s
  rw [if_neg h, if_neg h]
  by_cases h : code = 0x17#8 ∨ code = 0x1A#8 ∨ code = 0x1B#8
  · rw [if_pos h, if_pos h]; exact mtt_raise _ _ s
  rw [if_neg h, if_neg h]
  by_cases h1D : code = 0x1D#8
  · subst h1D
    exact ⟨rfl, .inr rfl⟩
  · have hne : code.toNat ≠ 0x1D := fun he => h1D (BitVec.eq_of_toNat_eq he)
    by_cases h16 : code = 0x16#8
    · subst h16
      exact ⟨rfl, .inl rfl⟩
    dsimp only
    rw [if_neg h16, if_neg h16]
    show outMtt x (match s.regs.write code w with | some r => _ | none => _)
      (match (mttRegs x s.regs).write code w with | some r => _ | none => _)
    rw [write_mtt _ _ _ hne]
    cases s.regs.write code w with
    | none => exact mtt_raise _ _ s
    | some r => exact ⟨rfl, .inl rfl⟩

theorem transl_clear {r : Regs} {maps : List Mapping} {ds : List D} {v : Word} (hv : ¬ v % 4 ≠ 0) (h : Clear pf maps ds r.pda) :
    transl pf r maps ds v = some (.ok v, ds) := by
  unfold transl
  split
  · rfl
  · have h4 : v.toNat % 4 = 0 := by
      have := congrArg BitVec.toNat (Decidable.not_not.mp hv)
      simpa using this
    obtain ⟨a, e, h1, h2, h3⟩ := h v h4
    rw [h1]
    simp only [Option.bind_eq_bind, Option.bind_some]
    rw [h2]
    simp only [Option.bind_some]
    rw [if_neg (by simp), if_pos (h3 _)]

theorem accDo_mtt {r : Regs} {maps : List Mapping} {ds : List D} {v : Word} (h : Clear pf maps ds r.pda)
    (f : List D → Word → Res (α × U16 × List D)) : accDo pf (mttRegs x r) maps ds v f = accDo pf r maps ds v f := by
  unfold accDo
  by_cases hv : v % 4 ≠ 0
  · rw [if_pos hv, if_pos hv]
  · rw [if_neg hv, if_neg hv, transl_clear hv h, transl_clear (r := mttRegs x r) hv h]

theorem mttE_cpuWrite (v w : Word) : MttE pf x (cpuWrite pf v w : M D Unit) := by
  intro s hs
  rw [cpuWrite_eq, cpuWrite_eq]
  have h : accWrite pf (withMtt x s).regs (withMtt x s).mappings (withMtt x s).devs v w = accWrite pf s.regs s.mappings s.devs v w :=
    accDo_mtt hs _
  rw [h]
  cases accWrite pf s.regs s.mappings s.devs v w with
  | done a ds => exact ⟨rfl, .inl rfl⟩
  | fault c d ds => exact .inl rfl
  | panic => trivial

/-- Reading leaves the components as they are. -/
def ReadsQuiet (D : Type) [Bus D] : Prop :=
  ∀ (d d' : D) (a w : Word) (ex ex' : U16), Bus.read d a ex = some (d', w, ex') → d' = d

theorem devRead_quiet (hq : ReadsQuiet D) {maps : List Mapping} {ds es : List D} {a w : Word} {ex ex' : U16}
    (h1 : devRead pf maps ds a ex = some (w, ex', es)) : es = ds := by
  unfold devRead at h1
  simp only [Option.bind_eq_bind, Option.bind_eq_some_iff] at h1
  obtain ⟨_, _, o, ho, h⟩ := h1
  cases o with
  | none => simp at h; exact h.2.2.symm
  | some m =>
    simp only [Option.bind_eq_some_iff] at h
    obtain ⟨off, hoff, r, hr, h⟩ := h
    cases r with
    | none => simp at h
    | some r =>
      simp at h; subst h
      unfold bridgeRead at hr
      simp only [Option.bind_eq_bind, Option.bind_eq_some_iff] at hr
      obtain ⟨⟨⟩, hal, hr⟩ := hr
      split at hr
      · cases hr
      · next d hdd =>
        simp only [Option.bind_eq_some_iff] at hr
        obtain ⟨⟨d', w', x'⟩, hbr, hr⟩ := hr
        injection hr with hr; injection hr with hr; injection hr with h1 hr; injection hr with h2 hr
        subst hr
        obtain rfl := hq _ _ _ _ _ _ hbr
        apply List.ext_getElem?
        intro i
        by_cases hi : m.auxId = i
        · subst hi
          rw [List.getElem?_set_self (List.getElem?_eq_some_iff.mp hdd).1, hdd]
        · rw [List.getElem?_set_ne hi]

theorem mttI_acc (hq : ReadsQuiet D) (s : Machine D) (v : Word) (hs : Clear pf s.mappings s.devs s.regs.pda) :
    outMttI x s ((accRead pf s.regs s.mappings s.devs v).toOut s)
      ((accRead pf (mttRegs x s.regs) s.mappings s.devs v).toOut (withMtt x s)) := by
  unfold accRead
  rw [accDo_mtt hs]
  unfold accDo
  by_cases hv : v % 4 ≠ 0
  · rw [if_pos hv]; exact .inl rfl
  · rw [if_neg hv, transl_clear hv hs]
    dsimp only
    cases h : devRead pf s.mappings s.devs v 0 with
    | none => trivial
    | some q =>
      obtain ⟨w, ex, es⟩ := q
      obtain rfl := devRead_quiet hq h
      dsimp only
      split
      · exact .inl rfl
      · exact ⟨rfl, rfl, rfl, rfl, rfl⟩

theorem mttI_cpuRead (hq : ReadsQuiet D) (v : Word) : MttI pf x (cpuRead pf v : M D Word) := by
  intro s hs
  rw [cpuRead_eq, cpuRead_eq]
  exact mttI_acc hq s v hs

theorem mttI_cpuExec (hq : ReadsQuiet D) (v : Word) : MttI pf x (cpuExec pf v : M D Word) := by
  intro s hs
  rw [cpuExec_eq, cpuExec_eq]
  exact mttI_acc hq s v hs

theorem mttI_rol1 (b : Bool) (p : U8) (h : 0x1D ∉ ifReg b p) : MttI pf x (regOrLit1 b p : M D Word) := by
  cases b
  · exact mttI_pure _
  · exact mttI_readReg p (not_ifReg h rfl)

theorem mttI_rol2 (b : Bool) (p q : U8) (h : 0x1D ∉ ifReg b p) : MttI pf x (regOrLit2 b p q : M D Word) := by
  cases b
  · exact mttI_pure _
  · exact mttI_readReg p (not_ifReg h rfl)

theorem mttI_compute (a b : Word) (op : Op) : MttI pf x (compute a b op : M D Word) := by
  unfold compute
  split
  · exact mttI_raise _ _
  · exact mttII (mttI_modRegs _ (fun _ => ⟨rfl, rfl⟩)) fun _ => mttI_pure _

theorem mttI_hwInfo (info : Word) (id : Nat) : MttI pf x (getHwInfo pf info id : M D Word) := by
  intro s hs
  unfold getHwInfo
  rw [show (withMtt x s).hwbCache = s.hwbCache from rfl, show (withMtt x s).getMapping id = s.getMapping id from rfl]
  generalize s.getMapping id = g
  cases s.hwbCache[id]? with
  | none => exact .inl rfl
  | some cache =>
    dsimp only
    generalize info.toNat = n
    split
    all_goals first
      | exact ⟨rfl, rfl, rfl, rfl, rfl⟩
      | skip
    · cases g with
      | none => exact .inl rfl
      | some m => exact ⟨rfl, rfl, rfl, rfl, rfl⟩
    · cases g with
      | none => exact .inl rfl
      | some m => exact mttI_lift _ s hs
    · split
      · exact ⟨rfl, rfl, rfl, rfl, rfl⟩
      · exact .inl rfl

omit [Bus D] in
theorem mtt_setSp (v : Word) : MttU x (setSp v : M D Unit) := by
  refine mtt_modify _ fun s => ?_
  rw [show (withMtt x s).svMode = s.svMode from rfl]
  cases s.svMode <;> rfl

omit [Bus D] in
theorem mtt_skip : MttU x (skipNext : M D Unit) := mtt_modRegs _ fun _ => rfl

theorem mtt_setDevs (devs : List D) : MttU x (modifyM fun s => { s with devs := devs }) :=
  mtt_modify (x := x) (fun s : Machine D => { s with devs := devs }) fun _ => rfl

theorem mtt_resetDevs (m : Nat) : MttU x (resetDevs m : M D Unit) := by
  refine mttU_get fun s => ?_
  show outMtt x _ ((match m with | _ => _ : M D Unit) (withMtt x s))
  split
  · exact mttUU (mtt_lift _) (fun devs => mtt_setDevs devs) s
  · refine mttUU (mtt_lift _) (fun o => ?_) s
    cases o with
    | none => exact mtt_raise _ _
    | some devs => exact mtt_setDevs devs
  · exact mttUU (mtt_lift _) (fun devs => mtt_setDevs devs) s
  · exact mttUU (mtt_lift _) (fun devs => mtt_setDevs devs) s
  · exact mttUU (mtt_lift _) (fun devs => mtt_setDevs devs) s
  · exact mtt_pure _ s

theorem mtt_runInstr (hq : ReadsQuiet D) (i : Parts) (hs : 0x1D ∉ i.sources) (hsrm : i.op = 0x18 → i.p2.toNat ≠ 0x1D) :
    MttE pf x (runInstr pf ⟨i.op.setWidth 8, i.r0, i.r1, i.r2, i.p0, i.p1, i.p2⟩ : M D Unit) := by
  obtain ⟨op, r0, r1, r2, p0, p1, p2⟩ := i
  dsimp only at hsrm ⊢
  have hn : (op.setWidth 8).toNat = op.toNat := by
    rw [BitVec.toNat_setWidth]
    exact Nat.mod_eq_of_lt (by have := op.isLt; omega)
  have hlt := op.isLt
  have h18 : op.toNat = 0x18 → p2.toNat ≠ 0x1D := fun e => hsrm (BitVec.eq_of_toNat_eq e)
  unfold Parts.sources at hs
  dsimp only at hs
  generalize hf : (⟨op.setWidth 8, r0, r1, r2, p0, p1, p2⟩ : Fields) = f
  have e0 : f.r0 = r0 := by rw [← hf]
  have e1 : f.r1 = r1 := by rw [← hf]
  have e2 : f.r2 = r2 := by rw [← hf]
  have q0 : f.p0 = p0 := by rw [← hf]
  have q1 : f.p1 = p1 := by rw [← hf]
  have q2 : f.p2 = p2 := by rw [← hf]
  have eo : f.opcode.toNat = op.toNat := by rw [← hf]; exact hn
  rw [← eo] at hs hlt h18
  rw [← e0, ← e1, ← e2, ← q0, ← q1, ← q2] at hs
  rw [← q2] at h18
  clear hf hn eo e0 e1 e2 q0 q1 q2 hsrm
  have W : ∀ c w, MttE pf x (writeReg c w : M D Unit) := fun c w => (mtt_writeReg c w).e
  have alu : 0x1D ∉ ifReg f.r1 f.p1 ++ [f.p0.toNat] → MttE pf x (execAlu f : M D Unit) := fun h => by
    simp only [List.mem_append, List.mem_singleton, not_or] at h
    exact mttIE (mttI_rol2 _ _ _ h.1) fun _ => mttIE (mttI_readReg _ (Ne.symm h.2)) fun _ =>
      mttIE (mttI_compute _ _ _) fun _ => W _ _
  have div : ∀ mk, 0x1D ∉ ifReg f.r1 f.p1 ++ ifReg f.r2 f.p2 ++ [f.p0.toNat] → MttE pf x (execDiv mk f : M D Unit) :=
    fun mk h => by
    simp only [List.mem_append, List.mem_singleton, not_or] at h
    exact mttIE (mttI_rol1 _ _ h.1.1) fun _ => mttIE (mttI_rol1 _ _ h.1.2) fun _ =>
      mttIE (mttI_readReg _ (Ne.symm h.2)) fun _ => mttIE (mttI_compute _ _ _) fun _ => W _ _
  have cond : ∀ b, 0x1D ∉ ifReg f.r0 f.p0 → MttE pf x (execIf b f : M D Unit) := fun b h => by
    refine mttIE (mttI_rol1 _ _ h) fun v => mttE_ite (mtt_raise _ _).e (mttE_get fun s _ => ?_)
    exact mttU_ite mtt_skip (mtt_pure _) s
  unfold runInstr
  split <;> rename_i ho <;> first | rw [ho] at hs h18 | skip
  all_goals first
    | exact alu hs
    | exact div _ hs
    | exact cond _ hs
    | skip
  · exact (mtt_raise _ _).e
  · exact mttIE (mttI_rol2 _ _ _ hs) fun _ => W _ _
  · simp only [List.mem_cons, List.not_mem_nil, or_false, not_or] at hs
    exact mttIE (mttI_readReg _ (Ne.symm hs.1)) fun _ => mttIE (mttI_readReg _ (Ne.symm hs.2)) fun _ =>
      mttEU (W _ _) fun _ => mtt_writeReg _ _
  · simp only [List.mem_append, List.mem_singleton, not_or] at hs
    exact mttIE (mttI_rol2 _ _ _ hs.1) fun _ => mttIE (mttI_readReg _ (Ne.symm hs.2)) fun _ =>
      mttIE (mttI_compute _ _ _) fun _ => (mtt_pure _).e
  · -- JPR
    exact mttIE (mttI_rol2 _ _ _ hs) fun v => (mtt_modify _ fun _ => by rfl).e
  · -- LSM
    refine mttIE (mttI_gets _ fun _ => rfl) fun sv => mttE_ite ?_ (mtt_raise _ _).e
    exact mttIE (mttI_rol2 _ _ _ hs) fun v => mttEU (mtt_modRegs _ fun _ => by rfl).e fun _ => mtt_modRegs _ fun _ => rfl
  · -- ITR
    exact mttIE (mttI_rol1 _ _ hs) fun v => (mtt_modify _ fun _ => by rfl).e
  · -- IF2
    simp only [List.mem_append, not_or] at hs
    refine mttIE (mttI_rol1 _ _ hs.1.1) fun a => mttIE (mttI_rol1 _ _ hs.1.2) fun b =>
      mttIE (mttI_rol1 _ _ hs.2) fun c => mttE_get fun s _ => ?_
    show outMtt x ((liftRes (flagTest pf s.regs.af a) >>= fun x => _) s)
      ((liftRes (flagTest pf s.regs.af a) >>= fun x => _) (withMtt x s))
    refine mttUU (mtt_lift _) (fun x => mttUU (mtt_lift _) fun y => ?_) s
    cases if2Cond c x y with
    | none => exact mtt_raise _ _
    | some r => exact mttU_ite mtt_skip (mtt_pure _)
  · simp only [List.mem_append, not_or] at hs
    exact mttIE (mttI_rol1 _ _ hs.1) fun _ => mttIE (mttI_rol1 _ _ hs.2) fun _ =>
      mttIE (mttI_cpuRead hq _) fun _ => W _ _
  · simp only [List.mem_append, not_or] at hs
    exact mttIE (mttI_rol1 _ _ hs.1.1) fun _ => mttIE (mttI_rol1 _ _ hs.1.2) fun _ =>
      mttIE (mttI_rol1 _ _ hs.2) fun _ => mttIE (mttI_cpuRead hq _) fun _ => (mtt_modRegs _ fun _ => by rfl).e
  · simp only [List.mem_append, not_or] at hs
    exact mttIE (mttI_rol1 _ _ hs.1.1) fun _ => mttIE (mttI_rol1 _ _ hs.1.2) fun _ =>
      mttIE (mttI_rol1 _ _ hs.2) fun _ => mttE_cpuWrite _ _
  · simp only [List.mem_append, not_or] at hs
    exact mttIE (mttI_rol1 _ _ hs.1.1) fun _ => mttIE (mttI_rol1 _ _ hs.1.2) fun _ =>
      mttIE (mttI_rol1 _ _ hs.2) fun _ => mttIE (mttI_gets _ fun _ => rfl) fun _ => mttE_cpuWrite _ _
  · simp only [List.mem_append, not_or] at hs
    exact mttIE (mttI_rol1 _ _ hs.1) fun _ => mttIE (mttI_rol1 _ _ hs.2) fun _ =>
      mttIE (mttI_lift _) fun _ => mttIE (mttI_cpuRead hq _) fun _ =>
      mttIE (mttI_readReg _ (h18 rfl)) fun _ => mttIE (mttI_lift _) fun _ =>
      mttEU (mttE_cpuWrite _ _) fun _ => mtt_writeReg _ _
  · exact mttIE (mttI_rol2 _ _ _ hs) fun _ => mttIE (mttI_gets _ fun _ => rfl) fun _ =>
      mttEU (mttE_cpuWrite _ _) fun _ => mtt_setSp _
  · -- POP
    refine mttIE (mttI_gets _ fun _ => rfl) fun sv => mttIE (mttI_ite ?_ ?_) fun _ => W _ _
    · exact mttII (mttI_gets _ fun _ => rfl) fun _ => mttII (mttI_cpuRead hq _) fun _ =>
        mttII (mttI_modRegs _ fun _ => ⟨rfl, rfl⟩) fun _ => mttI_pure _
    · exact mttII (mttI_gets _ fun _ => rfl) fun _ => mttII (mttI_cpuRead hq _) fun _ =>
        mttII (mttI_modRegs _ fun _ => ⟨rfl, rfl⟩) fun _ => mttI_pure _
  · -- CALL
    exact mttIE (mttI_rol2 _ _ _ hs) fun _ => mttIE (mttI_gets _ fun _ => rfl) fun _ => mttIE (mttI_gets _ fun _ => rfl) fun _ =>
      mttIE (mttI_lift _) fun _ => mttEU (mttE_cpuWrite _ _) fun _ => mttUU (mtt_setSp _) fun _ => mtt_modify _ fun _ => rfl
  · simp only [List.mem_append, not_or] at hs
    refine mttIE (mttI_rol1 _ _ hs.1) fun _ => mttIE (mttI_rol1 _ _ hs.2) fun _ => mttE_ite ?_ ?_
    · exact mttIE (mttI_gets _ fun _ => rfl) fun _ => W _ _
    · exact mttIE (mttI_hwInfo _ _) fun _ => W _ _
  · exact mttIE (mttI_gets _ fun _ => rfl) fun _ => W _ _
  · exact (mtt_modify _ fun _ => by rfl).e
  · -- RESET
    refine mttIE (mttI_rol1 _ _ hs) fun v => (mttUU (mtt_resetDevs _) fun _ => mttU_ite ?_ (mtt_pure _)).e
    exact mtt_same _ fun _ => rfl
  · exfalso; simp only [imp_false] at *; omega

end Lrvm
