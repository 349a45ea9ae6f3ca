import Verif.Spec.Renaming
import Verif.Lemmas.Position

/-!
# Two runs of an instruction, with the registers renamed
-/

namespace Lrvm

open Spec

variable {D : Type} [Bus D] {pf : Profile} {δ : Word} {σ : Nat → Nat}

/-- Renamed registers. -/
structure RenR (σ : Nat → Nat) (δ : Word) (r r' : Regs) : Prop where
  regs : ∀ n, n < 32 → n ≠ 0x16 → reg r' (σ n) = reg r n
  pc : r'.pc = r.pc + δ

theorem RenR.fixed (hσ : Renaming σ) {r r' : Regs} (h : RenR σ δ r r') (n : Nat) (h21 : 21 ≤ n) (h32 : n < 32)
    (h16 : n ≠ 0x16) : reg r' n = reg r n := by
  have := h.regs n h32 h16
  rwa [hσ.others n h21] at this

theorem Spec.Renaming.lt (hσ : Renaming σ) {n : Nat} (h : n < 32) : σ n < 32 := by
  by_cases h21 : n < 21
  · have := hσ.general n h21; omega
  · rw [hσ.others n (by omega)]; exact h

theorem Spec.Renaming.inj (hσ : Renaming σ) {m n : Nat} (h : σ m = σ n) : m = n := by
  by_cases hm : m < 21 <;> by_cases hn : n < 21
  · exact hσ.apart m n hm hn h
  · have := hσ.general m hm; rw [h, hσ.others n (by omega)] at this; omega
  · have := hσ.general n hn; rw [← h, hσ.others m (by omega)] at this; omega
  · rwa [hσ.others m (by omega), hσ.others n (by omega)] at h

theorem Spec.Renaming.byte (hσ : Renaming σ) (p : U8) : (renamedByte σ true p).toNat = σ p.toNat := by
  have hp := p.isLt
  show (BitVec.ofNat 8 (σ p.toNat)).toNat = _
  rw [BitVec.toNat_ofNat]
  refine Nat.mod_eq_of_lt ?_
  by_cases h : p.toNat < 21
  · have := hσ.general _ h; omega
  · rw [hσ.others _ (by omega)]; exact hp

/-- Assigning a register that is not `pc`. -/
theorem RenR.set (hσ : Renaming σ) {r r' : Regs} (h : RenR σ δ r r') {n : Nat} (hn : n < 32) (h16 : n ≠ 0x16) (w : Word) :
    RenR σ δ (setReg r n w) (setReg r' (σ n) w) := by
  have h16' : σ n ≠ 0x16 := fun e => h16 (hσ.inj (e.trans (hσ.others 0x16 (by decide)).symm))
  refine ⟨fun k hk hk16 => ?_, ?_⟩
  · by_cases e : n = k
    · subst e
      rw [reg_setReg_same _ _ _ (hσ.lt hn), reg_setReg_same _ _ _ hn]
    · rw [reg_setReg_ne _ _ _ _ (hσ.lt hn) (hσ.lt hk) (fun e' => e (hσ.inj e')), reg_setReg_ne _ _ _ _ hn hk e]
      exact h.regs k hk hk16
  · have e1 := reg_setReg_ne r n 0x16 w hn (by decide) h16
    have e2 := reg_setReg_ne r' (σ n) 0x16 w (hσ.lt hn) (by decide) h16'
    change (setReg r n w).pc = r.pc at e1
    change (setReg r' (σ n) w).pc = r'.pc at e2
    rw [e1, e2, h.pc]

theorem RenR.set_fixed (hσ : Renaming σ) {r r' : Regs} (h : RenR σ δ r r') {n : Nat} (h21 : 21 ≤ n) (hn : n < 32)
    (h16 : n ≠ 0x16) (w : Word) : RenR σ δ (setReg r n w) (setReg r' n w) := by
  have := h.set hσ hn h16 w
  rwa [hσ.others n h21] at this

/-- Assigning `pc`. -/
theorem RenR.setPc {r r' : Regs} (hσ : Renaming σ) (h : RenR σ δ r r') {ε w w' : Word} (hw : w' = w + ε) :
    RenR σ ε { r with pc := w } { r' with pc := w' } := by
  refine ⟨fun k hk hk16 => ?_, hw⟩
  have hk' : σ k ≠ 0x16 := fun e => hk16 (hσ.inj (e.trans (hσ.others 0x16 (by decide)).symm))
  have e1 := reg_setReg_ne r 0x16 k w (by decide) hk (Ne.symm hk16)
  have e2 := reg_setReg_ne r' 0x16 (σ k) w' (by decide) (hσ.lt hk) (Ne.symm hk')
  exact e2.trans ((h.regs k hk hk16).trans e1.symm)

theorem RenR.startup (hσ : Renaming σ) : RenR σ 0 startup startup := by
  have zero : ∀ n, n < 21 → reg Spec.startup n = 0 := by
    intro n hn
    have : ∀ n, n < 32 → n < 21 → reg Spec.startup n = 0 := by cases32 <;> first | rfl | (intro h; omega) | (intro; rfl)
    exact this n (by omega) hn
  refine ⟨fun n hn _ => ?_, rfl⟩
  by_cases h : n < 21
  · rw [zero _ (hσ.general n h), zero n h]
  · rw [hσ.others n (by omega)]

/-- Renamed machines. -/
def RenM (σ : Nat → Nat) (δ : Word) (s t : Machine D) : Prop := ∃ r', RenR σ δ s.regs r' ∧ t = { s with regs := r' }

theorem renamed_iff {s t : Machine D} : Renamed σ δ s t ↔ RenM σ δ s t := by
  constructor
  · rintro ⟨h1, h2, h3⟩; exact ⟨t.regs, ⟨h1, h2⟩, h3⟩
  · rintro ⟨r', ⟨h1, h2⟩, rfl⟩; exact ⟨h1, h2, rfl⟩

/-- The outcomes of two actions on renamed machines: renamed machines, at the same distance or at the same place. -/
def Ren2 (σ : Nat → Nat) (δ : Word) : Out (Machine D) α → Out (Machine D) α → Prop
  | .ok a u, .ok b v => a = b ∧ (RenM σ δ u v ∨ RenM σ 0 u v)
  | .ex u, .ex v => RenM σ 0 u v
  | .panic, .panic => True
  | _, _ => False

/-- The two actions have renamed effects, on machines that are `δ` apart or at the same place. -/
def Pair (σ : Nat → Nat) (δ : Word) (m m' : M D α) : Prop :=
  ∀ η, (η = δ ∨ η = 0) → ∀ s t, RenM σ η s t → Ren2 σ η (m s) (m' t)

theorem pair_bind {m m' : M D α} {k k' : α → M D β} (h1 : Pair σ δ m m') (h2 : ∀ a, Pair σ δ (k a) (k' a)) :
    Pair σ δ (m >>= k) (m' >>= k') := by
  intro η hη s t hst
  have := h1 η hη s t hst
  rw [M.bind_def, M.bind_def]
  cases e1 : m s <;> cases e2 : m' t <;> rw [e1, e2] at this <;> try exact this.elim
  · rename_i a u b v
    obtain ⟨rfl, huv | huv⟩ := this
    · exact h2 _ η hη _ _ huv
    · have := h2 a 0 (.inr rfl) _ _ huv
      show Ren2 σ η (k a u) (k' a v)
      revert this
      cases k a u <;> cases k' a v <;> intro this <;> try exact this.elim
      · exact ⟨this.1, .inr (this.2.elim id id)⟩
      · exact this
      · trivial
  · exact this
  · trivial

theorem pair_pure (a : α) : Pair σ δ (pure a : M D α) (pure a) := fun _ _ _ _ h => ⟨rfl, .inl h⟩

theorem pair_modify {f g : Machine D → Machine D} (h : ∀ η, (η = δ ∨ η = 0) → ∀ s t, RenM σ η s t →
    RenM σ η (f s) (g t) ∨ RenM σ 0 (f s) (g t)) : Pair σ δ (modifyM f) (modifyM g) :=
  fun η hη s t hst => ⟨rfl, h η hη s t hst⟩

theorem pair_gets {α : Type} {f g : Machine D → α} (h : ∀ η, (η = δ ∨ η = 0) → ∀ s t, RenM σ η s t → f s = g t) :
    Pair σ δ (getsM f) (getsM g) := fun η hη s t hst => ⟨h η hη s t hst, .inl hst⟩

theorem pair_lift (r : Res α) : Pair σ δ (liftRes r : M D α) (liftRes r) := by
  intro η _ s t h
  cases r with
  | none => trivial
  | some a => exact ⟨rfl, .inl h⟩

theorem pair_ite {c : Prop} [Decidable c] {m n m' n' : M D α} (h1 : Pair σ δ m m') (h2 : Pair σ δ n n') :
    Pair σ δ (if c then m else n) (if c then m' else n') := by split <;> assumption

theorem RenM.sv (hσ : Renaming σ) {s t : Machine D} (h : RenM σ δ s t) : t.svMode = s.svMode := by
  obtain ⟨r', hr, rfl⟩ := h
  have := hr.fixed hσ 0x1F (by decide) (by decide) (by decide)
  have : r'.smt = s.regs.smt := this
  show (r'.smt != 0) = (s.regs.smt != 0)
  rw [this]

theorem renM_exception (hσ : Renaming σ) {s t : Machine D} (h : RenM σ δ s t) (c : U8) (d : U16) :
    RenM σ 0 (s.exception c d) (t.exception c d) := by
  have hsv := h.sv hσ
  obtain ⟨r', hr, rfl⟩ := h
  refine ⟨_, ?_, rfl⟩
  have hev : r'.ev = s.regs.ev := hr.fixed hσ 0x1C (by decide) (by decide) (by decide)
  show RenR σ 0 _ { r' with
      et := (if Machine.svMode { s with regs := r' } then 1#32 <<< 24 else 0#32) + (c.setWidth 32 <<< 16) + d.setWidth 32
      pc := r'.ev
      smt := 1 }
  rw [hsv]
  have h1 := hr.set_fixed hσ (n := 0x1A) (by decide) (by decide) (by decide)
    ((if s.svMode then 1#32 <<< 24 else 0#32) + (c.setWidth 32 <<< 16) + d.setWidth 32)
  have h2 := h1.setPc hσ (ε := 0) (w := s.regs.ev) (w' := r'.ev) (by rw [hev]; simp)
  exact h2.set_fixed hσ (n := 0x1F) (by decide) (by decide) (by decide) 1

theorem pair_raise (hσ : Renaming σ) (c : U8) (d : U16) : Pair σ δ (raise c d : M D α) (raise c d) :=
  fun _ _ _ _ h => renM_exception hσ h c d

theorem pair_readReg (hσ : Renaming σ) (p : U8) (hp : p.toNat = 0x16 → δ = 0) :
    Pair σ δ (readReg p : M D Word) (readReg (renamedByte σ true p)) := by
  intro η hη s t h
  have hsv := h.sv hσ
  have hb := hσ.byte p
  unfold readReg
  rw [hsv, Regs.read_eq, Regs.read_eq, hb]
  by_cases h21 : 21 ≤ p.toNat
  · have hp' : renamedByte σ true p = p := BitVec.eq_of_toNat_eq (hb.trans (hσ.others _ h21))
    rw [hp', hσ.others _ h21]
    by_cases hc : 0x18#8 ≤ p ∧ s.svMode = false
    · rw [if_pos hc, if_pos hc]; exact renM_exception hσ h _ _
    · rw [if_neg hc, if_neg hc]
      by_cases h32 : p.toNat < 32
      · rw [if_pos h32, if_pos h32]
        refine ⟨?_, .inl h⟩
        obtain ⟨r', hr, rfl⟩ := h
        by_cases h16 : p.toNat = 0x16
        · rw [h16]
          show s.regs.pc = r'.pc
          rw [hr.pc]
          have : η = 0 := hη.elim (fun e => e.trans (hp h16)) id
          rw [this]; simp
        · exact (hr.fixed hσ _ h21 h32 h16).symm
      · rw [if_neg h32, if_neg h32]; exact renM_exception hσ h _ _
  · have hlt := hσ.general p.toNat (by omega)
    have n1 : ¬ (0x18#8 ≤ p ∧ s.svMode = false) := by
      rw [BitVec.le_def]; intro hc; have := hc.1; change 24 ≤ _ at this; omega
    have n2 : ¬ (0x18#8 ≤ renamedByte σ true p ∧ s.svMode = false) := by
      rw [BitVec.le_def, hb]; intro hc; have := hc.1; change 24 ≤ _ at this; omega
    rw [if_neg n1, if_neg n2, if_pos (by omega), if_pos (by omega)]
    refine ⟨?_, .inl h⟩
    obtain ⟨r', hr, rfl⟩ := h
    exact (hr.regs _ (by omega) (by omega)).symm

theorem pair_writeReg (hσ : Renaming σ) (p : U8) (w : Word) :
    Pair σ δ (writeReg p w : M D Unit) (writeReg (renamedByte σ true p) w) := by
  intro η hη s t h
  have hsv := h.sv hσ
  have hb := hσ.byte p
  unfold writeReg
  rw [hsv]
  by_cases h21 : 21 ≤ p.toNat
  · have hp' : renamedByte σ true p = p := BitVec.eq_of_toNat_eq (hb.trans (hσ.others _ h21))
    rw [hp']
    by_cases hc : 0x17#8 ≤ p ∧ s.svMode = false
    · rw [if_pos hc, if_pos hc]; exact renM_exception hσ h _ _
    rw [if_neg hc, if_neg hc]
    by_cases hc : p = 0x17#8 ∨ p = 0x1A#8 ∨ p = 0x1B#8
    · rw [if_pos hc, if_pos hc]; exact renM_exception hσ h _ _
    rw [if_neg hc, if_neg hc]
    dsimp only
    rw [Regs.write_eq, Regs.write_eq]
    by_cases h32 : p.toNat < 32
    · rw [if_pos h32, if_pos h32]
      obtain ⟨r', hr, rfl⟩ := h
      by_cases h16 : p = 0x16#8
      · subst h16
        exact ⟨rfl, .inr ⟨_, hr.setPc hσ (ε := 0) (w := w) (w' := w) (by simp), rfl⟩⟩
      · rw [if_neg h16, if_neg h16]
        have hne : p.toNat ≠ 0x16 := fun he => h16 (BitVec.eq_of_toNat_eq he)
        exact ⟨rfl, .inl ⟨_, hr.set_fixed hσ h21 h32 hne w, rfl⟩⟩
    · rw [if_neg h32, if_neg h32]
      have h16 : p ≠ 0x16#8 := fun he => h32 (by rw [he]; decide)
      rw [if_neg h16, if_neg h16]
      exact renM_exception hσ h _ _
  · have hlt := hσ.general p.toNat (by omega)
    have n1 : ¬ (0x17#8 ≤ p ∧ s.svMode = false) := by
      rw [BitVec.le_def]; intro hc; have := hc.1; change 23 ≤ _ at this; omega
    have n2 : ¬ (0x17#8 ≤ renamedByte σ true p ∧ s.svMode = false) := by
      rw [BitVec.le_def, hb]; intro hc; have := hc.1; change 23 ≤ _ at this; omega
    have ne : ∀ q : U8, q.toNat < 21 → ¬ (q = 0x17#8 ∨ q = 0x1A#8 ∨ q = 0x1B#8) := by
      rintro q hq (rfl | rfl | rfl) <;> exact absurd hq (by decide)
    have ne' : ∀ q : U8, q.toNat < 21 → q ≠ 0x16#8 := by rintro q hq rfl; exact absurd hq (by decide)
    rw [if_neg n1, if_neg n2, if_neg (ne _ (by omega)), if_neg (ne _ (by omega))]
    dsimp only
    rw [if_neg (ne' _ (by omega)), if_neg (ne' _ (by omega)), Regs.write_eq, Regs.write_eq, hb, if_pos (by omega),
      if_pos (by omega)]
    obtain ⟨r', hr, rfl⟩ := h
    exact ⟨rfl, .inl ⟨_, hr.set hσ (by omega) (by omega) w, rfl⟩⟩

theorem pair_acc (hσ : Renaming σ) {s t : Machine D} (h : RenM σ δ s t) (a : Acc D α) : Ren2 σ δ (a.toOut s) (a.toOut t) := by
  cases a with
  | done a devs =>
    obtain ⟨r', hr, rfl⟩ := h
    exact ⟨rfl, .inl ⟨r', hr, rfl⟩⟩
  | fault c d devs =>
    obtain ⟨r', hr, rfl⟩ := h
    exact renM_exception hσ (s := { s with devs := devs }) (t := { s with regs := r', devs := devs }) ⟨r', hr, rfl⟩ c d
  | panic => trivial

theorem pair_cpuRead (hσ : Renaming σ) (v : Word) : Pair σ δ (cpuRead pf v : M D Word) (cpuRead pf v) := by
  intro η _ s t h
  rw [cpuRead_eq, cpuRead_eq]
  have e : accRead pf t.regs t.mappings t.devs v = accRead pf s.regs s.mappings s.devs v := by
    obtain ⟨r', hr, rfl⟩ := h
    exact accRead_congr (hr.fixed hσ 0x1D (by decide) (by decide) (by decide))
      (hr.fixed hσ 0x1E (by decide) (by decide) (by decide)) (hr.fixed hσ 0x1F (by decide) (by decide) (by decide))
  rw [e]; exact pair_acc hσ h _

theorem pair_cpuWrite (hσ : Renaming σ) (v w : Word) : Pair σ δ (cpuWrite pf v w : M D Unit) (cpuWrite pf v w) := by
  intro η _ s t h
  rw [cpuWrite_eq, cpuWrite_eq]
  have e : accWrite pf t.regs t.mappings t.devs v w = accWrite pf s.regs s.mappings s.devs v w := by
    obtain ⟨r', hr, rfl⟩ := h
    exact accWrite_congr (hr.fixed hσ 0x1D (by decide) (by decide) (by decide))
      (hr.fixed hσ 0x1E (by decide) (by decide) (by decide)) (hr.fixed hσ 0x1F (by decide) (by decide) (by decide))
  rw [e]; exact pair_acc hσ h _

theorem pair_rol1 (hσ : Renaming σ) (b : Bool) (p : U8) (h : 0x16 ∈ ifReg b p → δ = 0) :
    Pair σ δ (regOrLit1 b p : M D Word) (regOrLit1 b (renamedByte σ b p)) := by
  cases b
  · exact pair_pure _
  · exact pair_readReg hσ p fun e => h (by simp [ifReg, e])

theorem pair_rol2 (hσ : Renaming σ) (b : Bool) (p q : U8) (h : 0x16 ∈ ifReg b p → δ = 0) :
    Pair σ δ (regOrLit2 b p q : M D Word) (regOrLit2 b (renamedByte σ b p) q) := by
  cases b
  · exact pair_pure _
  · exact pair_readReg hσ p fun e => h (by simp [ifReg, e])

theorem pair_modRegs {f g : Regs → Regs} (h : ∀ η, (η = δ ∨ η = 0) → ∀ r r', RenR σ η r r' → RenR σ η (f r) (g r') ∨ RenR σ 0 (f r) (g r')) :
    Pair σ δ (modRegs f : M D Unit) (modRegs g) :=
  pair_modify fun η hη s t hst => by
    obtain ⟨r', hr, rfl⟩ := hst
    exact (h η hη _ _ hr).imp (fun x => ⟨_, x, rfl⟩) (fun x => ⟨_, x, rfl⟩)

theorem pair_compute (hσ : Renaming σ) (a b : Word) (op : Op) : Pair σ δ (compute a b op : M D Word) (compute a b op) := by
  unfold compute
  split
  · exact pair_raise hσ _ _
  · refine pair_bind (pair_modRegs fun η _ r r' h => .inl ?_) fun _ => pair_pure _
    exact h.set_fixed hσ (n := 0x17) (by decide) (by decide) (by decide) _

theorem pair_hwInfo (hσ : Renaming σ) (info : Word) (id : Nat) :
    Pair σ δ (getHwInfo pf info id : M D Word) (getHwInfo pf info id) := by
  intro η hη s t h
  unfold getHwInfo
  obtain ⟨e1, e2⟩ : t.hwbCache = s.hwbCache ∧ t.getMapping id = s.getMapping id := by
    obtain ⟨r', hr, rfl⟩ := h; exact ⟨rfl, rfl⟩
  rw [e1, e2]
  generalize s.getMapping id = g
  cases s.hwbCache[id]? with
  | none => exact renM_exception hσ h _ _
  | some cache =>
    dsimp only
    generalize info.toNat = n
    split
    all_goals first
      | exact ⟨rfl, .inl h⟩
      | skip
    · cases g with
      | none => exact renM_exception hσ h _ _
      | some m => exact ⟨rfl, .inl h⟩
    · cases g with
      | none => exact renM_exception hσ h _ _
      | some m => exact pair_lift _ η hη s t h
    · split
      · exact ⟨rfl, .inl h⟩
      · exact renM_exception hσ h _ _

theorem pair_setSp (hσ : Renaming σ) (v : Word) : Pair σ δ (setSp v : M D Unit) (setSp v) := by
  refine pair_modify fun η _ s t h => ?_
  have hsv := h.sv hσ
  dsimp only
  rw [hsv]
  obtain ⟨r', hr, rfl⟩ := h
  cases s.svMode
  · exact .inl ⟨_, hr.set_fixed hσ (n := 0x19) (by decide) (by decide) (by decide) v, rfl⟩
  · exact .inl ⟨_, hr.set_fixed hσ (n := 0x18) (by decide) (by decide) (by decide) v, rfl⟩

theorem pair_sp (hσ : Renaming σ) : Pair σ δ (getsM (·.sp) : M D Word) (getsM (·.sp)) := by
  refine pair_gets fun η _ s t h => ?_
  have hsv := h.sv hσ
  unfold Machine.sp
  rw [hsv]
  obtain ⟨r', hr, rfl⟩ := h
  cases s.svMode
  · exact (hr.fixed hσ 0x19 (by decide) (by decide) (by decide)).symm
  · exact (hr.fixed hσ 0x18 (by decide) (by decide) (by decide)).symm

theorem pair_skip (hσ : Renaming σ) : Pair σ δ (skipNext : M D Unit) skipNext :=
  pair_modRegs fun η _ r r' h => .inl (h.setPc hσ (by rw [h.pc, add_right_comm_word]))

theorem pair_setDevs (devs : List D) : Pair σ δ (modifyM fun s => { s with devs := devs }) (modifyM fun s => { s with devs := devs }) :=
  pair_modify fun η _ s t h => by
    obtain ⟨r', hr, rfl⟩ := h
    exact .inl ⟨r', hr, rfl⟩

/-- `resetDevs`, given the components and `avr`. -/
def resetWith (m : Nat) (devs : List D) (avr : Word) : M D Unit :=
  match m with
  | 0x0 => do
    let devs ← liftRes (resetLoop (fun _ => true) 0 devs.length devs)
    modifyM (fun s => { s with devs := devs })
  | 0x1 => do
    match ← liftRes (bridgeReset devs avr.toNat) with
    | none => raise 0x10 (avr.setWidth 16)
    | some devs => modifyM (fun s => { s with devs := devs })
  | 0x2 | 0x3 | 0x4 => do
    let devs ← liftRes (resetLoop (resetTest m avr.toNat) 0 devs.length devs)
    modifyM (fun s => { s with devs := devs })
  | _ => pure ()

theorem resetDevs_with (m : Nat) (s : Machine D) : resetDevs m s = resetWith m s.devs s.regs.avr s := rfl

theorem pair_resetDevs (hσ : Renaming σ) (m : Nat) : Pair σ δ (resetDevs m : M D Unit) (resetDevs m) := by
  intro η hη s t h
  obtain ⟨e1, e2⟩ : t.devs = s.devs ∧ t.regs.avr = s.regs.avr := by
    obtain ⟨r', hr, rfl⟩ := h
    exact ⟨rfl, hr.fixed hσ 0x15 (by decide) (by decide) (by decide)⟩
  rw [resetDevs_with, resetDevs_with, e1, e2]
  refine (?_ : Pair σ δ (resetWith m s.devs s.regs.avr) (resetWith m s.devs s.regs.avr)) η hη s t h
  unfold resetWith
  split
  · exact pair_bind (pair_lift _) fun devs => pair_setDevs devs
  · refine pair_bind (pair_lift _) fun o => ?_
    cases o with
    | none => exact pair_raise hσ _ _
    | some devs => exact pair_setDevs devs
  · exact pair_bind (pair_lift _) fun devs => pair_setDevs devs
  · exact pair_bind (pair_lift _) fun devs => pair_setDevs devs
  · exact pair_bind (pair_lift _) fun devs => pair_setDevs devs
  · exact pair_pure _

/-- The fields of the renamed instruction. -/
def Spec.Parts.decoded (i : Parts) : Fields := ⟨i.op.setWidth 8, i.r0, i.r1, i.r2, i.p0, i.p1, i.p2⟩

theorem pair_runInstr (hσ : Renaming σ) (i : Parts)
    (hfree : δ = 0 ∨ i.op ≠ 0x1B ∧ 0x16 ∉ i.sources ∧ (i.op = 0x18 → i.p2.toNat ≠ 0x16)) :
    Pair σ δ (runInstr pf i.decoded : M D Unit) (runInstr pf (i.renamed σ).decoded) := by
  obtain ⟨op, r0, r1, r2, p0, p1, p2⟩ := i
  have hn : (op.setWidth 8).toNat = op.toNat := by
    rw [BitVec.toNat_setWidth]
    exact Nat.mod_eq_of_lt (by have := op.isLt; omega)
  have hlt := op.isLt
  have h1B : op.toNat = 0x1B → δ = 0 := fun e => hfree.elim id fun h => absurd (BitVec.eq_of_toNat_eq e) h.1
  have h18 : op.toNat = 0x18 → p2.toNat = 0x16 → δ = 0 := fun e e' =>
    hfree.elim id fun h => absurd e' (h.2.2 (BitVec.eq_of_toNat_eq e))
  have hs : 0x16 ∈ (⟨op, r0, r1, r2, p0, p1, p2⟩ : Parts).sources → δ = 0 := fun e => hfree.elim id fun h => absurd e h.2.1
  unfold Parts.sources at hs
  unfold Parts.decoded Parts.renamed Parts.isRegister
  dsimp only at hs ⊢
  clear hfree
  unfold runInstr
  dsimp only
  rw [hn]
  clear hn
  generalize op.setWidth 8 = oc
  generalize op.toNat = o at *
  have alu : (0x16 ∈ ifReg r1 p1 ++ [p0.toNat] → δ = 0) → Pair σ δ (execAlu ⟨oc, r0, r1, r2, p0, p1, p2⟩ : M D Unit)
      (execAlu ⟨oc, r0, r1, r2, renamedByte σ true p0, renamedByte σ r1 p1, p2⟩) := fun h =>
    pair_bind (pair_rol2 hσ _ _ _ fun e => h (by simp [e])) fun _ => pair_bind (pair_readReg hσ _ fun e => h (by simp [e])) fun _ =>
      pair_bind (pair_compute hσ _ _ _) fun _ => pair_writeReg hσ _ _
  have div : ∀ mk, (0x16 ∈ ifReg r1 p1 ++ ifReg r2 p2 ++ [p0.toNat] → δ = 0) →
      Pair σ δ (execDiv mk ⟨oc, r0, r1, r2, p0, p1, p2⟩ : M D Unit)
      (execDiv mk ⟨oc, r0, r1, r2, renamedByte σ true p0, renamedByte σ r1 p1, renamedByte σ r2 p2⟩) := fun mk h =>
    pair_bind (pair_rol1 hσ _ _ fun e => h (by simp [e])) fun _ => pair_bind (pair_rol1 hσ _ _ fun e => h (by simp [e])) fun _ =>
      pair_bind (pair_readReg hσ _ fun e => h (by simp [e])) fun _ => pair_bind (pair_compute hσ _ _ _) fun _ => pair_writeReg hσ _ _
  have cond : ∀ b, (0x16 ∈ ifReg r0 p0 → δ = 0) → Pair σ δ (execIf b ⟨oc, r0, r1, r2, p0, p1, p2⟩ : M D Unit)
      (execIf b ⟨oc, r0, r1, r2, renamedByte σ r0 p0, p1, p2⟩) := fun b h => by
    refine pair_bind (pair_rol1 hσ _ _ h) fun v => pair_ite (pair_raise hσ _ _) fun η hη s t hst => ?_
    have e : t.regs.af = s.regs.af := by
      obtain ⟨r', hr, rfl⟩ := hst
      exact hr.fixed hσ 0x17 (by decide) (by decide) (by decide)
    show Ren2 σ η ((if (s.regs.af &&& _ != 0) != b then skipNext else pure ()) s)
      ((if (t.regs.af &&& _ != 0) != b then skipNext else pure ()) t)
    rw [e]
    exact pair_ite (pair_skip hσ) (pair_pure _) η hη s t hst
  have pop : Pair σ δ (execPop pf ⟨oc, r0, r1, r2, p0, p1, p2⟩ : M D Unit)
      (execPop pf ⟨oc, r0, r1, r2, renamedByte σ true p0, p1, p2⟩) := by
    refine pair_bind (pair_gets fun η _ s t h => (h.sv hσ).symm) fun sv => pair_bind (pair_ite ?_ ?_) fun _ => pair_writeReg hσ _ _
    · refine pair_bind (pair_gets fun η _ s t h => ?_) fun _ => pair_bind (pair_cpuRead hσ _) fun _ =>
        pair_bind (pair_modRegs fun η _ r r' h => .inl ?_) fun _ => pair_pure _
      · obtain ⟨r', hr, rfl⟩ := h
        exact (hr.fixed hσ 0x18 (by decide) (by decide) (by decide)).symm
      · have e : r'.ssp = r.ssp := h.fixed hσ 0x18 (by decide) (by decide) (by decide)
        rw [e]
        exact h.set_fixed hσ (n := 0x18) (by decide) (by decide) (by decide) _
    · refine pair_bind (pair_gets fun η _ s t h => ?_) fun _ => pair_bind (pair_cpuRead hσ _) fun _ =>
        pair_bind (pair_modRegs fun η _ r r' h => .inl ?_) fun _ => pair_pure _
      · obtain ⟨r', hr, rfl⟩ := h
        exact (hr.fixed hσ 0x19 (by decide) (by decide) (by decide)).symm
      · have e : r'.usp = r.usp := h.fixed hσ 0x19 (by decide) (by decide) (by decide)
        rw [e]
        exact h.set_fixed hσ (n := 0x19) (by decide) (by decide) (by decide) _
  replace hlt : o < 32 := hlt
  revert hs h18 h1B
  revert hlt
  revert o
  cases32 <;> intro h1B h18 hs <;> try dsimp only at hs
  · exact pair_raise hσ _ _
  · exact pair_bind (pair_rol2 hσ _ _ _ hs) fun _ => pair_writeReg hσ _ _
  · exact pair_bind (pair_readReg hσ _ fun e => hs (by simp [e])) fun _ => pair_bind (pair_readReg hσ _ fun e => hs (by simp [e])) fun _ =>
      pair_bind (pair_writeReg hσ _ _) fun _ => pair_writeReg hσ _ _
  · exact alu hs
  · exact alu hs
  · exact alu hs
  · exact div _ hs
  · exact div _ hs
  · exact alu hs
  · exact alu hs
  · exact alu hs
  · exact alu hs
  · exact alu hs
  · exact pair_bind (pair_rol2 hσ _ _ _ fun e => hs (by simp [e])) fun _ =>
      pair_bind (pair_readReg hσ _ fun e => hs (by simp [e])) fun _ => pair_bind (pair_compute hσ _ _ _) fun _ => pair_pure _
  · -- JPR
    refine pair_bind (pair_rol2 hσ _ _ _ hs) fun v => pair_modify fun η _ s t h => .inl ?_
    obtain ⟨r', hr, rfl⟩ := h
    exact ⟨_, hr.setPc hσ (w' := r'.pc + _) (by rw [hr.pc, add_right_comm_word]), rfl⟩
  · -- LSM
    refine pair_bind (pair_gets fun η _ s t h => (h.sv hσ).symm) fun sv => pair_ite ?_ (pair_raise hσ _ _)
    refine pair_bind (pair_rol2 hσ _ _ _ hs) fun v => pair_bind (pair_modRegs fun η _ r r' h => .inr ?_) fun _ =>
      pair_modRegs fun η _ r r' h => .inl ?_
    · exact h.setPc hσ (by simp)
    · exact h.set_fixed hσ (n := 0x1F) (by decide) (by decide) (by decide) 0
  · -- ITR
    exact pair_bind (pair_rol1 hσ _ _ hs) fun v => pair_modify fun η _ s t h => .inr (renM_exception hσ h _ _)
  · exact cond _ hs
  · exact cond _ hs
  · -- IF2
    refine pair_bind (pair_rol1 hσ _ _ fun e => hs (by simp [e])) fun a => pair_bind (pair_rol1 hσ _ _ fun e => hs (by simp [e])) fun b =>
      pair_bind (pair_rol1 hσ _ _ fun e => hs (by simp [e])) fun c => fun η hη s t hst => ?_
    have e : t.regs.af = s.regs.af := by
      obtain ⟨r', hr, rfl⟩ := hst
      exact hr.fixed hσ 0x17 (by decide) (by decide) (by decide)
    show Ren2 σ η ((liftRes (flagTest pf s.regs.af a) >>= fun x => _) s) ((liftRes (flagTest pf t.regs.af a) >>= fun x => _) t)
    rw [e]
    refine pair_bind (pair_lift _) (fun x => ?_) η hη s t hst
    refine pair_bind (pair_lift _) fun y => ?_
    cases if2Cond c x y with
    | none => exact pair_raise hσ _ _
    | some r => exact pair_ite (pair_skip hσ) (pair_pure _)
  · exact pair_bind (pair_rol1 hσ _ _ fun e => hs (by simp [e])) fun _ => pair_bind (pair_rol1 hσ _ _ fun e => hs (by simp [e])) fun _ =>
      pair_bind (pair_cpuRead hσ _) fun _ => pair_writeReg hσ _ _
  · refine pair_bind (pair_rol1 hσ _ _ fun e => hs (by simp [e])) fun _ => pair_bind (pair_rol1 hσ _ _ fun e => hs (by simp [e])) fun _ =>
      pair_bind (pair_rol1 hσ _ _ fun e => hs (by simp [e])) fun _ => pair_bind (pair_cpuRead hσ _) fun w => ?_
    exact pair_modRegs fun η _ r r' h => .inl (h.set_fixed hσ (n := 0x15) (by decide) (by decide) (by decide) w)
  · exact pair_bind (pair_rol1 hσ _ _ fun e => hs (by simp [e])) fun _ => pair_bind (pair_rol1 hσ _ _ fun e => hs (by simp [e])) fun _ =>
      pair_bind (pair_rol1 hσ _ _ fun e => hs (by simp [e])) fun _ => pair_cpuWrite hσ _ _
  · refine pair_bind (pair_rol1 hσ _ _ fun e => hs (by simp [e])) fun _ => pair_bind (pair_rol1 hσ _ _ fun e => hs (by simp [e])) fun _ =>
      pair_bind (pair_rol1 hσ _ _ fun e => hs (by simp [e])) fun _ => pair_bind (pair_gets fun η _ s t h => ?_) fun _ => pair_cpuWrite hσ _ _
    obtain ⟨r', hr, rfl⟩ := h
    exact (hr.fixed hσ 0x15 (by decide) (by decide) (by decide)).symm
  · exact pair_bind (pair_rol1 hσ _ _ fun e => hs (by simp [e])) fun _ => pair_bind (pair_rol1 hσ _ _ fun e => hs (by simp [e])) fun _ =>
      pair_bind (pair_lift _) fun _ => pair_bind (pair_cpuRead hσ _) fun _ =>
      pair_bind (pair_readReg hσ _ (h18 rfl)) fun _ => pair_bind (pair_lift _) fun _ =>
      pair_bind (pair_cpuWrite hσ _ _) fun _ => pair_writeReg hσ _ _
  · exact pair_bind (pair_rol2 hσ _ _ _ hs) fun _ => pair_bind (pair_sp hσ) fun _ =>
      pair_bind (pair_cpuWrite hσ _ _) fun _ => pair_setSp hσ _
  · exact pop
  · -- CALL
    have h0 := h1B rfl
    refine pair_bind (pair_rol2 hσ _ _ _ fun _ => h0) fun v => pair_bind (pair_sp hσ) fun _ =>
      pair_bind (pair_gets fun η hη s t h => ?_) fun _ => pair_bind (pair_lift _) fun _ =>
      pair_bind (pair_cpuWrite hσ _ _) fun _ => pair_bind (pair_setSp hσ _) fun _ => pair_modify fun η _ s t h => .inr ?_
    · obtain ⟨r', hr, rfl⟩ := h
      have : η = 0 := hη.elim (fun e => e.trans h0) id
      show s.regs.pc = r'.pc
      rw [hr.pc, this]; simp
    · obtain ⟨r', hr, rfl⟩ := h
      exact ⟨_, hr.setPc hσ (w' := v) (by simp), rfl⟩
  · refine pair_bind (pair_rol1 hσ _ _ fun e => hs (by simp [e])) fun _ => pair_bind (pair_rol1 hσ _ _ fun e => hs (by simp [e])) fun _ =>
      pair_ite ?_ ?_
    · refine pair_bind (pair_gets fun η _ s t h => ?_) fun _ => pair_writeReg hσ _ _
      obtain ⟨r', hr, rfl⟩ := h; rfl
    · exact pair_bind (pair_hwInfo hσ _ _) fun _ => pair_writeReg hσ _ _
  · refine pair_bind (pair_gets fun η _ s t h => ?_) fun _ => pair_writeReg hσ _ _
    obtain ⟨r', hr, rfl⟩ := h; rfl
  · refine pair_modify fun η _ s t h => .inl ?_
    obtain ⟨r', hr, rfl⟩ := h
    exact ⟨_, hr, rfl⟩
  · -- RESET
    refine pair_bind (pair_rol1 hσ _ _ hs) fun v => pair_bind (pair_resetDevs hσ _) fun _ => pair_ite ?_ (pair_pure _)
    refine pair_modify fun η _ s t h => .inr ?_
    obtain ⟨r', hr, rfl⟩ := h
    exact ⟨_, RenR.startup hσ, rfl⟩

end Lrvm
