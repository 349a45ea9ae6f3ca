import Verif.Lemmas.Table
import Verif.Lemmas.Next
import Verif.Lemmas.Reset
import Verif.Spec.Memory
import Verif.Spec.Unused

/-!
# A machine with one more mapping, and the same machine without it

As long as an access does not reach the added mapping, the two do the same. `Tch` says of the components that it has been reached.
-/

namespace Lrvm

open Spec

variable {D : Type} [Bus D] {pf : Profile} {maps maps' : List Mapping} {Tch : List D → Prop}

/-- The machine with another mapping table. -/
def unplug (maps : List Mapping) (t : Machine D) : Machine D := { t with mappings := maps }

/-- What an access says of the access with the other table. -/
def accHot (Tch : List D → Prop) (ds : List D) : Acc D α → Acc D α → Prop
  | .panic, _ => True
  | .done a es, o => (Tch ds → Tch es) ∧ (Tch es ∨ o = .done a es)
  | .fault c d es, o => (Tch ds → Tch es) ∧ (Tch es ∨ o = .fault c d es)

/-- Accesses with the longer table either reach the added mapping or are those with the shorter one. -/
structure Tripwire (pf : Profile) (maps maps' : List Mapping) (Tch : List D → Prop) : Prop where
  read : ∀ (r : Regs) (ds : List D) (v : Word), accHot Tch ds (accRead pf r maps' ds v) (accRead pf r maps ds v)
  write : ∀ (r : Regs) (ds : List D) (v w : Word), accHot Tch ds (accWrite pf r maps' ds v w) (accWrite pf r maps ds v w)
  reset : ∀ {ds es : List D} {i : Nat}, bridgeReset ds i = some (some es) → Tch ds → Tch es

/-- What an action says of the same action on the machine without the mapping. -/
def outHot (maps maps' : List Mapping) (Tch : List D → Prop) (t : Machine D) : Out (Machine D) α → Out (Machine D) α → Prop
  | .panic, _ => True
  | .ok a t', o => t'.mappings = maps' ∧ (Tch t.devs → Tch t'.devs) ∧ (Tch t'.devs ∨ o = .ok a (unplug maps t'))
  | .ex t', o => t'.mappings = maps' ∧ (Tch t.devs → Tch t'.devs) ∧ (Tch t'.devs ∨ o = .ex (unplug maps t'))

/-- The action notices the added mapping only by reaching it. -/
def Hot (maps maps' : List Mapping) (Tch : List D → Prop) (m : M D α) : Prop :=
  ∀ t, t.mappings = maps' → outHot maps maps' Tch t (m t) (m (unplug maps t))

section
omit [Bus D]

theorem hot_bind {m : M D α} {k : α → M D β} (h1 : Hot maps maps' Tch m) (h2 : ∀ a, Hot maps maps' Tch (k a)) :
    Hot maps maps' Tch (m >>= k) := by
  intro t ht
  have := h1 t ht
  rw [M.bind_def, M.bind_def]
  cases e1 : m t with
  | panic => trivial
  | ex t1 =>
    rw [e1] at this
    obtain ⟨h3, h4, h5⟩ := this
    exact ⟨h3, h4, h5.imp id fun h => by rw [h]⟩
  | ok a t1 =>
    rw [e1] at this
    obtain ⟨h3, h4, h5⟩ := this
    have h6 := h2 a t1 h3
    dsimp only
    cases e2 : k a t1 with
    | panic => trivial
    | ex t2 =>
      rw [e2] at h6
      obtain ⟨h7, h8, h9⟩ := h6
      refine ⟨h7, fun h => h8 (h4 h), ?_⟩
      rcases h5 with h5 | h5
      · exact .inl (h8 h5)
      · rw [h5]; exact h9
    | ok b t2 =>
      rw [e2] at h6
      obtain ⟨h7, h8, h9⟩ := h6
      refine ⟨h7, fun h => h8 (h4 h), ?_⟩
      rcases h5 with h5 | h5
      · exact .inl (h8 h5)
      · rw [h5]; exact h9

theorem hot_pure (a : α) : Hot maps maps' Tch (pure a : M D α) := fun _ h => ⟨h, id, .inr rfl⟩

theorem hot_raise (c : U8) (d : U16) : Hot maps maps' Tch (raise c d : M D α) := fun _ h => ⟨h, id, .inr rfl⟩

theorem hot_gets (g : Machine D → α) (hg : ∀ s, g (unplug maps s) = g s) : Hot maps maps' Tch (getsM g) :=
  fun s h => ⟨h, id, .inr (by show Out.ok (g (unplug maps s)) _ = _; rw [hg])⟩

theorem hot_get {k : Machine D → M D β} (hk : ∀ t, t.mappings = maps' → outHot maps maps' Tch t (k t t) (k (unplug maps t) (unplug maps t))) :
    Hot maps maps' Tch (getM >>= k) := fun s h => hk s h

theorem hot_modify (g : Machine D → Machine D) (hg : ∀ s, g (unplug maps s) = unplug maps (g s) ∧
    (g s).mappings = s.mappings ∧ (g s).devs = s.devs) : Hot maps maps' Tch (modifyM g) := by
  intro s h
  obtain ⟨h1, h2, h3⟩ := hg s
  refine ⟨h2.trans h, fun h => ?_, .inr ?_⟩
  · rw [h3]; exact h
  · show Out.ok () (g (unplug maps s)) = _
    rw [h1]

theorem hot_modRegs (g : Regs → Regs) : Hot maps maps' Tch (modRegs g : M D Unit) :=
  hot_modify _ fun _ => by exact ⟨rfl, rfl, rfl⟩

theorem hot_lift (r : Res α) : Hot maps maps' Tch (liftRes r : M D α) := by
  intro s h
  cases r with
  | none => trivial
  | some a => exact ⟨h, id, .inr rfl⟩

theorem hot_ite {c : Prop} [Decidable c] {m n : M D α} (h1 : Hot maps maps' Tch m) (h2 : Hot maps maps' Tch n) :
    Hot maps maps' Tch (if c then m else n) := by split <;> assumption

theorem hot_readReg (code : U8) : Hot maps maps' Tch (readReg code : M D Word) := by
  intro s hs
  unfold readReg
  rw [show (unplug maps s).svMode = s.svMode from rfl]
  by_cases h : 0x18#8 ≤ code ∧ s.svMode = false
  · rw [if_pos h, if_pos h]; exact hot_raise _ _ s hs
  · rw [if_neg h, if_neg h]
    rw [show (unplug maps s).regs = s.regs from rfl]
    cases s.regs.read code with
    | none => exact hot_raise _ _ s hs
    | some w => exact ⟨hs, id, .inr rfl⟩

theorem hot_writeReg (code : U8) (w : Word) : Hot maps maps' Tch (writeReg code w : M D Unit) := by
  intro s hs
  unfold writeReg
  rw [show (unplug maps s).svMode = s.svMode from rfl]
  by_cases h : 0x17#8 ≤ code ∧ s.svMode = false
  · rw [if_pos h, if_pos h]; exact hot_raise _ _ s hs
  rw [if_neg h, if_neg h]
  by_cases h : code = 0x17#8 ∨ code = 0x1A#8 ∨ code = 0x1B#8
  · rw [if_pos h, if_pos h]; exact hot_raise _ _ s hs
  rw [if_neg h, if_neg h]
  by_cases h16 : code = 0x16#8
  · subst h16
    exact ⟨hs, id, .inr rfl⟩
  · dsimp only
    rw [if_neg h16, if_neg h16, show (unplug maps s).regs = s.regs from rfl]
    cases s.regs.write code w with
    | none => exact hot_raise _ _ s hs
    | some r => exact ⟨hs, id, .inr rfl⟩

theorem hot_acc (t : Machine D) (ht : t.mappings = maps') {x y : Acc D α} (h : accHot Tch t.devs x y) :
    outHot maps maps' Tch t (x.toOut t) (y.toOut (unplug maps t)) := by
  cases x with
  | panic => trivial
  | done a es => exact ⟨ht, h.1, h.2.imp id fun h => by rw [h]; rfl⟩
  | fault c d es => exact ⟨ht, h.1, h.2.imp id fun h => by rw [h]; rfl⟩

theorem hot_rol1 (b : Bool) (p : U8) : Hot maps maps' Tch (regOrLit1 b p : M D Word) := by
  cases b
  · exact hot_pure _
  · exact hot_readReg p

theorem hot_rol2 (b : Bool) (p q : U8) : Hot maps maps' Tch (regOrLit2 b p q : M D Word) := by
  cases b
  · exact hot_pure _
  · exact hot_readReg p

theorem hot_compute (a b : Word) (op : Op) : Hot maps maps' Tch (compute a b op : M D Word) := by
  unfold compute
  split
  · exact hot_raise _ _
  · exact hot_bind (hot_modRegs _) fun _ => hot_pure _

theorem hot_setSp (v : Word) : Hot maps maps' Tch (setSp v : M D Unit) := by
  refine hot_modify _ fun s => ?_
  rw [show (unplug maps s).svMode = s.svMode from rfl]
  cases s.svMode <;> exact ⟨rfl, rfl, rfl⟩

theorem hot_skip : Hot maps maps' Tch (skipNext : M D Unit) := hot_modRegs _

end

theorem hot_cpuRead (hi : Tripwire pf maps maps' Tch) (v : Word) : Hot maps maps' Tch (cpuRead pf v : M D Word) := by
  intro s hs
  rw [cpuRead_eq, cpuRead_eq, hs]
  exact hot_acc s hs (hi.read _ _ _)

theorem hot_cpuExec (hi : Tripwire pf maps maps' Tch) (v : Word) : Hot maps maps' Tch (cpuExec pf v : M D Word) := by
  intro s hs
  rw [cpuExec_eq, cpuExec_eq, hs]
  exact hot_acc s hs (hi.read _ _ _)

theorem hot_cpuWrite (hi : Tripwire pf maps maps' Tch) (v w : Word) : Hot maps maps' Tch (cpuWrite pf v w : M D Unit) := by
  intro s hs
  rw [cpuWrite_eq, cpuWrite_eq, hs]
  exact hot_acc s hs (hi.write _ _ _ _)

theorem resetLoop_tch (hi : Tripwire pf maps maps' Tch) {test : Nat → Bool} {n : Nat} : ∀ {i : Nat} {ds es : List D},
    resetLoop test i n ds = some es → Tch ds → Tch es := by
  induction n with
  | zero => intro i ds es h hd; cases h; exact hd
  | succ n ih =>
    intro i ds es h hd
    unfold resetLoop at h
    split at h
    · split at h
      · next h1 => exact ih h (hi.reset h1 hd)
      · cases h
    · exact ih h hd

theorem hot_setDevs (t : Machine D) (ht : t.mappings = maps') {es : List D} (h : Tch t.devs → Tch es) :
    outHot maps maps' Tch t ((modifyM fun s => { s with devs := es } : M D Unit) t)
      ((modifyM fun s => { s with devs := es } : M D Unit) (unplug maps t)) := ⟨ht, h, .inr rfl⟩

theorem hot_resetDevs (hi : Tripwire pf maps maps' Tch) (m : Nat) : Hot maps maps' Tch (resetDevs m : M D Unit) := by
  refine hot_get fun s hs => ?_
  have loop : ∀ test : Nat → Bool, outHot maps maps' Tch s
      ((liftRes (resetLoop test 0 s.devs.length s.devs) >>= fun es => modifyM fun s => { s with devs := es } : M D Unit) s)
      ((liftRes (resetLoop test 0 s.devs.length s.devs) >>= fun es => modifyM fun s => { s with devs := es } : M D Unit) (unplug maps s)) := by
    intro test
    cases h : resetLoop test 0 s.devs.length s.devs with
    | none => trivial
    | some es => exact hot_setDevs s hs (resetLoop_tch hi h)
  show outHot maps maps' Tch s _ ((match m with | _ => _ : M D Unit) (unplug maps s))
  split
  · exact loop _
  · show outHot maps maps' Tch s
      ((liftRes (bridgeReset s.devs s.regs.avr.toNat) >>= fun o => _ : M D Unit) s)
      ((liftRes (bridgeReset s.devs s.regs.avr.toNat) >>= fun o => _ : M D Unit) (unplug maps s))
    cases h : bridgeReset s.devs s.regs.avr.toNat with
    | none => trivial
    | some o =>
      cases o with
      | none => exact hot_raise _ _ s hs
      | some es => exact hot_setDevs s hs (hi.reset h)
  · exact loop _
  · exact loop _
  · exact loop _
  · exact hot_pure _ s hs

/-- HWD sees the mapping table only when it asks where a component is. -/
theorem hot_hwInfo (i : Word) (id : Nat)
    (h : i.toNat ∈ placeInfos → maps.find? (fun m => m.auxId == id) = maps'.find? (fun m => m.auxId == id)) :
    Hot maps maps' Tch (getHwInfo pf i id : M D Word) := by
  intro s hs
  unfold getHwInfo
  rw [show (unplug maps s).hwbCache = s.hwbCache from rfl]
  have hp : i.toNat ∈ placeInfos → (unplug maps s).getMapping id = s.getMapping id := fun hm => by
    show maps.find? _ = s.mappings.find? _
    rw [hs]; exact h hm
  cases s.hwbCache[id]? with
  | none => exact hot_raise _ _ s hs
  | some cache =>
    dsimp only
    split
    all_goals first
      | exact ⟨hs, _root_.id, .inr rfl⟩
      | skip
    · next e => rw [hp (by rw [e]; decide)]; exact ⟨hs, _root_.id, .inr rfl⟩
    · next e =>
      rw [hp (by rw [e]; decide)]
      split
      · exact hot_raise _ _ s hs
      · exact ⟨hs, _root_.id, .inr rfl⟩
    · next e =>
      rw [hp (by rw [e]; decide)]
      split
      · exact hot_raise _ _ s hs
      · exact hot_lift _ s hs
    · split
      · exact ⟨hs, _root_.id, .inr rfl⟩
      · exact hot_raise _ _ s hs

/-- As `hot_bind`, for an action that only reads the machine. -/
theorem hot_operand {b : Bool} {p : U8} {k : Word → M D β} {t : Machine D} (ht : t.mappings = maps')
    (h2 : ∀ a, Val1 t.regs b p a → outHot maps maps' Tch t (k a t) (k a (unplug maps t))) :
    outHot maps maps' Tch t ((regOrLit1 b p >>= k) t) ((regOrLit1 b p >>= k) (unplug maps t)) := by
  have h1 := hot_rol1 (maps := maps) (Tch := Tch) b p t ht
  rw [M.bind_def, M.bind_def]
  cases e : (regOrLit1 b p : M D Word) t with
  | panic => trivial
  | ex t1 =>
    rw [e] at h1
    obtain ⟨h3, h4, h5⟩ := h1
    exact ⟨h3, h4, h5.imp id fun h => by rw [h]⟩
  | ok a t1 =>
    obtain ⟨rfl, hv⟩ := regOrLit1_inv e
    rw [regOrLit1_val (s := unplug maps t1) hv]
    exact h2 a hv

theorem hot_runInstr (hi : Tripwire pf maps maps' Tch) (f : Fields) {t : Machine D} (ht : t.mappings = maps')
    (hq : f.opcode.toNat = 0x1C → ∀ a v, Val1 t.regs f.r1 f.p1 a → Val1 t.regs f.r2 f.p2 v → v.toNat ∈ placeInfos →
      maps.find? (fun m => m.auxId == a.toNat) = maps'.find? (fun m => m.auxId == a.toNat)) :
    outHot maps maps' Tch t (runInstr pf f t) (runInstr pf f (unplug maps t)) := by
  have alu : Hot maps maps' Tch (execAlu f : M D Unit) :=
    hot_bind (hot_rol2 _ _ _) fun _ => hot_bind (hot_readReg _) fun _ =>
      hot_bind (hot_compute _ _ _) fun _ => hot_writeReg _ _
  have div : ∀ mk, Hot maps maps' Tch (execDiv mk f : M D Unit) := fun mk =>
    hot_bind (hot_rol1 _ _) fun _ => hot_bind (hot_rol1 _ _) fun _ =>
      hot_bind (hot_readReg _) fun _ => hot_bind (hot_compute _ _ _) fun _ => hot_writeReg _ _
  have cond : ∀ b, Hot maps maps' Tch (execIf b f : M D Unit) := fun b => by
    refine hot_bind (hot_rol1 _ _) fun v => hot_ite (hot_raise _ _) (hot_get fun s hs => ?_)
    exact hot_ite hot_skip (hot_pure _) s hs
  have hwd : (∀ a v, Val1 t.regs f.r1 f.p1 a → Val1 t.regs f.r2 f.p2 v → v.toNat ∈ placeInfos →
      maps.find? (fun m => m.auxId == a.toNat) = maps'.find? (fun m => m.auxId == a.toNat)) →
      outHot maps maps' Tch t (execHwd pf f t) (execHwd pf f (unplug maps t)) := fun hq =>
    hot_operand ht fun a ha => hot_operand ht fun v hv => by
      split
      · exact (hot_bind (hot_gets _ fun _ => rfl) fun _ => hot_writeReg _ _) t ht
      · exact (hot_bind (hot_hwInfo v a.toNat (hq a v ha hv)) fun _ => hot_writeReg _ _) t ht
  unfold runInstr
  revert hq
  generalize f.opcode.toNat = n
  intro hq
  match n with
  | 0 => exact (hot_raise _ _) t ht
  | 1 => exact (hot_bind (hot_rol2 _ _ _) fun _ => hot_writeReg _ _) t ht
  | 2 => exact (hot_bind (hot_readReg _) fun _ => hot_bind (hot_readReg _) fun _ =>
      hot_bind (hot_writeReg _ _) fun _ => hot_writeReg _ _) t ht
  | 3 => exact alu t ht
  | 4 => exact alu t ht
  | 5 => exact alu t ht
  | 6 => exact div _ t ht
  | 7 => exact div _ t ht
  | 8 => exact alu t ht
  | 9 => exact alu t ht
  | 10 => exact alu t ht
  | 11 => exact alu t ht
  | 12 => exact alu t ht
  | 13 => exact (hot_bind (hot_rol2 _ _ _) fun _ => hot_bind (hot_readReg _) fun _ =>
      hot_bind (hot_compute _ _ _) fun _ => hot_pure _) t ht
  | 14 => exact (hot_bind (hot_rol2 _ _ _) fun v => hot_modify _ fun _ => by exact ⟨rfl, rfl, rfl⟩) t ht
  | 15 =>
    refine (hot_bind (hot_gets _ fun _ => rfl) fun sv => hot_ite ?_ (hot_raise _ _)) t ht
    exact hot_bind (hot_rol2 _ _ _) fun v => hot_bind (hot_modRegs _) fun _ => hot_modRegs _
  | 16 => exact (hot_bind (hot_rol1 _ _) fun v => hot_modify _ fun _ => by exact ⟨rfl, rfl, rfl⟩) t ht
  | 17 => exact cond _ t ht
  | 18 => exact cond _ t ht
  | 19 =>
    refine (hot_bind (hot_rol1 _ _) fun a => hot_bind (hot_rol1 _ _) fun b =>
      hot_bind (hot_rol1 _ _) fun c => hot_get fun s hs => ?_) t ht
    show outHot maps maps' Tch s ((liftRes (flagTest pf s.regs.af a) >>= fun x => _) s)
      ((liftRes (flagTest pf s.regs.af a) >>= fun x => _) (unplug maps s))
    refine hot_bind (hot_lift _) (fun x => hot_bind (hot_lift _) fun y => ?_) s hs
    cases if2Cond c x y with
    | none => exact hot_raise _ _
    | some r => exact hot_ite hot_skip (hot_pure _)
  | 20 => exact (hot_bind (hot_rol1 _ _) fun _ => hot_bind (hot_rol1 _ _) fun _ =>
      hot_bind (hot_cpuRead hi _) fun _ => hot_writeReg _ _) t ht
  | 21 => exact (hot_bind (hot_rol1 _ _) fun _ => hot_bind (hot_rol1 _ _) fun _ =>
      hot_bind (hot_rol1 _ _) fun _ => hot_bind (hot_cpuRead hi _) fun _ => hot_modRegs _) t ht
  | 22 => exact (hot_bind (hot_rol1 _ _) fun _ => hot_bind (hot_rol1 _ _) fun _ =>
      hot_bind (hot_rol1 _ _) fun _ => hot_cpuWrite hi _ _) t ht
  | 23 => exact (hot_bind (hot_rol1 _ _) fun _ => hot_bind (hot_rol1 _ _) fun _ =>
      hot_bind (hot_rol1 _ _) fun _ => hot_bind (hot_gets _ fun _ => rfl) fun _ => hot_cpuWrite hi _ _) t ht
  | 24 => exact (hot_bind (hot_rol1 _ _) fun _ => hot_bind (hot_rol1 _ _) fun _ =>
      hot_bind (hot_lift _) fun _ => hot_bind (hot_cpuRead hi _) fun _ =>
      hot_bind (hot_readReg _) fun _ => hot_bind (hot_lift _) fun _ =>
      hot_bind (hot_cpuWrite hi _ _) fun _ => hot_writeReg _ _) t ht
  | 25 => exact (hot_bind (hot_rol2 _ _ _) fun _ => hot_bind (hot_gets _ fun _ => rfl) fun _ =>
      hot_bind (hot_cpuWrite hi _ _) fun _ => hot_setSp _) t ht
  | 26 =>
    refine (hot_bind (hot_gets _ fun _ => rfl) fun sv => hot_bind (hot_ite ?_ ?_) fun _ => hot_writeReg _ _) t ht
    · exact hot_bind (hot_gets _ fun _ => rfl) fun _ => hot_bind (hot_cpuRead hi _) fun _ =>
        hot_bind (hot_modRegs _) fun _ => hot_pure _
    · exact hot_bind (hot_gets _ fun _ => rfl) fun _ => hot_bind (hot_cpuRead hi _) fun _ =>
        hot_bind (hot_modRegs _) fun _ => hot_pure _
  | 27 => exact (hot_bind (hot_rol2 _ _ _) fun _ => hot_bind (hot_gets _ fun _ => rfl) fun _ =>
      hot_bind (hot_gets _ fun _ => rfl) fun _ => hot_bind (hot_lift _) fun _ =>
      hot_bind (hot_cpuWrite hi _ _) fun _ => hot_bind (hot_setSp _) fun _ => hot_modify _ fun _ => by exact ⟨rfl, rfl, rfl⟩) t ht
  | 28 => exact hwd (hq rfl)
  | 29 => exact (hot_bind (hot_gets _ fun _ => rfl) fun _ => hot_writeReg _ _) t ht
  | 30 => exact (hot_modify _ fun _ => by exact ⟨rfl, rfl, rfl⟩) t ht
  | 31 =>
    refine (hot_bind (hot_rol1 _ _) fun v => hot_bind (hot_resetDevs hi _) fun _ => hot_ite ?_ (hot_pure _)) t ht
    exact hot_modify _ fun _ => by exact ⟨rfl, rfl, rfl⟩
  | _ + 32 => trivial

/-- One step. -/
theorem next_hot (hi : Tripwire pf maps maps' Tch) {aux : Nat} {t t' : Machine D} (ht : t.mappings = maps')
    (hm : ∀ j, j ≠ aux → maps.find? (fun m => m.auxId == j) = maps'.find? (fun m => m.auxId == j))
    (hw : ∀ w devs, Fetches pf t w devs → ¬ AsksPlace aux t.regs w) (h : next pf t = some t') :
    t'.mappings = maps' ∧ (Tch t.devs → Tch t'.devs) ∧ (Tch t'.devs ∨ next pf (unplug maps t) = some (unplug maps t')) := by
  unfold next at h ⊢
  by_cases hh : t.halted = true
  · rw [if_pos hh] at h
    cases h
    refine ⟨ht, id, .inr ?_⟩
    rw [if_pos (show (unplug maps t).halted = true from hh)]
  · rw [if_neg hh] at h
    rw [if_neg (show ¬ (unplug maps t).halted = true from hh)]
    have h1 := hot_cpuExec hi t.regs.pc { t with cycles := t.cycles + 1 } ht
    dsimp only at h ⊢
    change t'.mappings = maps' ∧ (Tch t.devs → Tch t'.devs) ∧ (Tch t'.devs ∨
      (match cpuExec pf t.regs.pc (unplug maps { t with cycles := t.cycles + 1 }) with
        | .panic => none | .ex s => some s | .ok w s => execWord pf w s) = some (unplug maps t'))
    cases e : cpuExec pf t.regs.pc { t with cycles := t.cycles + 1 } with
    | panic => rw [e] at h; cases h
    | ex t1 =>
      rw [e] at h h1
      cases h
      exact ⟨h1.1, h1.2.1, h1.2.2.imp id fun h => by rw [h]⟩
    | ok w t1 =>
      rw [e] at h h1
      obtain ⟨a1, a2, a3⟩ := h1
      have hop : ¬ AsksPlace aux t1.regs w := by
        have := hw w t1.devs ⟨by simpa using hh, by
          rw [e]
          rw [cpuExec_eq] at e
          obtain ⟨d, h3, h4⟩ := toOut_ok e
          rw [h4]⟩
        rw [cpuExec_eq] at e
        obtain ⟨d, h3, h4⟩ := toOut_ok e
        rw [h4]; exact this
      have h2 := hot_runInstr hi (fieldsOf w) (t := { t1 with changedPc := false }) a1 (by
        obtain ⟨op, r0, r1, r2, p0, p1, p2, rfl⟩ := exists_instrWord w
        rw [fieldsOf_instrWord]
        intro h28 a v ha hv hp
        refine hm _ fun hid => hop ⟨r0, r1, r2, p0, p1, p2, a, v, ?_, ha, hid, hv, hp⟩
        congr 1
        apply BitVec.eq_of_toNat_eq
        have h32 := op.isLt
        simp only [BitVec.toNat_setWidth] at h28
        show op.toNat = 28
        omega)
      change execWord pf w t1 = some t' at h
      unfold execWord at h
      have key : t'.mappings = maps' ∧ (Tch t1.devs → Tch t'.devs) ∧
          (Tch t'.devs ∨ execWord pf w (unplug maps t1) = some (unplug maps t')) := by
        unfold execWord
        change t'.mappings = maps' ∧ (Tch t1.devs → Tch t'.devs) ∧ (Tch t'.devs ∨
          (match runInstr pf (fieldsOf w) (unplug maps { t1 with changedPc := false }) with
          | .panic => none | .ex s => some s
          | .ok () s => if s.changedPc then some s else some { s with regs := { s.regs with pc := s.regs.pc + 4 } }) =
            some (unplug maps t'))
        cases e2 : runInstr pf (fieldsOf w) { t1 with changedPc := false } with
        | panic => rw [e2] at h; cases h
        | ex t2 =>
          rw [e2] at h h2
          cases h
          exact ⟨h2.1, h2.2.1, h2.2.2.imp id fun h => by rw [h]⟩
        | ok u t2 =>
          rw [e2] at h h2
          obtain ⟨b1, b2, b3⟩ := h2
          dsimp only at h
          split at h
          · next hc =>
            cases h
            exact ⟨b1, b2, b3.imp id fun h => by rw [h]; dsimp only; rw [if_pos (show (unplug maps t').changedPc = true from hc)]⟩
          · next hc =>
            cases h
            exact ⟨b1, b2, b3.imp id fun h => by
              rw [h]; dsimp only; rw [if_neg (show ¬ (unplug maps t2).changedPc = true from hc)]; rfl⟩
      obtain ⟨k1, k2, k3⟩ := key
      refine ⟨k1, fun h => k2 (a2 h), ?_⟩
      rcases a3 with a3 | a3
      · exact .inl (k2 a3)
      · rw [a3]; exact k3

end Lrvm
