import Verif.Props.Footprint

/-!
# Counting the requests components receive
-/

namespace Lrvm

open Spec

variable {D : Type} [Bus D] {pf : Profile}

/-- The number of read requests received by a list of components. -/
def Spec.readsOf (devs : List (Logged D)) : Nat :=
  (devs.map fun d => d.log.countP fun q => match q with | .read _ => true | _ => false).sum

/-- The number of write requests received by a list of components. -/
def Spec.writesOf (devs : List (Logged D)) : Nat :=
  (devs.map fun d => d.log.countP fun q => match q with | .write _ _ => true | _ => false).sum

theorem sum_set {α : Type} (f : α → Nat) : ∀ (l : List α) (i : Nat) (x y : α), l[i]? = some x →
    ((l.set i y).map f).sum + f x = (l.map f).sum + f y
  | [], i, x, y, h => by simp at h
  | a :: l, 0, x, y, h => by simp at h; subst h; simp; omega
  | a :: l, i + 1, x, y, h => by
    have := sum_set f l i x y (by simpa using h)
    rw [List.set_cons_succ, List.map_cons, List.map_cons, List.sum_cons, List.sum_cons]; omega

/-- From `devs` to `devs'`, at most `r` reads and `w` writes. -/
def Cost (r w : Nat) (devs devs' : List (Logged D)) : Prop :=
  readsOf devs' ≤ readsOf devs + r ∧ writesOf devs' ≤ writesOf devs + w

theorem Cost.refl (devs : List (Logged D)) : Cost 0 0 devs devs := ⟨Nat.le_refl _, Nat.le_refl _⟩

theorem Cost.trans {r w r' w' : Nat} {a b c : List (Logged D)} (h : Cost r w a b) (h' : Cost r' w' b c) :
    Cost (r + r') (w + w') a c := by
  obtain ⟨h1, h2⟩ := h; obtain ⟨h3, h4⟩ := h'
  exact ⟨by omega, by omega⟩

theorem Cost.mono {r w r' w' : Nat} {a b : List (Logged D)} (h : Cost r w a b) (hr : r ≤ r') (hw : w ≤ w') :
    Cost r' w' a b := ⟨by have := h.1; omega, by have := h.2; omega⟩

theorem devRead_cost {maps : List Mapping} {devs devs' : List (Logged D)} {a w : Word} {ex ex' : U16}
    (h : devRead pf maps devs a ex = some (w, ex', devs')) : Cost 1 0 devs devs' := by
  unfold devRead at h
  simp only [Option.bind_eq_bind, Option.bind_eq_some_iff] at h
  obtain ⟨_, _, o, ho, h⟩ := h
  cases o with
  | none => simp at h; rw [← h.2.2]; exact (Cost.refl _).mono (by omega) (by omega)
  | some m =>
    simp only [Option.bind_eq_some_iff] at h
    obtain ⟨off, hoff, r, hr, h⟩ := h
    cases r with
    | none => simp at h
    | some r =>
      simp at h; subst h
      unfold bridgeRead at hr
      simp only [Option.bind_eq_bind, Option.bind_eq_some_iff] at hr
      obtain ⟨⟨⟩, hal, hr⟩ := hr
      split at hr
      · cases hr
      · next d hdd =>
        simp only [Option.bind_eq_some_iff] at hr
        obtain ⟨⟨d', w', x'⟩, hbr, hr⟩ := hr
        injection hr with hr; injection hr with hr; injection hr with h1 hr; injection hr with h2 hr
        subst hr
        simp only [Bus.read, Option.map_eq_some_iff] at hbr
        obtain ⟨p, _, hp⟩ := hbr
        injection hp with h1 _; subst h1
        have e1 := sum_set (fun d : Logged D => d.log.countP fun q => match q with | .read _ => true | _ => false)
          devs m.auxId d ⟨p.1, d.log ++ [.read off]⟩ hdd
        have e2 := sum_set (fun d : Logged D => d.log.countP fun q => match q with | .write _ _ => true | _ => false)
          devs m.auxId d ⟨p.1, d.log ++ [.read off]⟩ hdd
        simp only [List.countP_append, List.countP_singleton] at e1 e2
        constructor
        · unfold readsOf; simp at e1 ⊢; omega
        · unfold writesOf; simp at e2 ⊢; omega

theorem devWrite_cost {maps : List Mapping} {devs devs' : List (Logged D)} {a w : Word} {ex ex' : U16}
    (h : devWrite pf maps devs a w ex = some (ex', devs')) : Cost 0 1 devs devs' := by
  unfold devWrite at h
  simp only [Option.bind_eq_bind, Option.bind_eq_some_iff] at h
  obtain ⟨_, _, o, ho, h⟩ := h
  cases o with
  | none => simp at h; rw [← h.2]; exact (Cost.refl _).mono (by omega) (by omega)
  | some m =>
    simp only [Option.bind_eq_some_iff] at h
    obtain ⟨off, hoff, r, hr, h⟩ := h
    cases r with
    | none => simp at h
    | some r =>
      simp at h; subst h
      unfold bridgeWrite at hr
      simp only [Option.bind_eq_bind, Option.bind_eq_some_iff] at hr
      obtain ⟨⟨⟩, hal, hr⟩ := hr
      split at hr
      · cases hr
      · next d hdd =>
        simp only [Option.bind_eq_some_iff] at hr
        obtain ⟨⟨d', x'⟩, hbr, hr⟩ := hr
        injection hr with hr; injection hr with hr; injection hr with h1 hr
        subst hr
        simp only [Bus.write, Option.map_eq_some_iff] at hbr
        obtain ⟨p, _, hp⟩ := hbr
        injection hp with h1 _; subst h1
        have e1 := sum_set (fun d : Logged D => d.log.countP fun q => match q with | .read _ => true | _ => false)
          devs m.auxId d ⟨p.1, d.log ++ [.write off w]⟩ hdd
        have e2 := sum_set (fun d : Logged D => d.log.countP fun q => match q with | .write _ _ => true | _ => false)
          devs m.auxId d ⟨p.1, d.log ++ [.write off w]⟩ hdd
        simp only [List.countP_append, List.countP_singleton] at e1 e2
        constructor
        · unfold readsOf; simp at e1 ⊢; omega
        · unfold writesOf; simp at e2 ⊢; omega

theorem bridgeReset_cost {devs devs' : List (Logged D)} {id : Nat}
    (h : bridgeReset devs id = some (some devs')) : Cost 0 0 devs devs' := by
  unfold bridgeReset at h
  split at h
  · cases h
  · next d hdd =>
    simp only [Option.bind_eq_bind, Option.bind_eq_some_iff] at h
    obtain ⟨d', hr, h⟩ := h
    injection h with h; injection h with h; subst h
    simp only [Bus.reset, Option.map_eq_some_iff] at hr
    obtain ⟨p, _, rfl⟩ := hr
    have e1 := sum_set (fun d : Logged D => d.log.countP fun q => match q with | .read _ => true | _ => false)
      devs id d ⟨p, d.log ++ [.reset]⟩ hdd
    have e2 := sum_set (fun d : Logged D => d.log.countP fun q => match q with | .write _ _ => true | _ => false)
      devs id d ⟨p, d.log ++ [.reset]⟩ hdd
    simp only [List.countP_append, List.countP_singleton] at e1 e2
    constructor
    · unfold readsOf; simp at e1 ⊢; omega
    · unfold writesOf; simp at e2 ⊢; omega

/-- Reads per translation. -/
def table (r : Regs) : Nat := if r.mtt = 0 then 0 else 1

theorem transl_cost {r : Regs} {maps : List Mapping} {devs devs' : List (Logged D)} {v : Word}
    {x : Except (Option U16) Word} (h : transl pf r maps devs v = some (x, devs')) : Cost (table r) 0 devs devs' := by
  unfold transl at h
  unfold table
  split at h
  · next h0 => simp at h; rw [← h.2, if_pos h0]; exact Cost.refl _
  · next h0 =>
    rw [if_neg h0]
    simp only [Option.bind_eq_bind, Option.bind_eq_some_iff] at h
    obtain ⟨a, _, ⟨e, ex, d1⟩, hr, h⟩ := h
    have := devRead_cost hr
    repeat' split at h
    all_goals (simp at h; rw [← h.2]; exact this)

/-- What an access leaves, in all cases. -/
def Acc.CostsAt (r w : Nat) (devs : List (Logged D)) : Acc (Logged D) α → Prop
  | .done _ devs' => Cost r w devs devs'
  | .fault _ _ devs' => Cost r w devs devs'
  | .panic => True

theorem accDo_cost {r : Regs} {maps : List Mapping} {devs : List (Logged D)} {v : Word} {a b : Nat}
    {handler : List (Logged D) → Word → Res (α × U16 × List (Logged D))}
    (hh : ∀ devs p x ex devs', handler devs p = some (x, ex, devs') → Cost a b devs devs') :
    (accDo pf r maps devs v handler).CostsAt (table r + a) b devs := by
  unfold accDo
  by_cases h4 : v % 4 ≠ 0
  · rw [if_pos h4]; exact (Cost.refl _).mono (by omega) (by omega)
  rw [if_neg h4]
  cases ht : transl pf r maps devs v with
  | none => trivial
  | some p =>
    obtain ⟨x, devs1⟩ := p
    have h1 := transl_cost ht
    cases x with
    | error o => cases o <;> exact h1.mono (by omega) (by omega)
    | ok p =>
      dsimp only
      cases hp : handler devs1 p with
      | none => trivial
      | some q =>
        obtain ⟨y, ex, devs2⟩ := q
        have h2 := (h1.trans (hh _ _ _ _ _ hp)).mono (Nat.le_refl _) (by omega : 0 + b ≤ b)
        by_cases hex : ex ≠ 0
        · simp only [if_pos hex]; exact h2
        · simp only [if_neg hex]; exact h2

theorem accRead_cost {r : Regs} {maps : List Mapping} {devs : List (Logged D)} {v : Word} :
    (accRead pf r maps devs v).CostsAt (table r + 1) 0 devs :=
  accDo_cost fun _ _ _ _ _ h => devRead_cost h

theorem accWrite_cost {r : Regs} {maps : List Mapping} {devs : List (Logged D)} {v w : Word} :
    (accWrite pf r maps devs v w).CostsAt (table r + 0) 1 devs :=
  accDo_cost fun _ _ x ex devs' h => by
    rw [Option.map_eq_some_iff] at h
    obtain ⟨⟨e, d⟩, h1, h2⟩ := h
    injection h2 with _ h2; injection h2 with _ h2; subst h2
    exact devWrite_cost h1

/-- What an outcome leaves. -/
def Leaves (r w : Nat) (devs : List (Logged D)) : Out (Machine (Logged D)) α → Prop
  | .ok _ s' => Cost r w devs s'.devs
  | .ex s' => Cost r w devs s'.devs
  | .panic => True

/-- What an action leaves, when the translation is on (`t = 1`) or off (`t = 0`) at its beginning. -/
def Costs (t r w : Nat) (m : M (Logged D) α) : Prop := ∀ s, table s.regs = t → Leaves r w s.devs (m s)

/-- An action that, when it completes, has not changed the translation register. -/
def KeepsTable (m : M (Logged D) α) : Prop := ∀ s a s', m s = .ok a s' → table s'.regs = table s.regs

theorem costs_bind {t r w r' w' : Nat} {m : M (Logged D) α} {k : α → M (Logged D) β} (hm : Costs t r w m)
    (hk : KeepsTable m) (h : ∀ a, Costs t r' w' (k a)) : Costs t (r + r') (w + w') (m >>= k) := by
  intro s ht
  have h1 := hm s ht
  show Leaves _ _ _ (M.bind m k s)
  unfold M.bind
  cases hms : m s with
  | panic => trivial
  | ex s' => rw [hms] at h1; exact h1.mono (by omega) (by omega)
  | ok a s' =>
    rw [hms] at h1
    have h2 := h a s' ((hk s a s' hms).trans ht)
    dsimp only
    cases hk' : k a s' with
    | panic => trivial
    | ex u => rw [hk'] at h2; exact h1.trans h2
    | ok b u => rw [hk'] at h2; exact h1.trans h2

/-- After which nothing is requested any more. -/
theorem costs_tail {t r w : Nat} {m : M (Logged D) α} {k : α → M (Logged D) β} (hm : Costs t r w m)
    (h : ∀ a t', Costs t' 0 0 (k a)) : Costs t r w (m >>= k) := by
  intro s ht
  have h1 := hm s ht
  show Leaves _ _ _ (M.bind m k s)
  unfold M.bind
  cases hms : m s with
  | panic => trivial
  | ex s' => rw [hms] at h1; exact h1
  | ok a s' =>
    rw [hms] at h1
    have h2 := h a _ s' rfl
    dsimp only
    cases hk' : k a s' with
    | panic => trivial
    | ex u => rw [hk'] at h2; exact h1.trans h2
    | ok b u => rw [hk'] at h2; exact h1.trans h2

/-- Before which nothing is requested. -/
theorem costs_head {t r w : Nat} {m : M (Logged D) α} {k : α → M (Logged D) β} (hm : ∀ t', Costs t' 0 0 m)
    (hk : KeepsTable m) (h : ∀ a, Costs t r w (k a)) : Costs t r w (m >>= k) := by
  have := costs_bind (hm t) hk h
  rwa [Nat.zero_add, Nat.zero_add] at this

theorem costs_pure {t : Nat} (a : α) : Costs t 0 0 (pure a : M (Logged D) α) := fun _ _ => Cost.refl _

theorem costs_getsM {t : Nat} (g : Machine (Logged D) → α) : Costs t 0 0 (getsM g) := fun _ _ => Cost.refl _

theorem costs_liftRes {t : Nat} (r : Res α) : Costs t 0 0 (liftRes r : M (Logged D) α) := by
  intro s _
  cases r with
  | none => trivial
  | some a => exact Cost.refl _

theorem costs_modRegs {t : Nat} (g : Regs → Regs) : Costs t 0 0 (modRegs g : M (Logged D) Unit) :=
  fun _ _ => Cost.refl _

theorem costs_readReg {t : Nat} (c : U8) : Costs t 0 0 (readReg c : M (Logged D) Word) := by
  intro s _
  unfold Lrvm.readReg
  split
  · exact Cost.refl s.devs
  · split <;> exact Cost.refl s.devs

theorem costs_regOrLit1 {t : Nat} (b : Bool) (p : U8) : Costs t 0 0 (regOrLit1 b p : M (Logged D) Word) := by
  unfold Lrvm.regOrLit1; split
  · exact costs_readReg p
  · exact costs_pure _

theorem costs_regOrLit2 {t : Nat} (b : Bool) (p q : U8) : Costs t 0 0 (regOrLit2 b p q : M (Logged D) Word) := by
  unfold Lrvm.regOrLit2; split
  · exact costs_readReg p
  · exact costs_pure _

theorem costs_writeReg {t : Nat} (c : U8) (w : Word) : Costs t 0 0 (writeReg c w : M (Logged D) Unit) := by
  intro s _
  unfold Lrvm.writeReg
  split
  · exact Cost.refl s.devs
  · split
    · exact Cost.refl s.devs
    · dsimp only
      by_cases hc : c = 0x16#8
      · simp only [if_pos hc]; split <;> exact Cost.refl s.devs
      · simp only [if_neg hc]; split <;> exact Cost.refl s.devs

theorem costs_setSp {t : Nat} (v : Word) : Costs t 0 0 (setSp v : M (Logged D) Unit) := by
  intro s _
  show Cost 0 0 s.devs (if s.svMode then _ else _ : Machine (Logged D)).devs
  split <;> exact Cost.refl _

theorem costs_of_acc {t r w : Nat} {m : M (Logged D) α} {acc : Machine (Logged D) → Acc (Logged D) α}
    (he : ∀ s, m s = (acc s).toOut s) (h : ∀ s, table s.regs = t → (acc s).CostsAt r w s.devs) : Costs t r w m := by
  intro s ht
  rw [he s]
  have := h s ht
  cases ha : acc s with
  | panic => trivial
  | done a devs => rw [ha] at this; exact this
  | fault c d devs => rw [ha] at this; exact this

theorem costs_cpuRead {t : Nat} (v : Word) : Costs t (t + 1) 0 (cpuRead pf v : M (Logged D) Word) :=
  costs_of_acc (cpuRead_eq pf v) fun s ht => by rw [← ht]; exact accRead_cost

theorem costs_cpuWrite {t : Nat} (v w : Word) : Costs t (t + 0) 1 (cpuWrite pf v w : M (Logged D) Unit) :=
  costs_of_acc (cpuWrite_eq pf v w) fun s ht => by rw [← ht]; exact accWrite_cost

theorem keeps_of_acc {m : M (Logged D) α} {acc : Machine (Logged D) → Acc (Logged D) α}
    (he : ∀ s, m s = (acc s).toOut s) : KeepsTable m := by
  intro s a s' h
  rw [he s] at h
  cases ha : acc s with
  | panic => rw [ha] at h; cases h
  | fault c d devs => rw [ha] at h; cases h
  | done a devs => rw [ha] at h; injection h with _ h; rw [← h]

theorem keeps_of_same {m : M (Logged D) α} (h : ∀ s a s', m s = .ok a s' → s' = s) : KeepsTable m :=
  fun s a s' e => by rw [h s a s' e]

theorem keeps_regOrLit1 (b : Bool) (p : U8) : KeepsTable (regOrLit1 b p : M (Logged D) Word) :=
  keeps_of_same fun _ _ _ e => regOrLit1_ok e

theorem keeps_regOrLit2 (b : Bool) (p q : U8) : KeepsTable (regOrLit2 b p q : M (Logged D) Word) :=
  keeps_of_same fun _ _ _ e => regOrLit2_ok e

theorem keeps_readReg (p : U8) : KeepsTable (readReg p : M (Logged D) Word) :=
  keeps_of_same fun _ _ _ e => (readReg_ok e).1

theorem keeps_getsM (g : Machine (Logged D) → α) : KeepsTable (getsM g) :=
  keeps_of_same fun _ _ _ e => by injection e with _ e; exact e.symm

theorem keeps_liftRes (r : Res α) : KeepsTable (liftRes r : M (Logged D) α) :=
  keeps_of_same fun _ _ _ e => by
    cases r with
    | none => cases e
    | some a => injection e with _ e; exact e.symm

/-- Reads and writes of memory documented for an instruction, besides its fetch. -/
def Spec.loadsOf (op : Nat) : Nat := if op ∈ [0x14, 0x15, 0x18, 0x1A] then 1 else 0
def Spec.storesOf (op : Nat) : Nat := if op ∈ [0x16, 0x17, 0x18, 0x19, 0x1B] then 1 else 0

theorem costs_runInstr_mem {t : Nat} {f : Fields} (hop : f.opcode.toNat ∈ memOps) :
    Costs t (loadsOf f.opcode.toNat + t * (loadsOf f.opcode.toNat + storesOf f.opcode.toNat))
      (storesOf f.opcode.toNat) (runInstr pf f : M (Logged D) Unit) := by
  simp only [memOps, List.mem_cons, List.not_mem_nil, or_false] at hop
  unfold runInstr
  rcases hop with h | h | h | h | h | h | h | h <;> rw [h] <;>
    simp only [loadsOf, storesOf, List.mem_cons, List.not_mem_nil, or_false, Nat.reduceEqDiff, or_true, true_or, or_self, if_true, if_false]
  · rw [show 1 + t * (1 + 0) = t + 1 by omega]
    refine costs_head (fun _ => costs_regOrLit1 _ _) (keeps_regOrLit1 _ _) fun a => ?_
    refine costs_head (fun _ => costs_regOrLit1 _ _) (keeps_regOrLit1 _ _) fun b => ?_
    exact costs_tail (costs_cpuRead _) fun w _ => costs_writeReg _ _
  · rw [show 1 + t * (1 + 0) = t + 1 by omega]
    refine costs_head (fun _ => costs_regOrLit1 _ _) (keeps_regOrLit1 _ _) fun a => ?_
    refine costs_head (fun _ => costs_regOrLit1 _ _) (keeps_regOrLit1 _ _) fun b => ?_
    refine costs_head (fun _ => costs_regOrLit1 _ _) (keeps_regOrLit1 _ _) fun c => ?_
    exact costs_tail (costs_cpuRead _) fun w _ => costs_modRegs _
  · rw [show 0 + t * (0 + 1) = t + 0 by omega]
    refine costs_head (fun _ => costs_regOrLit1 _ _) (keeps_regOrLit1 _ _) fun a => ?_
    refine costs_head (fun _ => costs_regOrLit1 _ _) (keeps_regOrLit1 _ _) fun b => ?_
    refine costs_head (fun _ => costs_regOrLit1 _ _) (keeps_regOrLit1 _ _) fun c => ?_
    exact costs_cpuWrite _ _
  · rw [show 0 + t * (0 + 1) = t + 0 by omega]
    refine costs_head (fun _ => costs_regOrLit1 _ _) (keeps_regOrLit1 _ _) fun a => ?_
    refine costs_head (fun _ => costs_regOrLit1 _ _) (keeps_regOrLit1 _ _) fun b => ?_
    refine costs_head (fun _ => costs_regOrLit1 _ _) (keeps_regOrLit1 _ _) fun c => ?_
    refine costs_head (fun _ => costs_getsM _) (keeps_getsM _) fun d => ?_
    exact costs_cpuWrite _ _
  · rw [show 1 + t * (1 + 1) = (t + 1) + (t + 0) by omega, show 1 = 0 + 1 from rfl]
    refine costs_head (fun _ => costs_regOrLit1 _ _) (keeps_regOrLit1 _ _) fun a => ?_
    refine costs_head (fun _ => costs_regOrLit1 _ _) (keeps_regOrLit1 _ _) fun b => ?_
    refine costs_head (fun _ => costs_liftRes _) (keeps_liftRes _) fun c => ?_
    refine costs_bind (costs_cpuRead _) (keeps_of_acc (cpuRead_eq pf _)) fun d => ?_
    refine costs_head (fun _ => costs_readReg _) (keeps_readReg _) fun e => ?_
    refine costs_head (fun _ => costs_liftRes _) (keeps_liftRes _) fun c => ?_
    exact costs_tail (costs_cpuWrite _ _) fun _ _ => costs_writeReg _ _
  · rw [show 0 + t * (0 + 1) = t + 0 by omega]
    refine costs_head (fun _ => costs_regOrLit2 _ _ _) (keeps_regOrLit2 _ _ _) fun a => ?_
    refine costs_head (fun _ => costs_getsM _) (keeps_getsM _) fun b => ?_
    exact costs_tail (costs_cpuWrite _ _) fun _ _ => costs_setSp _
  · rw [show 1 + t * (1 + 0) = t + 1 by omega]
    refine costs_head (fun _ => costs_getsM _) (keeps_getsM _) fun a => ?_
    refine costs_tail ?_ fun _ _ => costs_writeReg _ _
    split
    · refine costs_head (fun _ => costs_getsM _) (keeps_getsM _) fun b => ?_
      exact costs_tail (costs_cpuRead _) fun _ _ => costs_tail (costs_modRegs _) fun _ _ => costs_pure _
    · refine costs_head (fun _ => costs_getsM _) (keeps_getsM _) fun b => ?_
      exact costs_tail (costs_cpuRead _) fun _ _ => costs_tail (costs_modRegs _) fun _ _ => costs_pure _
  · rw [show 0 + t * (0 + 1) = t + 0 by omega]
    refine costs_head (fun _ => costs_regOrLit2 _ _ _) (keeps_regOrLit2 _ _ _) fun a => ?_
    refine costs_head (fun _ => costs_getsM _) (keeps_getsM _) fun b => ?_
    refine costs_head (fun _ => costs_getsM _) (keeps_getsM _) fun b => ?_
    refine costs_head (fun _ => costs_liftRes _) (keeps_liftRes _) fun c => ?_
    refine costs_tail (costs_cpuWrite _ _) fun _ _ => ?_
    exact costs_tail (costs_setSp _) fun _ _ => fun s _ => Cost.refl _

end Lrvm
