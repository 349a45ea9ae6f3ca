import Verif.Lemmas.Devices
import Verif.Lemmas.Reset
import Verif.Props.Memory
import Verif.Spec.Panic

/-!
# Absence of panics, instruction by instruction
-/

namespace Lrvm

open Spec

variable {D : Type} [Bus D] {pf : Profile}

/-- Everything the absence of panics relies on. -/
structure Good (pf : Profile) (P : Nat → D → Prop) (size : Nat → Nat) (s : Machine D) : Prop where
  contract : Contract P size
  placed : ∀ m ∈ s.mappings, m.addr.toNat % 4 = 0 ∧ m.size ≠ 0 ∧ m.auxId < s.devs.length ∧ m.size.toNat = size m.auxId
  devs : AllDev P s.devs
  fit : RangesFit pf s.mappings
  mmu : MmuSafe pf s.regs

theorem endAddr_total {m : Mapping} (hf : pf = .debug → m.addr.toNat + m.size.toNat < 2 ^ 32) (h0 : m.size ≠ 0) :
    ∃ e, m.endAddr pf = some e := by
  cases pf with
  | release => exact ⟨_, rfl⟩
  | debug =>
    have hf := hf rfl
    have : 0 < m.size.toNat := by
      rcases Nat.eq_zero_or_pos m.size.toNat with h | h
      · exact absurd (BitVec.eq_of_toNat_eq h) h0
      · exact h
    obtain ⟨e, he, _⟩ := endAddr_eq (pf := .debug) this (by show _ ≤ 2 ^ 32 - 1; omega)
    exact ⟨e, he⟩

theorem findMapping_total {maps : List Mapping} (hf : RangesFit pf maps) (h0 : ∀ m ∈ maps, m.size ≠ 0) (a : Word) :
    ∃ o, findMapping pf maps a = some o := by
  induction maps with
  | nil => exact ⟨_, rfl⟩
  | cons m ms ih =>
    unfold findMapping
    obtain ⟨o, ho⟩ := ih (fun h n hn => hf h n (by simp [hn])) (fun n hn => h0 n (by simp [hn]))
    split
    · obtain ⟨e, he⟩ := endAddr_total (fun h => hf h m (by simp)) (h0 m (by simp))
      simp only [he, Option.bind_eq_bind, Option.bind_some]
      split
      · exact ⟨_, rfl⟩
      · exact ⟨o, ho⟩
    · exact ⟨o, ho⟩

theorem sub_total {a b : Word} (h : b.toNat ≤ a.toNat) : pf.sub a b = some (a - b) := by
  cases pf with
  | release => rfl
  | debug => exact if_pos h

theorem sub_aligned {a b : Word} (h : b.toNat ≤ a.toNat) (ha : a.toNat % 4 = 0) (hb : b.toNat % 4 = 0) :
    (a - b).toNat % 4 = 0 := by rw [offset_nat h]; omega

section
variable {P : Nat → D → Prop} {size : Nat → Nat}

theorem devRead_total {maps : List Mapping} {devs : List D} {a : Word} {ex : U16} (hc : Contract P size)
    (hp : ∀ m ∈ maps, m.addr.toNat % 4 = 0 ∧ m.size ≠ 0 ∧ m.auxId < devs.length ∧ m.size.toNat = size m.auxId)
    (hd : AllDev P devs) (hf : RangesFit pf maps) (ha : a.toNat % 4 = 0) :
    ∃ w ex' devs', devRead pf maps devs a ex = some (w, ex', devs') ∧ AllDev P devs' ∧ devs'.length = devs.length := by
  obtain ⟨o, ho⟩ := findMapping_total hf (fun m hm => (hp m hm).2.1) a
  cases o with
  | none =>
    refine ⟨0, ex, devs, ?_, hd, rfl⟩
    unfold devRead
    rw [assert_aligned ha, ho]; rfl
  | some m =>
    obtain ⟨hm, h1, e, he, h2⟩ := findMapping_some ho
    obtain ⟨q1, q2, q3, q4⟩ := hp m hm
    have hcov := (covers_of_endAddr h1 he h2).resolve_right q2
    have hdd : devs[m.auxId]? = some devs[m.auxId] := List.getElem?_eq_getElem q3
    have hal := sub_aligned h1 ha q1
    obtain ⟨d', w, ex', hr, hP⟩ := hc.read _ _ (a - m.addr) ex (hd _ _ hdd) hal
      (by rw [offset_nat h1, ← q4]; have := hcov.2; omega)
    refine ⟨w, ex', devs.set m.auxId d', ?_, hd.set hP, List.length_set⟩
    unfold devRead bridgeRead
    simp only [assert_aligned ha, ho, sub_total h1, assert_aligned hal, hdd, hr, Option.bind_eq_bind, Option.bind_some]

theorem devWrite_total {maps : List Mapping} {devs : List D} {a w : Word} {ex : U16} (hc : Contract P size)
    (hp : ∀ m ∈ maps, m.addr.toNat % 4 = 0 ∧ m.size ≠ 0 ∧ m.auxId < devs.length ∧ m.size.toNat = size m.auxId)
    (hd : AllDev P devs) (hf : RangesFit pf maps) (ha : a.toNat % 4 = 0) :
    ∃ ex' devs', devWrite pf maps devs a w ex = some (ex', devs') ∧ AllDev P devs' ∧ devs'.length = devs.length := by
  obtain ⟨o, ho⟩ := findMapping_total hf (fun m hm => (hp m hm).2.1) a
  cases o with
  | none =>
    refine ⟨ex, devs, ?_, hd, rfl⟩
    unfold devWrite
    rw [assert_aligned ha, ho]; rfl
  | some m =>
    obtain ⟨hm, h1, e, he, h2⟩ := findMapping_some ho
    obtain ⟨q1, q2, q3, q4⟩ := hp m hm
    have hcov := (covers_of_endAddr h1 he h2).resolve_right q2
    have hdd : devs[m.auxId]? = some devs[m.auxId] := List.getElem?_eq_getElem q3
    have hal := sub_aligned h1 ha q1
    obtain ⟨d', ex', hr, hP⟩ := hc.write _ _ (a - m.addr) w ex (hd _ _ hdd) hal
      (by rw [offset_nat h1, ← q4]; have := hcov.2; omega)
    refine ⟨ex', devs.set m.auxId d', ?_, hd.set hP, List.length_set⟩
    unfold devWrite bridgeWrite
    simp only [assert_aligned ha, ho, sub_total h1, assert_aligned hal, hdd, hr, Option.bind_eq_bind, Option.bind_some]

theorem entryAddr_total {pda v : Word} (h4 : pda.toNat % 4 = 0)
    (hd : pf = .debug → pda.toNat + 4 * 1023 < 2 ^ 32) :
    ∃ a, entryAddr pf pda v = some a ∧ a.toNat % 4 = 0 := by
  by_cases h : pda.toNat + v.toNat % 1024 * 4 < 2 ^ 32
  · obtain ⟨a, ha, hn⟩ := entryAddr_eq (pf := pf) h
    exact ⟨a, ha, by rw [hn]; omega⟩
  · cases pf with
    | debug => have := hd rfl; omega
    | release =>
      refine ⟨_, rfl, ?_⟩
      rw [BitVec.toNat_add, BitVec.toNat_mul]
      show (pda.toNat + _ * 4 % 2 ^ 32) % 2 ^ 32 % 4 = 0
      omega

/-- Translation never panics on a good machine; when it grants an address, it is the same one. -/
theorem transl_total {maps : List Mapping} {devs : List D} {r : Regs} {v : Word} (hc : Contract P size)
    (hp : ∀ m ∈ maps, m.addr.toNat % 4 = 0 ∧ m.size ≠ 0 ∧ m.auxId < devs.length ∧ m.size.toNat = size m.auxId)
    (hd : AllDev P devs) (hf : RangesFit pf maps) (hm : MmuSafe pf r) :
    ∃ x devs', transl pf r maps devs v = some (x, devs') ∧ AllDev P devs' ∧ devs'.length = devs.length ∧
      ∀ p, x = .ok p → p = v := by
  unfold transl
  by_cases h : r.mtt = 0
  · rw [if_pos h]; exact ⟨_, _, rfl, hd, rfl, fun p hp => by injection hp with hp; exact hp.symm⟩
  · rw [if_neg h]
    obtain ⟨h4, hov⟩ := hm.resolve_left h
    obtain ⟨a, ha, hal⟩ := entryAddr_total (v := v) h4 hov
    obtain ⟨e, ex, devs', hr, hP, hl⟩ := devRead_total (ex := 0) hc hp hd hf hal
    simp only [ha, hr, Option.bind_eq_bind, Option.bind_some]
    split
    · exact ⟨_, _, rfl, hP, hl, fun p hp => by cases hp⟩
    · split
      · exact ⟨_, _, rfl, hP, hl, fun p hp => by injection hp with hp; exact hp.symm⟩
      · exact ⟨_, _, rfl, hP, hl, fun p hp => by cases hp⟩

theorem accDo_total {α : Type} {maps : List Mapping} {devs : List D} {r : Regs} {v : Word}
    {hd : List D → Word → Res (α × U16 × List D)} (hc : Contract P size)
    (hp : ∀ m ∈ maps, m.addr.toNat % 4 = 0 ∧ m.size ≠ 0 ∧ m.auxId < devs.length ∧ m.size.toNat = size m.auxId)
    (hD : AllDev P devs) (hf : RangesFit pf maps) (hm : MmuSafe pf r)
    (hh : ∀ devs1, AllDev P devs1 → devs1.length = devs.length → v.toNat % 4 = 0 →
      ∃ a ex devs', hd devs1 v = some (a, ex, devs') ∧ AllDev P devs' ∧ devs'.length = devs.length) :
    accDo pf r maps devs v hd ≠ .panic ∧
      ∀ a devs', accDo pf r maps devs v hd = .done a devs' → AllDev P devs' ∧ devs'.length = devs.length := by
  unfold accDo
  split
  · exact ⟨by simp, by intro a d h; cases h⟩
  · next h4 =>
    obtain ⟨x, devs1, ht, h1, h2, h3⟩ := transl_total (v := v) hc hp hD hf hm
    rw [ht]
    cases x with
    | ok p =>
      obtain rfl := h3 p rfl
      have hal : p.toNat % 4 = 0 := by
        apply Classical.byContradiction
        intro hne
        have e1 := assert_unaligned hne
        have : p % 4 = 0 := by simpa using h4
        rw [this] at e1; cases e1
      obtain ⟨a, ex, devs', e1, e2, e3⟩ := hh devs1 h1 h2 hal
      simp only [e1]
      split
      · exact ⟨by simp, by intro a d h; cases h⟩
      · exact ⟨by simp, by intro a d h; injection h with h h'; subst h'; exact ⟨e2, e3⟩⟩
    | error o =>
      cases o with
      | none => exact ⟨by simp, by intro a d h; cases h⟩
      | some e => exact ⟨by simp, by intro a d h; cases h⟩

/-- No panic, and a good state after a normal end. -/
def NP (pf : Profile) (P : Nat → D → Prop) (size : Nat → Nat) (m : M D α) : Prop :=
  ∀ s, Good pf P size s → m s ≠ .panic ∧ ∀ a s', m s = .ok a s' → Good pf P size s'

/-- No panic. -/
def NE (pf : Profile) (P : Nat → D → Prop) (size : Nat → Nat) (m : M D α) : Prop :=
  ∀ s, Good pf P size s → m s ≠ .panic

theorem NP.ne {m : M D α} (h : NP pf P size m) : NE pf P size m := fun s hs => (h s hs).1

theorem np_bind {m : M D α} {k : α → M D β} (hm : NP pf P size m) (hk : ∀ a, NP pf P size (k a)) :
    NP pf P size (m >>= k) := by
  intro s hs
  obtain ⟨h1, h2⟩ := hm s hs
  rw [M.bind_def]
  cases hr : m s with
  | panic => exact absurd hr h1
  | ex t => exact ⟨by simp, by intro a s' h; cases h⟩
  | ok a t => exact hk a t (h2 a t hr)

theorem ne_bind {m : M D α} {k : α → M D β} (hm : NP pf P size m) (hk : ∀ a, NE pf P size (k a)) :
    NE pf P size (m >>= k) := by
  intro s hs
  obtain ⟨h1, h2⟩ := hm s hs
  rw [M.bind_def]
  cases hr : m s with
  | panic => exact absurd hr h1
  | ex t => simp
  | ok a t => exact hk a t (h2 a t hr)

theorem np_pure (a : α) : NP pf P size (pure a : M D α) := by
  intro s hs; exact ⟨by simp, by intro b s' h; injection h with _ h; rw [← h]; exact hs⟩

theorem np_getsM (g : Machine D → α) : NP pf P size (getsM g) := by
  intro s hs; exact ⟨by simp, by intro b s' h; injection h with _ h; rw [← h]; exact hs⟩

theorem np_raise (c : U8) (d : U16) : NP pf P size (raise c d : M D α) := by
  intro s hs; exact ⟨by simp, by intro b s' h; cases h⟩

theorem np_readReg (c : U8) : NP pf P size (readReg c : M D Word) := by
  intro s hs
  rw [readReg_eq]
  split
  · exact ⟨by simp, by intro b s' h; injection h with _ h; rw [← h]; exact hs⟩
  · exact ⟨by simp, by intro b s' h; cases h⟩

theorem np_regOrLit1 (b : Bool) (p : U8) : NP pf P size (regOrLit1 b p : M D Word) := by
  unfold regOrLit1; split
  · exact np_readReg p
  · exact np_pure _

theorem np_regOrLit2 (b : Bool) (p q : U8) : NP pf P size (regOrLit2 b p q : M D Word) := by
  unfold regOrLit2; split
  · exact np_readReg p
  · exact np_pure _

theorem writeReg_no_panic (c : U8) (w : Word) (s : Machine D) : writeReg c w s ≠ .panic := by
  cases h : mayWrite (supervisor s.regs) c.toNat with
  | true => rw [writeReg_val w h]; simp
  | false => rw [writeReg_fault w h]; simp

theorem ne_writeReg (c : U8) (w : Word) : NE pf P size (writeReg c w : M D Unit) :=
  fun s _ => writeReg_no_panic c w s

theorem np_modRegs (g : Regs → Regs) (h1 : ∀ r, (g r).mtt = r.mtt) (h2 : ∀ r, (g r).pda = r.pda) :
    NP pf P size (modRegs g : M D Unit) := by
  intro s hs
  refine ⟨by simp, ?_⟩
  intro b s' h
  injection h with _ h
  rw [← h]
  exact ⟨hs.contract, hs.placed, hs.devs, hs.fit, by unfold MmuSafe; rw [h1, h2]; exact hs.mmu⟩

theorem ne_modifyM (g : Machine D → Machine D) : NE pf P size (modifyM g) := fun s _ => by simp

theorem np_setSp (v : Word) : NP pf P size (setSp v : M D Unit) := by
  intro s hs
  refine ⟨by simp [setSp], ?_⟩
  intro b s' h
  injection h with _ h
  rw [← h]
  dsimp only
  split <;> exact ⟨hs.contract, hs.placed, hs.devs, hs.fit, hs.mmu⟩

theorem Good.withDevs {s : Machine D} (h : Good pf P size s) {devs : List D} (hd : AllDev P devs)
    (hl : devs.length = s.devs.length) : Good pf P size { s with devs := devs } :=
  ⟨h.contract, fun m hm => by
    obtain ⟨a, b, c, d⟩ := h.placed m hm
    exact ⟨a, b, by show _ < devs.length; rw [hl]; exact c, d⟩, hd, h.fit, h.mmu⟩

theorem np_cpuRead (v : Word) : NP pf P size (cpuRead pf v : M D Word) := by
  intro s hs
  have key := accDo_total (r := s.regs) (v := v) (hd := fun devs p => devRead pf s.mappings devs p 0)
    hs.contract hs.placed hs.devs hs.fit hs.mmu (by
      intro devs1 h1 h2 h3
      obtain ⟨w, ex, devs', e1, e2, e3⟩ := devRead_total (devs := devs1) (ex := 0) hs.contract
        (by rw [h2]; exact hs.placed) h1 hs.fit h3
      exact ⟨w, ex, devs', e1, e2, e3.trans h2⟩)
  rw [cpuRead_eq]
  change accRead pf s.regs s.mappings s.devs v ≠ _ ∧ _ at key
  constructor
  · intro h
    cases ha : accRead pf s.regs s.mappings s.devs v with
    | panic => exact key.1 ha
    | done _ _ => rw [ha] at h; cases h
    | fault _ _ _ => rw [ha] at h; cases h
  · intro a s' h
    obtain ⟨devs, hx, rfl⟩ := toOut_ok h
    obtain ⟨e1, e2⟩ := key.2 a devs hx
    exact hs.withDevs e1 e2

theorem np_cpuExec (v : Word) : NP pf P size (cpuExec pf v : M D Word) := by
  intro s hs
  have := np_cpuRead v s hs
  rwa [cpuRead_eq, ← cpuExec_eq] at this

theorem np_cpuWrite (v w : Word) : NP pf P size (cpuWrite pf v w : M D Unit) := by
  intro s hs
  have key := accDo_total (r := s.regs) (v := v)
    (hd := fun devs p => (devWrite pf s.mappings devs p w 0).map fun q => ((), q.1, q.2))
    hs.contract hs.placed hs.devs hs.fit hs.mmu (by
      intro devs1 h1 h2 h3
      obtain ⟨ex, devs', e1, e2, e3⟩ := devWrite_total (devs := devs1) (w := w) (ex := 0) hs.contract
        (by rw [h2]; exact hs.placed) h1 hs.fit h3
      exact ⟨(), ex, devs', by rw [e1]; rfl, e2, e3.trans h2⟩)
  rw [cpuWrite_eq]
  change accWrite pf s.regs s.mappings s.devs v w ≠ _ ∧ _ at key
  constructor
  · intro h
    cases ha : accWrite pf s.regs s.mappings s.devs v w with
    | panic => exact key.1 ha
    | done _ _ => rw [ha] at h; cases h
    | fault _ _ _ => rw [ha] at h; cases h
  · intro a s' h
    obtain ⟨devs, hx, rfl⟩ := toOut_ok h
    obtain ⟨e1, e2⟩ := key.2 a devs hx
    exact hs.withDevs e1 e2

theorem np_compute (x y : Word) (op : Op) : NP pf P size (compute x y op : M D Word) := by
  unfold compute
  cases computeCore x y op with
  | error c => exact np_raise _ _
  | ok r =>
    exact np_bind (np_modRegs _ (fun _ => rfl) (fun _ => rfl)) fun _ => np_pure _

theorem np_getHwInfo (info : Word) (id : Nat) : NP pf P size (getHwInfo pf info id : M D Word) := by
  intro s hs
  unfold getHwInfo
  have okk : ∀ w : Word, (Out.ok w s ≠ .panic ∧ ∀ a s', (Out.ok w s : Out (Machine D) Word) = .ok a s' → Good pf P size s') := by
    intro w; exact ⟨by simp, by intro a s' h; injection h with _ h; rw [← h]; exact hs⟩
  split
  · exact np_raise _ _ s hs
  · dsimp only
    split <;> try exact okk _
    · split
      · exact np_raise _ _ s hs
      · exact okk _
    · split
      · exact np_raise _ _ s hs
      · next m hg =>
        have hm : m ∈ s.mappings := List.mem_of_find?_eq_some hg
        obtain ⟨e, he⟩ := endAddr_total (fun h => hs.fit h m hm) (hs.placed m hm).2.1
        rw [he]; exact okk e
    · split
      · exact okk _
      · exact np_raise _ _ s hs

theorem resetLoop_total (hc : Contract P size) (test : Nat → Bool) : ∀ (n id : Nat) (devs : List D), AllDev P devs →
    id + n ≤ devs.length → ∃ devs', resetLoop test id n devs = some devs' := by
  intro n
  induction n with
  | zero => intro id devs _ _; exact ⟨_, rfl⟩
  | succ n ih =>
    intro id devs hd hl
    unfold resetLoop
    split
    · have hdd : devs[id]? = some devs[id] := List.getElem?_eq_getElem (by omega)
      obtain ⟨d', hr, hP⟩ := hc.reset _ _ (hd _ _ hdd)
      have : bridgeReset devs id = some (some (devs.set id d')) := by
        unfold bridgeReset; simp only [hdd, hr]; rfl
      rw [this]
      exact ih _ _ (hd.set hP) (by rw [List.length_set]; omega)
    · exact ih _ _ hd (by omega)

theorem ne_resetDevs (mode : Nat) {k : Unit → M D Unit} (hk : ∀ a s, k a s ≠ .panic) :
    NE pf P size (resetDevs mode >>= k : M D Unit) := by
  intro s hs
  have loop : ∀ test, ∃ t, (do
      let devs ← liftRes (resetLoop test 0 s.devs.length s.devs)
      modifyM (fun s => { s with devs := devs }) : M D Unit) s = .ok () t := by
    intro test
    obtain ⟨devs, h⟩ := resetLoop_total hs.contract test s.devs.length 0 s.devs hs.devs (by omega)
    rw [h]; exact ⟨_, rfl⟩
  have key : (resetDevs mode s ≠ .panic) := by
    unfold resetDevs
    rw [getM_bind]
    split
    · obtain ⟨t, h⟩ := loop (fun _ => true); rw [h]; simp
    · cases hd : s.devs[s.regs.avr.toNat]? with
      | none =>
        have : bridgeReset s.devs s.regs.avr.toNat = some none := by unfold bridgeReset; rw [hd]
        rw [this]; simp
      | some d =>
        obtain ⟨d', hr, hP⟩ := hs.contract.reset _ _ (hs.devs _ _ hd)
        have : bridgeReset s.devs s.regs.avr.toNat = some (some (s.devs.set s.regs.avr.toNat d')) := by
          unfold bridgeReset; rw [hd]; simp only [hr]; rfl
        rw [this]; simp
    · obtain ⟨t, h⟩ := loop (resetTest 2 s.regs.avr.toNat); rw [h]; simp
    · obtain ⟨t, h⟩ := loop (resetTest 3 s.regs.avr.toNat); rw [h]; simp
    · obtain ⟨t, h⟩ := loop (resetTest 4 s.regs.avr.toNat); rw [h]; simp
    · simp
  rw [M.bind_def]
  cases hr : resetDevs mode s with
  | panic => exact absurd hr key
  | ex t => simp
  | ok a t => exact hk a t

end

end Lrvm
