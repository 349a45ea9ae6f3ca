import Verif.Props.Arith
import Verif.Props.Control
import Verif.Props.Data
import Verif.Props.Memory
import Verif.Props.Mapping
import Verif.Model.Tools.Run

/-!
# Following a program instruction by instruction

`Shows` describes the running machine by its 32 registers, its components and the fixed part of its board; the rules
`Ends.*` follow one instruction each.
-/

namespace Lrvm.Prog

open Spec Lrvm

variable {D : Type} [Bus D] {pf : Profile}

/-- The part of a board that a running program does not change. -/
structure Fixed where
  maps : List Mapping
  caches : List AuxCache

/-- What is visible of a running machine. -/
structure Shows (fx : Fixed) (s : Machine D) (R : Nat → Word) (devs : List D) (cyc : U128) : Prop where
  running : s.halted = false
  maps : s.mappings = fx.maps
  caches : s.hwbCache = fx.caches
  devs : s.devs = devs
  cycles : s.cycles = cyc
  regs : ∀ n, n < 32 → reg s.regs n = R n

/-- From `s`, the last instruction having been at `a`, the machine runs without exceptions until it halts, and then
`Q` holds of it and of the address of the last instruction. -/
inductive Ends (pf : Profile) (Q : Machine D → Word → Prop) : Machine D → Word → Prop
  | halted {s a} : s.halted = true → Q s a → Ends pf Q s a
  | step {s s' a} : s.halted = false → next pf s = some s' → s'.regs.et = 0 → Ends pf Q s' s.regs.pc → Ends pf Q s a

/-- A predicate that holds of a machine when it holds after one step without exception. -/
def Closed (pf : Profile) (P : Machine D → Word → Prop) : Prop :=
  ∀ s s' a, s.halted = false → next pf s = some s' → s'.regs.et = 0 → P s' s.regs.pc → P s a

theorem Ends.closed {Q : Machine D → Word → Prop} : Closed pf (Ends pf Q) := fun _ _ _ h1 h2 h3 h4 => .step h1 h2 h3 h4

/-! ## Registers -/

/-- Registers after writing one that is not `pc`. -/
def put (R : Nat → Word) (c : Nat) (w : Word) : Nat → Word :=
  fun n => if n = c then w else if n = 22 then R 22 + 4 else R n

/-- Registers after a jump. -/
def jump (R : Nat → Word) (w : Word) : Nat → Word := fun n => if n = 22 then w else R n

/-- Registers after the next instruction is reached. -/
def pass (R : Nat → Word) : Nat → Word := jump R (R 22 + 4)

/-- Registers with other flags. -/
def flagged (R : Nat → Word) (f : Word) : Nat → Word := fun n => if n = 23 then f else R n

theorem setReg_all (r : Regs) {c n : Nat} (w : Word) (hc : c < 32) (hn : n < 32) :
    reg (setReg r c w) n = if n = c then w else reg r n := by
  split
  · next h => subst h; exact reg_setReg_same r n w hn
  · next h => exact reg_setReg_ne r c n w hc hn (Ne.symm h)

theorem advance_eq (r : Regs) : advance r = setReg r 22 (r.pc + 4) := rfl

theorem reg_advance (r : Regs) {n : Nat} (hn : n < 32) : reg (advance r) n = if n = 22 then reg r 22 + 4 else reg r n := by
  rw [advance_eq, setReg_all _ _ (by decide) hn]; rfl

theorem reg_assign_all (r : Regs) {c n : Nat} (w : Word) (hc : c < 32) (hn : n < 32) (h22 : c ≠ 22) :
    reg (assign r c w) n = if n = c then w else if n = 22 then reg r 22 + 4 else reg r n := by
  unfold assign
  rw [if_neg (by omega), reg_advance _ hn, setReg_all _ _ hc (by decide), setReg_all _ _ hc hn, if_neg (Ne.symm h22)]
  by_cases h : n = 22
  · rw [if_pos h, if_neg (by omega), if_pos h]
  · rw [if_neg h]
    by_cases h' : n = c
    · rw [if_pos h']
      rw [if_pos h']
    · rw [if_neg h', if_neg h', if_neg h]

theorem reg_assign_pc (r : Regs) {n : Nat} (w : Word) (hn : n < 32) :
    reg (assign r 22 w) n = if n = 22 then w else reg r n := by
  unfold assign
  rw [if_pos rfl, setReg_all _ _ (by decide) hn]

theorem reg_af (r : Regs) (f : Word) {n : Nat} (hn : n < 32) : reg { r with af := f } n = if n = 23 then f else reg r n :=
  setReg_all r f (c := 23) (by decide) hn

variable {fx : Fixed} {s : Machine D} {R : Nat → Word} {devs devs' : List D} {cyc : U128} {a : Word}
  {P Q : Machine D → Word → Prop}

/-! ## Memory -/

/-- Reading an address of the board. -/
def Reads (pf : Profile) (maps : List Mapping) (devs : List D) (a w : Word) (devs' : List D) : Prop :=
  ∀ s : Machine D, s.mappings = maps → BusRead pf s devs a w 0 devs'

/-- Writing at an address of the board. -/
def Writes (pf : Profile) (maps : List Mapping) (devs : List D) (a w : Word) (devs' : List D) : Prop :=
  ∀ s : Machine D, s.mappings = maps → BusWrite pf s devs a w 0 devs'

theorem Shows.fetches (h : Shows fx s R devs cyc) (hm : R 29 = 0) {w : Word} (hp : (R 22).toNat % 4 = 0)
    (hr : Reads pf fx.maps devs (R 22) w devs) : Fetches pf s w devs := by
  rw [C04_fetch_is_load, h.devs]
  have hpc : s.regs.pc = R 22 := h.regs 22 (by decide)
  have hmtt : s.regs.mtt = 0 := (h.regs 29 (by decide)).trans hm
  refine ⟨h.running, (C26_load_iff hmtt).1.2 ?_⟩
  rw [hpc]
  exact ⟨hp, hr s h.maps⟩

theorem Shows.sv (h : Shows fx s R devs cyc) (h31 : R 31 = 1) : supervisor s.regs = true := by
  have : s.regs.smt = 1 := (h.regs 31 (by decide)).trans h31
  unfold supervisor
  rw [this]; rfl

theorem Reads.of {maps : List Mapping} {m : Mapping} {b w : Word} {d d' : D} (ht : TableOk pf maps) (hm : m ∈ maps)
    (hc : covers m b) (ha : b.toNat % 4 = 0) (hd : devs[m.auxId]? = some d)
    (hr : Bus.read d (b - m.addr) 0 = some (d', w, 0)) : Reads pf maps devs b w (devs.set m.auxId d') := by
  intro s hs
  unfold BusRead
  rw [(C37_read (s := { s with devs := devs }) (by rw [← hs] at ht; exact ht) (by rw [← hs] at hm; exact hm) hc ha hd).2, hr]
  rfl

theorem Writes.of {maps : List Mapping} {m : Mapping} {b w : Word} {d d' : D} (ht : TableOk pf maps) (hm : m ∈ maps)
    (hc : covers m b) (ha : b.toNat % 4 = 0) (hd : devs[m.auxId]? = some d)
    (hr : Bus.write d (b - m.addr) w 0 = some (d', 0)) : Writes pf maps devs b w (devs.set m.auxId d') := by
  intro s hs
  unfold BusWrite
  rw [C37_write (s := { s with devs := devs }) (by rw [← hs] at ht; exact ht) (by rw [← hs] at hm; exact hm) hc ha hd, hr]
  rfl

theorem set_same {l : List α} {k : Nat} {x : α} (h : l[k]? = some x) : l.set k x = l := by
  apply List.ext_getElem?
  intro i
  rw [List.getElem?_set]
  split
  · next e => subst e; rw [h]; split <;> simp_all
  · rfl

/-- One step, then the rest. -/
theorem Go.of_steps {regs : Regs} {R' : Nat → Word} (hP : Closed pf P) (h : Shows fx s R devs cyc) (hs : Steps pf s regs devs')
    (hR : ∀ n, n < 32 → reg regs n = R' n) (het : R' 26 = 0)
    (hk : ∀ s', Shows fx s' R' devs' (cyc + 1) → P s' (R 22)) : P s a := by
  obtain ⟨s', h1, h2, h3, h4, h5, h6, h7, h8⟩ := hs
  refine hP s s' a h.running h1 ?_ ?_
  · have := hR 26 (by decide)
    rw [het] at this
    rw [h2]; exact this
  · rw [show s.regs.pc = R 22 from h.regs 22 (by decide)]
    refine hk s' ⟨h5.trans h.running, h6.trans h.maps, h7.trans h.caches, h3, by rw [h4, h.cycles], ?_⟩
    rw [h2]; exact hR

/-- The usual state of the processor: supervisor mode, no translation, no exception pending. -/
structure Plain (R : Nat → Word) : Prop where
  sv : R 31 = 1
  mtt : R 29 = 0
  et : R 26 = 0

theorem Plain.put (hp : Plain R) {c : Nat} {w : Word} (h : c ≠ 31 ∧ c ≠ 29 ∧ c ≠ 26) : Plain (Prog.put R c w) where
  sv := by unfold Prog.put; rw [if_neg (Ne.symm h.1), if_neg (by decide), hp.sv]
  mtt := by unfold Prog.put; rw [if_neg (Ne.symm h.2.1), if_neg (by decide), hp.mtt]
  et := by unfold Prog.put; rw [if_neg (Ne.symm h.2.2), if_neg (by decide), hp.et]

theorem Plain.jump (hp : Plain R) {w : Word} : Plain (Prog.jump R w) := ⟨hp.sv, hp.mtt, hp.et⟩

theorem Plain.pass (hp : Plain R) : Plain (Prog.pass R) := ⟨hp.sv, hp.mtt, hp.et⟩

theorem Plain.flagged (hp : Plain R) {f : Word} : Plain (Prog.flagged R f) := ⟨hp.sv, hp.mtt, hp.et⟩

theorem mayRead_sv {n : Nat} (h : n < 32) : mayRead true n = true := by
  unfold mayRead
  split
  · rfl
  · rw [if_pos (by omega)]

/-- The value of an operand of one byte. -/
def opVal1 (R : Nat → Word) (isReg : Bool) (p : U8) : Word := if isReg then R p.toNat else BitVec.ofNat 32 p.toNat

/-- The value of an operand of two bytes. -/
def opVal2 (R : Nat → Word) (isReg : Bool) (p q : U8) : Word :=
  if isReg then R p.toNat else BitVec.ofNat 32 (p.toNat * 256 + q.toNat)

theorem Shows.val1 (h : Shows fx s R devs cyc) (hp : Plain R) {isReg : Bool} {p : U8} (hr : isReg = true → p.toNat < 32) :
    Val1 s.regs isReg p (opVal1 R isReg p) := by
  unfold Val1 opVal1
  cases isReg with
  | true =>
    rw [if_pos rfl, if_pos rfl, h.sv hp.sv]
    exact ⟨mayRead_sv (hr rfl), (h.regs _ (hr rfl)).symm⟩
  | false => rw [if_neg (by decide), if_neg (by decide)]

theorem Shows.val2 (h : Shows fx s R devs cyc) (hp : Plain R) {isReg : Bool} {p q : U8} (hr : isReg = true → p.toNat < 32) :
    Val2 s.regs isReg p q (opVal2 R isReg p q) := by
  unfold Val2 opVal2
  cases isReg with
  | true =>
    rw [if_pos rfl, if_pos rfl, h.sv hp.sv]
    exact ⟨mayRead_sv (hr rfl), (h.regs _ (hr rfl)).symm⟩
  | false => rw [if_neg (by decide), if_neg (by decide)]

/-- Fetching an instruction. -/
structure Fetched (pf : Profile) (fx : Fixed) (R : Nat → Word) (devs : List D) (w : Word) : Prop where
  plain : Plain R
  aligned : (R 22).toNat % 4 = 0
  reads : Reads pf fx.maps devs (R 22) w devs

theorem Fetched.fetches {w : Word} (hf : Fetched pf fx R devs w) (h : Shows fx s R devs cyc) : Fetches pf s w devs :=
  h.fetches hf.plain.mtt hf.aligned hf.reads

/-! ## Instructions -/

theorem Go.cpy {r0 r1 r2 : Bool} {p0 p1 p2 : U8} (hP : Closed pf P) (h : Shows fx s R devs cyc)
    (hf : Fetched pf fx R devs (instrWord 0x01 r0 r1 r2 p0 p1 p2)) (hw : mayWrite true p0.toNat = true)
    (h22 : p0.toNat ≠ 22) (hr : r1 = true → p1.toNat < 32)
    (hk : ∀ s', Shows fx s' (put R p0.toNat (opVal2 R r1 p1 p2)) devs (cyc + 1) → P s' (R 22)) : P s a := by
  have hst := C10_cpy (hf.fetches h)
  have h32 : p0.toNat < 32 := by
    unfold mayWrite at hw
    split at hw
    · omega
    · split at hw
      · next h => simp at h; omega
      · cases hw
  rw [h.sv hf.plain.sv] at hst
  dsimp only at hst
  rw [if_neg (by
    rintro ⟨h1, h2⟩
    rw [mayRead_sv (hr h1)] at h2
    cases h2), if_neg (by rw [hw]; decide)] at hst
  refine Go.of_steps hP h hst (R' := put R p0.toNat (opVal2 R r1 p1 p2)) ?_ ?_ hk
  · intro n hn
    rw [reg_assign_all _ _ h32 hn h22, h.regs 22 (by decide), h.regs n hn]
    unfold put opVal2
    cases r1 with
    | true => rw [if_pos rfl, if_pos rfl, h.regs _ (hr rfl)]
    | false => rfl
  · unfold put
    rw [if_neg, if_neg (by decide), hf.plain.et]
    intro h26
    rw [← h26] at hw
    revert hw; decide

theorem Go.jp {r0 r1 r2 : Bool} {p1 p2 : U8} (hP : Closed pf P) (h : Shows fx s R devs cyc)
    (hf : Fetched pf fx R devs (instrWord 0x01 r0 r1 r2 0x16 p1 p2)) (hr : r1 = true → p1.toNat < 32)
    (hk : ∀ s', Shows fx s' (jump R (opVal2 R r1 p1 p2)) devs (cyc + 1) → P s' (R 22)) : P s a := by
  have hst := C10_cpy (hf.fetches h)
  rw [h.sv hf.plain.sv] at hst
  dsimp only at hst
  rw [if_neg (by
    rintro ⟨h1, h2⟩
    rw [mayRead_sv (hr h1)] at h2
    cases h2), if_neg (by decide)] at hst
  refine Go.of_steps hP h hst (R' := jump R (opVal2 R r1 p1 p2)) ?_ hf.plain.et hk
  intro n hn
  rw [show (0x16 : U8).toNat = 22 from rfl, reg_assign_pc _ _ hn, h.regs n hn]
  unfold jump opVal2
  cases r1 with
  | true => rw [if_pos rfl, if_pos rfl, h.regs _ (hr rfl)]
  | false => rfl

theorem lt_of_mayWrite {n : Nat} (hw : mayWrite true n = true) : n < 32 ∧ n ≠ 23 ∧ n ≠ 26 := by
  unfold mayWrite at hw
  split at hw
  · omega
  · split at hw
    · next h => simp at h; omega
    · cases hw

/-- Flags of a comparison. -/
def cmpFlags (x y : Word) : Word :=
  flagsFor (x - y) (decide (x.toNat < y.toNat)) (!fitsSigned (x.toInt - y.toInt)) (zlfCode (x - y))

theorem ofInt_sub (x y : Word) : BitVec.ofInt 32 ((x.toNat : Int) - y.toNat) = x - y := by
  apply BitVec.eq_of_toNat_eq
  rw [BitVec.toNat_ofInt, BitVec.toNat_sub]
  have := x.isLt; have := y.isLt
  omega

/-- Flags of an addition. -/
def addFlags (x y : Word) : Word :=
  flagsFor (BitVec.ofNat 32 (x.toNat + y.toNat)) (decide (2 ^ 32 ≤ x.toNat + y.toNat)) (!fitsSigned (x.toInt + y.toInt))
    (zlfCode (BitVec.ofNat 32 (x.toNat + y.toNat)))

/-- An instruction that writes a register and the flags. -/
theorem Go.alu {c : Nat} {w f : Word} (hP : Closed pf P) (h : Shows fx s R devs cyc) (hp : Plain R)
    (hst : Steps pf s (assign { s.regs with af := f } c w) devs) (hw : mayWrite true c = true) (h22 : c ≠ 22)
    (hk : ∀ s', Shows fx s' (put (flagged R f) c w) devs (cyc + 1) → P s' (R 22)) : P s a := by
  obtain ⟨h32, h23, h26⟩ := lt_of_mayWrite hw
  refine Go.of_steps hP h hst ?_ ?_ hk
  · intro n hn
    rw [reg_assign_all _ _ h32 hn h22, reg_af _ _ hn, h.regs n hn]
    rw [show reg ({ s.regs with af := f } : Regs) 22 = R 22 from h.regs 22 (by decide)]
    rfl
  · unfold put flagged
    rw [if_neg (Ne.symm h26), if_neg (by decide), if_neg (by decide), hp.et]

theorem Go.add {r0 r1 r2 : Bool} {p0 p1 p2 : U8} (hP : Closed pf P) (h : Shows fx s R devs cyc)
    (hf : Fetched pf fx R devs (instrWord 0x03 r0 r1 r2 p0 p1 p2)) (hw : mayWrite true p0.toNat = true)
    (h22 : p0.toNat ≠ 22) (hr : r1 = true → p1.toNat < 32)
    (hk : ∀ s', Shows fx s' (put (flagged R (addFlags (R p0.toNat) (opVal2 R r1 p1 p2))) p0.toNat
      (R p0.toNat + opVal2 R r1 p1 p2)) devs (cyc + 1) → P s' (R 22)) : P s a := by
  have hst := C16_add (hf.fetches h) (by rw [h.sv hf.plain.sv]; exact hw) (h.val2 hf.plain hr)
  obtain ⟨h32, h23, h26⟩ := lt_of_mayWrite hw
  rw [h.regs _ h32] at hst
  dsimp only at hst
  have e : BitVec.ofNat 32 ((R p0.toNat).toNat + (opVal2 R r1 p1 p2).toNat) = R p0.toNat + opVal2 R r1 p1 p2 := by
    apply BitVec.eq_of_toNat_eq; simp
  refine Go.alu hP h hf.plain hst hw h22 ?_
  rw [e]
  unfold addFlags at hk
  rw [e] at hk
  exact hk

/-- Flags of a shift to the left. -/
def shlFlags (x k : Word) : Word :=
  flagsFor (x <<< (k.toNat % 32)) (decide (32 ≤ k.toNat)) (decide (32 ≤ k.toNat)) (zlfCode (x <<< (k.toNat % 32)))

theorem Go.shl {r0 r1 r2 : Bool} {p0 p1 p2 : U8} (hP : Closed pf P) (h : Shows fx s R devs cyc)
    (hf : Fetched pf fx R devs (instrWord 0x0B r0 r1 r2 p0 p1 p2)) (hw : mayWrite true p0.toNat = true)
    (h22 : p0.toNat ≠ 22) (hr : r1 = true → p1.toNat < 32)
    (hk : ∀ s', Shows fx s' (put (flagged R (shlFlags (R p0.toNat) (opVal1 R r1 p1))) p0.toNat
      (R p0.toNat <<< ((opVal1 R r1 p1).toNat % 32))) devs (cyc + 1) → P s' (R 22)) : P s a := by
  have hst := C18_shl (hf.fetches h) (by rw [h.sv hf.plain.sv]; exact hw) (h.val1 hf.plain hr)
  obtain ⟨h32, h23, h26⟩ := lt_of_mayWrite hw
  rw [h.regs _ h32] at hst
  dsimp only at hst
  have e : ∀ k, BitVec.ofNat 32 ((R p0.toNat).toNat * 2 ^ k) = R p0.toNat <<< k := by
    intro k; apply BitVec.eq_of_toNat_eq
    rw [BitVec.toNat_ofNat, BitVec.toNat_shiftLeft, Nat.shiftLeft_eq]
  rw [e] at hst
  exact Go.alu hP h hf.plain hst hw h22 hk

theorem Go.sub {r0 r1 r2 : Bool} {p0 p1 p2 : U8} (hP : Closed pf P) (h : Shows fx s R devs cyc)
    (hf : Fetched pf fx R devs (instrWord 0x04 r0 r1 r2 p0 p1 p2)) (hw : mayWrite true p0.toNat = true)
    (h22 : p0.toNat ≠ 22) (hr : r1 = true → p1.toNat < 32)
    (hk : ∀ s', Shows fx s' (put (flagged R (cmpFlags (R p0.toNat) (opVal2 R r1 p1 p2))) p0.toNat
      (R p0.toNat - opVal2 R r1 p1 p2)) devs (cyc + 1) → P s' (R 22)) : P s a := by
  have hst := C16_sub (hf.fetches h) (by rw [h.sv hf.plain.sv]; exact hw) (h.val2 hf.plain hr)
  obtain ⟨h32, h23, h26⟩ := lt_of_mayWrite hw
  rw [h.regs _ h32] at hst
  dsimp only at hst
  rw [ofInt_sub] at hst
  exact Go.alu hP h hf.plain hst hw h22 hk

theorem Go.cmp {r0 r1 r2 : Bool} {p0 p1 p2 : U8} (hP : Closed pf P) (h : Shows fx s R devs cyc)
    (hf : Fetched pf fx R devs (instrWord 0x0D r0 r1 r2 p0 p1 p2)) (h0 : p0.toNat < 32) (hr : r1 = true → p1.toNat < 32)
    (hk : ∀ s', Shows fx s' (pass (flagged R (cmpFlags (R p0.toNat) (opVal2 R r1 p1 p2)))) devs (cyc + 1) →
      P s' (R 22)) : P s a := by
  have hst := C19_cmp_partial (hf.fetches h) (by rw [h.sv hf.plain.sv]; exact mayRead_sv h0) (h.val2 hf.plain hr)
  refine Go.of_steps hP h hst ?_ ?_ hk
  · intro n hn
    rw [reg_advance _ hn, reg_af _ _ (by decide), reg_af _ _ hn, h.regs _ h0, h.regs 22 (by decide), h.regs n hn, ofInt_sub]
    rfl
  · exact hf.plain.et

theorem flagsFor_zero (res : Word) (cf of zlf : Bool) : flag (flagsFor res cf of zlf) 0 = decide (res = 0) := by
  have : decide (res = 0) = decide (res.toNat = 0) := by
    apply decide_eq_decide.2
    constructor
    · rintro rfl; rfl
    · intro h; exact BitVec.eq_of_toNat_eq h
  rw [this]
  unfold flagsFor
  generalize decide (res.toNat = 0) = b0
  generalize decide (2 ^ 31 ≤ res.toNat) = b1
  generalize decide (res.toNat % 2 = 0) = b2
  generalize decide (res.toNat < 2 ^ 16) = b3
  revert b0 b1 b2 b3 cf of zlf
  decide +kernel

theorem flagsFor_carry (res : Word) (cf of zlf : Bool) : flag (flagsFor res cf of zlf) 1 = cf := by
  unfold flagsFor
  generalize decide (res.toNat = 0) = b0
  generalize decide (2 ^ 31 ≤ res.toNat) = b1
  generalize decide (res.toNat % 2 = 0) = b2
  generalize decide (res.toNat < 2 ^ 16) = b3
  revert b0 b1 b2 b3 cf of zlf
  decide +kernel

theorem cmpFlags_zero (x y : Word) : flag (cmpFlags x y) 0 = decide (x = y) := by
  unfold cmpFlags
  rw [flagsFor_zero]
  apply decide_eq_decide.2
  constructor
  · intro h
    have := congrArg (· + y) h
    simpa [BitVec.sub_add_cancel] using this
  · rintro rfl; exact BitVec.sub_self _

/-- Registers after a conditional instruction. -/
def skipUnless (R : Nat → Word) (cond : Bool) : Nat → Word := if cond then pass R else pass (pass R)

theorem Plain.skipUnless (hp : Plain R) {b : Bool} : Plain (Prog.skipUnless R b) := by
  unfold Prog.skipUnless
  split
  · exact hp.pass
  · exact hp.pass.pass

theorem Go.ifFlag {op : BitVec 5} {r1 r2 : Bool} {p0 p1 p2 : U8} {wanted : Bool} (hP : Closed pf P) (h : Shows fx s R devs cyc)
    (hop : (op = 0x11#5 ∧ wanted = true) ∨ (op = 0x12#5 ∧ wanted = false))
    (hf : Fetched pf fx R devs (instrWord op false r1 r2 p0 p1 p2)) (h0 : p0.toNat ≤ 6)
    (hk : ∀ s', Shows fx s' (skipUnless R (flag (R 23) p0.toNat == wanted)) devs (cyc + 1) → P s' (R 22)) :
    P s a := by
  have hn : (BitVec.ofNat 32 p0.toNat).toNat = p0.toNat := by
    rw [BitVec.toNat_ofNat, Nat.mod_eq_of_lt (by omega)]
  have hst := C21_if_partial hop (hf.fetches h) (h.val1 hf.plain (isReg := false) (p := p0) (by simp))
    (by unfold opVal1; rw [if_neg (by decide), hn]; exact h0)
  have haf : s.regs.af = R 23 := h.regs 23 (by decide)
  unfold opVal1 at hst
  rw [if_neg (by decide), hn, haf] at hst
  refine Go.of_steps hP h hst ?_ ?_ hk
  · intro n hn
    unfold runNextIf skipUnless
    cases (flag (R 23) p0.toNat == wanted) with
    | true =>
      rw [if_pos rfl, if_pos rfl, reg_advance _ hn, h.regs 22 (by decide), h.regs n hn]; rfl
    | false =>
      rw [if_neg (by decide), if_neg (by decide), reg_advance _ hn, reg_advance _ hn, reg_advance _ (by decide),
        h.regs 22 (by decide), h.regs n hn]
      unfold pass jump
      split <;> rfl
  · unfold skipUnless
    split <;> exact hf.plain.et

theorem Go.lsa {r0 r1 r2 : Bool} {p0 p1 p2 : U8} {w : Word} (hP : Closed pf P) (h : Shows fx s R devs cyc)
    (hf : Fetched pf fx R devs (instrWord 0x14 r0 r1 r2 p0 p1 p2)) (hw : mayWrite true p0.toNat = true)
    (h22 : p0.toNat ≠ 22) (hr1 : r1 = true → p1.toNat < 32) (hr2 : r2 = true → p2.toNat < 32)
    (hal : (opVal1 R r1 p1 + opVal1 R r2 p2).toNat % 4 = 0)
    (hl : Reads pf fx.maps devs (opVal1 R r1 p1 + opVal1 R r2 p2) w devs')
    (hk : ∀ s', Shows fx s' (put R p0.toNat w) devs' (cyc + 1) → P s' (R 22)) : P s a := by
  obtain ⟨h32, h23, h26⟩ := lt_of_mayWrite hw
  have hmtt : s.regs.mtt = 0 := (h.regs 29 (by decide)).trans hf.plain.mtt
  have hst := C29_lsa (hf.fetches h) (h.val1 hf.plain hr1) (h.val1 hf.plain hr2) (by rw [h.sv hf.plain.sv]; exact hw)
    ((C26_load_iff hmtt).1.2 ⟨hal, hl s h.maps⟩)
  refine Go.of_steps hP h hst ?_ ?_ hk
  · intro n hn
    rw [reg_assign_all _ _ h32 hn h22, h.regs 22 (by decide), h.regs n hn]
    rfl
  · unfold put
    rw [if_neg (Ne.symm h26), if_neg (by decide), hf.plain.et]

theorem Go.wsa {r0 r1 r2 : Bool} {p0 p1 p2 : U8} (hP : Closed pf P) (h : Shows fx s R devs cyc)
    (hf : Fetched pf fx R devs (instrWord 0x16 r0 r1 r2 p0 p1 p2)) (hr0 : r0 = true → p0.toNat < 32)
    (hr1 : r1 = true → p1.toNat < 32) (hr2 : r2 = true → p2.toNat < 32)
    (hal : (opVal1 R r0 p0 + opVal1 R r1 p1).toNat % 4 = 0)
    (hl : Writes pf fx.maps devs (opVal1 R r0 p0 + opVal1 R r1 p1) (opVal1 R r2 p2) devs')
    (hk : ∀ s', Shows fx s' (pass R) devs' (cyc + 1) → P s' (R 22)) : P s a := by
  have hmtt : s.regs.mtt = 0 := (h.regs 29 (by decide)).trans hf.plain.mtt
  have hst := C29_wsa (hf.fetches h) (h.val1 hf.plain hr0) (h.val1 hf.plain hr1) (h.val1 hf.plain hr2)
    ((C26_load_iff hmtt).2.2 ⟨hal, hl s h.maps⟩)
  refine Go.of_steps hP h hst (R' := pass R) ?_ hf.plain.et hk
  intro n hn
  rw [reg_advance _ hn, h.regs 22 (by decide), h.regs n hn]
  rfl

/-- HALT stops the processor. -/
theorem halt_next {r0 r1 r2 : Bool} {p0 p1 p2 : U8}
    (hf : Fetches pf s (instrWord 0x1E r0 r1 r2 p0 p1 p2) devs) :
    next pf s = some { s with cycles := s.cycles + 1, devs := devs, halted := true, changedPc := false,
                              regs := advance s.regs } := by
  rw [next_of_fetch hf, execWord_instr]
  rfl

theorem Go.halt {r0 r1 r2 : Bool} {p0 p1 p2 : U8} (hP : Closed pf P) (h : Shows fx s R devs cyc)
    (hf : Fetched pf fx R devs (instrWord 0x1E r0 r1 r2 p0 p1 p2))
    (hk : ∀ s', s'.halted = true → s'.devs = devs → s'.cycles = cyc + 1 → s'.mappings = fx.maps →
      (∀ n, n < 32 → reg s'.regs n = pass R n) → P s' (R 22)) : P s a := by
  have hn := halt_next (hf.fetches h)
  refine hP _ _ a h.running hn ?_ ?_
  · exact (h.regs 26 (by decide)).trans hf.plain.et
  · rw [show s.regs.pc = R 22 from h.regs 22 (by decide)]
    refine hk _ rfl rfl (by rw [h.cycles]) h.maps ?_
    intro n hn
    show reg (advance s.regs) n = _
    rw [reg_advance _ hn, h.regs 22 (by decide), h.regs n hn]
    rfl

end Lrvm.Prog
