import Verif.Lemmas.ProgramLoops
import Verif.Model.Examples.AsyncHw
import Verif.Props.Tools.Prepare
import Verif.Props.Tools.Run
import Verif.Props.Devices.Memories
import Verif.Props.Devices.Counter

/-!
# The example `async_hw`: C89
-/

namespace Lrvm.AsyncHw

open Spec Lasm Lrvm Prog

variable {pf : Profile}

/-! ## Specification -/

/-- The elements of a list that differ from the one before (from `x` for the first one). -/
def changes : Word → List Word → List Word
  | _, [] => []
  | x, y :: ys => if y = x then changes x ys else y :: changes y ys

/-- The first `k` readings. -/
def first (readings : Nat → Word) (k : Nat) : List Word := (List.range k).map readings

/-- The cycles that the program takes for some readings. -/
def cyclesFor : Word → List Word → Nat
  | _, [] => 3
  | x, y :: ys => (if y = x then 5 else 9) + cyclesFor y ys

/-! ## Proof -/

theorem first_succ (readings : Nat → Word) (k : Nat) : first readings (k + 1) = first readings k ++ [readings k] := by
  unfold first
  rw [List.range_succ, List.map_append]; rfl

/-- The last element, or `x`. -/
def lastOr : Word → List Word → Word
  | x, [] => x
  | _, y :: ys => lastOr y ys

theorem changes_append (x : Word) (ys : List Word) (z : Word) :
    changes x (ys ++ [z]) = changes x ys ++ (if z = lastOr x ys then [] else [z]) := by
  induction ys generalizing x with
  | nil => show (if z = x then [] else [z]) = [] ++ _; rw [List.nil_append]; rfl
  | cons y ys ih =>
    show (if y = x then changes x (ys ++ [z]) else y :: changes y (ys ++ [z])) =
      (if y = x then changes x ys else y :: changes y ys) ++ (if z = lastOr y ys then [] else [z])
    split
    · next h => subst h; exact ih _
    · rw [ih]; rfl

theorem lastOr_append (x : Word) (ys : List Word) (z : Word) : lastOr x (ys ++ [z]) = z := by
  induction ys generalizing x with
  | nil => rfl
  | cons y ys ih => exact ih _

theorem cyclesFor_append (x : Word) (ys : List Word) (z : Word) :
    cyclesFor x (ys ++ [z]) = cyclesFor x ys + (if z = lastOr x ys then 5 else 9) := by
  induction ys generalizing x with
  | nil => show (if z = x then 5 else 9) + 3 = 3 + _; rw [Nat.add_comm]; rfl
  | cons y ys ih =>
    show (if y = x then 5 else 9) + cyclesFor y (ys ++ [z]) = (if y = x then 5 else 9) + cyclesFor y ys + _
    rw [ih, Nat.add_assoc]; rfl

/-- The program. -/
def code : List Word :=
  [0x0c182000, 0x0c000000, 0x0c010005, 0x0c0a2000, 0xa6150a00, 0x6e001500, 0x88000000, 0x0c16000c, 0x0e001500, 0xb50a0c00,
    0x6e000100, 0x88000000, 0xf0000000, 0x0c16000c]

set_option maxRecDepth 100000 in
theorem assemble_source : assembleWords source = some code := by decide +kernel

/-- The memory of the program. -/
def rom (id : U64) : BootRom := { storage := code, len := 14, size := 0x400, hwId := id }

/-- The parts of the board that do not change. -/
structure Parts where
  idRom : U64
  ram : Ram
  idCounter : U64
  idDisplay : U64
  readings : Nat → Word

/-- The components while the program runs, after `k` readings. -/
def comps (p : Parts) (k : Nat) (calls : List (Word × NumberFormat × Bool)) : List Dev :=
  [.inl (rom p.idRom), .inr (.inl p.ram), .inr (.inr (.inl ⟨p.idCounter, p.readings, k⟩)),
    .inr (.inr (.inr ⟨p.idDisplay, calls⟩))]

/-- What is known of the board. -/
structure Board (pf : Profile) (fx : Fixed) : Prop where
  table : TableOk pf fx.maps
  rom : ∃ m ∈ fx.maps, m.auxId = 0 ∧ m.addr = 0 ∧ m.size.toNat = 0x1000
  counter : ∃ m ∈ fx.maps, m.auxId = 2 ∧ m.addr = 0x2000 ∧ m.size.toNat = 4
  display : ∃ m ∈ fx.maps, m.auxId = 3 ∧ m.addr = 0x2004 ∧ m.size.toNat = 64

variable {fx : Fixed} {p : Parts} {k : Nat} {calls : List (Word × NumberFormat × Bool)}

theorem rom_reads (hb : Board pf fx) {i : Nat} {b w : Word} (hk : b = BitVec.ofNat 32 (4 * i))
    (h : code[i]? = some w) : Reads pf fx.maps (comps p k calls) b w (comps p k calls) := by
  obtain ⟨m, hm, h0, h1, h2⟩ := hb.rom
  have hk9 : i < 14 := (List.getElem?_eq_some_iff.1 h).1
  have hbn : b.toNat = 4 * i := by rw [hk, BitVec.toNat_ofNat]; omega
  have hr : Bus.read (D := Dev) (.inl (AsyncHw.rom p.idRom)) (b - m.addr) 0 = some (.inl (AsyncHw.rom p.idRom), w, 0) := by
    have hd : (b / 4).toNat = i := by
      rw [BitVec.toNat_udiv, hbn]; show 4 * i / 4 = i; omega
    have hb4 : b / 4 < (AsyncHw.rom p.idRom).len := by rw [BitVec.lt_def, hd]; exact hk9
    have hz : b - m.addr = b := by rw [h1]; exact BitVec.sub_zero _
    rw [hz]
    show Option.map _ (if b / 4 < (AsyncHw.rom p.idRom).len then _ else _) = _
    rw [if_pos hb4, hd, show (AsyncHw.rom p.idRom).storage[i]? = some w from h]
    rfl
  have := Reads.of hb.table hm (b := b) (devs := comps p k calls) (by unfold covers; rw [h1, h2]; exact ⟨Nat.zero_le _, by show _ < 0 + _; omega⟩)
    (by omega) (by rw [h0]; rfl) hr
  rw [h0] at this
  exact this

theorem counter_reads (hb : Board pf fx) : Reads pf fx.maps (comps p k calls) 0x2000 (p.readings k) (comps p (k + 1) calls) := by
  obtain ⟨m, hm, h0, h1, h2⟩ := hb.counter
  have hr : Bus.read (D := Dev) (.inr (.inr (.inl ⟨p.idCounter, p.readings, k⟩))) (0x2000 - m.addr) 0 =
      some (.inr (.inr (.inl ⟨p.idCounter, p.readings, k + 1⟩)), p.readings k, 0) := by
    rw [h1]; rfl
  have := Reads.of hb.table hm (b := 0x2000) (devs := comps p k calls) (by unfold covers; rw [h1, h2]; decide)
    (by decide) (by rw [h0]; rfl) hr
  rw [h0] at this
  exact this

theorem display_writes (hb : Board pf fx) {w : Word} : Writes pf fx.maps (comps p k calls) 0x200C w
    (comps p k (calls ++ [(w, .dec, true)])) := by
  obtain ⟨m, hm, h0, h1, h2⟩ := hb.display
  have hr : Bus.write (D := Dev) (.inr (.inr (.inr ⟨p.idDisplay, calls⟩))) (0x200C - m.addr) w 0 =
      some (.inr (.inr (.inr ⟨p.idDisplay, calls ++ [(w, .dec, true)]⟩)), 0) := by
    rw [h1]; rfl
  have := Writes.of hb.table hm (b := 0x200C) (w := w) (devs := comps p k calls) (by unfold covers; rw [h1, h2]; decide)
    (by decide) (by rw [h0]; rfl) hr
  rw [h0] at this
  exact this

theorem fetched (hb : Board pf fx) {R : Nat → Word} {i : Nat} {w : Word} (hp : Plain R) (h22 : R 22 = BitVec.ofNat 32 (4 * i))
    (h : code[i]? = some w) : Fetched pf fx R (comps p k calls) w := by
  have hk9 : i < 14 := (List.getElem?_eq_some_iff.1 h).1
  exact ⟨hp, by rw [h22, BitVec.toNat_ofNat]; omega, rom_reads hb h22 h⟩

/-- The state at the beginning of the loop, `x` being the last number. -/
def Head (fx : Fixed) (p : Parts) (k : Nat) (calls : List (Word × NumberFormat × Bool)) (x : Word) (cyc : Nat)
    (s : Machine Dev) : Prop :=
  ∃ R, Shows fx s R (comps p k calls) (BitVec.ofNat 128 cyc) ∧ Plain R ∧ R 22 = 12 ∧ R 0 = x ∧ R 1 = 5

theorem start (hb : Board pf fx) {s : Machine Dev} {a : Word} {R : Nat → Word} {P : Machine Dev → Word → Prop} (hP : Closed pf P)
    (h : Shows fx s R (comps p 0 []) 0) (hp : Plain R) (h22 : R 22 = 0)
    (hc : ∀ s' a', Head fx p 0 [] 0 3 s' → P s' a') : P s a := by
  refine Go.cpy hP h (fetched hb hp (i := 0) h22 rfl) (r0 := true) (r1 := false) (r2 := false) (p0 := 24) (p1 := 0x20) (p2 := 0)
    (by decide) (by decide) (by decide) ?_
  intro s1 q1
  generalize hR1 : put R _ _ = R1 at q1
  have hp1 : Plain R1 := by rw [← hR1]; exact hp.put (by decide)
  have e1 : R1 22 = 4 := by rw [← hR1]; show R 22 + 4 = 4; rw [h22]; rfl
  refine Go.cpy hP q1 (fetched hb hp1 (i := 1) e1 rfl) (r0 := true) (r1 := false) (r2 := false) (p0 := 0) (p1 := 0) (p2 := 0)
    (by decide) (by decide) (by decide) ?_
  intro s2 q2
  generalize hR2 : put R1 _ _ = R2 at q2
  have hp2 : Plain R2 := by rw [← hR2]; exact hp1.put (by decide)
  have e2 : R2 22 = 8 := by rw [← hR2]; show R1 22 + 4 = 8; rw [e1]; rfl
  have f2 : R2 0 = 0 := by rw [← hR2]; rfl
  refine Go.cpy hP q2 (fetched hb hp2 (i := 2) e2 rfl) (r0 := true) (r1 := false) (r2 := false) (p0 := 1) (p1 := 0) (p2 := 5)
    (by decide) (by decide) (by decide) ?_
  intro s3 q3
  refine hc s3 _ ⟨_, q3, hp2.put (by decide), ?_, f2, rfl⟩
  show R2 22 + 4 = 12; rw [e2]; rfl

theorem turn (hb : Board pf fx) {x : Word} {cyc : Nat} {s : Machine Dev} {a : Word} {P : Machine Dev → Word → Prop}
    (hP : Closed pf P) (h : Head fx p k calls x cyc s)
    (same : p.readings k = x → ∀ s' a', Head fx p (k + 1) calls x (cyc + 5) s' → P s' a')
    (other : p.readings k ≠ x → p.readings k ≠ 5 →
      ∀ s' a', Head fx p (k + 1) (calls ++ [(p.readings k, .dec, true)]) (p.readings k) (cyc + 9) s' → P s' a')
    (last : p.readings k ≠ x → p.readings k = 5 → ∀ s', s'.halted = true →
      s'.devs = comps p (k + 1) (calls ++ [(p.readings k, .dec, true)]) → s'.cycles = BitVec.ofNat 128 (cyc + 9) → P s' 0x30) :
    P s a := by
  obtain ⟨R, h, hp, h22, h0, h1⟩ := h
  have hcyc : ∀ n, BitVec.ofNat 128 n + 1 = BitVec.ofNat 128 (n + 1) := fun n => (BitVec.ofNat_add _ 1).symm
  -- cpy ac0, 0x2000
  refine Go.cpy hP h (fetched hb hp (i := 3) h22 rfl) (r0 := true) (r1 := false) (r2 := false) (p0 := 10) (p1 := 0x20) (p2 := 0)
    (by decide) (by decide) (by decide) ?_
  intro s1 q1
  rw [show BitVec.ofNat 128 cyc + 1 = BitVec.ofNat 128 (cyc + 1) from (BitVec.ofNat_add _ 1).symm] at q1
  generalize hR1 : put R _ _ = R1 at q1
  have hp1 : Plain R1 := by rw [← hR1]; exact hp.put (by decide)
  have e1 : R1 22 = 16 := by rw [← hR1]; show R 22 + 4 = 16; rw [h22]; rfl
  have f1 : R1 0 = x := by rw [← hR1]; exact h0
  have g1 : R1 1 = 5 := by rw [← hR1]; exact h1
  have k1 : R1 10 = 0x2000 := by rw [← hR1]; rfl
  -- lsa avr, ac0, 0
  refine Go.lsa hP q1 (fetched hb hp1 (i := 4) e1 rfl) (r0 := true) (r1 := true) (r2 := false) (p0 := 21) (p1 := 10) (p2 := 0)
    (w := p.readings k) (devs' := comps p (k + 1) calls)
    (by decide) (by decide) (by decide) (by decide)
    (by show (R1 10 + 0).toNat % 4 = 0; rw [k1]; rfl)
    (by show Reads pf fx.maps _ (R1 10 + 0) _ _; rw [k1]; exact counter_reads hb) ?_
  intro s2 q2
  rw [hcyc] at q2
  generalize hR2 : put R1 _ _ = R2 at q2
  have hp2 : Plain R2 := by rw [← hR2]; exact hp1.put (by decide)
  have e2 : R2 22 = 20 := by rw [← hR2]; show R1 22 + 4 = 20; rw [e1]; rfl
  have f2 : R2 0 = x := by rw [← hR2]; exact f1
  have g2 : R2 1 = 5 := by rw [← hR2]; exact g1
  have k2 : R2 10 = 0x2000 := by rw [← hR2]; exact k1
  have l2 : R2 21 = p.readings k := by rw [← hR2]; rfl
  -- cmp a0, avr
  refine Go.cmp hP q2 (fetched hb hp2 (i := 5) e2 rfl) (r0 := true) (r1 := true) (r2 := false) (p0 := 0) (p1 := 21) (p2 := 0)
    (by decide) (by decide) ?_
  intro s3 q3
  rw [hcyc] at q3
  change Shows fx s3 (pass (flagged R2 (cmpFlags (R2 0) (R2 21)))) _ _ at q3
  have ef : flag (pass (flagged R2 (cmpFlags (R2 0) (R2 21))) 23) 0 = decide (x = p.readings k) := by
    show flag (cmpFlags (R2 0) (R2 21)) 0 = _
    rw [cmpFlags_zero, f2, l2]
  have hp3 := (hp2.flagged (f := cmpFlags (R2 0) (R2 21))).pass
  have e3 : pass (flagged R2 (cmpFlags (R2 0) (R2 21))) 22 = 24 := by show R2 22 + 4 = 24; rw [e2]; rfl
  have f3 : pass (flagged R2 (cmpFlags (R2 0) (R2 21))) 0 = x := f2
  have g3 : pass (flagged R2 (cmpFlags (R2 0) (R2 21))) 1 = 5 := g2
  have k3 : pass (flagged R2 (cmpFlags (R2 0) (R2 21))) 10 = 0x2000 := k2
  have l3 : pass (flagged R2 (cmpFlags (R2 0) (R2 21))) 21 = p.readings k := l2
  generalize pass (flagged R2 (cmpFlags (R2 0) (R2 21))) = R3 at q3 ef hp3 e3 f3 g3 k3 l3
  -- ifeq
  refine Go.ifFlag hP q3 (.inl ⟨rfl, rfl⟩) (fetched hb hp3 (i := 6) e3 rfl) (r1 := false) (r2 := false) (p0 := 0) (p1 := 0)
    (p2 := 0) (by decide) ?_
  intro s4 q4
  rw [hcyc] at q4
  change Shows fx s4 (skipUnless R3 (flag (R3 23) 0 == true)) _ _ at q4
  rw [ef] at q4
  by_cases hx : p.readings k = x
  · rw [decide_eq_true hx.symm] at q4
    change Shows fx s4 (pass R3) _ _ at q4
    have e4 : pass R3 22 = 28 := by show R3 22 + 4 = 28; rw [e3]; rfl
    refine Go.jp hP q4 (fetched hb hp3.pass (i := 7) e4 rfl) (r0 := true) (r1 := false) (r2 := false) (p1 := 0) (p2 := 12)
      (by decide) ?_
    intro s5 q5
    rw [hcyc] at q5
    exact same hx s5 _ ⟨_, q5, hp3.pass.jump, rfl, f3, g3⟩
  · rw [decide_eq_false (Ne.symm hx)] at q4
    change Shows fx s4 (pass (pass R3)) _ _ at q4
    have hp4 := hp3.pass.pass
    have e4 : pass (pass R3) 22 = 32 := by show R3 22 + 4 + 4 = 32; rw [e3]; rfl
    have g4 : pass (pass R3) 1 = 5 := g3
    have k4 : pass (pass R3) 10 = 0x2000 := k3
    have l4 : pass (pass R3) 21 = p.readings k := l3
    generalize pass (pass R3) = R4 at q4 hp4 e4 g4 k4 l4
    -- cpy a0, avr
    refine Go.cpy hP q4 (fetched hb hp4 (i := 8) e4 rfl) (r0 := true) (r1 := true) (r2 := false) (p0 := 0) (p1 := 21) (p2 := 0)
      (by decide) (by decide) (by decide) ?_
    intro s5 q5
    rw [hcyc] at q5
    generalize hR5 : put R4 _ _ = R5 at q5
    have hp5 : Plain R5 := by rw [← hR5]; exact hp4.put (by decide)
    have e5 : R5 22 = 36 := by rw [← hR5]; show R4 22 + 4 = 36; rw [e4]; rfl
    have f5 : R5 0 = p.readings k := by rw [← hR5]; exact l4
    have g5 : R5 1 = 5 := by rw [← hR5]; exact g4
    have k5 : R5 10 = 0x2000 := by rw [← hR5]; exact k4
    -- wsa ac0, 12, a0
    refine Go.wsa hP q5 (fetched hb hp5 (i := 9) e5 rfl) (r0 := true) (r1 := false) (r2 := true) (p0 := 10) (p1 := 12) (p2 := 0)
      (devs' := comps p (k + 1) (calls ++ [(p.readings k, .dec, true)]))
      (by decide) (by decide) (by decide)
      (by show (R5 10 + 12).toNat % 4 = 0; rw [k5]; rfl)
      (by show Writes pf fx.maps _ (R5 10 + 12) (R5 0) _; rw [k5, f5]; exact display_writes hb) ?_
    intro s6 q6
    rw [hcyc] at q6
    have hp6 := hp5.pass
    have e6 : pass R5 22 = 40 := by show R5 22 + 4 = 40; rw [e5]; rfl
    have f6 : pass R5 0 = p.readings k := f5
    have g6 : pass R5 1 = 5 := g5
    generalize pass R5 = R6 at q6 hp6 e6 f6 g6
    -- cmp a0, a1
    refine Go.cmp hP q6 (fetched hb hp6 (i := 10) e6 rfl) (r0 := true) (r1 := true) (r2 := false) (p0 := 0) (p1 := 1) (p2 := 0)
      (by decide) (by decide) ?_
    intro s7 q7
    rw [hcyc] at q7
    change Shows fx s7 (pass (flagged R6 (cmpFlags (R6 0) (R6 1)))) _ _ at q7
    have ef : flag (pass (flagged R6 (cmpFlags (R6 0) (R6 1))) 23) 0 = decide (p.readings k = 5) := by
      show flag (cmpFlags (R6 0) (R6 1)) 0 = _
      rw [cmpFlags_zero, f6, g6]
    have hp7 := (hp6.flagged (f := cmpFlags (R6 0) (R6 1))).pass
    have e7 : pass (flagged R6 (cmpFlags (R6 0) (R6 1))) 22 = 44 := by show R6 22 + 4 = 44; rw [e6]; rfl
    have f7 : pass (flagged R6 (cmpFlags (R6 0) (R6 1))) 0 = p.readings k := f6
    have g7 : pass (flagged R6 (cmpFlags (R6 0) (R6 1))) 1 = 5 := g6
    generalize pass (flagged R6 (cmpFlags (R6 0) (R6 1))) = R7 at q7 ef hp7 e7 f7 g7
    -- ifeq
    refine Go.ifFlag hP q7 (.inl ⟨rfl, rfl⟩) (fetched hb hp7 (i := 11) e7 rfl) (r1 := false) (r2 := false) (p0 := 0) (p1 := 0)
      (p2 := 0) (by decide) ?_
    intro s8 q8
    rw [hcyc] at q8
    change Shows fx s8 (skipUnless R7 (flag (R7 23) 0 == true)) _ _ at q8
    rw [ef] at q8
    by_cases h5 : p.readings k = 5
    · rw [decide_eq_true h5] at q8
      change Shows fx s8 (pass R7) _ _ at q8
      have e8 : pass R7 22 = 48 := by show R7 22 + 4 = 48; rw [e7]; rfl
      -- halt
      refine Go.halt hP q8 (fetched hb hp7.pass (i := 12) e8 rfl) (r0 := false) (r1 := false) (r2 := false)
        (p0 := 0) (p1 := 0) (p2 := 0) ?_
      intro s9 c1 c2 c3 c4 c5
      rw [e8]
      rw [hcyc] at c3
      exact last hx h5 s9 c1 c2 c3
    · rw [decide_eq_false h5] at q8
      change Shows fx s8 (pass (pass R7)) _ _ at q8
      have e8 : pass (pass R7) 22 = 52 := by show R7 22 + 4 + 4 = 52; rw [e7]; rfl
      -- jp .loop
      refine Go.jp hP q8 (fetched hb hp7.pass.pass (i := 13) e8 rfl) (r0 := true) (r1 := false) (r2 := false) (p1 := 0) (p2 := 12)
        (by decide) ?_
      intro s9 q9
      rw [hcyc] at q9
      exact other hx h5 s9 _ ⟨_, q9, hp7.pass.pass.jump, rfl, f7, g7⟩

/-- What the handler receives for a number. -/
def callOf (w : Word) : Word × NumberFormat × Bool := (w, .dec, true)

/-- The state after `k` readings. -/
def At (fx : Fixed) (p : Parts) (k : Nat) : Machine Dev → Prop :=
  Head fx p k ((changes 0 (first p.readings k)).map callOf) (lastOr 0 (first p.readings k)) (cyclesFor 0 (first p.readings k))

theorem advance_at (hb : Board pf fx) {s : Machine Dev} {a : Word} {P : Machine Dev → Word → Prop} (hP : Closed pf P)
    (h : At fx p k s) (h5 : lastOr 0 (first p.readings k) ≠ 5)
    (go : p.readings k ≠ 5 → ∀ s' a', At fx p (k + 1) s' → P s' a')
    (last : p.readings k = 5 → ∀ s', s'.halted = true →
      s'.devs = comps p (k + 1) ((changes 0 (first p.readings (k + 1))).map callOf) →
      s'.cycles = BitVec.ofNat 128 (cyclesFor 0 (first p.readings (k + 1))) → P s' 0x30) : P s a := by
  unfold At at h go
  rw [first_succ, changes_append, lastOr_append, cyclesFor_append] at go
  rw [first_succ, changes_append, cyclesFor_append] at last
  refine turn hb hP h ?_ ?_ ?_
  · intro hx s' a' h'
    rw [if_pos hx, if_pos hx, List.append_nil] at go
    refine go (by rw [hx]; exact h5) s' a' ?_
    rw [← hx] at h'
    exact h'
  · intro hx h5' s' a' h'
    rw [if_neg hx, if_neg hx, List.map_append] at go
    exact go h5' s' a' h'
  · intro hx h5' s' c1 c2 c3
    rw [if_neg hx, if_neg hx, List.map_append] at last
    exact last h5' s' c1 c2 c3

theorem lastOr_first {k : Nat} (h : ∀ i, i < k → p.readings i ≠ 5) : lastOr 0 (first p.readings k) ≠ 5 := by
  cases k with
  | zero => show (0 : Word) ≠ 5; decide
  | succ k => rw [first_succ, lastOr_append]; exact h k (Nat.lt_succ_self _)

theorem ends (hb : Board pf fx) {n : Nat} (h5 : p.readings n = 5) (hmin : ∀ i, i < n → p.readings i ≠ 5) :
    ∀ m k (s : Machine Dev) (a : Word), k + m = n → At fx p k s →
    Ends pf (fun s' a' => s'.devs = comps p (n + 1) ((changes 0 (first p.readings (n + 1))).map callOf) ∧
      s'.cycles = BitVec.ofNat 128 (cyclesFor 0 (first p.readings (n + 1))) ∧ a' = 0x30) s a := by
  intro m
  induction m with
  | zero =>
    intro k s a hk h
    have : k = n := hk
    subst this
    refine advance_at hb Ends.closed h (lastOr_first hmin) (fun h => absurd h5 h) ?_
    intro _ s' c1 c2 c3
    exact .halted c1 ⟨c2, c3, rfl⟩
  | succ m ih =>
    intro k s a hk h
    have hk5 : p.readings k ≠ 5 := hmin k (by omega)
    refine advance_at hb Ends.closed h (lastOr_first (fun i hi => hmin i (by omega))) ?_ (fun h => absurd h hk5)
    intro _ s' a' h'
    exact ih (k + 1) s' a' (by omega) h'

theorem goes (hb : Board pf fx) (hn : ∀ i, p.readings i ≠ 5) {s : Machine Dev} (h : At fx p 0 s) (k : Nat) :
    ∃ n t, k ≤ n ∧ Goes pf n s t ∧ At fx p k t := by
  induction k with
  | zero => exact ⟨0, s, Nat.le_refl _, .stay, h⟩
  | succ k ih =>
    obtain ⟨n, t, h1, h2, h3⟩ := ih
    obtain ⟨m, u, h4, h5⟩ : Leads pf (At fx p (k + 1)) t 0 :=
      advance_at hb Leads.closed h3 (lastOr_first (fun i _ => hn i)) (fun _ s' _ h' => ⟨0, s', .stay, h'⟩)
        (fun h => absurd h (hn k))
    refine ⟨n + m, u, ?_, h2.trans h4, h5⟩
    cases m with
    | succ m => omega
    | zero =>
      cases h4
      obtain ⟨_, g, _⟩ := h3
      obtain ⟨_, g', _⟩ := h5
      have := g.devs.symm.trans g'.devs
      unfold comps at this
      injection this with _ this
      injection this with _ this
      injection this with this _
      injection this with this
      injection this with this
      injection this with this
      have := congrArg PolledCounter.reads this
      change k = k + 1 at this
      omega

/-- The components given to `exec_vm`, and the machine that starts. -/
theorem prepared (pf : Profile) (idRom idRam idCounter idDisplay : U64) (readings : Nat → Word) :
    ∃ ds s0, ∃ p : Parts, ∃ fx, components idRom idRam idCounter idDisplay readings = some ds ∧ prepareVm pf ds = some s0 ∧
      p.readings = readings ∧ p.idDisplay = idDisplay ∧ Board pf fx ∧
      ∃ R, Shows fx s0 R (comps p 0 []) 0 ∧ Plain R ∧ R 22 = 0 := by
  obtain ⟨ram, hram, hsize, hreset⟩ : ∃ ram, Ram.new 0x1000 idRam = some ram ∧ ram.size = 0x400 ∧ Bus.reset ram = some ram := by
    refine ⟨{ storage := List.replicate 0x1000 0, size := 0x400, hwId := idRam }, ?_, rfl, ?_⟩
    · unfold Ram.new
      rw [if_neg (by decide), if_neg (by decide)]; rfl
    · show some ({ storage := List.replicate (List.replicate 0x1000 (0 : Word)).length 0, size := 0x400, hwId := idRam } : Ram) = _
      rw [List.length_replicate]
  let p : Parts := ⟨idRom, ram, idCounter, idDisplay, readings⟩
  have hds : components idRom idRam idCounter idDisplay readings = some (comps p 0 []) := by
    unfold components
    rw [assemble_source, hram]; rfl
  obtain ⟨s0, h0, hd, hml, hm⟩ := C62_succeeds_partial (pf := pf) (ds := comps p 0 []) (ds' := comps p 0 [])
    (sizes := [0x1000, 0x1000, 4, 64]) (by show 4 < 2 ^ 32; decide) rfl
    (by
      intro k d n hk hn
      match k with
      | 0 => cases hk; cases hn; exact BootRom.advertises (rom idRom) (by show 0x400 * 4 < 2 ^ 32; decide)
      | 1 =>
        cases hk; cases hn
        have := Ram.advertises (pf := pf) ram (by rw [hsize]; decide)
        rw [hsize] at this
        exact this
      | 2 =>
        cases hk; cases hn
        obtain ⟨m, h1, h2⟩ := newEncode_size (hw := idCounter) (size := 4) (cat := .uncategorized) (md := none) (dt := none) rfl
        exact ⟨m, h1, by rw [h2]; rfl⟩
      | 3 =>
        cases hk; cases hn
        obtain ⟨m, h1, h2⟩ := newEncode_size (hw := idDisplay) (size := 64) (cat := .display .number) (md := none) (dt := none) rfl
        exact ⟨m, h1, by rw [h2]; rfl⟩
      | k + 4 => cases hk)
    (by decide) (by cases pf <;> decide) (by
      have h2 : Bus.reset (D := Dev) (.inr (.inl ram)) = some (.inr (.inl ram)) := by
        show Option.map _ (Option.map _ (Bus.reset ram)) = _
        rw [hreset]; rfl
      unfold comps resetAll resetAll
      rw [h2]; rfl)
  have hr := C62_ready h0
  refine ⟨_, s0, p, ⟨s0.mappings, s0.hwbCache⟩, hds, h0, rfl, rfl, ⟨hr.2.2.2.2.2.2.1, ?_, ?_, ?_⟩,
    fun n => if n = 31 then 1 else 0, ?_, ⟨rfl, rfl, rfl⟩, rfl⟩
  · obtain ⟨m, e1, e2, e3, e4⟩ := hm 0 0x1000 rfl
    exact ⟨m, List.mem_of_getElem? e1, e2, BitVec.eq_of_toNat_eq e3, e4⟩
  · obtain ⟨m, e1, e2, e3, e4⟩ := hm 2 4 rfl
    exact ⟨m, List.mem_of_getElem? e1, e2, BitVec.eq_of_toNat_eq e3, e4⟩
  · obtain ⟨m, e1, e2, e3, e4⟩ := hm 3 64 rfl
    exact ⟨m, List.mem_of_getElem? e1, e2, BitVec.eq_of_toNat_eq e3, e4⟩
  · refine ⟨hr.2.1, rfl, rfl, hd, hr.2.2.1, ?_⟩
    rw [hr.1]
    intro n hn
    have : ∀ n : Fin 32, reg startup n.val = (if n.val = 31 then 1 else 0) := by decide
    exact this ⟨n, hn⟩

/-- The display of a board of this example. -/
def Shown (s : Machine Dev) (ws : List Word) : Prop :=
  ∃ d : NumberDisplay, s.devs[3]? = some (.inr (.inr (.inr d))) ∧ d.calls = ws.map fun w => (w, .dec, true)

/-- The counter of a board of this example has been read `k` times. -/
def Polled (s : Machine Dev) (k : Nat) : Prop :=
  ∃ d : PolledCounter, s.devs[2]? = some (.inr (.inr (.inl d))) ∧ d.reads = k

/-- **C89**, when reading number `n` is the first one that gives 5: the example ends without a panic or an exception, in
exactly one way, on its `halt` at address `0x30`. It has displayed the readings up to this one that differ from the one
before (0 at the beginning), each once, in order, in decimal, with a new line. -/
theorem C89_ends_partial (pf : Profile) (idRom idRam idCounter idDisplay : U64) {readings : Nat → Word} {n : Nat}
    (h5 : readings n = 5) (hmin : ∀ i, i < n → readings i ≠ 5) :
    ∃ s, s.halted = true ∧ Shown s (changes 0 (first readings (n + 1))) ∧ Polled s (n + 1) ∧
      ∀ r, Exec pf idRom idRam idCounter idDisplay readings r ↔
        r = some (s, ⟨BitVec.ofNat 128 (cyclesFor 0 (first readings (n + 1))), 0x30, none⟩,
          ["[lrvm] Cycle ".toList ++ fmtHex 10 (BitVec.ofNat 128 (cyclesFor 0 (first readings (n + 1)))).toNat ++
            ": CPU halted at address 0x00000030".toList]) := by
  obtain ⟨ds, s0, p, fx, hds, h0, hp, _, hb, R, hsh, hpl, h22⟩ := prepared pf idRom idRam idCounter idDisplay readings
  subst hp
  have hends := start (a := s0.regs.pc) hb Ends.closed hsh hpl h22 (fun s' a' h => ends hb h5 hmin n 0 s' a' (Nat.zero_add n) h)
  obtain ⟨s, a, h1, ⟨h2, h3, h4⟩, hr⟩ := execVm_of_ends (cfg := RunConfig.haltOnEx) rfl rfl h0 hends
  refine ⟨s, h1, ⟨⟨p.idDisplay, _⟩, by rw [h2]; rfl, rfl⟩, ⟨⟨p.idCounter, p.readings, n + 1⟩, by rw [h2]; rfl, rfl⟩, fun r => ?_⟩
  unfold Exec
  rw [hds]
  simp only
  rw [hr]
  subst h4
  unfold runFinish
  rw [h3]
  have e : fmtHex 10 (0x30 : Word).toNat = "0x00000030".toList := by decide +kernel
  show r = some (s, _, ([] ++ []) ++ ["[lrvm] ".toList ++ ("Cycle ".toList ++ _ ++ ": CPU halted at address ".toList ++
    fmtHex 10 (0x30 : Word).toNat)]) ↔ _
  rw [e]
  have : ∀ t : Text, ([] ++ []) ++ ["[lrvm] ".toList ++ ("Cycle ".toList ++ t ++ ": CPU halted at address ".toList ++ "0x00000030".toList)] =
      ["[lrvm] Cycle ".toList ++ t ++ ": CPU halted at address 0x00000030".toList] := by
    intro t
    have e1 : "[lrvm] Cycle ".toList = "[lrvm] ".toList ++ "Cycle ".toList := by decide +kernel
    have e2 : ": CPU halted at address 0x00000030".toList = ": CPU halted at address ".toList ++ "0x00000030".toList := by
      decide +kernel
    rw [e1, e2]
    simp only [List.append_assoc, List.nil_append]
  rw [this]

/-- **C89**, when no reading gives 5: the example never ends and never raises an exception, and after any number of readings
it has displayed those that differ from the one before. -/
theorem C89_runs_partial (pf : Profile) (idRom idRam idCounter idDisplay : U64) {readings : Nat → Word} (hn : ∀ i, readings i ≠ 5) :
    (∀ r, ¬ Exec pf idRom idRam idCounter idDisplay readings r) ∧
    ∃ ds s0, components idRom idRam idCounter idDisplay readings = some ds ∧ prepareVm pf ds = some s0 ∧
      ∀ k, ∃ n t, k ≤ n ∧ Goes pf n s0 t ∧ t.halted = false ∧ Polled t k ∧ Shown t (changes 0 (first readings k)) := by
  obtain ⟨ds, s0, p, fx, hds, h0, hp, _, hb, R, hsh, hpl, h22⟩ := prepared pf idRom idRam idCounter idDisplay readings
  subst hp
  obtain ⟨n0, t0, g0, hh⟩ : Leads pf (At fx p 0) s0 s0.regs.pc :=
    start hb Leads.closed hsh hpl h22 (fun s' a' h => ⟨0, s', .stay, h⟩)
  have hall : ∀ k, ∃ n t, k ≤ n ∧ Goes pf n s0 t ∧ At fx p k t := by
    intro k
    obtain ⟨n, t, h1, h2, h3⟩ := goes hb hn hh k
    exact ⟨n0 + n, t, by omega, g0.trans h2, h3⟩
  refine ⟨?_, ds, s0, hds, h0, ?_⟩
  · intro r hx
    unfold Exec at hx
    rw [hds] at hx
    simp only [ExecVm, h0] at hx
    refine no_result rfl (fun n => ?_) r hx
    obtain ⟨m, t, h1, h2, _⟩ := hall (n + 1)
    exact h2.take (by omega)
  · intro k
    obtain ⟨n, t, h1, h2, R, h3, _⟩ := hall k
    exact ⟨n, t, h1, h2, h3.running, ⟨⟨p.idCounter, p.readings, k⟩, by rw [h3.devs]; rfl, rfl⟩,
      ⟨⟨p.idDisplay, _⟩, by rw [h3.devs]; rfl, rfl⟩⟩

/-- The increments among some events of the counter. -/
def ticksIn : List Counter.Event → Nat
  | [] => 0
  | .tick _ :: es => ticksIn es + 1
  | _ :: es => ticksIn es

theorem ticksIn_append (es es' : List Counter.Event) : ticksIn (es ++ es') = ticksIn es + ticksIn es' := by
  induction es with
  | nil => exact (Nat.zero_add _).symm
  | cons e es ih => cases e <;> simp only [List.cons_append, ticksIn, ih] <;> omega

theorem ticksSinceReset_reverse {pre post : List Counter.Event} (h : .resetReturned ∉ post) :
    Counter.Spec.ticksSinceReset (pre ++ .resetReturned :: post).reverse = ticksIn post := by
  have key : ∀ (l r : List Counter.Event), .resetReturned ∉ l →
      Counter.Spec.ticksSinceReset (l ++ .resetReturned :: r) = ticksIn l := by
    intro l r hl
    induction l with
    | nil => rfl
    | cons e l ih =>
      have := ih (fun h => hl (List.mem_cons_of_mem _ h))
      cases e with
      | resetReturned => exact absurd List.mem_cons_self hl
      | tick t => exact congrArg (· + 1) this
      | _ => exact this
  have hrev : ∀ l : List Counter.Event, ticksIn l.reverse = ticksIn l := by
    intro l
    induction l with
    | nil => rfl
    | cons e l ih =>
      rw [List.reverse_cons, ticksIn_append, ih]
      cases e <;> simp [ticksIn]
  rw [List.reverse_append, List.reverse_cons, List.append_assoc]
  show Counter.Spec.ticksSinceReset (post.reverse ++ .resetReturned :: pre.reverse) = _
  rw [key _ _ (by rwa [List.mem_reverse]), hrev]

/-- The readings of the counter of `Model/Devices/Counter.lean`, under every schedule of its threads: after a reset and until
the next one, each read gives the number of increments between them. So the readings of a run of this example are a sequence
of numbers that never go back. -/
theorem C89_readings {s : Counter.St} {pre p1 p2 : List Counter.Event} {w : Word}
    (h : Counter.Run Counter.St.new (pre ++ .resetReturned :: (p1 ++ .read w :: p2)) s) (hr : .resetReturned ∉ p1) :
    w = BitVec.ofNat 32 (ticksIn p1) := by
  have e : pre ++ .resetReturned :: (p1 ++ .read w :: p2) = (pre ++ .resetReturned :: p1) ++ .read w :: p2 := by
    rw [List.append_assoc]; rfl
  rw [e] at h
  obtain ⟨m, h1, h2⟩ := h.split
  cases h2 with
  | cons h3 _ => rw [Counter.C75_read h1 h3, ticksSinceReset_reverse hr]

/-- The numbers from 1 to `m`. -/
def upTo (m : Nat) : List Word := (List.range m).map fun i => BitVec.ofNat 32 (i + 1)

/-- A counter read often enough to see all its values displays 1, 2, 3, 4 and 5. -/
theorem C89_slow_counter_partial {ticks : Nat → Nat} {n : Nat} (h0 : ticks 0 ≤ 1) (hslow : ∀ i, ticks i ≤ ticks (i + 1) ∧ ticks (i + 1) ≤ ticks i + 1)
    (hn : ticks n = 5) : changes 0 (first (fun i => BitVec.ofNat 32 (ticks i)) (n + 1)) = [1, 2, 3, 4, 5] := by
  have key : ∀ k, ticks k < 2 ^ 32 → changes 0 (first (fun i => BitVec.ofNat 32 (ticks i)) (k + 1)) = upTo (ticks k) ∧
      lastOr 0 (first (fun i => BitVec.ofNat 32 (ticks i)) (k + 1)) = BitVec.ofNat 32 (ticks k) := by
    intro k
    have inj : ∀ {x y : Nat}, x < 2 ^ 32 → y < 2 ^ 32 → (BitVec.ofNat 32 x = BitVec.ofNat 32 y ↔ x = y) := by
      intro x y hx hy
      constructor
      · intro h
        have := congrArg BitVec.toNat h
        rwa [BitVec.toNat_ofNat, BitVec.toNat_ofNat, Nat.mod_eq_of_lt hx, Nat.mod_eq_of_lt hy] at this
      · rintro rfl; rfl
    induction k with
    | zero =>
      intro hk
      rw [first_succ, changes_append, lastOr_append]
      refine ⟨?_, rfl⟩
      have hc : ticks 0 = 0 ∨ ticks 0 = 1 := by omega
      rcases hc with hc | hc <;> rw [hc] <;> rfl
    | succ k ih =>
      intro hk
      have hs := hslow k
      obtain ⟨i1, i2⟩ := ih (by omega)
      rw [first_succ, changes_append, lastOr_append, i1, i2]
      refine ⟨?_, rfl⟩
      by_cases he : ticks (k + 1) = ticks k
      · rw [if_pos (by rw [he]), he, List.append_nil]
      · rw [if_neg (by rw [inj hk (by omega)]; exact he)]
        have : ticks (k + 1) = ticks k + 1 := by omega
        rw [this]
        unfold upTo
        rw [List.range_succ, List.map_append]; rfl
  rw [(key n (by rw [hn]; decide)).1, hn]
  rfl

/-- A counter that is read twice for each of its values. -/
example : changes 0 (first (fun i => BitVec.ofNat 32 (i / 2)) 11) = [1, 2, 3, 4, 5] ∧
    (fun i => BitVec.ofNat 32 (i / 2)) 10 = (5 : Word) ∧ cyclesFor 0 (first (fun i => BitVec.ofNat 32 (i / 2)) 11) = 78 := by decide

/-- **C89** fails when the counter goes too fast: if it jumps from 4 to 6 between two readings, the value 5 is missed and the
program does not stop. -/
theorem C89_missed_refuted (pf : Profile) (idRom idRam idCounter idDisplay : U64) :
    ∃ ticks : Nat → Nat, (∀ i, ticks i ≤ ticks (i + 1)) ∧
      ∀ r, ¬ Exec pf idRom idRam idCounter idDisplay (fun i => BitVec.ofNat 32 (ticks i)) r := by
  refine ⟨fun i => if i = 0 then 4 else 6, fun i => by dsimp only; split <;> split <;> omega,
    (C89_runs_partial pf idRom idRam idCounter idDisplay ?_).1⟩
  intro i
  dsimp only
  split <;> decide

end Lrvm.AsyncHw
