import Verif.Lemmas.ProgramLoops
import Verif.Model.Examples.ElapsedTime
import Verif.Props.Tools.Prepare
import Verif.Props.Devices.Memories
import Verif.Props.Devices.Clock

/-!
# The example `elapsed_time`: C88
-/

namespace Lrvm.ElapsedTime

open Spec Lasm Lrvm Prog

variable {pf : Profile}

/-! ## Specification -/

/-- The whole seconds between the start of the machine and reading `i` of the clock, as a word. -/
def seconds (instant : Nat → Nat) (i : Nat) : Nat := (instant (i + 2) - instant 1) / 1000000000 % 2 ^ 32

/-- The numbers of a list that are greater than `m` and than all those before them. -/
def highs : Nat → List Nat → List Nat
  | _, [] => []
  | m, x :: xs => if m < x then x :: highs x xs else highs m xs

/-- The greatest of a number and of those of a list. -/
def highest : Nat → List Nat → Nat
  | m, [] => m
  | m, x :: xs => highest (max m x) xs

/-- The line for a number of seconds. -/
def text (n : Nat) : Text :=
  "Elapsed: ".toList ++ (toString n).toList ++ (if n > 1 then " seconds" else " second").toList

/-- Readings `1` to `k`. -/
def readings (instant : Nat → Nat) (k : Nat) : List Nat := (List.range k).map fun i => seconds instant (i + 1)

/-! ## Proof -/

theorem highs_append (m : Nat) (xs : List Nat) (x : Nat) :
    highs m (xs ++ [x]) = highs m xs ++ (if highest m xs < x then [x] else []) := by
  induction xs generalizing m with
  | nil => show (if m < x then [x] else []) = [] ++ _; rw [List.nil_append]; rfl
  | cons y ys ih =>
    show (if m < y then y :: highs y (ys ++ [x]) else highs m (ys ++ [x])) = (if m < y then y :: highs y ys else highs m ys) ++
      (if highest (max m y) ys < x then [x] else [])
    split
    · rw [ih, Nat.max_eq_right (by omega)]; rfl
    · rw [ih, Nat.max_eq_left (by omega)]

theorem highest_append (m : Nat) (xs : List Nat) (x : Nat) : highest m (xs ++ [x]) = max (highest m xs) x := by
  induction xs generalizing m with
  | nil => rfl
  | cons y ys ih => exact ih _

/-- The program. -/
def code : List Word :=
  [0x0c0a1000, 0xa6010a10, 0xa6000a10, 0x6e000100, 0x98000101, 0x70000c00, 0xb50a1800, 0x0e010000, 0x0c160008]

set_option maxRecDepth 100000 in
theorem assemble_source : assembleWords source = some code := by decide +kernel

/-- The memory of the program. -/
def rom : BootRom := { storage := code, len := 9, size := 0x400, hwId := 1 }

/-- The components while the program runs. -/
def comps (clock : RealtimeClock) (calls : List (Word × NumberFormat × Bool)) : List Dev :=
  [.inl rom, .inr (.inl clock), .inr (.inr ⟨3, calls⟩)]

/-- What is known of the board. -/
structure Board (pf : Profile) (fx : Fixed) : Prop where
  table : TableOk pf fx.maps
  rom : ∃ m ∈ fx.maps, m.auxId = 0 ∧ m.addr = 0 ∧ m.size.toNat = 0x1000
  clock : ∃ m ∈ fx.maps, m.auxId = 1 ∧ m.addr = 0x1000 ∧ m.size.toNat = 24
  display : ∃ m ∈ fx.maps, m.auxId = 2 ∧ m.addr = 0x1018 ∧ m.size.toNat = 64

variable {fx : Fixed} {clock : RealtimeClock} {calls : List (Word × NumberFormat × Bool)}

theorem rom_reads (hb : Board pf fx) {k : Nat} {b w : Word} (hk : b = BitVec.ofNat 32 (4 * k))
    (h : code[k]? = some w) : Reads pf fx.maps (comps clock calls) b w (comps clock calls) := by
  obtain ⟨m, hm, h0, h1, h2⟩ := hb.rom
  have hk9 : k < 9 := (List.getElem?_eq_some_iff.1 h).1
  have hbn : b.toNat = 4 * k := by rw [hk, BitVec.toNat_ofNat]; omega
  have hr : Bus.read (D := Dev) (.inl rom) (b - m.addr) 0 = some (.inl rom, w, 0) := by
    have hd : (b / 4).toNat = k := by
      rw [BitVec.toNat_udiv, hbn]; show 4 * k / 4 = k; omega
    have hb4 : b / 4 < rom.len := by rw [BitVec.lt_def, hd]; exact hk9
    have hz : b - m.addr = b := by rw [h1]; exact BitVec.sub_zero _
    rw [hz]
    show Option.map _ (if b / 4 < rom.len then _ else _) = _
    rw [if_pos hb4, hd, show rom.storage[k]? = some w from h]
    rfl
  have := Reads.of hb.table hm (b := b) (devs := comps clock calls) (by unfold covers; rw [h1, h2]; exact ⟨Nat.zero_le _, by show _ < 0 + _; omega⟩)
    (by omega) (by rw [h0]; rfl) hr
  rw [h0] at this
  exact this

/-- Reading the low word of the elapsed seconds. -/
theorem clock_reads (hb : Board pf fx) : Reads pf fx.maps (comps clock calls) 0x1010
    (BitVec.ofNat 32 ((clock.instant clock.reads - clock.resetAt) / 1000000000 % 2 ^ 32))
    (comps { clock with reads := clock.reads + 1 } calls) := by
  obtain ⟨m, hm, h0, h1, h2⟩ := hb.clock
  have hr : Bus.read (D := Dev) (.inr (.inl clock)) (0x1010 - m.addr) 0 =
      some (.inr (.inl { clock with reads := clock.reads + 1 }),
        BitVec.ofNat 32 ((clock.instant clock.reads - clock.resetAt) / 1000000000 % 2 ^ 32), 0) := by
    rw [h1]
    show Option.map _ (Option.map _ (Bus.read clock 16 0)) = _
    rw [clock_read_elapsed 0 (by decide)]
    dsimp only
    rw [if_neg (by decide)]
    show some (_, BitVec.ofNat 32 ((BitVec.ofNat 64 _).toNat % 2 ^ 32), _) = _
    rw [BitVec.toNat_ofNat, Nat.mod_mod_of_dvd _ (by decide)]
  have := Reads.of hb.table hm (b := 0x1010) (devs := comps clock calls) (by unfold covers; rw [h1, h2]; decide)
    (by decide) (by rw [h0]; rfl) hr
  rw [h0] at this
  exact this

theorem display_writes (hb : Board pf fx) {w : Word} : Writes pf fx.maps (comps clock calls) 0x1018 w
    (comps clock (calls ++ [(w, .hex, true)])) := by
  obtain ⟨m, hm, h0, h1, h2⟩ := hb.display
  have hr : Bus.write (D := Dev) (.inr (.inr ⟨3, calls⟩)) (0x1018 - m.addr) w 0 =
      some (.inr (.inr ⟨3, calls ++ [(w, .hex, true)]⟩), 0) := by
    rw [h1]; rfl
  have := Writes.of hb.table hm (b := 0x1018) (w := w) (devs := comps clock calls) (by unfold covers; rw [h1, h2]; decide)
    (by decide) (by rw [h0]; rfl) hr
  rw [h0] at this
  exact this

theorem fetched (hb : Board pf fx) {R : Nat → Word} {k : Nat} {w : Word} (hp : Plain R) (h22 : R 22 = BitVec.ofNat 32 (4 * k))
    (h : code[k]? = some w) : Fetched pf fx R (comps clock calls) w := by
  have hk9 : k < 9 := (List.getElem?_eq_some_iff.1 h).1
  exact ⟨hp, by rw [h22, BitVec.toNat_ofNat]; omega, rom_reads hb h22 h⟩

/-- The state at the beginning of the loop, `x` being the number displayed or read first. -/
structure Head (fx : Fixed) (clock : RealtimeClock) (calls : List (Word × NumberFormat × Bool)) (x : Nat) (s : Machine Dev) :
    Prop where
  shows : ∃ R cyc, Shows fx s R (comps clock calls) cyc ∧ Plain R ∧ R 22 = 8 ∧ R 10 = 0x1000 ∧ R 1 = BitVec.ofNat 32 x
  word : x < 2 ^ 32

theorem turn (hb : Board pf fx) {x y : Nat} {s : Machine Dev} (h : Head fx clock calls x s)
    (hy : y = (clock.instant clock.reads - clock.resetAt) / 1000000000 % 2 ^ 32) :
    Leads pf (Head fx { clock with reads := clock.reads + 1 }
      (calls ++ (if x < y then [(BitVec.ofNat 32 y, .hex, true)] else [])) (max x y)) s s.regs.pc := by
  obtain ⟨⟨R, cyc, h, hp, h22, h10, h1⟩, hx⟩ := h
  have hP : Closed pf (Leads pf (Head fx { clock with reads := clock.reads + 1 }
      (calls ++ (if x < y then [(BitVec.ofNat 32 y, .hex, true)] else [])) (max x y))) := Leads.closed
  have hy32 : y < 2 ^ 32 := by rw [hy]; exact Nat.mod_lt _ (by decide)
  -- lsa a0, ac0, 16
  refine Go.lsa hP h (fetched hb hp (k := 2) h22 rfl) (r0 := true) (r1 := true) (r2 := false) (p0 := 0) (p1 := 10) (p2 := 16)
    (w := BitVec.ofNat 32 y) (devs' := comps { clock with reads := clock.reads + 1 } calls)
    (by decide) (by decide) (by decide) (by decide)
    (by show (R 10 + 16).toNat % 4 = 0; rw [h10]; rfl)
    (by show Reads pf fx.maps _ (R 10 + 16) _ _; rw [h10, hy]; exact clock_reads hb) ?_
  intro s1 q1
  generalize hR1 : put R _ _ = R1 at q1
  have hp1 : Plain R1 := by rw [← hR1]; exact hp.put (by decide)
  have e1 : R1 22 = 12 := by rw [← hR1]; show R 22 + 4 = 12; rw [h22]; rfl
  have f1 : R1 0 = BitVec.ofNat 32 y := by rw [← hR1]; rfl
  have g1 : R1 1 = BitVec.ofNat 32 x := by rw [← hR1]; exact h1
  have k1 : R1 10 = 0x1000 := by rw [← hR1]; exact h10
  -- cmp a0, a1
  refine Go.cmp hP q1 (fetched hb hp1 (k := 3) e1 rfl) (r0 := true) (r1 := true) (r2 := false) (p0 := 0) (p1 := 1) (p2 := 0)
    (by decide) (by decide) ?_
  intro s2 q2
  have e2 : pass (flagged R1 (cmpFlags (R1 0) (R1 1))) 22 = 16 := by show R1 22 + 4 = 16; rw [e1]; rfl
  have hp2 := (hp1.flagged (f := cmpFlags (R1 0) (R1 1))).pass
  change Shows fx s2 (pass (flagged R1 (cmpFlags (R1 0) (R1 1)))) _ _ at q2
  have hfl : (flag (pass (flagged R1 (cmpFlags (R1 0) (R1 1))) 23) 0 || flag (pass (flagged R1 (cmpFlags (R1 0) (R1 1))) 23) 1) =
      decide (y ≤ x) := by
    show (flag (cmpFlags (R1 0) (R1 1)) 0 || flag (cmpFlags (R1 0) (R1 1)) 1) = _
    rw [cmpFlags_zero, cmpFlags_carry, f1, g1, ofNat_toNat_lt hx, ofNat_toNat_lt hy32]
    have : (BitVec.ofNat 32 y = BitVec.ofNat 32 x) ↔ y = x := by
      constructor
      · intro he
        have he := congrArg BitVec.toNat he
        rwa [ofNat_toNat_lt hx, ofNat_toNat_lt hy32] at he
      · rintro rfl; rfl
    rw [show decide (BitVec.ofNat 32 y = BitVec.ofNat 32 x) = decide (y = x) from decide_eq_decide.2 this]
    by_cases ha : y = x <;> by_cases hb : y < x <;> simp [ha, hb] <;> omega
  have g2 : pass (flagged R1 (cmpFlags (R1 0) (R1 1))) 1 = BitVec.ofNat 32 x := g1
  have f2 : pass (flagged R1 (cmpFlags (R1 0) (R1 1))) 0 = BitVec.ofNat 32 y := f1
  have k2 : pass (flagged R1 (cmpFlags (R1 0) (R1 1))) 10 = 0x1000 := k1
  generalize pass (flagged R1 (cmpFlags (R1 0) (R1 1))) = R2 at q2 e2 hp2 hfl g2 f2 k2
  -- ifle
  refine Go.ifZeroOrCarry hP q2 (fetched hb hp2 (k := 4) e2 rfl) ?_
  intro s3 q3
  rw [hfl] at q3
  by_cases hyx : y ≤ x
  · rw [decide_eq_true hyx] at q3
    change Shows fx s3 (pass R2) _ _ at q3
    rw [if_neg (by omega), List.append_nil, Nat.max_eq_left hyx] at *
    have e3 : pass R2 22 = 20 := by show R2 22 + 4 = 20; rw [e2]; rfl
    -- jpr 12
    refine Go.jpr hP q3 (fetched hb hp2.pass (k := 5) e3 rfl) (r1 := false) (r2 := false) (p0 := 0) (p1 := 12) (p2 := 0)
      (by decide) ?_
    intro s4 q4
    have e4 : Prog.jump (pass R2) (pass R2 22 + BitVec.ofNat 32 ((0 : U8).toNat * 256 + (12 : U8).toNat)) 22 = 32 := by
      show pass R2 22 + BitVec.ofNat 32 12 = 32
      rw [e3]; rfl
    -- jp wait_second
    refine Go.jp hP q4 (fetched hb hp2.pass.jump (k := 8) e4 rfl) (r0 := true) (r1 := false) (r2 := false) (p1 := 0) (p2 := 8)
      (by decide) ?_
    intro s5 q5
    exact ⟨0, s5, .stay, ⟨⟨_, _, q5, hp2.pass.jump.jump, rfl, k2, g2⟩, hx⟩⟩
  · have hxy : x < y := by omega
    rw [decide_eq_false hyx] at q3
    change Shows fx s3 (pass (pass R2)) _ _ at q3
    rw [if_pos hxy, Nat.max_eq_right (by omega)] at *
    have e3 : pass (pass R2) 22 = 24 := by show R2 22 + 4 + 4 = 24; rw [e2]; rfl
    have k3 : pass (pass R2) 10 = 0x1000 := k2
    have f3 : pass (pass R2) 0 = BitVec.ofNat 32 y := f2
    have hp3 := hp2.pass.pass
    generalize pass (pass R2) = R3 at q3 e3 k3 f3 hp3
    -- wsa ac0, 24, a0
    refine Go.wsa hP q3 (fetched hb hp3 (k := 6) e3 rfl) (r0 := true) (r1 := false) (r2 := true) (p0 := 10) (p1 := 24) (p2 := 0)
      (devs' := comps { clock with reads := clock.reads + 1 } (calls ++ [(BitVec.ofNat 32 y, .hex, true)]))
      (by decide) (by decide) (by decide)
      (by show (R3 10 + 24).toNat % 4 = 0; rw [k3]; rfl)
      (by show Writes pf fx.maps _ (R3 10 + 24) (R3 0) _; rw [k3, f3]; exact display_writes hb) ?_
    intro s4 q4
    have e4 : pass R3 22 = 28 := by show R3 22 + 4 = 28; rw [e3]; rfl
    -- cpy a1, a0
    refine Go.cpy hP q4 (fetched hb hp3.pass (k := 7) e4 rfl) (r0 := true) (r1 := true) (r2 := false) (p0 := 1) (p1 := 0) (p2 := 0)
      (by decide) (by decide) (by decide) ?_
    intro s5 q5
    generalize hR5 : put (pass R3) _ _ = R5 at q5
    have hp5 : Plain R5 := by rw [← hR5]; exact hp3.pass.put (by decide)
    have e5 : R5 22 = 32 := by rw [← hR5]; show pass R3 22 + 4 = 32; rw [e4]; rfl
    have g5 : R5 1 = BitVec.ofNat 32 y := by rw [← hR5]; exact f3
    have k5 : R5 10 = 0x1000 := by rw [← hR5]; exact k3
    -- jp wait_second
    refine Go.jp hP q5 (fetched hb hp5 (k := 8) e5 rfl) (r0 := true) (r1 := false) (r2 := false) (p1 := 0) (p2 := 8)
      (by decide) ?_
    intro s6 q6
    exact ⟨0, s6, .stay, ⟨⟨_, _, q6, hp5.jump, rfl, k5, g5⟩, hy32⟩⟩

/-- The clock after the start and `k` readings. -/
def clockAt (system : Nat → Option Duration) (instant : Nat → Nat) (k : Nat) : RealtimeClock :=
  { hwId := 2, resetAt := instant 1, system, instant, reads := k + 2 }

/-- What the handler receives for a number. -/
def callOf (n : Nat) : Word × NumberFormat × Bool := (BitVec.ofNat 32 n, .hex, true)

theorem heads (hb : Board pf fx) {system : Nat → Option Duration} {instant : Nat → Nat} {s : Machine Dev}
    (h : Head fx (clockAt system instant 1) [] (seconds instant 0) s) (k : Nat) : ∃ n t, k ≤ n ∧ Goes pf n s t ∧
      Head fx (clockAt system instant (k + 1)) ((highs (seconds instant 0) (readings instant k)).map callOf)
        (highest (seconds instant 0) (readings instant k)) t := by
  induction k with
  | zero => exact ⟨0, s, Nat.le_refl _, .stay, h⟩
  | succ k ih =>
    obtain ⟨n, t, h1, h2, h3⟩ := ih
    obtain ⟨m, u, h4, h5⟩ := turn hb h3 (y := seconds instant (k + 1)) rfl
    have hr : readings instant (k + 1) = readings instant k ++ [seconds instant (k + 1)] := by
      unfold readings
      rw [List.range_succ, List.map_append]; rfl
    refine ⟨n + m, u, ?_, h2.trans h4, ?_⟩
    · cases m with
      | succ m => omega
      | zero =>
        cases h4
        obtain ⟨⟨_, _, g, _⟩, _⟩ := h3
        obtain ⟨⟨_, _, g', _⟩, _⟩ := h5
        have := g.devs.symm.trans g'.devs
        unfold comps at this
        injection this with _ this
        injection this with this _
        injection this with this
        injection this with this
        have := congrArg RealtimeClock.reads this
        change k + 1 + 2 = k + 1 + 2 + 1 at this
        omega
    · rw [hr, highs_append, highest_append, List.map_append]
      have : (if highest (seconds instant 0) (readings instant k) < seconds instant (k + 1) then [seconds instant (k + 1)] else []).map
          callOf = (if highest (seconds instant 0) (readings instant k) < seconds instant (k + 1) then
            [(BitVec.ofNat 32 (seconds instant (k + 1)), NumberFormat.hex, true)] else []) := by
        split <;> rfl
      rw [this]
      exact h5

theorem start (hb : Board pf fx) {system : Nat → Option Duration} {instant : Nat → Nat} {s : Machine Dev} {cyc : U128}
    {R : Nat → Word} (h : Shows fx s R (comps (clockAt system instant 0) []) cyc) (hp : Plain R) (h22 : R 22 = 0) :
    Leads pf (Head fx (clockAt system instant 1) [] (seconds instant 0)) s s.regs.pc := by
  have hP : Closed pf (Leads pf (Head fx (clockAt system instant 1) [] (seconds instant 0))) := Leads.closed
  -- cpy ac0, 0x1000
  refine Go.cpy hP h (fetched hb hp (k := 0) h22 rfl) (r0 := true) (r1 := false) (r2 := false) (p0 := 10) (p1 := 0x10) (p2 := 0)
    (by decide) (by decide) (by decide) ?_
  intro s1 q1
  generalize hR1 : put R _ _ = R1 at q1
  have hp1 : Plain R1 := by rw [← hR1]; exact hp.put (by decide)
  have e1 : R1 22 = 4 := by rw [← hR1]; show R 22 + 4 = 4; rw [h22]; rfl
  have k1 : R1 10 = 0x1000 := by rw [← hR1]; rfl
  -- lsa a1, ac0, 16
  refine Go.lsa hP q1 (fetched hb hp1 (k := 1) e1 rfl) (r0 := true) (r1 := true) (r2 := false) (p0 := 1) (p1 := 10) (p2 := 16)
    (w := BitVec.ofNat 32 (seconds instant 0)) (devs' := comps (clockAt system instant 1) [])
    (by decide) (by decide) (by decide) (by decide)
    (by show (R1 10 + 16).toNat % 4 = 0; rw [k1]; rfl)
    (by show Reads pf fx.maps _ (R1 10 + 16) _ _; rw [k1]; exact clock_reads hb) ?_
  intro s2 q2
  generalize hR2 : put R1 _ _ = R2 at q2
  refine ⟨0, s2, .stay, ⟨⟨R2, _, q2, ?_, ?_, ?_, ?_⟩, Nat.mod_lt _ (by decide)⟩⟩
  · rw [← hR2]; exact hp1.put (by decide)
  · rw [← hR2]; show R1 22 + 4 = 8; rw [e1]; rfl
  · rw [← hR2]; exact k1
  · rw [← hR2]; rfl

theorem line_callOf {n : Nat} (h : n < 2 ^ 32) : line (callOf n) = text n := by
  unfold line callOf text
  dsimp only
  rw [ofNat_toNat_lt h, List.append_assoc]
  split <;> rfl

theorem highs_mem {m : Nat} {xs : List Nat} {x : Nat} (h : x ∈ highs m xs) : x ∈ xs := by
  induction xs generalizing m with
  | nil => exact h
  | cons y ys ih =>
    unfold highs at h
    split at h
    · rcases List.mem_cons.1 h with rfl | h
      · exact List.mem_cons_self
      · exact List.mem_cons_of_mem _ (ih h)
    · exact List.mem_cons_of_mem _ (ih h)

set_option linter.constructorNameAsVariable false in
/-- **C88**: whatever the clock gives, the example assembles its program, starts, never ends (neither by a result nor by a
panic), never raises an exception, and reads the clock again and again; after each `k` readings that follow the first one, it
has printed one line for each of them that is greater than all those before it, in order, and nothing else. -/
theorem C88_elapsed_time (pf : Profile) (system : Nat → Option Duration) (instant : Nat → Nat) :
    (∀ r, ¬ Exec pf system instant r) ∧
    ∃ ds s0, components system instant = some ds ∧ prepareVm pf ds = some s0 ∧
      (∀ n, ∃ t, Goes pf n s0 t ∧ t.halted = false) ∧
      ∀ k, ∃ n t clock display, k ≤ n ∧ Goes pf n s0 t ∧ t.devs[1]? = some (.inr (.inl clock)) ∧ clock.reads = k + 3 ∧
        t.devs[2]? = some (.inr (.inr display)) ∧
        display.calls.map line = (highs (seconds instant 0) (readings instant k)).map text := by
  have hds : components system instant =
      some [.inl rom, .inr (.inl (RealtimeClock.new 2 system instant)), .inr (.inr (NumberDisplay.new 3))] := by
    unfold components
    rw [assemble_source]; rfl
  obtain ⟨s0, h0, hd, hml, hm⟩ := C62_succeeds_partial (pf := pf)
    (ds := [.inl rom, .inr (.inl (RealtimeClock.new 2 system instant)), .inr (.inr (NumberDisplay.new 3))])
    (ds' := comps (clockAt system instant 0) []) (sizes := [0x1000, 24, 64]) (by show 3 < 2 ^ 32; decide) rfl
    (by
      intro k d n hk hn
      match k with
      | 0 => cases hk; cases hn; exact BootRom.advertises rom (by decide)
      | 1 =>
        cases hk; cases hn
        obtain ⟨m, h1, h2⟩ := newEncode_size (hw := 2) (size := 24) (cat := .clock .realtime) (md := none) (dt := none) rfl
        exact ⟨m, h1, by rw [h2]; rfl⟩
      | 2 =>
        cases hk; cases hn
        obtain ⟨m, h1, h2⟩ := newEncode_size (hw := 3) (size := 64) (cat := .display .number) (md := none) (dt := none) rfl
        exact ⟨m, h1, by rw [h2]; rfl⟩
      | k + 3 => cases hk)
    (by decide) (by cases pf <;> decide) rfl
  have hr := C62_ready h0
  have hsh : Shows ⟨s0.mappings, s0.hwbCache⟩ s0 (fun n => if n = 31 then 1 else 0) (comps (clockAt system instant 0) []) 0 := by
    refine ⟨hr.2.1, rfl, rfl, hd, hr.2.2.1, ?_⟩
    rw [hr.1]
    intro n hn
    have : ∀ n : Fin 32, reg startup n.val = (if n.val = 31 then 1 else 0) := by decide
    exact this ⟨n, hn⟩
  have hb : Board pf ⟨s0.mappings, s0.hwbCache⟩ := by
    refine ⟨hr.2.2.2.2.2.2.1, ?_, ?_, ?_⟩
    · obtain ⟨m, e1, e2, e3, e4⟩ := hm 0 0x1000 rfl
      exact ⟨m, List.mem_of_getElem? e1, e2, BitVec.eq_of_toNat_eq e3, e4⟩
    · obtain ⟨m, e1, e2, e3, e4⟩ := hm 1 24 rfl
      exact ⟨m, List.mem_of_getElem? e1, e2, BitVec.eq_of_toNat_eq e3, e4⟩
    · obtain ⟨m, e1, e2, e3, e4⟩ := hm 2 64 rfl
      exact ⟨m, List.mem_of_getElem? e1, e2, BitVec.eq_of_toNat_eq e3, e4⟩
  obtain ⟨n0, t0, g0, hh⟩ := start hb hsh ⟨rfl, rfl, rfl⟩ rfl
  have hall : ∀ n, ∃ t, Goes pf n s0 t ∧ t.halted = false := by
    intro n
    obtain ⟨m, t, h1, h2, h3⟩ := heads hb hh (n + 1)
    exact (g0.trans h2).take (by omega)
  refine ⟨?_, _, s0, hds, h0, hall, ?_⟩
  · intro r hx
    unfold Exec at hx
    rw [hds] at hx
    simp only [ExecVm, h0] at hx
    exact no_result rfl hall r hx
  · intro k
    obtain ⟨m, t, h1, h2, ⟨⟨R, cyc, h3, _⟩, _⟩⟩ := heads hb hh k
    refine ⟨n0 + m, t, clockAt system instant (k + 1), ⟨3, _⟩, by omega, g0.trans h2, by rw [h3.devs]; rfl, rfl, by rw [h3.devs]; rfl, ?_⟩
    rw [List.map_map]
    apply List.map_congr_left
    intro n hn
    refine line_callOf ?_
    have := highs_mem hn
    unfold readings at this
    obtain ⟨i, _, rfl⟩ := List.mem_map.1 this
    exact Nat.mod_lt _ (by decide)

/-- **C88**, when the clock goes forward: the lines that have been printed are those of the numbers of seconds that were
read after the first one, once each, in increasing order, and the first reading is not printed. -/
theorem C88_monotone {instant : Nat → Nat} (hmono : ∀ i, instant i ≤ instant (i + 1)) {k : Nat}
    (hlt : (instant (k + 2) - instant 1) / 1000000000 < 2 ^ 32) :
    (highs (seconds instant 0) (readings instant k)).Pairwise (· < ·) ∧
    ∀ n, n ∈ highs (seconds instant 0) (readings instant k) ↔
      seconds instant 0 < n ∧ ∃ i, 1 ≤ i ∧ i ≤ k ∧ n = (instant (i + 2) - instant 1) / 1000000000 := by
  have hle : ∀ {i j}, i ≤ j → instant i ≤ instant j := by
    intro i j h
    induction h with
    | refl => exact Nat.le_refl _
    | step _ ih => exact Nat.le_trans ih (hmono _)
  have hs : ∀ i, i ≤ k → seconds instant i = (instant (i + 2) - instant 1) / 1000000000 := by
    intro i hi
    refine Nat.mod_eq_of_lt (Nat.lt_of_le_of_lt (Nat.div_le_div_right ?_) hlt)
    have := hle (show i + 2 ≤ k + 2 by omega)
    omega
  have hsm : ∀ i j, i ≤ j → j ≤ k → seconds instant i ≤ seconds instant j := by
    intro i j h1 h2
    rw [hs i (by omega), hs j h2]
    refine Nat.div_le_div_right ?_
    have := hle (show i + 2 ≤ j + 2 by omega)
    omega
  have key : ∀ j, j ≤ k → (highs (seconds instant 0) (readings instant j)).Pairwise (· < ·) ∧
      highest (seconds instant 0) (readings instant j) = seconds instant j ∧
      (∀ n ∈ highs (seconds instant 0) (readings instant j), n ≤ seconds instant j) ∧
      ∀ n, n ∈ highs (seconds instant 0) (readings instant j) ↔
        seconds instant 0 < n ∧ ∃ i, 1 ≤ i ∧ i ≤ j ∧ n = seconds instant i := by
    intro j
    induction j with
    | zero =>
      intro _
      refine ⟨List.Pairwise.nil, rfl, fun n h => (by cases h), fun n => ⟨fun h => (by cases h), ?_⟩⟩
      rintro ⟨_, i, h1, h2, _⟩
      omega
    | succ j ih =>
      intro hj
      obtain ⟨i1, i2, i3, i4⟩ := ih (by omega)
      have hjj := hsm j (j + 1) (by omega) hj
      have h0j := hsm 0 j (by omega) (by omega)
      have hr : readings instant (j + 1) = readings instant j ++ [seconds instant (j + 1)] := by
        unfold readings
        rw [List.range_succ, List.map_append]; rfl
      rw [hr, highs_append, highest_append, i2]
      refine ⟨?_, Nat.max_eq_right hjj, ?_, ?_⟩
      · split
        · next h =>
          refine List.pairwise_append.2 ⟨i1, List.pairwise_singleton _ _, ?_⟩
          intro x hx y hy
          cases List.mem_singleton.1 hy
          exact Nat.lt_of_le_of_lt (i3 x hx) h
        · rw [List.append_nil]; exact i1
      · intro n hn
        rcases List.mem_append.1 hn with hn | hn
        · exact Nat.le_trans (i3 n hn) hjj
        · split at hn
          · cases List.mem_singleton.1 hn; exact Nat.le_refl _
          · cases hn
      · intro n
        rw [List.mem_append, i4]
        constructor
        · rintro (⟨h1, i, h2, h3, h4⟩ | hn)
          · exact ⟨h1, i, h2, by omega, h4⟩
          · split at hn
            · cases List.mem_singleton.1 hn
              exact ⟨by omega, j + 1, by omega, by omega, rfl⟩
            · cases hn
        · rintro ⟨h1, i, h2, h3, h4⟩
          by_cases hi : i ≤ j
          · exact .inl ⟨h1, i, h2, hi, h4⟩
          · have : i = j + 1 := by omega
            subst this
            by_cases hlt : seconds instant j < seconds instant (j + 1)
            · rw [if_pos hlt]; exact .inr (List.mem_singleton.2 h4)
            · left
              have e : seconds instant (j + 1) = seconds instant j := by omega
              cases j with
              | zero => omega
              | succ j => exact ⟨h1, j + 1, by omega, by omega, by rw [h4, e]⟩
  obtain ⟨k1, _, _, k4⟩ := key k (Nat.le_refl _)
  refine ⟨k1, fun n => (k4 n).trans ?_⟩
  constructor
  · rintro ⟨h1, i, h2, h3, h4⟩
    exact ⟨h1, i, h2, h3, by rw [h4, hs i h3]⟩
  · rintro ⟨h1, i, h2, h3, h4⟩
    exact ⟨h1, i, h2, h3, by rw [h4, hs i h3]⟩

/-- A clock read twice a second. -/
example : (highs (seconds (fun i => i * 500000000) 0) (readings (fun i => i * 500000000) 5)).map text =
    ["Elapsed: 1 second".toList, "Elapsed: 2 seconds".toList, "Elapsed: 3 seconds".toList] := by decide

end Lrvm.ElapsedTime
