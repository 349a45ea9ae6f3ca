import Verif.Lemmas.Programs
import Verif.Lemmas.ProgramRuns
import Verif.Model.Examples.Benchmark
import Verif.Props.Tools.Prepare
import Verif.Props.Tools.Run
import Verif.Props.Devices.Memories

/-!
# The examples `benchmark` and `minimal`: C86
-/

namespace Lrvm.Benchmark

open Spec Lasm Lrvm Prog

variable {pf : Profile}

/-- The program for a shift of `n` bits. -/
def code (n : Nat) : List Word :=
  [0x1c000001, 0x0c010001, instrWord 0x0B true false false 1 (BitVec.ofNat 8 n) 0, 0x6e000100, 0x88000000, 0xf0000000, 0x0c160000]

set_option maxRecDepth 100000 in
theorem assemble_source : ∀ n : Fin 32, assembleWords (source (toString n.val).toList) = some (code n.val) := by
  decide +kernel

variable {fx : Fixed} {rom : BootRom}

theorem rom_reads {n : Nat} (ht : TableOk pf fx.maps) (hm : ∃ m ∈ fx.maps, m.auxId = 0 ∧ m.addr = 0 ∧ m.size.toNat = 28)
    (hs : rom.storage = code n) (hl : rom.len = 7) {k : Nat} {b w : Word} (hk : b = BitVec.ofNat 32 (4 * k))
    (h : (code n)[k]? = some w) : Reads pf fx.maps [rom] b w [rom] := by
  obtain ⟨m, hm, h0, h1, h2⟩ := hm
  have hk7 : k < 7 := (List.getElem?_eq_some_iff.1 h).1
  have hb : b.toNat = 4 * k := by rw [hk, BitVec.toNat_ofNat]; omega
  have hr : Bus.read (D := BootRom) rom (b - m.addr) 0 = some (rom, w, 0) := by
    have hd : (b / 4).toNat = k := by
      rw [BitVec.toNat_udiv, hb]; show 4 * k / 4 = k; omega
    have hb4 : b / 4 < rom.len := by rw [BitVec.lt_def, hd, hl]; exact hk7
    have hz : b - m.addr = b := by rw [h1]; exact BitVec.sub_zero _
    rw [hz]
    show (if b / 4 < rom.len then _ else _) = _
    rw [if_pos hb4, hd, hs, h]
    rfl
  have := Reads.of (devs := [rom]) ht hm (b := b) (by unfold covers; rw [h1, h2]; exact ⟨Nat.zero_le _, by show _ < 0 + _; omega⟩)
    (by omega) (by rw [h0]; rfl) hr
  rw [h0] at this
  exact this

theorem loop_ends {n : Nat} (hn : n < 32) (ht : TableOk pf fx.maps)
    (hm : ∃ m ∈ fx.maps, m.auxId = 0 ∧ m.addr = 0 ∧ m.size.toNat = 28) (hs : rom.storage = code n) (hl : rom.len = 7) :
    ∀ (m k : Nat) (R : Nat → Word) (s : Machine BootRom) (a : Word), k + m + 1 = 2 ^ n →
    Shows fx s R [rom] (BitVec.ofNat 128 (6 * k)) → Plain R → R 22 = 0 → R 0 = BitVec.ofNat 32 k →
    Ends pf (fun s' a' => s'.cycles = BitVec.ofNat 128 (6 * 2 ^ n) ∧ a' = 20 ∧ reg s'.regs 0 = BitVec.ofNat 32 (2 ^ n)) s a := by
  have hpow : 2 ^ n < 2 ^ 32 := Nat.pow_lt_pow_right (by decide) hn
  have fetched : ∀ {R : Nat → Word} {k : Nat} {w : Word}, Plain R → R 22 = BitVec.ofNat 32 (4 * k) → (code n)[k]? = some w →
      Fetched pf fx R [rom] w := by
    intro R k w hp h22 h
    have hk7 : k < 7 := (List.getElem?_eq_some_iff.1 h).1
    exact ⟨hp, by rw [h22, BitVec.toNat_ofNat]; omega, rom_reads ht hm hs hl h22 h⟩
  have turn : ∀ {k : Nat} {R : Nat → Word} {s : Machine BootRom} {a : Word} {P : Machine BootRom → Word → Prop}, Closed pf P →
      k < 2 ^ n → Shows fx s R [rom] (BitVec.ofNat 128 (6 * k)) → Plain R → R 22 = 0 → R 0 = BitVec.ofNat 32 k →
      (∀ R' s' a', Shows fx s' R' [rom] (BitVec.ofNat 128 (6 * k + 5)) → Plain R' → R' 0 = BitVec.ofNat 32 (k + 1) →
        R' 22 = (if k + 1 = 2 ^ n then 20 else 24) → P s' a') → P s a := by
    intro k R s a P hP hk h hp h22 h0 hc
    -- add a0, 1
    refine Go.add hP h (fetched hp (k := 0) h22 rfl) (r0 := true) (r1 := false) (r2 := false) (p0 := 0) (p1 := 0) (p2 := 1)
      (by decide) (by decide) (by decide) ?_
    intro s1 h1
    generalize hR1 : put (flagged R _) _ _ = R1 at h1
    have hp1 : Plain R1 := by rw [← hR1]; exact hp.flagged.put (by decide)
    have e1 : R1 22 = 4 := by rw [← hR1]; show R 22 + 4 = 4; rw [h22]; rfl
    have f1 : R1 0 = BitVec.ofNat 32 (k + 1) := by
      rw [← hR1]; show R 0 + 1 = _; rw [h0]
      exact (BitVec.ofNat_add k 1).symm
    -- cpy a1, 1
    refine Go.cpy hP h1 (fetched hp1 (k := 1) e1 rfl) (r0 := true) (r1 := false) (r2 := false) (p0 := 1) (p1 := 0) (p2 := 1)
      (by decide) (by decide) (by decide) ?_
    intro s2 h2
    generalize hR2 : put R1 _ _ = R2 at h2
    have hp2 : Plain R2 := by rw [← hR2]; exact hp1.put (by decide)
    have e2 : R2 22 = 8 := by rw [← hR2]; show R1 22 + 4 = 8; rw [e1]; rfl
    have f2 : R2 0 = BitVec.ofNat 32 (k + 1) := by rw [← hR2]; exact f1
    have g2 : R2 1 = 1 := by rw [← hR2]; rfl
    -- shl a1, n
    refine Go.shl hP h2 (fetched hp2 (k := 2) e2 rfl) (r0 := true) (r1 := false) (r2 := false) (p0 := 1)
      (p1 := BitVec.ofNat 8 n) (p2 := 0) (by decide) (by decide) (by simp) ?_
    intro s3 h3
    generalize hR3 : put (flagged R2 _) _ _ = R3 at h3
    have hp3 : Plain R3 := by rw [← hR3]; exact hp2.flagged.put (by decide)
    have e3 : R3 22 = 12 := by rw [← hR3]; show R2 22 + 4 = 12; rw [e2]; rfl
    have f3 : R3 0 = BitVec.ofNat 32 (k + 1) := by rw [← hR3]; exact f2
    have g3 : R3 1 = BitVec.ofNat 32 (2 ^ n) := by
      rw [← hR3]
      show R2 1 <<< ((opVal1 R2 false (BitVec.ofNat 8 n)).toNat % 32) = _
      have : (opVal1 R2 false (BitVec.ofNat 8 n)).toNat % 32 = n := by
        unfold opVal1
        rw [if_neg (by decide), BitVec.toNat_ofNat, BitVec.toNat_ofNat]
        omega
      rw [this, g2]
      apply BitVec.eq_of_toNat_eq
      rw [BitVec.toNat_shiftLeft, BitVec.toNat_ofNat, Nat.shiftLeft_eq]
      show 1 * 2 ^ n % _ = _
      rw [Nat.one_mul]
    -- cmp a0, a1
    refine Go.cmp hP h3 (fetched hp3 (k := 3) e3 rfl) (r0 := true) (r1 := true) (r2 := false) (p0 := 0) (p1 := 1) (p2 := 0)
      (by decide) (by decide) ?_
    intro s4 h4
    have hp4 := (hp3.flagged (f := cmpFlags (R3 0) (R3 1))).pass
    have e4 : pass (flagged R3 (cmpFlags (R3 0) (R3 1))) 22 = 16 := by
      show R3 22 + 4 = 16; rw [e3]; rfl
    -- ifeq
    refine Go.ifFlag hP h4 (.inl ⟨rfl, rfl⟩) (fetched hp4 (k := 4) e4 rfl) (r1 := false) (r2 := false) (p0 := 0) (p1 := 0)
      (p2 := 0) (by decide) ?_
    intro s5 h5
    have ef : (flag (cmpFlags (R3 0) (R3 1)) 0 == true) = decide (k + 1 = 2 ^ n) := by
      have : R3 0 = R3 1 ↔ k + 1 = 2 ^ n := by
        rw [f3, g3]
        constructor
        · intro he
          have he := congrArg BitVec.toNat he
          rw [BitVec.toNat_ofNat, BitVec.toNat_ofNat] at he
          omega
        · intro he; rw [he]
      rw [cmpFlags_zero, decide_eq_decide.2 this]
      cases decide (k + 1 = 2 ^ n) <;> rfl
    change Shows fx s5 (skipUnless (pass (flagged R3 (cmpFlags (R3 0) (R3 1)))) (flag (cmpFlags (R3 0) (R3 1)) 0 == true)) _ _ at h5
    rw [ef] at h5
    refine hc _ s5 _ ?_ (hp4.skipUnless (b := decide (k + 1 = 2 ^ n))) ?_ ?_
    · have : BitVec.ofNat 128 (6 * k) + 1 + 1 + 1 + 1 + 1 = BitVec.ofNat 128 (6 * k + 5) := by
        rw [BitVec.ofNat_add]
        simp only [BitVec.add_assoc]
        rfl
      rw [← this]
      exact h5
    · unfold skipUnless pass Prog.jump
      split <;> exact f3
    · by_cases hz : k + 1 = 2 ^ n
      · rw [if_pos hz, decide_eq_true hz]
        show pass (flagged R3 _) 22 + 4 = 20
        rw [e4]; rfl
      · rw [if_neg hz, decide_eq_false hz]
        show pass (flagged R3 _) 22 + 4 + 4 = 24
        rw [e4]; rfl
  intro m
  induction m with
  | zero =>
    intro k R s a hk h hp h22 h0
    refine turn Ends.closed (by omega) h hp h22 h0 ?_
    intro R5 s5 a5 h5 hp5 f5 e5
    rw [if_pos (by omega)] at e5
    refine Go.halt Ends.closed h5 (fetched hp5 (k := 5) e5 rfl) (r0 := false) (r1 := false) (r2 := false)
      (p0 := 0) (p1 := 0) (p2 := 0) ?_
    intro s6 q1 q2 q3 q4 q5
    refine .halted q1 ⟨?_, e5, ?_⟩
    · rw [q3, show 6 * 2 ^ n = 6 * k + 5 + 1 by omega]
      exact (BitVec.ofNat_add (6 * k + 5) 1).symm
    · rw [q5 0 (by decide)]
      show R5 0 = _
      rw [f5, ← hk]
  | succ m ih =>
    intro k R s a hk h hp h22 h0
    refine turn Ends.closed (by omega) h hp h22 h0 ?_
    intro R5 s5 a5 h5 hp5 f5 e5
    rw [if_neg (by omega)] at e5
    -- jp main
    refine Go.jp Ends.closed h5 (fetched hp5 (k := 6) e5 rfl) (r0 := true) (r1 := false) (r2 := false) (p1 := 0)
      (p2 := 0) (by decide) ?_
    intro s6 h6
    refine ih (k + 1) _ s6 _ (by omega) ?_ hp5.jump rfl f5
    rw [Nat.mul_add, show 6 * k + 6 * 1 = 6 * k + 5 + 1 by omega, BitVec.ofNat_add (6 * k + 5) 1]
    exact h6

/-- **C86**: with a shift of `n` bits (24 in the repository), for every `n` below 32, the benchmark runs without exception
for exactly `6 * 2 ^ n` cycles, prints nothing, stops on its `halt` at address `0x14`, and has counted to `2 ^ n`. -/
theorem C86_benchmark (pf : Profile) {n : Nat} (hn : n < 32) :
    ∃ s, reg s.regs 0 = BitVec.ofNat 32 (2 ^ n) ∧ s.halted = true ∧
      ∀ r, Exec pf (source (toString n).toList) (RunConfig.quiet.withHaltOnException true) r ↔
        r = some (s, ⟨BitVec.ofNat 128 (6 * 2 ^ n), 0x14, none⟩, []) := by
  let rom : BootRom := { storage := code n, len := 7, size := 7, hwId := 0 }
  have hnew : BootRom.new (code n) 0 = some rom := rfl
  obtain ⟨s0, h0, hd, hml, hm⟩ := C62_succeeds_partial (pf := pf) (ds := [rom]) (ds' := [rom]) (sizes := [28]) (by show 1 < 2 ^ 32; decide) rfl
    (by
      intro k d n hk hn
      match k with
      | 0 => cases hk; cases hn; exact BootRom.advertises rom (by show 7 * 4 < 2 ^ 32; decide)
      | k + 1 => cases hk)
    (by decide) (by cases pf <;> decide) rfl
  have hr := C62_ready h0
  have hsh : Shows ⟨s0.mappings, s0.hwbCache⟩ s0 (fun n => if n = 31 then 1 else 0) [rom] 0 := by
    refine ⟨hr.2.1, rfl, rfl, hd, hr.2.2.1, ?_⟩
    rw [hr.1]
    intro n hn
    have : ∀ n : Fin 32, reg startup n.val = (if n.val = 31 then 1 else 0) := by decide
    exact this ⟨n, hn⟩
  have hpos := Nat.two_pow_pos n
  have hends := loop_ends (rom := rom) (fx := ⟨s0.mappings, s0.hwbCache⟩) hn hr.2.2.2.2.2.2.1
    (by
      obtain ⟨m, e1, e2, e3, e4⟩ := hm 0 28 rfl
      exact ⟨m, List.mem_of_getElem? e1, e2, BitVec.eq_of_toNat_eq e3, e4⟩) rfl rfl (2 ^ n - 1) 0 _ s0 s0.regs.pc
    (by omega) hsh ⟨rfl, rfl, rfl⟩ rfl rfl
  obtain ⟨s, a, h1, ⟨h2, rfl, h4⟩, h5⟩ := execVm_of_ends (cfg := RunConfig.quiet.withHaltOnException true) rfl rfl h0 hends
  refine ⟨s, h4, h1, fun r => ?_⟩
  unfold Exec
  rw [assemble_source ⟨n, hn⟩]
  simp only [hnew]
  rw [h5]
  unfold runFinish
  rw [h2]
  rfl

/-- The benchmark of the repository. -/
example : ∃ s, reg s.regs 0 = 16777216 ∧ s.halted = true ∧
    ∀ r, Exec .release (source "24".toList) (RunConfig.quiet.withHaltOnException true) r ↔
      r = some (s, ⟨100663296, 0x14, none⟩, []) := C86_benchmark .release (n := 24) (by decide)

/-- **C86**, the minimal example: one cycle, and one line printed. -/
theorem C86_minimal (pf : Profile) : ∃ s, s.halted = true ∧ ∀ r, Exec pf "halt".toList RunConfig.default r ↔
    r = some (s, ⟨1, 0, none⟩, ["[lrvm] Cycle 0x00000001: CPU halted at address 0x00000000".toList]) := by
  let rom : BootRom := { storage := [0xf0000000], len := 1, size := 1, hwId := 0 }
  have hasm : assembleWords "halt".toList = some [0xf0000000] := by decide +kernel
  have hnew : BootRom.new [0xf0000000] 0 = some rom := rfl
  obtain ⟨s0, h0, hd, hml, hm⟩ := C62_succeeds_partial (pf := pf) (ds := [rom]) (ds' := [rom]) (sizes := [4]) (by decide) rfl
    (by
      intro k d n hk hn
      match k with
      | 0 => cases hk; cases hn; exact BootRom.advertises rom (by decide)
      | k + 1 => cases hk)
    (by decide) (by cases pf <;> decide) rfl
  have hr := C62_ready h0
  have hsh : Shows ⟨s0.mappings, s0.hwbCache⟩ s0 (fun n => if n = 31 then 1 else 0) [rom] 0 := by
    refine ⟨hr.2.1, rfl, rfl, hd, hr.2.2.1, ?_⟩
    rw [hr.1]
    intro n hn
    have : ∀ n : Fin 32, reg startup n.val = (if n.val = 31 then 1 else 0) := by decide
    exact this ⟨n, hn⟩
  obtain ⟨m, e1, e2, e3, e4⟩ := hm 0 4 rfl
  have e3' : m.addr = 0 := BitVec.eq_of_toNat_eq e3
  have hread : Reads pf s0.mappings [rom] 0 0xf0000000 [rom] := by
    have := Reads.of (pf := pf) (devs := [rom]) hr.2.2.2.2.2.2.1 (List.mem_of_getElem? e1) (b := 0) (w := 0xf0000000) (d := rom) (d' := rom)
      (by unfold covers; rw [e3', e4]; decide) (by decide) (by rw [e2]; rfl) (by rw [e3']; rfl)
    rw [e2] at this
    exact this
  have hends : Ends pf (fun s a => s.cycles = 1 ∧ a = 0) s0 s0.regs.pc := by
    refine Go.halt Ends.closed hsh ⟨⟨rfl, rfl, rfl⟩, by decide, hread⟩ (r0 := false) (r1 := false) (r2 := false)
      (p0 := 0) (p1 := 0) (p2 := 0) ?_
    intro s1 q1 q2 q3 q4 q5
    exact .halted q1 ⟨q3, rfl⟩
  obtain ⟨s, a, h1, ⟨h2, rfl⟩, h5⟩ := execVm_of_ends (cfg := RunConfig.default) rfl rfl h0 hends
  refine ⟨s, h1, fun r => ?_⟩
  unfold Exec
  rw [hasm]
  simp only [hnew]
  rw [h5]
  unfold runFinish
  rw [h2]
  have : prettifyStop ⟨1, 0, none⟩ = some "Cycle 0x00000001: CPU halted at address 0x00000000".toList := by decide +kernel
  simp only [this]
  rfl

end Lrvm.Benchmark
