import Verif.Lemmas.Programs
import Verif.Lemmas.HelloAsm
import Verif.Lemmas.Text
import Verif.Props.Tools.Prepare
import Verif.Props.Devices.Memories
import Verif.Props.Devices.Displays
import Verif.Props.Devices.Keyboards

/-!
# The example `hello_world`: C85
-/

namespace Lrvm.HelloWorld

open Spec Lasm Lrvm Prog

/-! ## Running -/

variable {pf : Profile}

/-- The components while the program runs. -/
def comps (rom : BootRom) (ram : Ram) (d : BufferedDisplay) : List Dev := [.inl rom, .inr (.inl ram), .inr (.inr d)]

/-- What is known of the board. -/
structure Board (pf : Profile) (fx : Fixed) : Prop where
  table : TableOk pf fx.maps
  rom : ∃ m ∈ fx.maps, m.auxId = 0 ∧ m.addr = 0 ∧ m.size.toNat = 0x1000
  display : ∃ m ∈ fx.maps, m.auxId = 2 ∧ m.addr = 0x2000 ∧ m.size.toNat = 0x100

variable {fx : Fixed} {rom : BootRom} {ram : Ram} {d d' : BufferedDisplay}

theorem rom_reads (hb : Board pf fx) {k : Nat} {b w : Word} (hk : b.toNat = 4 * k) (hlt : 4 * k < 0x1000)
    (hl : rom.len.toNat = rom.storage.length) (h : rom.storage[k]? = some w) :
    Reads pf fx.maps (comps rom ram d) b w (comps rom ram d) := by
  obtain ⟨m, hm, h0, h1, h2⟩ := hb.rom
  have hr : Bus.read (D := Dev) (.inl rom) (b - m.addr) 0 = some (.inl rom, w, 0) := by
    have hd : (b / 4).toNat = k := by
      rw [BitVec.toNat_udiv, hk]; show 4 * k / 4 = k; omega
    have hlt : k < rom.storage.length := (List.getElem?_eq_some_iff.1 h).1
    have hb4 : b / 4 < rom.len := by rw [BitVec.lt_def, hd]; omega
    have hz : b - m.addr = b := by rw [h1]; exact BitVec.sub_zero _
    rw [hz]
    show Option.map _ (if b / 4 < rom.len then _ else _) = _
    rw [if_pos hb4, hd, h]
    rfl
  have := Reads.of hb.table hm (b := b) (devs := comps rom ram d) (by unfold covers; rw [h1, h2]; exact ⟨Nat.zero_le _, by show _ < 0 + _; omega⟩)
    (by omega) (by rw [h0]; rfl) hr
  rw [h0] at this
  exact this

theorem display_writes (hb : Board pf fx) {b w : Word} {k : Nat} (hk : b.toNat = 0x2000 + 4 * k) (hlt : 4 * k < 0x100)
    (h : d.write (BitVec.ofNat 32 (4 * k)) w 0 = some (d', 0)) :
    Writes pf fx.maps (comps rom ram d) b w (comps rom ram d') := by
  obtain ⟨m, hm, h0, h1, h2⟩ := hb.display
  have hz : b - m.addr = BitVec.ofNat 32 (4 * k) := by
    apply BitVec.eq_of_toNat_eq
    rw [h1, BitVec.toNat_sub, BitVec.toNat_ofNat, hk]
    show (4294967296 - 8192 + (0x2000 + 4 * k)) % 4294967296 = _
    omega
  have hr : Bus.write (D := Dev) (.inr (.inr d)) (b - m.addr) w 0 = some (.inr (.inr d'), 0) := by
    rw [hz]
    show Option.map _ (Option.map _ (d.write _ w 0)) = _
    rw [h]; rfl
  have := Writes.of hb.table hm (b := b) (w := w) (devs := comps rom ram d) (by unfold covers; rw [h1, h2]; exact ⟨by show 8192 ≤ _; omega, by show _ < 8192 + _; omega⟩)
    (by omega) (by rw [h0]; rfl) hr
  rw [h0] at this
  exact this

theorem fetched (hb : Board pf fx) {R : Nat → Word} {ws : List Word} (hs : rom.storage = code ++ ws)
    (hl : rom.len.toNat = rom.storage.length) (hp : Plain R) {k : Nat} {w : Word} (hpc : R 22 = BitVec.ofNat 32 (4 * k))
    (h : code[k]? = some w) : Fetched pf fx R (comps rom ram d) w := by
  have hk : k < code.length := (List.getElem?_eq_some_iff.1 h).1
  have hk' : k < 13 := hk
  have hn : (R 22).toNat = 4 * k := by rw [hpc, BitVec.toNat_ofNat]; omega
  refine ⟨hp, by omega, ?_⟩
  exact rom_reads hb hn (by omega) hl (by rw [hs, List.getElem?_append_left hk]; exact h)

/-- The display after the message is copied and displayed. -/
def shown (d : BufferedDisplay) (ws : List Word) : BufferedDisplay :=
  { d with buffer := ws ++ List.replicate (63 - ws.length) 0
           calls := [decodeStr (wordsToBytes (ws ++ List.replicate (63 - ws.length) 0))] }

/-- The head of the loop: load a word and compare it with zero. -/
theorem check (hb : Board pf fx) {ws : List Word} (hs : rom.storage = code ++ ws) (hl : rom.len.toNat = rom.storage.length)
    {P : Machine Dev → Word → Prop} (hP : Closed pf P) {R : Nat → Word} {cyc : U128} {s : Machine Dev} {a w : Word} {i : Nat}
    (h : Shows fx s R (comps rom ram d) cyc) (hp : Plain R) (h22 : R 22 = 12) (h10 : R 10 = BitVec.ofNat 32 (52 + 4 * i))
    (hi : i ≤ 63) (hw : ws[i]? = some w)
    (hk : ∀ s' R' cyc' a', Shows fx s' R' (comps rom ram d) cyc' → Plain R' → R' 0 = w → R' 10 = R 10 → R' 11 = R 11 →
      R' 12 = R 12 → R' 22 = (if w = 0 then 24 else 28) → P s' a') : P s a := by
  have hal : (opVal1 R true 0x0A + opVal1 R false 0).toNat = 52 + 4 * i := by
    show (R 10 + 0#32).toNat = _
    rw [h10, BitVec.add_zero, BitVec.toNat_ofNat]; omega
  refine Go.lsa hP h (fetched hb hs hl hp (k := 3) h22 rfl) (w := w) (p0 := 0) (p1 := 0x0A) (p2 := 0) (r1 := true)
    (r2 := false) (r0 := true) (by decide) (by decide) (by decide) (by decide) (by omega)
    (rom_reads hb (k := 13 + i) (by omega) (by omega) hl ?_) ?_
  · rw [hs, List.getElem?_append_right (by simp [code])]
    simpa [code] using hw
  intro s1 h1
  have hp1 := hp.put (c := 0) (w := w) (by decide)
  have e1 : put R 0 w 22 = 16 := by show R 22 + 4 = 16; rw [h22]; rfl
  refine Go.cmp hP h1 (fetched hb hs hl hp1 (k := 4) e1 rfl) (r0 := true) (r1 := false) (r2 := false) (p0 := 0) (p1 := 0) (p2 := 0)
    (by decide) (by decide) ?_
  intro s2 h2
  have hp2 := (hp1.flagged (f := cmpFlags w 0)).pass
  have e2 : pass (flagged (put R 0 w) (cmpFlags w 0)) 22 = 20 := by
    show put R 0 w 22 + 4 = 20; rw [e1]; rfl
  refine Go.ifFlag hP h2 (.inl ⟨rfl, rfl⟩) (fetched hb hs hl hp2 (k := 5) e2 rfl) (r1 := false) (r2 := false) (p0 := 0)
    (p1 := 0) (p2 := 0) (by decide) ?_
  intro s3 h3
  have ef : (flag (cmpFlags w 0) 0 == true) = decide (w = 0) := by rw [cmpFlags_zero]; simp
  change Shows fx s3 (skipUnless (pass (flagged (put R 0 w) (cmpFlags w 0))) (flag (cmpFlags w 0) 0 == true)) _ _ at h3
  rw [ef] at h3
  have aux : ∀ n, n ≠ 22 → skipUnless (pass (flagged (put R 0 w) (cmpFlags w 0))) (decide (w = 0)) n =
      flagged (put R 0 w) (cmpFlags w 0) n := by
    intro n hn
    unfold skipUnless pass Prog.jump
    split <;> simp [hn]
  refine hk s3 _ _ _ h3 hp2.skipUnless ?_ ?_ ?_ ?_ ?_
  · rw [aux 0 (by decide)]; rfl
  · rw [aux 10 (by decide)]; rfl
  · rw [aux 11 (by decide)]; rfl
  · rw [aux 12 (by decide)]; rfl
  · by_cases hz : w = 0
    · rw [if_pos hz, decide_eq_true hz]
      show pass (flagged (put R 0 w) (cmpFlags w 0)) 22 + 4 = 24
      rw [e2]; rfl
    · rw [if_neg hz, decide_eq_false hz]
      show pass (flagged (put R 0 w) (cmpFlags w 0)) 22 + 4 + 4 = 28
      rw [e2]; rfl

/-- The machine at the head of the loop, the words of `pre` having been copied. -/
structure Head (fx : Fixed) (rom : BootRom) (ram : Ram) (d0 : BufferedDisplay) (pre : List Word) (s : Machine Dev) : Prop where
  intro ::
  h : ∃ R cyc, Shows fx s R (comps rom ram { d0 with buffer := pre ++ List.replicate (63 - pre.length) 0, calls := [] }) cyc ∧
    Plain R ∧ R 22 = 12 ∧ R 10 = BitVec.ofNat 32 (52 + 4 * pre.length) ∧ R 11 = BitVec.ofNat 32 (0x2000 + 4 * pre.length) ∧
    R 12 = 0x20FC

variable {d0 : BufferedDisplay} {P : Machine Dev → Word → Prop}

/-- One more word is copied. -/
theorem iter (hb : Board pf fx) {ws : List Word} (hs : rom.storage = code ++ ws)
    (hl : rom.len.toNat = rom.storage.length) (hwd : d0.words = 63) (hP : Closed pf P) {pre : List Word} {w : Word}
    {s : Machine Dev} {a : Word} (hpl : pre.length < 63) (hget : ws[pre.length]? = some w) (hw : w ≠ 0)
    (h : Head fx rom ram d0 pre s) (hk : ∀ s' a', Head fx rom ram d0 (pre ++ [w]) s' → P s' a') : P s a := by
  obtain ⟨R, cyc, h, hp, h22, h10, h11, h12⟩ := h
  refine check hb hs hl hP h hp h22 h10 (by omega) (w := w) hget ?_
  intro s3 R3 cyc3 a3 h3 hp3 z0 z10 z11 z12 z22
  rw [if_neg hw] at z22
  have hdst : (opVal1 R3 true 0x0B + opVal1 R3 false 0).toNat = 0x2000 + 4 * pre.length := by
    show (R3 11 + 0#32).toNat = _
    rw [z11, h11, BitVec.add_zero, BitVec.toNat_ofNat]; omega
  have hbuf : ({ d0 with buffer := pre ++ List.replicate (63 - pre.length) 0, calls := [] } : BufferedDisplay).write
      (BitVec.ofNat 32 (4 * pre.length)) (opVal1 R3 true 0) 0 = some ({ d0 with buffer := (pre ++ [w]) ++ List.replicate (63 - (pre ++ [w]).length) 0, calls := [] }, 0) := by
    unfold BufferedDisplay.write
    have hd : (BitVec.ofNat 32 (4 * pre.length) / 4 : Word).toNat = pre.length := by
      rw [BitVec.toNat_udiv, BitVec.toNat_ofNat]
      show 4 * pre.length % 2 ^ 32 / 4 = _
      omega
    simp only []
    rw [if_pos (by rw [BitVec.lt_def, hd, hwd]; show _ < 63; omega), hd, if_pos (by simp; omega)]
    show some (({ d0 with buffer := _, calls := [] } : BufferedDisplay), (0 : U16)) = _
    rw [show opVal1 R3 true 0 = w from z0]
    have : (pre ++ List.replicate (63 - pre.length) (0 : Word)).set pre.length w =
        (pre ++ [w]) ++ List.replicate (63 - (pre ++ [w]).length) 0 := by
      have hr : List.replicate (63 - pre.length) (0 : Word) = 0 :: List.replicate (63 - (pre ++ [w]).length) 0 := by
        rw [← List.replicate_succ]; congr 1; simp; omega
      rw [hr, List.set_append_right _ _ (Nat.le_refl _), Nat.sub_self]
      simp
    rw [this]
  -- wsa ac1, 0, a0
  refine Go.wsa hP h3 (fetched hb hs hl hp3 (k := 7) z22 rfl) (r0 := true) (r1 := false) (r2 := true)
    (p0 := 0x0B) (p1 := 0) (p2 := 0) (by decide) (by decide) (by decide) (by omega)
    (display_writes hb (k := pre.length) hdst (by omega) hbuf) ?_
  intro s4 h4
  have e4 : pass R3 22 = 32 := by show R3 22 + 4 = 32; rw [z22]; rfl
  -- add ac0, 4
  refine Go.add hP h4 (fetched hb hs hl hp3.pass (k := 8) e4 rfl) (r0 := true) (r1 := false) (r2 := false)
    (p0 := 0x0A) (p1 := 0) (p2 := 4) (by decide) (by decide) (by decide) ?_
  intro s5 h5
  generalize hR5 : put (flagged (pass R3) _) _ _ = R5 at h5
  have hp5 : Plain R5 := by rw [← hR5]; exact hp3.pass.flagged.put (by decide)
  have e5 : R5 22 = 36 := by rw [← hR5]; show pass R3 22 + 4 = 36; rw [e4]; rfl
  have f5 : R5 10 = R3 10 + 4 := by rw [← hR5]; rfl
  have g5 : R5 11 = R3 11 := by rw [← hR5]; rfl
  have i5 : R5 12 = R3 12 := by rw [← hR5]; rfl
  -- add ac1, 4
  refine Go.add hP h5 (fetched hb hs hl hp5 (k := 9) e5 rfl) (r0 := true) (r1 := false) (r2 := false)
    (p0 := 0x0B) (p1 := 0) (p2 := 4) (by decide) (by decide) (by decide) ?_
  intro s6 h6
  generalize hR6 : put (flagged R5 _) _ _ = R6 at h6
  have hp6 : Plain R6 := by rw [← hR6]; exact hp5.flagged.put (by decide)
  have e6 : R6 22 = 40 := by rw [← hR6]; show R5 22 + 4 = 40; rw [e5]; rfl
  have f6 : R6 10 = R3 10 + 4 := by rw [← hR6]; exact f5
  have g6 : R6 11 = R3 11 + 4 := by rw [← hR6]; show R5 11 + 4 = _; rw [g5]
  have i6 : R6 12 = R3 12 := by rw [← hR6]; exact i5
  -- jp .copy_byte
  refine Go.jp hP h6 (fetched hb hs hl hp6 (k := 10) e6 rfl) (r0 := true) (r1 := false) (r2 := false) (p1 := 0)
    (p2 := 0x0C) (by decide) ?_
  intro s7 h7
  have add4 : ∀ n : Nat, BitVec.ofNat 32 n + (4 : Word) = BitVec.ofNat 32 (n + 4) := by
    intro n; rw [show (4 : Word) = BitVec.ofNat 32 4 from rfl, ← BitVec.ofNat_add]
  refine hk _ _ ⟨_, _, h7, hp6.jump, rfl, ?_, ?_, ?_⟩
  · show R6 10 = _
    rw [f6, z10, h10, add4]; congr 1; simp; omega
  · show R6 11 = _
    rw [g6, z11, h11, add4]; congr 1; simp; omega
  · show R6 12 = _
    rw [i6, z12, h12]

/-- The first `k` words are copied. -/
theorem copied (hb : Board pf fx) {ws : List Word} (hs : rom.storage = code ++ ws)
    (hl : rom.len.toNat = rom.storage.length) (hwd : d0.words = 63) (hP : Closed pf P) {k : Nat} (hk : k ≤ 63)
    (hkl : k ≤ ws.length) (hnz : ∀ w ∈ ws.take k, w ≠ 0) (hc : ∀ s' a', Head fx rom ram d0 (ws.take k) s' → P s' a') :
    ∀ (n j : Nat), j + n = k → ∀ (s : Machine Dev) (a : Word), Head fx rom ram d0 (ws.take j) s → P s a := by
  intro n
  induction n with
  | zero => intro j hj s a h; have : j = k := hj; subst this; exact hc s a h
  | succ n ih =>
    intro j hj s a h
    have hjl : j < ws.length := by omega
    have hlen : (ws.take j).length = j := by rw [List.length_take]; omega
    refine iter hb hs hl hwd hP (w := ws[j]) (by omega) (by rw [hlen, List.getElem?_eq_getElem hjl]) ?_ h ?_
    · exact hnz _ (List.mem_iff_getElem.2 ⟨j, by rw [List.length_take]; omega, by simp⟩)
    · intro s' a' h'
      refine ih (j + 1) (by omega) s' a' ?_
      rw [List.take_append_getElem] at h'
      exact h'

/-- When the terminator is reached, the text is displayed and the processor halts. -/
theorem finish (hb : Board pf fx) {ws : List Word} (hs : rom.storage = code ++ (ws ++ [0]))
    (hl : rom.len.toNat = rom.storage.length) (hlen : ws.length ≤ 63) (hwd : d0.words = 63) {s : Machine Dev} {a : Word}
    (h : Head fx rom ram d0 ws s) : Ends pf (fun s' _ => s'.devs = comps rom ram (shown d0 ws)) s a := by
  obtain ⟨R, cyc, h, hp, h22, h10, h11, h12⟩ := h
  refine check hb hs hl Ends.closed h hp h22 h10 hlen (w := 0) (by simp) ?_
  intro s3 R3 cyc3 a3 h3 hp3 z0 z10 z11 z12 z22
  rw [if_pos rfl] at z22
  -- jp .display
  refine Go.jp Ends.closed h3 (fetched hb hs hl hp3 (k := 6) z22 rfl) (r0 := true) (r1 := false) (r2 := false) (p1 := 0)
    (p2 := 0x2C) (by decide) ?_
  intro s4 h4
  -- wsa ac2, 0, 0xAA
  refine Go.wsa Ends.closed h4 (fetched hb hs hl hp3.jump (k := 11) rfl rfl) (r0 := true) (r1 := false) (r2 := false)
    (p0 := 0x0C) (p1 := 0) (p2 := 0xAA) (by decide) (by decide) (by decide) ?_
    (display_writes (d' := shown d0 ws) hb (k := 63) ?_ (by decide) ?_) ?_
  · show (R3 12 + 0#32).toNat % 4 = 0
    rw [z12, h12]; rfl
  · show (R3 12 + 0#32).toNat = _
    rw [z12, h12]; rfl
  · unfold BufferedDisplay.write
    simp only []
    rw [if_neg (by rw [hwd]; decide)]
    rfl
  intro s5 h5
  -- halt
  refine Go.halt Ends.closed h5 (fetched hb hs hl hp3.jump.pass (k := 12) rfl rfl) (r0 := false) (r1 := false) (r2 := false)
    (p0 := 0) (p1 := 0) (p2 := 0) ?_
  intro s6 q1 q2 _ _ _
  exact .halted q1 q2

/-- A word that does not fit in the display is taken for an unknown operation. -/
theorem overflow (hb : Board pf fx) {ws : List Word} (hs : rom.storage = code ++ ws)
    (hl : rom.len.toNat = rom.storage.length) (hwd : d0.words = 63) {s : Machine Dev} {a : Word} {pre : List Word}
    (hpl : pre.length = 63) {w : Word} (hget : ws[63]? = some w) (hw : 256 ≤ w.toNat) (h : Head fx rom ram d0 pre s) :
    Loop pf s none := by
  have hcl : Closed pf (fun (s : Machine Dev) (_ : Word) => Loop pf s none) := fun _ _ _ h1 h2 h3 h4 => .again h1 h2 h3 h4
  obtain ⟨R, cyc, h, hp, h22, h10, h11, h12⟩ := h
  refine check (P := fun s _ => Loop pf s none) (a := a) hb hs hl hcl h hp h22 h10 (by omega) (w := w) (by rw [hpl]; exact hget) ?_
  intro s3 R3 cyc3 a3 h3 hp3 z0 z10 z11 z12 z22
  rw [if_neg (by intro hc; rw [hc] at hw; exact absurd hw (by decide))] at z22
  have hf := fetched (d := { d0 with buffer := pre ++ List.replicate (63 - pre.length) 0, calls := [] }) (ram := ram)
    hb hs hl hp3 (k := 7) z22 rfl
  have hmtt : s3.regs.mtt = 0 := (h3.regs 29 (by decide)).trans hp3.mtt
  obtain ⟨m, hm, e0, e1, e2⟩ := hb.display
  have hdst : opVal1 R3 true 0x0B + opVal1 R3 false 0 = 0x20FC := by
    show R3 11 + 0#32 = _
    rw [z11, h11, hpl]; rfl
  have hdis : ∃ x : U16, x ≠ 0 ∧ ({ d0 with buffer := pre ++ List.replicate (63 - pre.length) 0, calls := [] } : BufferedDisplay).write
      0xFC w 0 = some ({ d0 with buffer := pre ++ List.replicate (63 - pre.length) 0, calls := [] }, x) := by
    refine ⟨(AuxHwException.unknownOperation (w.setWidth 8)).encode, ?_, ?_⟩
    · generalize (w.setWidth 8 : U8) = x
      have : ∀ x : Fin 256, (AuxHwException.unknownOperation (BitVec.ofFin x)).encode ≠ 0 := by decide +kernel
      exact this x.toFin
    · unfold BufferedDisplay.write
      simp only []
      rw [if_neg (by rw [hwd]; decide)]
      split
      · next he => omega
      · next he => omega
      · next he => omega
      · rfl
  obtain ⟨x, hx, hwr⟩ := hdis
  have hbw : BusWrite pf s3 s3.devs (opVal1 R3 true 0x0B + opVal1 R3 false 0) w x s3.devs := by
    rw [hdst, h3.devs]
    unfold BusWrite
    rw [C37_write (s := { s3 with devs := comps rom ram { d0 with buffer := pre ++ List.replicate (63 - pre.length) 0, calls := [] } })
      (m := m) (d := .inr (.inr { d0 with buffer := pre ++ List.replicate (63 - pre.length) 0, calls := [] }))
      (by rw [show ({ s3 with devs := _ } : Machine Dev).mappings = fx.maps from h3.maps]; exact hb.table)
      (by rw [show ({ s3 with devs := _ } : Machine Dev).mappings = fx.maps from h3.maps]; exact hm)
      (by unfold covers; rw [e1, e2]; exact ⟨by decide, by decide⟩) (by decide) (by rw [e0]; rfl), e1]
    show Option.map _ (Option.map _ (Option.map _ (BufferedDisplay.write _ 0xFC w 0))) = _
    rw [hwr, e0]
    rfl
  have hst := C29_store_fault (hf.fetches h3) (h3.val1 hp3 (isReg := true) (p := 0x0B) (by decide))
    (h3.val1 hp3 (isReg := false) (p := 0) (by decide)) (h3.val1 hp3 (isReg := true) (p := 0) (by decide)) (c := 0xA0) (d := x.toNat)
    (by
      have := C26_store hmtt (by rw [hdst]; decide) hbw
      rw [if_neg hx, h3.devs] at this
      rw [show opVal1 R3 true 0 = w from z0]
      exact this)
  obtain ⟨s', q1, q2, -⟩ := hst
  refine .exception h3.running q1 ?_
  rw [q2]
  unfold trap
  rw [h3.sv hp3.sv]
  intro hc
  have := congrArg BitVec.toNat hc
  rw [BitVec.toNat_ofNat] at this
  have hxl := x.isLt
  simp at this
  omega

theorem Loop.of_ends {Q : Machine Dev → Word → Prop} {s : Machine Dev} {a : Word} (h : Ends pf Q s a) :
    ∃ s1 a1, Loop pf s (some s1) ∧ s1.halted = true ∧ Q s1 a1 := by
  induction h with
  | halted h1 h2 => exact ⟨_, _, .done h1, h1, h2⟩
  | step h1 h2 h3 _ ih =>
    obtain ⟨s1, a1, h4, h5⟩ := ih
    exact ⟨s1, a1, .again h1 h2 h3 h4, h5⟩

/-! ## Starting -/

theorem utf8_nonzero {t : List Char} (h : Char.ofNat 0 ∉ t) : ∀ b ∈ utf8 t, b ≠ 0 := by
  induction t with
  | nil => intro b hb; cases hb
  | cons c t ih =>
    intro b hb
    rw [utf8_cons] at hb
    rcases List.mem_append.1 hb with hb | hb
    · have hc : c.toNat ≠ 0 := by
        intro hc
        apply h
        have : Char.ofNat c.toNat = c := Char.ofNat_toNat c
        rw [hc] at this
        rw [this]
        exact List.mem_cons_self
      rw [utf8_single] at hb
      obtain ⟨x, hx, rfl⟩ := List.mem_map.1 hb
      have hlt := c.valid
      intro hz
      have hz := congrArg BitVec.toNat hz
      rw [BitVec.toNat_ofNat] at hz
      unfold encN at hx
      split at hx
      · simp at hx hz; omega
      · split at hx
        · simp at hx hz; omega
        · split at hx
          · simp at hx hz; omega
          · simp at hx hz; omega
    · exact ih (fun hc => h (by simp [hc])) b hb

/-- The components when the machine starts. -/
theorem setup_ok {t u : List Char} (h : Quoted t u) (idRom idRam idDisplay : U64) {ws : List Word}
    (hws : bytesToWords (utf8 u ++ [0, 0, 0, 0]) = ws) (hlen : 13 + ws.length ≤ 0x1000) :
    ∃ s0 fx rom ram, setup pf (source t) idRom idRam idDisplay = some s0 ∧ Board pf fx ∧ rom.storage = code ++ ws ∧
      rom.len.toNat = rom.storage.length ∧
      Shows fx s0 (fun n => if n = 31 then 1 else 0)
        (comps rom ram { buffer := List.replicate 63 0, words := 63, hwId := idDisplay, calls := [] }) 0 := by
  have hcl : code.length = 13 := rfl
  let rom : BootRom := { storage := code ++ ws, len := BitVec.ofNat 32 (code ++ ws).length, size := 0x400, hwId := idRom }
  let ram : Ram := { storage := List.replicate 0x1000 0, size := 0x400, hwId := idRam }
  let d0 : BufferedDisplay := { buffer := List.replicate 63 0, words := 63, hwId := idDisplay, calls := [] }
  have hd0 : BufferedDisplay.new 0x100 idDisplay = some d0 := rfl
  obtain ⟨s0, h0, hd, hml, hm⟩ := C62_succeeds_partial (pf := pf) (ds := comps rom ram d0) (ds' := comps rom ram d0)
    (sizes := [0x1000, 0x1000, 0x100]) (by show 3 < 2 ^ 32; decide) rfl
    (by
      intro k d n hk hn
      match k with
      | 0 => cases hk; cases hn; exact BootRom.advertises rom (by show 0x400 * 4 < 2 ^ 32; decide)
      | 1 => cases hk; cases hn; exact Ram.advertises ram (by show 0x400 * 4 < 2 ^ 32; decide)
      | 2 =>
        cases hk; cases hn
        obtain ⟨d', as, e1, e2⟩ := C73_buffered_display (pf := pf) hd0 [] (by simp)
        cases e1
        exact e2
      | k + 3 => cases hk)
    (by decide) (by cases pf <;> decide) (by
      have e : (Bus.reset ram : Res Ram) = some ram := by
        show some { ram with storage := List.replicate (List.replicate 0x1000 (0 : Word)).length 0 } = some ram
        rw [List.length_replicate]
      have e1 : Bus.reset (D := Dev) (.inr (.inl ram)) = some (.inr (.inl ram)) := by
        show Option.map _ (Option.map _ (Bus.reset ram)) = _
        rw [e]; rfl
      show resetAll (D := Dev) [.inl rom, .inr (.inl ram), .inr (.inr d0)] = _
      unfold resetAll resetAll resetAll resetAll
      rw [e1]
      rfl)
  have hr := C62_ready h0
  refine ⟨s0, ⟨s0.mappings, s0.hwbCache⟩, rom, ram, ?_, ⟨hr.2.2.2.2.2.2.1, ?_, ?_⟩, rfl, ?_, ?_⟩
  · unfold setup
    rw [assemble_source h, hws]
    have hrom : BootRom.withSize (code ++ ws) 0x1000 idRom = some rom := by
      unfold BootRom.withSize
      have : (code ++ ws).length = 13 + ws.length := by rw [List.length_append, hcl]
      rw [if_neg (by omega), if_neg (by rw [this]; show ¬ 4096 < _; omega), if_neg (by decide), if_neg (by decide)]
      rfl
    have hram : Ram.new 0x1000 idRam = some ram := rfl
    simp only [Option.bind_eq_bind, Option.bind_some, hrom, hram, hd0]
    exact h0
  · obtain ⟨m, e1, e2, e3, e4⟩ := hm 0 0x1000 rfl
    exact ⟨m, List.mem_of_getElem? e1, e2, BitVec.eq_of_toNat_eq e3, e4⟩
  · obtain ⟨m, e1, e2, e3, e4⟩ := hm 2 0x100 rfl
    exact ⟨m, List.mem_of_getElem? e1, e2, BitVec.eq_of_toNat_eq e3, e4⟩
  · show (BitVec.ofNat 32 _).toNat = _
    rw [BitVec.toNat_ofNat, Nat.mod_eq_of_lt]
    rw [List.length_append, hcl]; omega
  · refine ⟨hr.2.1, rfl, rfl, hd, hr.2.2.1, ?_⟩
    rw [hr.1]
    intro n hn
    have : ∀ n : Fin 32, reg startup n.val = (if n.val = 31 then 1 else 0) := by decide
    exact this ⟨n, hn⟩

/-- The loop ends in one way at most. -/
theorem Loop.unique {s : Machine Dev} {r1 r2 : Option (Machine Dev)} (h1 : Loop pf s r1) (h2 : Loop pf s r2) : r1 = r2 := by
  induction h1 with
  | done a =>
    cases h2 with
    | done => rfl
    | panic b => rw [a] at b; cases b
    | exception b => rw [a] at b; cases b
    | again b => rw [a] at b; cases b
  | panic a b =>
    cases h2 with
    | done c => rw [a] at c; cases c
    | panic => rfl
    | exception => rfl
    | again _ c => rw [b] at c; cases c
  | exception a b c =>
    cases h2 with
    | done d => rw [a] at d; cases d
    | panic => rfl
    | exception => rfl
    | again _ d e => rw [b] at d; cases d; exact absurd e c
  | again a b c _ ih =>
    cases h2 with
    | done d => rw [a] at d; cases d
    | panic _ d => rw [b] at d; cases d
    | exception _ d e => rw [b] at d; cases d; exact absurd c e
    | again _ d _ e => rw [b] at d; cases d; exact ih e

/-- The first three instructions. -/
theorem start (hb : Board pf fx) {ws : List Word} (hs : rom.storage = code ++ ws) (hl : rom.len.toNat = rom.storage.length)
    (hP : Closed pf P) {s : Machine Dev} {a : Word} {cyc : U128}
    (h : Shows fx s (fun n => if n = 31 then 1 else 0)
      (comps rom ram { d0 with buffer := List.replicate 63 0, calls := [] }) cyc)
    (hk : ∀ s' a', Head fx rom ram d0 [] s' → P s' a') : P s a := by
  have hp : Plain (fun n => if n = 31 then (1 : Word) else 0) := ⟨rfl, rfl, rfl⟩
  refine Go.cpy hP h (fetched hb hs hl hp (k := 0) rfl rfl) (r0 := true) (r1 := false) (r2 := false) (p0 := 0x0A) (p1 := 0)
    (p2 := 0x34) (by decide) (by decide) (by decide) ?_
  intro s1 h1
  have hp1 := hp.put (c := (0x0A : U8).toNat) (w := opVal2 (fun n => if n = 31 then (1 : Word) else 0) false 0 0x34) (by decide)
  refine Go.cpy hP h1 (fetched hb hs hl hp1 (k := 1) rfl rfl) (r0 := true) (r1 := false) (r2 := false) (p0 := 0x0B)
    (p1 := 0x20) (p2 := 0) (by decide) (by decide) (by decide) ?_
  intro s2 h2
  generalize hR2 : put _ _ _ = R2 at h2
  have hp2 : Plain R2 := by rw [← hR2]; exact hp1.put (by decide)
  refine Go.cpy hP h2 (fetched hb hs hl hp2 (k := 2) (by rw [← hR2]; rfl) rfl) (r0 := true) (r1 := false) (r2 := false)
    (p0 := 0x0C) (p1 := 0x20) (p2 := 0xFC) (by decide) (by decide) (by decide) ?_
  intro s3 h3
  refine hk _ _ ⟨_, _, h3, hp2.put (by decide), ?_, ?_, ?_, ?_⟩
  · rw [← hR2]; rfl
  · rw [← hR2]; rfl
  · rw [← hR2]; rfl
  · rfl

theorem wordsToBytes_zeros (k : Nat) : wordsToBytes (List.replicate k 0) = List.replicate (4 * k) 0 := by
  induction k with
  | zero => rfl
  | succ k ih =>
    rw [List.replicate_succ, wordsToBytes_cons, ih, Nat.mul_succ, show 4 * k + 4 = 4 + 4 * k by omega,
      ← List.replicate_append_replicate]
    rfl

/-- **C85**: whatever message without a NUL character is written in the source of `hello_world`, if it takes at most 252
bytes, then the program is assembled, the machine is built, its loop ends without a panic, and exactly one text was
displayed: the message, followed by NUL characters up to 252 bytes. This holds in both builds and for all identifiers. -/
theorem C85_hello (pf : Profile) {t text : List Char} (hq : Quoted t text) (hnul : Char.ofNat 0 ∉ text)
    (hfit : (utf8 text).length ≤ 252) (idRom idRam idDisplay : U64) :
    ∃ s0 s1, setup pf (source t) idRom idRam idDisplay = some s0 ∧ (∀ r, Loop pf s0 r ↔ r = some s1) ∧
      ∃ rom ram display, s1.devs = [.inl rom, .inr (.inl ram), .inr (.inr display)] ∧
        display.calls = [.ok (text ++ List.replicate (252 - (utf8 text).length) (Char.ofNat 0))] := by
  obtain ⟨W, hW, hnz, hlen, hbytes⟩ := words_of_text (utf8 text) (utf8_nonzero hnul)
  have hWl : W.length ≤ 63 := by omega
  obtain ⟨s0, fx, rom, ram, hset, hb, hs, hl, hsh⟩ := setup_ok (pf := pf) hq idRom idRam idDisplay hW (by simp; omega)
  have hends : Ends pf (fun s' _ => s'.devs = comps rom ram (shown
      { buffer := List.replicate 63 0, words := 63, hwId := idDisplay, calls := [] } W)) s0 0 := by
    refine start (d0 := { buffer := List.replicate 63 0, words := 63, hwId := idDisplay, calls := [] }) hb hs hl Ends.closed
      hsh ?_
    intro s' a' hh
    refine copied hb hs hl rfl Ends.closed (k := W.length) hWl (by simp) (by simpa using hnz) ?_ W.length 0 (by omega) s' a' hh
    intro s'' a'' hh'
    rw [List.take_left] at hh'
    exact finish hb hs hl hWl rfl hh'
  obtain ⟨s1, a1, h1, h2, h3⟩ := Loop.of_ends hends
  refine ⟨s0, s1, hset, fun r => ⟨fun h => (Loop.unique h1 h).symm, fun h => h ▸ h1⟩, rom, ram, _, h3, ?_⟩
  have hlW := congrArg List.length hbytes
  rw [wordsToBytes_length, List.length_append, List.length_replicate] at hlW
  show [decodeStr _] = _
  have : fromUtf8 (wordsToBytes (W ++ List.replicate (63 - W.length) 0)) =
      some (text ++ List.replicate (252 - (utf8 text).length) (Char.ofNat 0)) := by
    rw [fromUtf8_iff, utf8_zeros]
    unfold wordsToBytes
    rw [List.flatMap_append]
    show _ = wordsToBytes W ++ wordsToBytes _
    rw [hbytes, wordsToBytes_zeros, List.append_assoc,
      List.replicate_append_replicate,
      show 4 * W.length - (utf8 text).length + 4 * (63 - W.length) = 252 - (utf8 text).length by omega]
  unfold decodeStr
  rw [this]

/-- **C85**, messages that are too long: the machine cannot be built, or the loop panics: the first word that does not fit
in the display is written where operations are asked for, and none is known by it. -/
theorem C85_long (pf : Profile) {t text : List Char} (hq : Quoted t text) (hnul : Char.ofNat 0 ∉ text)
    (hlong : 252 < (utf8 text).length) (idRom idRam idDisplay : U64) {s0 : Machine Dev}
    (hset : setup pf (source t) idRom idRam idDisplay = some s0) (r : Option (Machine Dev)) : Loop pf s0 r ↔ r = none := by
  obtain ⟨W, hW, hnz, hlen, hbytes⟩ := words_of_text (utf8 text) (utf8_nonzero hnul)
  have hlW := congrArg List.length hbytes
  rw [wordsToBytes_length, List.length_append, List.length_replicate] at hlW
  have hroom : 13 + (W ++ [0]).length ≤ 0x1000 := by
    unfold setup at hset
    rw [assemble_source hq, hW] at hset
    simp only [Option.bind_eq_bind, Option.bind_eq_some_iff] at hset
    obtain ⟨p, hp, rom, hrom, -⟩ := hset
    cases hp
    unfold BootRom.withSize at hrom
    split at hrom
    · cases hrom
    · split at hrom
      · cases hrom
      · next hlt =>
        rw [List.length_append] at hlt
        change ¬ 4096 < 13 + _ at hlt
        omega
  obtain ⟨s0', fx, rom, ram, hset', hb, hs, hl, hsh⟩ := setup_ok (pf := pf) hq idRom idRam idDisplay hW hroom
  rw [hset] at hset'
  cases hset'
  have hlast : 63 < W.length := by omega
  have hbig : 256 ≤ W[63].toNat := by
    have hb1 : (wordsToBytes W)[252]? = some ((W[63] >>> 24).setWidth 8) := by
      have hsplit : W = W.take 63 ++ W[63] :: W.drop 64 := by
        rw [← List.drop_eq_getElem_cons hlast, List.take_append_drop]
      have e : wordsToBytes W = wordsToBytes (W.take 63) ++ wordsToBytes (W[63] :: W.drop 64) := by
        conv => lhs; rw [hsplit]
        unfold wordsToBytes
        rw [List.flatMap_append]
      rw [e, List.getElem?_append_right (by rw [wordsToBytes_length, List.length_take]; omega), wordsToBytes_length,
        List.length_take, Nat.min_eq_left (by omega), wordsToBytes_cons, beBytes_four]
      rfl
    rw [hbytes, List.getElem?_append_left hlong] at hb1
    have hne := utf8_nonzero hnul _ (List.mem_of_getElem? hb1)
    refine Nat.le_of_not_lt fun hlt => hne ?_
    apply BitVec.eq_of_toNat_eq
    rw [BitVec.toNat_setWidth, BitVec.toNat_ushiftRight, Nat.shiftRight_eq_div_pow]
    show W[63].toNat / 16777216 % 256 = 0
    omega
  have hcl : Closed pf (fun (s : Machine Dev) (_ : Word) => Loop pf s none) := fun _ _ _ h1 h2 h3 h4 => .again h1 h2 h3 h4
  have hloop : Loop pf s0 none := by
    refine start (P := fun s _ => Loop pf s none) (a := 0)
      (d0 := { buffer := List.replicate 63 0, words := 63, hwId := idDisplay, calls := [] }) hb hs hl hcl hsh ?_
    intro s' a' hh
    refine copied (P := fun s _ => Loop pf s none) hb hs hl rfl hcl (k := 63) (by omega) (by simp; omega) ?_ ?_ 63 0
      (by omega) s' a' hh
    · intro w hw
      rw [List.take_append_of_le_length (by omega)] at hw
      exact hnz w (List.mem_of_mem_take hw)
    · intro s'' a'' hh'
      refine overflow (a := 0) hb hs hl rfl (pre := (W ++ [0]).take 63) ?_ (w := W[63]) ?_ hbig hh'
      · rw [List.length_take, List.length_append]; simp; omega
      · rw [List.getElem?_append_left hlast, List.getElem?_eq_getElem hlast]
  exact ⟨fun h => (Loop.unique hloop h).symm, fun h => h ▸ hloop⟩

/-- The text of the example between its quotes, and what it stands for. -/
theorem hello_quoted : Quoted "Hello, world!\\n".toList "Hello, world!\n".toList := by
  show Quoted ['H', 'e', 'l', 'l', 'o', ',', ' ', 'w', 'o', 'r', 'l', 'd', '!', '\\', 'n']
    ['H', 'e', 'l', 'l', 'o', ',', ' ', 'w', 'o', 'r', 'l', 'd', '!', '\n']
  iterate 13 refine .plain (by decide) ?_
  exact .escape (by decide) .nil

/-- The message of the repository meets the hypotheses. -/
example : ∃ s0 s1, setup .debug (source "Hello, world!\\n".toList) 1 2 3 = some s0 ∧
    (∀ r, Loop .debug s0 r ↔ r = some s1) ∧
      ∃ rom ram display, s1.devs = [.inl rom, .inr (.inl ram), .inr (.inr display)] ∧
        display.calls = [.ok ("Hello, world!\n".toList ++ List.replicate 238 (Char.ofNat 0))] :=
  C85_hello .debug hello_quoted (by decide) (by decide) 1 2 3

theorem quoted_same : ∀ {t : List Char}, (∀ c ∈ t, c ∉ ['"', '\\', ';', '\n']) → Quoted t t
  | [], _ => .nil
  | c :: _, h => .plain (h c (by simp)) (quoted_same (fun d hd => h d (by simp [hd])))

/-- A long message with which the machine is built. -/
example : ∃ s0, setup .release (source (List.replicate 300 'a')) 1 2 3 = some s0 ∧ Char.ofNat 0 ∉ List.replicate 300 'a' ∧
    252 < (utf8 (List.replicate 300 'a')).length := by
  have hq : Quoted (List.replicate 300 'a') (List.replicate 300 'a') :=
    quoted_same (fun c hc => by rw [List.eq_of_mem_replicate hc]; decide)
  obtain ⟨s0, _, _, _, h, -⟩ := setup_ok (pf := .release) hq 1 2 3 rfl (by decide +kernel)
  exact ⟨s0, h, by decide +kernel, by decide +kernel⟩

end Lrvm.HelloWorld
