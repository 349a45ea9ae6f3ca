import Verif.Lemmas.BrainfuckRun
import Verif.Props.Devices.Keyboards

/-!
# The routines of the program of the example `brainfuck`
-/

namespace Lrvm.Brainfuck

open Spec Lasm Lrvm Prog

/-- What the components contain. -/
structure G where
  cells : List Word
  line : List Word
  asked : Nat
  key : Char
  keysAsked : Nat
  buf : List Word
  texts : List DecodedStr
  chars : List (Except Word Char)
  nums : List (Word × NumberFormat × Bool)

variable {pf : Profile} {fx : Fixed} {ids : Nat → U64} {lines : Nat → List Char} {keys : Nat → Char} {g : G} {v v' : V}
  {s : Machine Dev} {P : Machine Dev → Word → Prop} {a : Word} {st : List Word}

/-- The components. -/
def G.m (g : G) (ids : Nat → U64) (lines : Nat → List Char) (keys : Nat → Char) : M :=
  ⟨g.cells, ⟨g.buf, 1023, ids 3, g.texts⟩, ⟨g.line, 1023, lines, g.asked, ids 4⟩, ⟨g.key, keys, g.keysAsked, ids 5⟩,
    ⟨ids 6, g.chars⟩, ⟨ids 7, g.nums⟩⟩

theorem div4 {n : Nat} (h : n < 4096) : (BitVec.ofNat 32 (4 * n) / 4 : Word) = BitVec.ofNat 32 n := by
  apply BitVec.eq_of_toNat_eq
  rw [BitVec.toNat_udiv, BitVec.toNat_ofNat, BitVec.toNat_ofNat]
  show 4 * n % 2 ^ 32 / 4 = n % 2 ^ 32
  omega

theorem toNat32 {n : Nat} (h : n < 2 ^ 32) : (BitVec.ofNat 32 n : Word).toNat = n := by
  rw [BitVec.toNat_ofNat]; exact Nat.mod_eq_of_lt h

/-! ## Accesses -/

theorem cells_read (hb : Board pf fx) {x w : Word} {i : Nat} (hx : x.toNat = 0x2000 + 4 * i) (hi : i < 1024)
    (hw : g.cells[i]? = some w) (st : List Word) :
    Reads pf fx.maps (comps ids st (g.m ids lines keys)) x w (comps ids st (g.m ids lines keys)) := by
  refine hb.reads (k := 2) (b := 0x2000) (n := 0x1000) (off := 4 * i) (d := .inr (.inl ⟨g.cells, 0x400, ids 2⟩))
    (d' := .inr (.inl ⟨g.cells, 0x400, ids 2⟩)) (by decide) hx (by omega) (by omega) rfl ?_
  show Option.map _ (Option.map _ ((vecRead g.cells (BitVec.ofNat 32 (4 * i))).bind _)) = _
  unfold vecRead
  rw [toNat32 (by omega), show 4 * i / 4 = i by omega, hw]
  rfl

theorem cells_write (hb : Board pf fx) {x w : Word} {i : Nat} (hx : x.toNat = 0x2000 + 4 * i) (hi : i < 1024)
    (hl : g.cells.length = 4096) (st : List Word) :
    Writes pf fx.maps (comps ids st (g.m ids lines keys)) x w
      (comps ids st (G.m { g with cells := g.cells.set i w } ids lines keys)) := by
  refine hb.writes (k := 2) (b := 0x2000) (n := 0x1000) (off := 4 * i) (d := .inr (.inl ⟨g.cells, 0x400, ids 2⟩))
    (d' := .inr (.inl ⟨g.cells.set i w, 0x400, ids 2⟩)) (by decide) hx (by omega) (by omega) rfl ?_
  show Option.map _ (Option.map _ ((vecWrite g.cells (BitVec.ofNat 32 (4 * i)) w).bind _)) = _
  unfold vecWrite
  rw [toNat32 (by omega), show 4 * i / 4 = i by omega, if_pos (by omega)]
  rfl

theorem buf_write (hb : Board pf fx) {x w : Word} {i : Nat} (hx : x.toNat = 0x3000 + 4 * i) (hi : i < 1023)
    (hl : g.buf.length = 1023) (st : List Word) :
    Writes pf fx.maps (comps ids st (g.m ids lines keys)) x w
      (comps ids st (G.m { g with buf := g.buf.set i w } ids lines keys)) := by
  refine hb.writes (k := 3) (b := 0x3000) (n := 0x1000) (off := 4 * i)
    (d := .inr (.inr (.inl ⟨g.buf, 1023, ids 3, g.texts⟩)))
    (d' := .inr (.inr (.inl ⟨g.buf.set i w, 1023, ids 3, g.texts⟩))) (by decide) hx (by omega) (by omega) rfl ?_
  show Option.map _ (Option.map _ (Option.map _ (BufferedDisplay.write ⟨g.buf, 1023, ids 3, g.texts⟩ _ _ _))) = _
  unfold BufferedDisplay.write
  rw [div4 (by omega)]
  dsimp only
  rw [toNat32 (by omega), if_pos (by rw [BitVec.lt_def, toNat32 (by omega)]; exact hi), if_pos (by omega)]
  rfl

theorem show_write (hb : Board pf fx) (st : List Word) :
    Writes pf fx.maps (comps ids st (g.m ids lines keys)) 0x3FFC (BitVec.ofNat 32 170)
      (comps ids st (G.m { g with texts := g.texts ++ [decodeStr (wordsToBytes g.buf)] } ids lines keys)) := by
  refine hb.writes (k := 3) (b := 0x3000) (n := 0x1000) (off := 0xFFC)
    (d := .inr (.inr (.inl ⟨g.buf, 1023, ids 3, g.texts⟩)))
    (d' := .inr (.inr (.inl ⟨g.buf, 1023, ids 3, g.texts ++ [decodeStr (wordsToBytes g.buf)]⟩))) (by decide) rfl (by decide) (by decide) rfl ?_
  rfl

theorem clear_write (hb : Board pf fx) (hl : g.buf.length = 1023) (st : List Word) :
    Writes pf fx.maps (comps ids st (g.m ids lines keys)) 0x3FFC (BitVec.ofNat 32 255)
      (comps ids st (G.m { g with buf := List.replicate 1023 0 } ids lines keys)) := by
  refine hb.writes (k := 3) (b := 0x3000) (n := 0x1000) (off := 0xFFC)
    (d := .inr (.inr (.inl ⟨g.buf, 1023, ids 3, g.texts⟩)))
    (d' := .inr (.inr (.inl ⟨List.replicate 1023 0, 1023, ids 3, g.texts⟩))) (by decide) rfl (by decide) (by decide) rfl ?_
  rw [← hl]
  rfl

theorem line_write (hb : Board pf fx) (st : List Word) :
    Writes pf fx.maps (comps ids st (g.m ids lines keys)) 0x4FFC (BitVec.ofNat 32 170)
      (comps ids st (G.m { g with line := lineLoop 0 0 0 g.line (utf8 (lines g.asked)), asked := g.asked + 1 } ids lines keys)) := by
  refine hb.writes (k := 4) (b := 0x4000) (n := 0x1000) (off := 0xFFC)
    (d := .inr (.inr (.inr (.inl ⟨g.line, 1023, lines, g.asked, ids 4⟩))))
    (d' := .inr (.inr (.inr (.inl ⟨lineLoop 0 0 0 g.line (utf8 (lines g.asked)), 1023, lines, g.asked + 1, ids 4⟩))))
    (by decide) rfl (by decide) (by decide) rfl ?_
  rfl

theorem line_read (hb : Board pf fx) {x w : Word} {i : Nat} (hx : x.toNat = 0x4000 + 4 * i) (hi : i < 1024)
    (hw : g.line[i]? = some w ∧ i < 1023 ∨ w = 0 ∧ i = 1023) (st : List Word) :
    Reads pf fx.maps (comps ids st (g.m ids lines keys)) x w (comps ids st (g.m ids lines keys)) := by
  refine hb.reads (k := 4) (b := 0x4000) (n := 0x1000) (off := 4 * i)
    (d := .inr (.inr (.inr (.inl ⟨g.line, 1023, lines, g.asked, ids 4⟩))))
    (d' := .inr (.inr (.inr (.inl ⟨g.line, 1023, lines, g.asked, ids 4⟩)))) (by decide) hx (by omega) (by omega) rfl ?_
  show Option.map _ (Option.map _ (Option.map _ (Option.map _ (if BitVec.ofNat 32 (4 * i) / 4 = (1023 : Word) then _ else _)))) = _
  rw [div4 (by omega), toNat32 (by omega)]
  rcases hw with ⟨hw, h⟩ | ⟨hw, h⟩
  · rw [if_neg (by intro h'; have := congrArg BitVec.toNat h'; rw [toNat32 (by omega)] at this; change i = 1023 at this; omega)]
    dsimp only
    rw [hw]
    rfl
  · subst hw h
    rfl

theorem key_write (hb : Board pf fx) (st : List Word) :
    Writes pf fx.maps (comps ids st (g.m ids lines keys)) 0x5004 (BitVec.ofNat 32 1)
      (comps ids st (G.m { g with key := keys g.keysAsked, keysAsked := g.keysAsked + 1 } ids lines keys)) := by
  refine hb.writes (k := 5) (b := 0x5000) (n := 8) (off := 4)
    (d := .inr (.inr (.inr (.inr (.inl ⟨g.key, keys, g.keysAsked, ids 5⟩)))))
    (d' := .inr (.inr (.inr (.inr (.inl ⟨keys g.keysAsked, keys, g.keysAsked + 1, ids 5⟩)))))
    (by decide) rfl (by decide) (by decide) rfl ?_
  rfl

theorem key_read (hb : Board pf fx) (st : List Word) :
    Reads pf fx.maps (comps ids st (g.m ids lines keys)) 0x5000 (BitVec.ofNat 32 g.key.toNat) (comps ids st (g.m ids lines keys)) := by
  refine hb.reads (k := 5) (b := 0x5000) (n := 8) (off := 0)
    (d := .inr (.inr (.inr (.inr (.inl ⟨g.key, keys, g.keysAsked, ids 5⟩)))))
    (d' := .inr (.inr (.inr (.inr (.inl ⟨g.key, keys, g.keysAsked, ids 5⟩)))))
    (by decide) rfl (by decide) (by decide) rfl ?_
  rfl

theorem char_write (hb : Board pf fx) (w : Word) (st : List Word) :
    Writes pf fx.maps (comps ids st (g.m ids lines keys)) 0x5008 w
      (comps ids st (G.m { g with chars := g.chars ++ [charOrWord w] } ids lines keys)) := by
  refine hb.writes (k := 6) (b := 0x5008) (n := 4) (off := 0)
    (d := .inr (.inr (.inr (.inr (.inr (.inl ⟨ids 6, g.chars⟩))))))
    (d' := .inr (.inr (.inr (.inr (.inr (.inl ⟨ids 6, g.chars ++ [charOrWord w]⟩))))))
    (by decide) rfl (by decide) (by decide) rfl ?_
  rfl

theorem dec_write (hb : Board pf fx) (w : Word) (st : List Word) :
    Writes pf fx.maps (comps ids st (g.m ids lines keys)) 0x5014 w
      (comps ids st (G.m { g with nums := g.nums ++ [(w, .dec, true)] } ids lines keys)) := by
  refine hb.writes (x := 0x5014) (w := w) (k := 7) (devs := comps ids st (g.m ids lines keys)) (b := 0x500C) (n := 64) (off := 8)
    (d := .inr (.inr (.inr (.inr (.inr (.inr ⟨ids 7, g.nums⟩))))))
    (d' := .inr (.inr (.inr (.inr (.inr (.inr ⟨ids 7, g.nums ++ [(w, .dec, true)]⟩))))))
    (by decide) rfl (by decide) (by decide) rfl ?_
  rfl

theorem hex_write (hb : Board pf fx) (w : Word) (st : List Word) :
    Writes pf fx.maps (comps ids st (g.m ids lines keys)) 0x502C w
      (comps ids st (G.m { g with nums := g.nums ++ [(w, .hex, false)] } ids lines keys)) := by
  refine hb.writes (x := 0x502C) (w := w) (k := 7) (devs := comps ids st (g.m ids lines keys)) (b := 0x500C) (n := 64) (off := 0x20)
    (d := .inr (.inr (.inr (.inr (.inr (.inr ⟨ids 7, g.nums⟩))))))
    (d' := .inr (.inr (.inr (.inr (.inr (.inr ⟨ids 7, g.nums ++ [(w, .hex, false)]⟩))))))
    (by decide) rfl (by decide) (by decide) rfl ?_
  rfl

/-! ## Routines -/

theorem back {v : V} {i : I} (h : v.fetch = some i) : (BitVec.ofNat 32 (v.pc + 4) : Word).toNat = v.pc + 4 :=
  toNat32 (by have := (fetch_ok h).2.1; omega)

/-- `call print_char`. -/
theorem printChar (hb : Board pf fx) (hP : Closed pf P) (h : On fx ids (g.m ids lines keys) v s)
    (hf : v.fetch = some (.call 132)) (hr : 0 < v.room)
    (hk : ∀ s' a', On fx ids (G.m { g with chars := g.chars ++ [charOrWord v.avr] } ids lines keys)
      (v.put 20 0x5008) s' → P s' a') : P s a := by
  have hbk := back hf
  obtain ⟨a0, r0, r1, r2, r3, r5, r6, r7, av, pc, stk, _ | room⟩ := v
  · cases hr
  refine On.exec1 hb hP h hf rfl fun s1 a1 h1 => ?_
  refine On.run hb hP h1 1 rfl fun s2 a2 h2 => ?_
  refine On.wea hb hP h2 (r := 20) (x := 0x5008) (y := av) rfl rfl rfl rfl (by decide) (char_write hb av) fun s3 a3 h3 => ?_
  refine On.run hb hP h3 1 rfl fun s4 a4 h4 => hk s4 a4 ?_
  dsimp only at hbk
  show On fx ids _ ⟨a0, r0, r1, r2, r3, r5, r6, 0x5008, av, pc + 4, stk, room + 1⟩ s4
  rw [← hbk]
  exact h4

/-- `call print_hex`. -/
theorem printHex (hb : Board pf fx) (hP : Closed pf P) (h : On fx ids (g.m ids lines keys) v s)
    (hf : v.fetch = some (.call 144)) (hr : 0 < v.room)
    (hk : ∀ s' a', On fx ids (G.m { g with nums := g.nums ++ [(v.avr, .hex, false)] } ids lines keys)
      (v.put 20 0x502C) s' → P s' a') : P s a := by
  have hbk := back hf
  obtain ⟨a0, r0, r1, r2, r3, r5, r6, r7, av, pc, stk, _ | room⟩ := v
  · cases hr
  refine On.exec1 hb hP h hf rfl fun s1 a1 h1 => ?_
  refine On.run hb hP h1 1 rfl fun s2 a2 h2 => ?_
  refine On.wea hb hP h2 (r := 20) (x := 0x502C) (y := av) rfl rfl rfl rfl (by decide) (hex_write hb av) fun s3 a3 h3 => ?_
  refine On.run hb hP h3 1 rfl fun s4 a4 h4 => hk s4 a4 ?_
  dsimp only at hbk
  show On fx ids _ ⟨a0, r0, r1, r2, r3, r5, r6, 0x502C, av, pc + 4, stk, room + 1⟩ s4
  rw [← hbk]
  exact h4

/-- `call print_dec_newline`. -/
theorem printDec (hb : Board pf fx) (hP : Closed pf P) (h : On fx ids (g.m ids lines keys) v s)
    (hf : v.fetch = some (.call 156)) (hr : 0 < v.room)
    (hk : ∀ s' a', On fx ids (G.m { g with nums := g.nums ++ [(v.avr, .dec, true)] } ids lines keys)
      (v.put 20 0x5014) s' → P s' a') : P s a := by
  have hbk := back hf
  obtain ⟨a0, r0, r1, r2, r3, r5, r6, r7, av, pc, stk, _ | room⟩ := v
  · cases hr
  refine On.exec1 hb hP h hf rfl fun s1 a1 h1 => ?_
  refine On.run hb hP h1 1 rfl fun s2 a2 h2 => ?_
  refine On.wea hb hP h2 (r := 20) (x := 0x5014) (y := av) rfl rfl rfl rfl (by decide) (dec_write hb av) fun s3 a3 h3 => ?_
  refine On.run hb hP h3 1 rfl fun s4 a4 h4 => hk s4 a4 ?_
  dsimp only at hbk
  show On fx ids _ ⟨a0, r0, r1, r2, r3, r5, r6, 0x5014, av, pc + 4, stk, room + 1⟩ s4
  rw [← hbk]
  exact h4

/-- `call read_line`. -/
theorem readLine (hb : Board pf fx) (hP : Closed pf P) (h : On fx ids (g.m ids lines keys) v s)
    (hf : v.fetch = some (.call 100)) (hr : 0 < v.room)
    (hk : ∀ s' a', On fx ids (G.m { g with line := lineLoop 0 0 0 g.line (utf8 (lines g.asked)), asked := g.asked + 1 } ids lines keys)
      (v.put 20 0x4FFC) s' → P s' a') : P s a := by
  have hbk := back hf
  obtain ⟨a0, r0, r1, r2, r3, r5, r6, r7, av, pc, stk, _ | room⟩ := v
  · cases hr
  refine On.exec1 hb hP h hf rfl fun s1 a1 h1 => ?_
  refine On.run hb hP h1 1 rfl fun s2 a2 h2 => ?_
  refine On.wsa hb hP h2 (r := 20) (n := 170) (x := 0x4FFC) rfl rfl rfl (by decide) (line_write hb) fun s3 a3 h3 => ?_
  refine On.run hb hP h3 1 rfl fun s4 a4 h4 => hk s4 a4 ?_
  dsimp only at hbk
  show On fx ids _ ⟨a0, r0, r1, r2, r3, r5, r6, 0x4FFC, av, pc + 4, stk, room + 1⟩ s4
  rw [← hbk]
  exact h4

/-- `call read_char`. -/
theorem readChar (hb : Board pf fx) (hP : Closed pf P) (h : On fx ids (g.m ids lines keys) v s)
    (hf : v.fetch = some (.call 112)) (hr : 0 < v.room)
    (hk : ∀ s' a', On fx ids (G.m { g with key := keys g.keysAsked, keysAsked := g.keysAsked + 1 } ids lines keys)
      ((v.set 20 0x5000).put 21 (BitVec.ofNat 32 (keys g.keysAsked).toNat)) s' → P s' a') : P s a := by
  have hbk := back hf
  obtain ⟨a0, r0, r1, r2, r3, r5, r6, r7, av, pc, stk, _ | room⟩ := v
  · cases hr
  refine On.exec1 hb hP h hf rfl fun s1 a1 h1 => ?_
  refine On.run hb hP h1 1 rfl fun s2 a2 h2 => ?_
  refine On.wsa hb hP h2 (r := 20) (n := 1) (x := 0x5004) rfl rfl rfl (by decide) (key_write hb) fun s3 a3 h3 => ?_
  refine On.run hb hP h3 1 rfl fun s4 a4 h4 => ?_
  refine On.lea hb hP h4 (r := 20) (x := 0x5000) rfl rfl rfl (by decide) (key_read hb) fun s5 a5 h5 => ?_
  refine On.run hb hP h5 1 rfl fun s6 a6 h6 => hk s6 a6 ?_
  dsimp only at hbk
  show On fx ids _ ⟨a0, r0, r1, r2, r3, r5, r6, 0x5000, BitVec.ofNat 32 (keys g.keysAsked).toNat, pc + 4, stk, room + 1⟩ s6
  rw [← hbk]
  exact h6

theorem rom_read (hb : Board pf fx) {p : Nat} {w : Word} (hp : p % 4 = 0) (hw : words[p / 4]? = some w) (st : List Word) :
    Reads pf fx.maps (comps ids st (g.m ids lines keys)) (BitVec.ofNat 32 p) w (comps ids st (g.m ids lines keys)) := by
  have hi := (List.getElem?_eq_some_iff.1 hw).1
  rw [show words.length = 289 from by decide +kernel] at hi
  exact rom_reads hb (by rw [toNat32 (by omega)]; omega) hw

/-- The loop of `print`. -/
theorem copyLoop (hb : Board pf fx) (hP : Closed pf P) {a0 r0 r1 r2 r3 r5 : Word} {stk : List Word} {room : Nat} {rest : List Word} :
    ∀ (ws done : List Word) (p : Nat) (r6 r7 av : Word) (s : Machine Dev) (a : Word), p % 4 = 0 →
    words.drop (p / 4) = ws ++ 0 :: rest → (∀ w ∈ ws, w ≠ 0) → done.length + ws.length ≤ 1023 →
    r6 = BitVec.ofNat 32 p → r7 = BitVec.ofNat 32 (0x3000 + 4 * done.length) →
    On fx ids (G.m { g with buf := done ++ List.replicate (1023 - done.length) 0 } ids lines keys)
      ⟨a0, r0, r1, r2, r3, r5, r6, r7, av, 52, stk, room⟩ s →
    (∀ s' a' x y, On fx ids (G.m { g with buf := (done ++ ws) ++ List.replicate (1023 - (done ++ ws).length) 0 } ids lines keys)
      ⟨a0, r0, r1, r2, r3, r5, x, y, 0, 84, stk, room⟩ s' → P s' a') → P s a := by
  intro ws
  induction ws with
  | nil =>
    intro done p r6 r7 av s a hp hd hnz hlen h6 h7 h hk
    have hw : words[p / 4]? = some 0 := by
      have := congrArg List.head? hd
      rw [List.head?_drop] at this
      exact this
    refine On.lea hb hP h (r := 19) (x := r6) rfl rfl rfl (by rw [h6, toNat32]; exact hp; have := (List.getElem?_eq_some_iff.1 hw).1; rw [show words.length = 289 from by decide +kernel] at this; omega) (w := 0)
      (by rw [h6]; exact rom_read hb hp hw) fun s1 a1 h1 => ?_
    refine On.ifeq hb hP h1 (r := 21) (n := 0) (x := 0) rfl rfl rfl rfl (fun _ s2 a2 h2 => ?_) (fun he => absurd rfl he)
    refine On.run hb hP h2 1 rfl fun s3 a3 h3 => ?_
    rw [List.append_nil] at hk
    exact hk s3 a3 _ _ h3
  | cons w ws ih =>
    intro done p r6 r7 av s a hp hd hnz hlen h6 h7 h hk
    have hw : words[p / 4]? = some w := by
      have := congrArg List.head? hd
      rw [List.head?_drop] at this
      exact this
    have hpl : p / 4 < 289 := by
      have := (List.getElem?_eq_some_iff.1 hw).1; rwa [show words.length = 289 from by decide +kernel] at this
    rw [List.length_cons] at hlen
    have h0 : w ≠ 0 := hnz w List.mem_cons_self
    refine On.lea hb hP h (r := 19) (x := r6) rfl rfl rfl (by rw [h6, toNat32 (by omega)]; exact hp) (w := w)
      (by rw [h6]; exact rom_read hb hp hw) fun s1 a1 h1 => ?_
    refine On.ifeq hb hP h1 (r := 21) (n := 0) (x := w) rfl rfl rfl rfl (fun he => absurd he h0) (fun _ s2 a2 h2 => ?_)
    refine On.wea hb hP h2 (r := 20) (x := r7) (y := w) rfl rfl rfl rfl (by rw [h7, toNat32 (by omega)]; omega)
      (buf_write hb (i := done.length) (by rw [h7, toNat32 (by omega)]) (by omega) (by
        simp only [List.length_append, List.length_replicate]; omega)) fun s3 a3 h3 => ?_
    refine On.run hb hP h3 3 rfl fun s4 a4 h4 => ?_
    have hset : (done ++ List.replicate (1023 - done.length) 0).set done.length w =
        (done ++ [w]) ++ List.replicate (1023 - (done ++ [w]).length) 0 := by
      rw [List.set_append_right _ _ (Nat.le_refl _), Nat.sub_self, List.length_append,
        show 1023 - done.length = (1023 - (done.length + 1)) + 1 by omega, List.replicate_succ, List.append_assoc]
      rfl
    refine ih (done ++ [w]) (p + 4) (r6 + BitVec.ofNat 32 4) (r7 + BitVec.ofNat 32 4) w s4 a4 (by omega) ?_ (fun w hw => hnz w (List.mem_cons_of_mem _ hw))
      (by rw [List.length_append]; show _ + 1 + _ ≤ _; omega) (by rw [h6, BitVec.ofNat_add]) (by rw [h7, List.length_append, ← BitVec.ofNat_add]; rfl) ?_ ?_
    · rw [show (p + 4) / 4 = p / 4 + 1 by omega, ← List.drop_drop, hd]; rfl
    · rw [← hset]
      exact h4
    · rw [show done ++ [w] ++ ws = done ++ w :: ws from List.append_assoc _ _ _]; exact hk

/-- `call print`. -/
theorem print (hb : Board pf fx) (hP : Closed pf P) (h : On fx ids (g.m ids lines keys) v s)
    (hf : v.fetch = some (.call 48)) (hr : 0 < v.room) {p : Nat} {ws rest : List Word} (hp : v.rr6 = BitVec.ofNat 32 p) (hal : p % 4 = 0)
    (hd : words.drop (p / 4) = ws ++ 0 :: rest) (hnz : ∀ w ∈ ws, w ≠ 0) (hlen : ws.length ≤ 1023)
    (hbuf : g.buf = List.replicate 1023 0)
    (hk : ∀ s' a' x y z, On fx ids (G.m { g with texts := g.texts ++ [decodeStr (wordsToBytes (ws ++ List.replicate (1023 - ws.length) 0))] } ids lines keys)
      (((v.set 19 x).set 20 y).put 21 z) s' → P s' a') : P s a := by
  have hbk := back hf
  obtain ⟨a0, r0, r1, r2, r3, r5, r6, r7, av, pc, stk, _ | room⟩ := v
  · cases hr
  obtain ⟨cells, line, asked, key, keysAsked, buf, texts, chars, nums⟩ := g
  dsimp only at hbuf hk hp hbk
  subst hbuf
  refine On.exec1 hb hP h hf rfl fun s1 a1 h1 => ?_
  refine On.run hb hP h1 1 rfl fun s2 a2 h2 => ?_
  refine copyLoop (g := ⟨cells, line, asked, key, keysAsked, List.replicate 1023 0, texts, chars, nums⟩) hb hP ws [] p _ _ _ s2 a2 hal hd hnz (by simpa using hlen) hp rfl h2 fun s3 a3 x y h3 => ?_
  rw [List.nil_append] at h3
  refine On.run hb hP h3 1 rfl fun s4 a4 h4 => ?_
  refine On.wsa hb hP h4 (r := 21) (n := 170) (x := 0x3FFC) rfl rfl rfl (by decide) (show_write hb) fun s5 a5 h5 => ?_
  refine On.wsa hb hP h5 (r := 21) (n := 255) (x := 0x3FFC) rfl rfl rfl (by decide) (clear_write hb (by
    simp only [List.length_append, List.length_replicate]; omega)) fun s6 a6 h6 => ?_
  refine On.run hb hP h6 1 rfl fun s7 a7 h7 => hk s7 a7 x y 0x3FFC ?_
  show On fx ids _ ⟨a0, r0, r1, r2, r3, r5, x, y, 0x3FFC, pc + 4, stk, room + 1⟩ s7
  rw [← hbk]
  exact h7

end Lrvm.Brainfuck
