import Verif.Lemmas.BrainfuckStd

/-!
# The example `brainfuck`: C92
-/

namespace Lrvm.Brainfuck

open Spec Lasm Lrvm Prog Lang

variable {pf : Profile} {ids : Nat → U64} {lines : Nat → List Char} {keys : Nat → Char}

/-! ## Specification -/

/-- A text as the handler of the display receives it: with the NULs that fill the display's buffer of 4092 bytes. -/
def padded (t : String) : DecodedStr := .ok (t.toList ++ List.replicate (4092 - (utf8 t.toList).length) (Char.ofNat 0))

/-- What the displays of a board of this example have displayed: texts, characters, numbers. -/
structure Displayed (s : Machine Dev) (texts : List String) (chars : List (Except Word Char))
    (numbers : List (Word × NumberFormat × Bool)) : Prop where
  texts : ∃ d : BufferedDisplay, s.devs[3]? = some (.inr (.inr (.inl d))) ∧ d.calls = texts.map padded
  chars : ∃ d : CharDisplay, s.devs[6]? = some (.inr (.inr (.inr (.inr (.inr (.inl d)))))) ∧ d.calls = chars
  numbers : ∃ d : NumberDisplay, s.devs[7]? = some (.inr (.inr (.inr (.inr (.inr (.inr d)))))) ∧ d.calls = numbers

/-- `n` keys were read on a board of this example. -/
def KeysRead (s : Machine Dev) (n : Nat) : Prop :=
  ∃ d : SyncCharKeyboard, s.devs[5]? = some (.inr (.inr (.inr (.inr (.inl d))))) ∧ d.asked = n

/-- The cells of a board of this example. -/
def Cells (s : Machine Dev) (cells : Nat → Word) : Prop :=
  ∃ d : Ram, s.devs[2]? = some (.inr (.inl d)) ∧ ∀ i, i < 1024 → d.storage[i]? = some (cells i)

/-- The texts displayed before the program is interpreted. -/
def greeting : List String :=
  ["\n=== Welcome to the BrainFuck interpreter! ===\n\nPlease type your BrainFuck program here:\n\n",
    "\n=> Now running your program...\n\n"]

/-- What a run of the example leaves when an interpretation ends in state `st` and way `e`. -/
structure Result (s : Machine Dev) (st : St) (e : End) : Prop where
  displayed : Displayed s (greeting ++ texts e) (st.out ++ chars e) (numbers st e)
  keys : KeysRead s st.asked
  cells : Cells s st.cells

/-! ## Proof -/

theorem components_ok (ids : Nat → U64) (lines : Nat → List Char) (keys : Nat → Char) :
    components ids lines keys = some (comps ids (List.replicate 4096 0) (G.start.m ids lines keys)) := by
  have hram : ∀ id, Ram.new 0x1000 id = some ⟨List.replicate 4096 0, 0x400, id⟩ := by
    intro id
    unfold Ram.new
    rw [if_neg (by decide), if_neg (by decide)]; rfl
  have hdisp : BufferedDisplay.new 0x1000 (ids 3) = some ⟨List.replicate 1023 0, 1023, ids 3, []⟩ := by
    unfold BufferedDisplay.new
    rw [if_neg (by decide), if_neg (by decide)]; rfl
  have hline : SyncLineKeyboard.new 0x1000 lines (ids 4) = some ⟨List.replicate 1023 0, 1023, lines, 0, ids 4⟩ := by
    unfold SyncLineKeyboard.new
    rw [if_neg (by decide), if_neg (by decide)]; rfl
  have hrom : BootRom.withSize words 0x1000 (ids 0) = some (rom (ids 0)) := by
    unfold BootRom.withSize
    have hl : words.length = 289 := by decide +kernel
    rw [hl, if_neg (by decide), if_neg (by decide), if_neg (by decide), if_neg (by decide)]; rfl
  unfold components
  rw [assemble_source]
  simp only [bind, Option.bind, hrom, hram, hdisp, hline]
  unfold comps G.m G.start
  rfl

theorem advertised {stk : List Word} {g : G} {k n : Nat} {d : Dev} (hk : (comps ids stk (g.m ids lines keys))[k]? = some d)
    (hn : [0x1000, 0x1000, 0x1000, 0x1000, 0x1000, 8, 4, 64][k]? = some n) : Advertises pf d n := by
  have h4 : pf.mul (1023 : Word) 4 = some 4092 := by cases pf <;> rfl
  have h5 : pf.add (4092 : Word) 4 = some 4096 := by cases pf <;> rfl
  match k with
  | 0 => cases hk; cases hn; exact BootRom.advertises (rom (ids 0)) (by show 0x400 * 4 < 2 ^ 32; decide)
  | 1 => cases hk; cases hn; exact Ram.advertises (pf := pf) ⟨_, 0x400, _⟩ (by show 0x400 * 4 < 2 ^ 32; decide)
  | 2 => cases hk; cases hn; exact Ram.advertises (pf := pf) ⟨_, 0x400, _⟩ (by show 0x400 * 4 < 2 ^ 32; decide)
  | 3 =>
    cases hk; cases hn
    obtain ⟨m, h1, h2⟩ := newEncode_size (hw := ids 3) (size := 4096) (cat := .display .buffered) (md := none) (dt := none) rfl
    refine ⟨m, ?_, by rw [h2]; rfl⟩
    show (pf.mul (1023 : Word) 4).bind _ = _
    rw [h4]
    show (pf.add (4092 : Word) 4).bind _ = _
    rw [h5]
    exact h1
  | 4 =>
    cases hk; cases hn
    obtain ⟨m, h1, h2⟩ := newEncode_size (hw := ids 4) (size := 4096) (cat := .keyboard .readLineSynchronous) (md := none) (dt := none) rfl
    refine ⟨m, ?_, by rw [h2]; rfl⟩
    show (pf.mul (1023 : Word) 4).bind _ = _
    rw [h4]
    show (pf.add (4092 : Word) 4).bind _ = _
    rw [h5]
    exact h1
  | 5 =>
    cases hk; cases hn
    obtain ⟨m, h1, h2⟩ := newEncode_size (hw := ids 5) (size := 8) (cat := .keyboard .readCharSynchronous) (md := none) (dt := none) rfl
    exact ⟨m, h1, by rw [h2]; rfl⟩
  | 6 =>
    cases hk; cases hn
    obtain ⟨m, h1, h2⟩ := newEncode_size (hw := ids 6) (size := 4) (cat := .display .buffered) (md := none) (dt := none) rfl
    exact ⟨m, h1, by rw [h2]; rfl⟩
  | 7 =>
    cases hk; cases hn
    obtain ⟨m, h1, h2⟩ := newEncode_size (hw := ids 7) (size := 64) (cat := .display .number) (md := none) (dt := none) rfl
    exact ⟨m, h1, by rw [h2]; rfl⟩
  | k + 8 => cases hk

theorem reset_again {stk : List Word} {g : G} (h1 : stk = List.replicate stk.length 0) (h2 : g.cells = List.replicate g.cells.length 0)
    (h3 : g.buf = List.replicate g.buf.length 0) (h4 : g.line = List.replicate g.line.length 0) (h5 : g.key = Char.ofNat 0) :
    resetAll (comps ids stk (g.m ids lines keys)) = some (comps ids stk (g.m ids lines keys)) := by
  show some (α := List Dev) [_, .inr (.inl ⟨List.replicate stk.length 0, _, _⟩), .inr (.inl ⟨List.replicate g.cells.length 0, _, _⟩),
    .inr (.inr (.inl ⟨List.replicate g.buf.length 0, _, _, _⟩)), .inr (.inr (.inr (.inl ⟨List.replicate g.line.length 0, _, _, _, _⟩))),
    .inr (.inr (.inr (.inr (.inl ⟨Char.ofNat 0, _, _, _⟩)))), _, _] = _
  rw [← h1, ← h2, ← h3, ← h4, ← h5]
  rfl

/-- The components given to `exec_vm`, and the machine that starts. -/
theorem prepared (pf : Profile) (ids : Nat → U64) (lines : Nat → List Char) (keys : Nat → Char) :
    ∃ ds s0 fx, components ids lines keys = some ds ∧ prepareVm pf ds = some s0 ∧ Board pf fx ∧
      ∃ R, Shows fx s0 R (comps ids (List.replicate 4096 0) (G.start.m ids lines keys)) 0 ∧ Plain R ∧ R 22 = 0 := by
  have hds := components_ok ids lines keys
  obtain ⟨s0, h0, hd, hml, hm⟩ := C62_succeeds_partial (pf := pf) (ds := comps ids (List.replicate 4096 0) (G.start.m ids lines keys))
    (ds' := comps ids (List.replicate 4096 0) (G.start.m ids lines keys))
    (sizes := [0x1000, 0x1000, 0x1000, 0x1000, 0x1000, 8, 4, 64]) (by show 8 < 2 ^ 32; decide) rfl
    (fun k d n hk hn => advertised hk hn)
    (by decide) (by cases pf <;> decide)
    (reset_again (by rw [List.length_replicate]) (by unfold G.start; rw [List.length_replicate]) (by unfold G.start; rw [List.length_replicate])
      (by unfold G.start; rw [List.length_replicate]) rfl)
  have hr := C62_ready h0
  refine ⟨_, s0, ⟨s0.mappings, s0.hwbCache⟩, hds, h0, ⟨hr.2.2.2.2.2.2.1, ?_⟩,
    fun n => if n = 31 then 1 else 0, ?_, ⟨rfl, rfl, rfl⟩, rfl⟩
  · intro k b n hkbn
    have key : ∀ e ∈ Brainfuck.table, [0x1000, 0x1000, 0x1000, 0x1000, 0x1000, 8, 4, 64][e.1]? = some e.2.2 ∧
        ([0x1000, 0x1000, 0x1000, 0x1000, 0x1000, 8, 4, 64].take e.1).sum = e.2.1 := by decide
    obtain ⟨c1, c2⟩ := key _ hkbn
    obtain ⟨m, e1, e2, e3, e4⟩ := hm k n c1
    exact ⟨m, List.mem_of_getElem? e1, e2, e3.trans c2, e4⟩
  · refine ⟨hr.2.1, rfl, rfl, hd, hr.2.2.1, ?_⟩
    rw [hr.1]
    intro n hn
    have : ∀ n : Fin 32, reg startup n.val = (if n.val = 31 then 1 else 0) := by decide
    exact this ⟨n, hn⟩

theorem result_of_final {s : Machine Dev} {st : St} {e : End} {stk : List Word} {g : G} (h : s.devs = comps ids stk (g.m ids lines keys))
    (hf : Final st e g) : Result s st e := by
  refine ⟨⟨⟨_, by rw [h]; rfl, ?_⟩, ⟨_, by rw [h]; rfl, hf.chars⟩, ⟨_, by rw [h]; rfl, hf.nums⟩⟩, ⟨_, by rw [h]; rfl, hf.asked⟩,
    ⟨_, by rw [h]; rfl, hf.cells⟩⟩
  show g.texts = _
  rw [hf.texts, List.map_append]
  rfl

theorem exec_iff {ds : List Dev} (h : components ids lines keys = some ds) {r : Option (Machine Dev × StoppedState × List Text)} :
    Exec pf ids lines keys r ↔ ExecVm pf ds (RunConfig.haltOnEx.withPrintFinish false) r := by
  unfold Exec
  constructor
  · rintro (⟨h1, _⟩ | ⟨ds', h1, h2⟩)
    · rw [h] at h1; exact nomatch h1
    · rw [h] at h1; injection h1 with h1; subst h1; exact h2
  · exact fun h' => .inr ⟨ds, h, h'⟩

/-! ## Theorems -/

/-- **C92**: when the interpretation of the line that the user types ends by itself or with an error of the interpreter, the
example ends without a panic or an exception, in exactly one way, and prints nothing but what the interpretation displays. -/
theorem C92_ends_partial (pf : Profile) (ids : Nat → U64) {lines : Nat → List Char} {keys : Nat → Char} {st : St} {e : End}
    (hr : Runs (typed (lines 0)) keys St.start st e) (hm : e ≠ .misaligned) (ho : e ≠ .outside) (hd : e ≠ .tooDeep) :
    ∃ s a, s.halted = true ∧ Result s st e ∧ ∀ r, Exec pf ids lines keys r ↔ r = some (s, ⟨s.cycles, a, none⟩, []) := by
  obtain ⟨ds, s0, fx, hds, h0, hb, R, hsh, hpl, h22⟩ := prepared pf ids lines keys
  have hf := start (a := s0.regs.pc) hb Finishes.closed hsh hpl h22 (fun s' a' h => finishes hb hr h ho hd)
  obtain ⟨s, a, x, ⟨⟨stk, g, h1, h2⟩, h3, _⟩, h5, _⟩ := execVm_of_finishes h0 hf
  obtain ⟨h3, h4⟩ := h3 hm
  refine ⟨s, a, h3, result_of_final h1 h2, fun r => ?_⟩
  exact (exec_iff hds).trans (h5 h4 r)

theorem unaligned_text : ∀ k : Fin 4, k.val ≠ 0 → BitVec.ofNat 32 (0x01050000 + k.val) ≠ (0 : Word) ∧
    prettifyExWithMode (exWithMode (BitVec.ofNat 32 (0x01050000 + k.val))) =
      some ("Unaligned memory address (unalignment is ".toList ++ fmtDec k.val ++ ")".toList) := by decide +kernel

/-- **C92**: when the interpretation uses a cell while the pointer is not at the beginning of one, the example ends with an
exception, in exactly one way, and prints one line for it. -/
theorem C92_misaligned_partial (pf : Profile) (ids : Nat → U64) {lines : Nat → List Char} {keys : Nat → Char} {st : St}
    (hr : Runs (typed (lines 0)) keys St.start st .misaligned) :
    ∃ s ex, Result s st .misaligned ∧ st.ptr.toNat % 4 ≠ 0 ∧
      ∀ r, Exec pf ids lines keys r ↔ r = some (s, ⟨s.cycles, BitVec.ofNat 32 (usedAt (charAt (typed (lines 0)) st.pos)), some ex⟩,
        ["[lrvm] At address ".toList ++ fmtHex 10 (usedAt (charAt (typed (lines 0)) st.pos)) ++
          " - Exception occurred: Unaligned memory address (unalignment is ".toList ++ fmtDec (st.ptr.toNat % 4) ++ ")".toList]) := by
  obtain ⟨ds, s0, fx, hds, h0, hb, R, hsh, hpl, h22⟩ := prepared pf ids lines keys
  have hf := start (a := s0.regs.pc) hb Finishes.closed hsh hpl h22 (fun s' a' h => finishes hb hr h (by decide) (by decide))
  obtain ⟨s, a, x, ⟨⟨stk, g, h1, h2⟩, _, h3⟩, _, h5⟩ := execVm_of_finishes h0 hf
  obtain ⟨h3, h4, h6⟩ := h3 rfl
  obtain ⟨t1, t2⟩ := unaligned_text ⟨st.ptr.toNat % 4, Nat.mod_lt _ (by decide)⟩ h4
  dsimp only at t1 t2
  rw [← h6] at t1 t2
  have hu : ∀ c, usedAt c < 2 ^ 32 := by
    intro c
    unfold usedAt
    split <;> decide
  refine ⟨s, exWithMode x, result_of_final h1 h2, h4, fun r => ?_⟩
  refine (exec_iff hds).trans ?_
  have := h5 t1 _ t2 r
  rw [h3, toNat32 (hu _)] at this
  refine this.trans ?_
  have e : " - Exception occurred: Unaligned memory address (unalignment is ".toList =
      " - Exception occurred: ".toList ++ "Unaligned memory address (unalignment is ".toList := by decide +kernel
  rw [e]
  simp only [List.append_assoc]

/-- **C92**: when the interpretation never ends, the example never ends, never raises an exception, and after any number of
characters it has displayed the greeting and what these characters display. -/
theorem C92_diverges_partial (pf : Profile) (ids : Nat → U64) {lines : Nat → List Char} {keys : Nat → Char}
    (hn : ∀ n, (after (typed (lines 0)) keys n St.start).isSome) :
    (∀ r, ¬ Exec pf ids lines keys r) ∧
    ∃ ds s0, components ids lines keys = some ds ∧ prepareVm pf ds = some s0 ∧
      ∀ n st, after (typed (lines 0)) keys n St.start = some st → ∃ m s, n ≤ m ∧ Goes pf m s0 s ∧ s.halted = false ∧
        Displayed s greeting st.out [] ∧ KeysRead s st.asked ∧ Cells s st.cells := by
  obtain ⟨ds, s0, fx, hds, h0, hb, R, hsh, hpl, h22⟩ := prepared pf ids lines keys
  obtain ⟨n0, t0, g0, hh⟩ : Leads pf (At fx ids lines keys St.start) s0 s0.regs.pc :=
    start hb Leads.closed hsh hpl h22 (fun s' a' h => ⟨0, s', .stay, h⟩)
  have hall : ∀ n st, after (typed (lines 0)) keys n St.start = some st → ∃ m t, n ≤ m ∧ Goes pf m s0 t ∧ At fx ids lines keys st t := by
    intro n st hst
    obtain ⟨m, t, h1, h2, h3⟩ := goes hb hh hst
    exact ⟨n0 + m, t, by omega, g0.trans h2, h3⟩
  refine ⟨?_, ds, s0, hds, h0, ?_⟩
  · intro r hx
    replace hx := (exec_iff hds).1 hx
    simp only [ExecVm, h0] at hx
    refine no_result rfl (fun n => ?_) r hx
    obtain ⟨st, hst⟩ := Option.isSome_iff_exists.1 (hn (n + 1))
    obtain ⟨m, t, h1, h2, _⟩ := hall (n + 1) st hst
    exact h2.take (by omega)
  · intro n st hst
    obtain ⟨m, t, h1, h2, g, a0, r2, r5, r6, r7, av, room, hr, _, _, _, _, R, stk, cyc, h3, _⟩ := hall n st hst
    refine ⟨m, t, h1, h2, h3.running, ⟨⟨_, by rw [h3.devs]; rfl, hr.texts⟩, ⟨_, by rw [h3.devs]; rfl, hr.chars⟩,
      ⟨_, by rw [h3.devs]; rfl, hr.nums⟩⟩, ⟨_, by rw [h3.devs]; rfl, hr.asked⟩, ⟨_, by rw [h3.devs]; rfl, hr.cells⟩⟩

/-- An unknown character: position 2, character `!` (0x21). -/
example (pf : Profile) (ids : Nat → U64) {lines : Nat → List Char} {keys : Nat → Char} (hl : lines 0 = "+!\n".toList) :
    ∃ s a, s.halted = true ∧ Displayed s (greeting ++ ["\n===> ERROR: At character ", "\n     ", "Unknown symbol ", "\n\nNow exiting after error.\n"])
      [.ok '\'', .ok '!', .ok '\'', .ok ' ', .ok '(', .ok ')'] [(2, .dec, true), (0x21, .hex, false)] ∧
      ∀ r, Exec pf ids lines keys r ↔ r = some (s, ⟨s.cycles, a, none⟩, []) := by
  have ht : typed (lines 0) = [43, 33, 10] := by rw [hl]; decide +kernel
  have hr : Lang.Runs (typed (lines 0)) keys Lang.St.start ⟨1, 0, fun i => if i = 0 then 0 + 1 else 0, [], 0, []⟩ (.unknown 33) := by
    rw [ht]
    exact .go rfl <| .stop rfl
  obtain ⟨s, a, h1, h2, h3⟩ := C92_ends_partial pf ids hr (by decide) (by decide) (by decide)
  exact ⟨s, a, h1, h2.displayed, h3⟩

/-- An endless loop. -/
example (pf : Profile) (ids : Nat → U64) {lines : Nat → List Char} {keys : Nat → Char} (hl : lines 0 = "+[]\n".toList) :
    ∀ r, ¬ Exec pf ids lines keys r := by
  have ht : typed (lines 0) = [43, 91, 93, 10] := by rw [hl]; decide +kernel
  refine (C92_diverges_partial pf ids ?_).1
  rw [ht]
  have key : ∀ n, (after [43, 91, 93, 10] keys n ⟨1, 0, fun i => if i = 0 then 0 + 1 else 0, [], 0, []⟩).isSome ∧
      (after [43, 91, 93, 10] keys n ⟨2, 0, fun i => if i = 0 then 0 + 1 else 0, [1], 0, []⟩).isSome := by
    intro n
    induction n with
    | zero => exact ⟨rfl, rfl⟩
    | succ n ih => exact ⟨ih.2, ih.1⟩
  intro n
  cases n with
  | zero => rfl
  | succ n => exact (key n).1

/-- **C92**: a Brainfuck program (with moves written four times, at most 1021 nested loops and 4092 characters) whose loops
are either empty or never reached with a zero cell is run: if the program ends, the example displays its greeting, what the
program displays, and its goodbye, reads as many keys as the program, and leaves the cells as the program does. -/
theorem C92_brainfuck_partial (pf : Profile) (ids : Nat → U64) {lines : Nat → List Char} {keys : Nat → Char} {p : Std.Program}
    {t : Std.St} {rest : List Char} (hl : lines 0 = p.text 4 ++ rest) (hrest : rest.headD '\n' = '\n' ∨ rest.headD '\n' = '\r')
    (h : Std.Runs keys true false p Std.St.start t) (hd : p.depth ≤ 1021) (hlen : (p.text 4).length ≤ 4092) :
    Std.Runs keys false false p Std.St.start t ∧
    ∃ s a, s.halted = true ∧ Displayed s (greeting ++ ["\n\n=== Goodbye! ===\n"]) t.out [] ∧ KeysRead s t.asked ∧ Cells s t.cells ∧
      ∀ r, Exec pf ids lines keys r ↔ r = some (s, ⟨s.cycles, a, none⟩, []) := by
  refine ⟨?_, ?_⟩
  · have : ∀ {b p s t}, Std.Runs keys true b p s t → Std.Runs keys false b p s t := by
      intro b p s t h
      induction h with
      | done => exact .done
      | right h _ ih => exact .right h ih
      | left h _ ih => exact .left h ih
      | inc _ ih => exact .inc ih
      | dec _ ih => exact .dec ih
      | put _ ih => exact .put ih
      | get _ ih => exact .get ih
      | skip h _ _ ih => exact .skip h nofun ih
      | enter h _ _ ih1 ih2 => exact .enter h ih1 ih2
      | leave h _ ih => exact .leave h ih
      | again h _ ih => exact .again h ih
    exact this h
  · have hr := std_runs h hd hlen hrest
    rw [← hl] at hr
    obtain ⟨s, a, h1, h2, h3⟩ := C92_ends_partial pf ids hr (by decide) (by decide) (by decide)
    refine ⟨s, a, h1, ?_, h2.keys, h2.cells, h3⟩
    have := h2.displayed
    change Displayed s (greeting ++ ["\n\n=== Goodbye! ===\n"]) (t.out ++ []) [] at this
    rwa [List.append_nil] at this

/-- A program that reads a key and displays the character that follows. -/
example (pf : Profile) (ids : Nat → U64) {lines : Nat → List Char} {keys : Nat → Char} (hl : lines 0 = ",+.\n".toList) :
    ∃ s a, s.halted = true ∧ Displayed s (greeting ++ ["\n\n=== Goodbye! ===\n"]) [charOrWord (BitVec.ofNat 32 (keys 0).toNat + 1)] [] ∧
      KeysRead s 1 ∧ ∀ r, Exec pf ids lines keys r ↔ r = some (s, ⟨s.cycles, a, none⟩, []) := by
  obtain ⟨_, s, a, h1, h2, h3, _, h4⟩ := C92_brainfuck_partial pf ids (lines := lines) (keys := keys) (p := .get (.inc (.put .done)))
    (rest := ['\n']) hl (.inl rfl) (.get <| .inc <| .put <| .done) (by decide) (by decide)
  exact ⟨s, a, h1, h2, h3, h4⟩

/-- `>,[.-]` with the key `Ctrl-B`: the characters 2 and 1 are displayed. -/
example : Std.Runs (fun _ => Char.ofNat 2) true false (.right (.get (.loop (.put (.dec .done)) .done))) Std.St.start
    ⟨1, fun i => if i = 1 then 2 - 1 - 1 else if i = 1 then 2 - 1 else if i = 1 then 2 else 0, 1, [.ok (Char.ofNat 2), .ok (Char.ofNat 1)]⟩ ∧
    (Std.Program.right (.get (.loop (.put (.dec .done)) .done))).text 4 = ">>>>,[.-]".toList := by
  refine ⟨?_, by decide⟩
  refine .right (by decide) <| .get <| .enter (by decide) (.put <| .dec .done) <| .again (by decide) <|
    .enter (by decide) (.put <| .dec .done) <| .leave (by decide) .done

/-- **C92** is false of Brainfuck programs as they are usually written: `>+` raises an exception. -/
theorem C92_move_refuted (pf : Profile) (ids : Nat → U64) {lines : Nat → List Char} (keys : Nat → Char) :
    ∃ (p : Std.Program) (t : Std.St), p.text 1 = ">+".toList ∧ Std.Runs keys true false p Std.St.start t ∧
      (lines 0 = ">+\n".toList → ∃ s cyc ex, ∀ r, Exec pf ids lines keys r ↔ r = some (s, ⟨cyc, 516, some ex⟩,
        ["[lrvm] At address 0x00000204 - Exception occurred: Unaligned memory address (unalignment is 1)".toList])) := by
  refine ⟨.right (.inc .done), _, by decide, .right (by decide) (.inc .done), fun hl => ?_⟩
  have ht : typed (lines 0) = [62, 43, 10] := by rw [hl]; decide +kernel
  have hr : Lang.Runs (typed (lines 0)) keys Lang.St.start ⟨1, 0 + 1, fun _ => 0, [], 0, []⟩ .misaligned := by
    rw [ht]
    exact .go rfl <| .stop rfl
  obtain ⟨s, ex, _, _, h3⟩ := C92_misaligned_partial pf ids hr
  refine ⟨s, s.cycles, ex, fun r => ?_⟩
  have := h3 r
  rw [ht] at this
  have e : "[lrvm] At address ".toList ++ fmtHex 10 (usedAt (charAt [62, 43, 10] 1)) ++
          " - Exception occurred: Unaligned memory address (unalignment is ".toList ++ fmtDec ((0 + 1 : Word).toNat % 4) ++ ")".toList =
      "[lrvm] At address 0x00000204 - Exception occurred: Unaligned memory address (unalignment is 1)".toList := by decide +kernel
  dsimp only at this
  rw [e] at this
  exact this

/-- **C92** is false of Brainfuck programs that skip a loop: `[+]`, which does nothing, is reported as a loop that is not
closed, and the position given for this loop is 37. -/
theorem C92_skip_refuted (pf : Profile) (ids : Nat → U64) {lines : Nat → List Char} (keys : Nat → Char) :
    ∃ (p : Std.Program), p.text 1 = "[+]".toList ∧ p.text 4 = "[+]".toList ∧ Std.Runs keys false false p Std.St.start Std.St.start ∧
      (lines 0 = "[+]\n".toList → ∃ s a, Displayed s (greeting ++ ["\n===> ERROR: At character ", "\n     ",
          "Program exited before closing all loops: ", " were not closed, last one at character ", "\n\nNow exiting after error.\n"]) []
          [(2, .dec, true), (1, .dec, true), (37, .dec, true)] ∧
        ∀ r, Exec pf ids lines keys r ↔ r = some (s, ⟨s.cycles, a, none⟩, [])) := by
  refine ⟨.loop (.inc .done) .done, by decide, by decide, .skip (by decide) nofun .done, fun hl => ?_⟩
  have ht : typed (lines 0) = [91, 43, 93, 10] := by rw [hl]; decide +kernel
  have hr : Lang.Runs (typed (lines 0)) keys Lang.St.start Lang.St.start (.unclosed 1 1 36) := by
    rw [ht]
    exact .stop rfl
  obtain ⟨s, a, _, h2, h3⟩ := C92_ends_partial pf ids hr (by decide) (by decide) (by decide)
  exact ⟨s, a, h2.displayed, h3⟩

end Lrvm.Brainfuck
