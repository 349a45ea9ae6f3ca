import Verif.Model.Examples.Disassemble
import Verif.Lemmas.LasmAppend
import Verif.Props.Tools.LasmLabels

/-!
# The example `disassemble`: C91
-/

namespace Lrvm.Disassemble

open Spec Lasm Lrvm

variable {pf : Profile}

/-! ## Texts of instructions that come back -/

theorem divModeText_back (m m' : U8) (h : divModeBack m = some m') : divModeText m' = divModeText m := by
  have key : ∀ n : Fin 256, ∀ m', divModeBack (BitVec.ofFin n) = some m' →
      divModeText m' = divModeText (BitVec.ofFin n) := by decide +kernel
  exact key m.toFin m' h

theorem lit_zero (n : U16) : (RegOrLit2.lit n = .lit 0) = (n = 0) := by simp

/-- An instruction that comes back, `srm` excepted, comes back with the same text. -/
theorem text_back {i j : Instr} (h : reassembled pf i = some j) (hs : ∀ a b c, i ≠ .srm a b c) :
    j.toLasm pf = i.toLasm pf := by
  cases i with
  | srm a b c => exact absurd rfl (hs a b c)
  | itr a => cases h
  | cpy a b =>
    cases b with
    | reg b => cases h; rfl
    | lit n =>
      simp only [reassembled] at h
      split at h
      · next hc => cases h; simp [Instr.toLasm, hc.1, hc.2]
      · cases h; rfl
  | mul a b =>
    cases b with
    | reg b => cases h; rfl
    | lit n =>
      simp only [reassembled] at h
      split at h
      · next hc => cases h; simp [Instr.toLasm, hc]
      · cases h; rfl
  | and a b =>
    cases b with
    | reg b => cases h; rfl
    | lit n =>
      simp only [reassembled] at h
      split at h
      · next hc => cases h; simp [Instr.toLasm, hc]
      · cases h; rfl
  | xor a b => cases b <;> (cases h; rfl)
  | div a b c =>
    cases c with
    | reg c => cases h; rfl
    | lit m =>
      simp only [reassembled, Option.map_eq_some_iff] at h
      obtain ⟨m', hm, rfl⟩ := h
      simp only [Instr.toLasm, divModeText_back m m' hm]
  | mod a b c =>
    cases c with
    | reg c => cases h; rfl
    | lit m =>
      simp only [reassembled, Option.map_eq_some_iff] at h
      obtain ⟨m', hm, rfl⟩ := h
      simp only [Instr.toLasm, divModeText_back m m' hm]
  | jpr a =>
    cases a with
    | reg a => cases h; rfl
    | lit n =>
      simp only [reassembled] at h
      split at h <;> cases h
      rfl
  | «if» a => simp only [reassembled] at h; split at h <;> cases h; rfl
  | ifN a => simp only [reassembled] at h; split at h <;> cases h; rfl
  | if2 a b c => simp only [reassembled] at h; split at h <;> cases h; rfl
  | hwd a b c =>
    cases c with
    | reg c => cases h; rfl
    | lit m => simp only [reassembled] at h; split at h <;> cases h; rfl
  | _ => cases h; rfl

theorem divModeBack_back {m m' : U8} (h : divModeBack m = some m') : divModeBack m' = some m' := by
  have key : ∀ n : Fin 256, ∀ m', divModeBack (BitVec.ofFin n) = some m' → divModeBack m' = some m' := by decide +kernel
  exact key m.toFin m' h

/-- What comes back is what comes back from it. -/
theorem back_back {i j : Instr} (h : reassembled pf i = some j) : reassembled pf j = some j ∧ ∀ a b c, j ≠ .srm a b c := by
  cases i with
  | itr a => cases h
  | srm a b c => cases h; exact ⟨rfl, by intros; simp⟩
  | cpy a b =>
    cases b with
    | reg b => cases h; exact ⟨rfl, by intros; simp⟩
    | lit n =>
      simp only [reassembled] at h
      split at h
      · cases h; exact ⟨rfl, by intros; simp⟩
      · next hc => cases h; exact ⟨by simp only [reassembled, if_neg hc], by intros; simp⟩
  | mul a b =>
    cases b with
    | reg b => cases h; exact ⟨rfl, by intros; simp⟩
    | lit n =>
      simp only [reassembled] at h
      split at h
      · cases h; exact ⟨rfl, by intros; simp⟩
      · next hc => cases h; exact ⟨by simp only [reassembled, if_neg hc], by intros; simp⟩
  | and a b =>
    cases b with
    | reg b => cases h; exact ⟨rfl, by intros; simp⟩
    | lit n =>
      simp only [reassembled] at h
      split at h
      · cases h; exact ⟨rfl, by intros; simp⟩
      · next hc => cases h; exact ⟨by simp only [reassembled, if_neg hc], by intros; simp⟩
  | xor a b => cases b <;> (cases h; exact ⟨rfl, by intros; simp⟩)
  | div a b c =>
    cases c with
    | reg c => cases h; exact ⟨rfl, by intros; simp⟩
    | lit m =>
      simp only [reassembled, Option.map_eq_some_iff] at h
      obtain ⟨m', hm, rfl⟩ := h
      exact ⟨by simp only [reassembled, divModeBack_back hm]; rfl, by intros; simp⟩
  | mod a b c =>
    cases c with
    | reg c => cases h; exact ⟨rfl, by intros; simp⟩
    | lit m =>
      simp only [reassembled, Option.map_eq_some_iff] at h
      obtain ⟨m', hm, rfl⟩ := h
      exact ⟨by simp only [reassembled, divModeBack_back hm]; rfl, by intros; simp⟩
  | jpr a =>
    cases a with
    | reg a => cases h; exact ⟨rfl, by intros; simp⟩
    | lit n =>
      have h' := h
      simp only [reassembled] at h
      split at h <;> cases h
      exact ⟨h', by intros; simp⟩
  | «if» a => have h' := h; simp only [reassembled] at h; split at h <;> cases h; exact ⟨h', by intros; simp⟩
  | ifN a => have h' := h; simp only [reassembled] at h; split at h <;> cases h; exact ⟨h', by intros; simp⟩
  | if2 a b c => have h' := h; simp only [reassembled] at h; split at h <;> cases h; exact ⟨h', by intros; simp⟩
  | hwd a b c =>
    cases c with
    | reg c => cases h; exact ⟨rfl, by intros; simp⟩
    | lit m => have h' := h; simp only [reassembled] at h; split at h <;> cases h; exact ⟨h', by intros; simp⟩
  | _ => cases h; exact ⟨rfl, by intros; simp⟩

/-- An instruction that comes back has a text. -/
theorem has_text {i j : Instr} (h : reassembled pf i = some j) : ∃ t, i.toLasm pf = some t := by
  cases i with
  | jpr a =>
    cases a with
    | reg a => exact ⟨_, rfl⟩
    | lit n =>
      simp only [reassembled] at h
      split at h
      · cases h
      · next hc =>
        show ∃ t, Option.bind (if n.toInt < 0 then (if n = 0x8000 ∧ pf = .debug then none else some ('-' :: fmtHex 0 (-n).toNat))
          else some (fmtHex 0 n.toNat)) _ = some t
        by_cases hn : n.toInt < 0
        · rw [if_pos hn, if_neg (fun e => hc ⟨e.2, e.1⟩)]; exact ⟨_, rfl⟩
        · rw [if_neg hn]; exact ⟨_, rfl⟩
  | div a b c => cases c <;> exact ⟨_, rfl⟩
  | mod a b c => cases c <;> exact ⟨_, rfl⟩
  | xor a b => cases b <;> exact ⟨_, rfl⟩
  | «if» a => cases a <;> exact ⟨_, rfl⟩
  | ifN a => cases a <;> exact ⟨_, rfl⟩
  | cpy a b =>
    show ∃ t, (if a = .pc then some (lasmLine "jp" [b.toLasm]) else if b = .lit 0 then _ else _) = some t
    by_cases h1 : a = .pc
    · rw [if_pos h1]; exact ⟨_, rfl⟩
    · rw [if_neg h1]
      by_cases h2 : b = .lit 0
      · rw [if_pos h2]; exact ⟨_, rfl⟩
      · rw [if_neg h2]; exact ⟨_, rfl⟩
  | _ => exact ⟨_, rfl⟩

/-! ## Decoding -/

theorem decode_multiple {code : List U8} {b : Bool} {p : Program} (h : Program.decode code b = .ok p) : code.length % 4 = 0 := by
  unfold Program.decode at h
  split at h
  · cases h
  · omega

theorem strict_iff {code : List U8} {p : Program} :
    Program.decode code true = .ok p ↔ Program.decode code false = .ok p ∧ ∃ is : List Instr, p = is.map .instr := by
  constructor
  · intro h
    have h4 := decode_multiple h
    obtain ⟨hl, hk⟩ := ((C55_decode_strict h4).1 p).1 h
    have e : p = (groups4 code).map ProgramWord.decode := by
      refine List.ext_getElem? fun k => ?_
      rw [List.getElem?_map]
      cases hg : (groups4 code)[k]? with
      | none =>
        rw [List.getElem?_eq_none_iff] at hg
        rw [List.getElem?_eq_none_iff.2 (by omega)]; rfl
      | some b =>
        obtain ⟨i, hi, hp⟩ := hk k b hg
        rw [hp]
        simp only [Option.map_some, ProgramWord.decode, hi]
    refine ⟨by rw [decode_program h4, e], ?_⟩
    have : ∀ w ∈ p, ∃ i, w = .instr i := by
      intro w hw
      obtain ⟨k, hk'⟩ := List.mem_iff_getElem?.1 hw
      have hlt : k < (groups4 code).length := by
        rw [← hl]; exact (List.getElem?_eq_some_iff.1 hk').1
      obtain ⟨i, _, hp⟩ := hk k _ (List.getElem?_eq_getElem hlt)
      rw [hk'] at hp
      exact ⟨i, Option.some.inj hp⟩
    clear h hl hk e
    induction p with
    | nil => exact ⟨[], rfl⟩
    | cons w p ih =>
      obtain ⟨i, rfl⟩ := this w (by simp)
      obtain ⟨is, rfl⟩ := ih (fun w hw => this w (by simp [hw]))
      exact ⟨i :: is, rfl⟩
  · rintro ⟨h, is, rfl⟩
    have h4 := decode_multiple h
    rw [decode_program h4] at h
    injection h with h
    rw [(C55_decode_strict h4).1, ← h]
    refine ⟨by simp, fun k b hb => ?_⟩
    have : (is.map ProgramWord.instr)[k]? = some (ProgramWord.decode b) := by
      rw [← h, List.getElem?_map, hb]; rfl
    rw [List.getElem?_map, Option.map_eq_some_iff] at this
    obtain ⟨i, hi, e⟩ := this
    unfold ProgramWord.decode at e
    refine ⟨i, ?_, ?_⟩
    · cases hd : Instr.decode b with
      | ok j => rw [hd] at e; injection e with e; rw [e]
      | error x => rw [hd] at e; cases e
    · rw [List.getElem?_map, hb, e]; rfl

theorem reAssemble_iff {src t : Text} :
    reAssemble pf src = some t ↔
      ∃ is : List Instr, assembleProg src = some (.ok (is.map .instr)) ∧ Program.toLasm pf (is.map .instr) false = some t := by
  unfold reAssemble assembleProg
  cases ha : assemble src with
  | none => simp
  | some code =>
    simp only [Option.bind_eq_bind, Option.bind_some, Option.some.injEq]
    constructor
    · intro h
      cases hd : Program.decode code true with
      | error e => rw [hd] at h; cases h
      | ok p =>
        rw [hd] at h
        obtain ⟨h1, is, rfl⟩ := strict_iff.1 hd
        exact ⟨is, h1, h⟩
    · rintro ⟨is, h1, h2⟩
      rw [strict_iff.2 ⟨h1, is, rfl⟩]
      exact h2

theorem mapM_instr (is : List Instr) :
    (is.map ProgramWord.instr).mapM (reassembledWord pf) = (is.mapM (reassembled pf)).map (·.map .instr) := by
  induction is with
  | nil => rfl
  | cons i is ih =>
    rw [List.map_cons, List.mapM_cons, ih, List.mapM_cons]
    show (Option.map _ (reassembled pf i)).bind _ = _
    cases reassembled pf i with
    | none => rfl
    | some j => cases List.mapM (reassembled pf) is <;> rfl

theorem toLasm_congr {is js : List Instr} (h : is.mapM (fun i => i.toLasm pf) = js.mapM (fun i => i.toLasm pf)) :
    Program.toLasm pf (is.map .instr) false = Program.toLasm pf (js.map .instr) false := by
  have e : ∀ is : List Instr, (is.map ProgramWord.instr).mapM (ProgramWord.toLasm pf) = is.mapM (fun i => i.toLasm pf) := by
    intro is
    induction is with
    | nil => rfl
    | cons i is ih => rw [List.map_cons, List.mapM_cons, List.mapM_cons, ih]; rfl
  unfold Program.toLasm Program.toLasmLines
  rw [if_neg (by simp), if_neg (by simp), e, e, h]

theorem mapM_text {is js : List Instr} (h : is.mapM (reassembled pf) = some js) (hs : ∀ i ∈ is, ∀ a b c, i ≠ .srm a b c) :
    js.mapM (fun i => i.toLasm pf) = is.mapM (fun i => i.toLasm pf) := by
  induction is generalizing js with
  | nil => cases h; rfl
  | cons i is ih =>
    rw [List.mapM_cons] at h
    cases hi : reassembled pf i with
    | none => rw [hi] at h; cases h
    | some j =>
      cases hr : List.mapM (reassembled pf) is with
      | none => rw [hi, hr] at h; cases h
      | some js' =>
        rw [hi, hr] at h
        have h : j :: js' = js := Option.some.inj h
        subst h
        rw [List.mapM_cons, List.mapM_cons, ih hr (fun i hi => hs i (by simp [hi])), text_back hi (hs i (by simp))]

theorem mapM_back {is js : List Instr} (h : is.mapM (reassembled pf) = some js) :
    js.mapM (reassembled pf) = some js ∧ ∀ i ∈ js, ∀ a b c, i ≠ .srm a b c := by
  induction is generalizing js with
  | nil => cases h; exact ⟨rfl, by simp⟩
  | cons i is ih =>
    rw [List.mapM_cons] at h
    cases hi : reassembled pf i with
    | none => rw [hi] at h; cases h
    | some j =>
      cases hr : List.mapM (reassembled pf) is with
      | none => rw [hi, hr] at h; cases h
      | some js' =>
        rw [hi, hr] at h
        have h : j :: js' = js := Option.some.inj h
        subst h
        obtain ⟨h1, h2⟩ := ih hr
        obtain ⟨h3, h4⟩ := back_back hi
        refine ⟨by rw [List.mapM_cons, h1, h3]; rfl, ?_⟩
        intro k hk
        rcases List.mem_cons.1 hk with rfl | hk
        · exact h4
        · exact h2 k hk

/-! ## The theorems -/

/-- **C91**, on a documented source (with its labels): the result is the text of its instructions, one per line. -/
theorem C91_documented (lines : List (List Char)) (words : List ProgramWord) (is : List Instr) (h : Source lines words)
    (hi : words.map asRead = is.map .instr) :
    reAssemble pf (List.intercalate ['\n'] lines) = Program.toLasm pf (is.map .instr) false := by
  have := C84_labels lines words h
  rw [hi] at this
  cases ht : Program.toLasm pf (is.map .instr) false with
  | some t => exact reAssemble_iff.2 ⟨is, this, ht⟩
  | none =>
    cases hr : reAssemble pf (List.intercalate ['\n'] lines) with
    | none => rfl
    | some t =>
      obtain ⟨js, h1, h2⟩ := reAssemble_iff.1 hr
      rw [this] at h1
      injection h1 with h1; injection h1 with h1
      rw [← h1, ht] at h2; cases h2

/-- **C91.** Whatever the source, a text obtained by re-assembling, if it can itself be re-assembled, settles: the text then
obtained is its own re-assembly. -/
theorem C91_settles {src t u : Text} (h : reAssemble pf src = some t) (h' : reAssemble pf t = some u) :
    reAssemble pf u = some u := by
  obtain ⟨is, h1, h2⟩ := reAssemble_iff.1 h
  obtain ⟨js, h3, h4⟩ := reAssemble_iff.1 h'
  have e := C81_table_partial pf _ t h2
  rw [h3, mapM_instr] at e
  cases hm : is.mapM (reassembled pf) with
  | none => rw [hm] at e; cases e
  | some ks =>
    rw [hm] at e
    have e : js.map ProgramWord.instr = ks.map .instr := by
      injection e with e; injection e
    obtain ⟨hb, hs⟩ := mapM_back hm
    rw [e] at h4
    refine reAssemble_iff.2 ⟨ks, ?_, h4⟩
    rw [C81_table_partial pf _ u h4, mapM_instr, hb]
    rfl

/-- **C91**, partial: re-assembling is idempotent on every source that contains no `srm` instruction: the text obtained, if it
assembles, is its own re-assembly. -/
theorem C91_idempotent_partial {src t u : Text} (h : reAssemble pf src = some t) (h' : reAssemble pf t = some u)
    (hs : ∀ p, assembleProg src = some (.ok p) → ∀ a b c, .instr (.srm a b c) ∉ p) : u = t := by
  obtain ⟨is, h1, h2⟩ := reAssemble_iff.1 h
  obtain ⟨js, h3, h4⟩ := reAssemble_iff.1 h'
  have e := C81_table_partial pf _ t h2
  rw [h3, mapM_instr] at e
  cases hm : is.mapM (reassembled pf) with
  | none => rw [hm] at e; cases e
  | some ks =>
    rw [hm] at e
    have e : js.map ProgramWord.instr = ks.map .instr := by
      injection e with e; injection e
    rw [e, toLasm_congr (mapM_text hm ?_), h2] at h4
    · exact (Option.some.inj h4).symm
    · rintro i hi a b c rfl
      exact hs _ h1 a b c (List.mem_map_of_mem hi)

/-- **C91**, exactly when the text obtained can be re-assembled: when each instruction has a text the assembler accepts
(`Spec.reassembled`: all but `itr`, unnamed flags, conditions and information codes, and division modes that are not a single
documented one). -/
theorem C91_accepted_iff {src t : Text} {p : Program} (h : reAssemble pf src = some t)
    (hp : assembleProg src = some (.ok p)) :
    (∃ u, reAssemble pf t = some u) ↔ ∀ i, .instr i ∈ p → reassembled pf i ≠ none := by
  obtain ⟨is, h1, h2⟩ := reAssemble_iff.1 h
  have : p = is.map .instr := by
    rw [hp] at h1; injection h1 with h1; injection h1
  subst this
  have e := C81_table_partial pf _ t h2
  rw [mapM_instr] at e
  constructor
  · rintro ⟨u, hu⟩ i hi hn
    obtain ⟨js, h3, -⟩ := reAssemble_iff.1 hu
    have hi : i ∈ is := by simpa using hi
    rw [h3, mapM_none hi hn] at e
    cases e
  · intro hall
    obtain ⟨js, hj⟩ := mapM_total (f := reassembled pf) (l := is) (fun i hi =>
      Option.ne_none_iff_exists'.1 (hall i (List.mem_map_of_mem hi)))
    rw [hj] at e
    obtain ⟨t', ht'⟩ : ∃ t', Program.toLasm pf (js.map .instr) false = some t' := by
      obtain ⟨lines, hl⟩ := mapM_total (f := ProgramWord.toLasm pf) (l := js.map .instr) (fun w hw => by
        obtain ⟨j, hj', rfl⟩ := List.mem_map.1 hw
        obtain ⟨k, hk⟩ := List.mem_iff_getElem?.1 hj'
        obtain ⟨j', -, hj'⟩ := (mapM_some_iff.1 (mapM_back hj).1).2 k j hk
        exact has_text hj')
      refine ⟨joinText ['\n'] lines, ?_⟩
      unfold Program.toLasm Program.toLasmLines
      rw [if_neg (by simp), hl]
      rfl
    exact ⟨t', reAssemble_iff.2 ⟨js, e, ht'⟩⟩

/-! ## The example's source -/

/-- The labels of the source. -/
def labels : List (Text × Nat) :=
  [("main".toList, 0), ("test1".toList, 0x44), ("test2".toList, 0x48), ("test3".toList, 0x50), ("test4".toList, 0x58)]

/-- The instructions of the source. -/
def program : List Instr :=
  [.cpy .a0 (.lit 0), .add .a0 (.lit 0x10), .shl .a0 (.lit 4), .shr .a0 (.lit 4), .sub .a0 (.lit 0x10),
   .div .a1 (.reg .a0) (.lit 4), .sub .a2 (.reg .ac2), .cmp .a1 (.lit 0), .«if» (.lit 0), .call (.lit 0x44),
   .if2 (.lit 0) (.lit 1) (.lit 1), .call (.lit 0x48), .if2 (.lit 0) (.lit 4) (.lit 6), .call (.lit 0x50),
   .if2 (.lit 4) (.lit 0) (.lit 3), .call (.lit 0x58), .halt, .pop .pc, .add .a0 (.reg .a1), .pop .pc, .add .a0 (.lit 1),
   .pop .pc, .sub .a0 (.lit 1), .cpy .pc (.lit 0x10), .pop .pc]

/-- The words of the source. -/
def words : List Word :=
  [0x0c000000, 0x1c000010, 0x5c000400, 0x64000400, 0x24000010, 0x36010004, 0x26020c00, 0x6c010000, 0x88000000,
   0xd8004400, 0x98000101, 0xd8004800, 0x98000406, 0xd8005000, 0x98040003, 0xd8005800, 0xf0000000, 0xd4160000, 0x1e000100,
   0xd4160000, 0x1c000001, 0xd4160000, 0x24000001, 0x0c160010, 0xd4160000]

theorem chunk : ChunkOk labels 0 [] (sourceLines.map String.toList) 100 "test4".toList labels words := by decide +kernel

theorem source_assembles : assembleProg source = some (.ok (program.map .instr)) := by
  have h : assemble source = some (wordsToBytes words) := by
    obtain ⟨a1, -, -, a4, -, a6⟩ := chunk
    unfold source
    rw [← joinText_intercalate]
    unfold assemble
    rw [splitAt_joinText (by simp [sourceLines]) a6]
    simp only
    rw [a1, if_pos (by decide), a4]
  unfold assembleProg
  rw [h]
  have : Program.decode (wordsToBytes words) false = .ok (program.map .instr) := by
    rw [decode_program (by decide +kernel)]
    exact congrArg _ (show (groups4 (wordsToBytes words)).map ProgramWord.decode = program.map .instr from by decide +kernel)
  show some _ = _
  rw [this]

theorem program_text (pf : Profile) : Program.toLasm pf (program.map .instr) false = some expected := by
  cases pf <;> decide +kernel

/-- **C91** on the example's own source: `re_assemble(SOURCE)` is the text its test expects, in both kinds of build. -/
theorem C91_example (pf : Profile) : reAssemble pf source = some expected :=
  reAssemble_iff.2 ⟨program, source_assembles, program_text pf⟩

/-- The expected text is its own re-assembly: an instance of the theorems above. -/
theorem C91_example_settled (pf : Profile) : reAssemble pf expected = some expected := by
  have h := C91_example pf
  obtain ⟨u, hu⟩ := (C91_accepted_iff h source_assembles).2 (by
    intro i hi
    have hi : i ∈ program := by simpa using hi
    have hall : ∀ i ∈ program, reassembled pf i ≠ none := by cases pf <;> decide +kernel
    exact hall i hi)
  have := C91_idempotent_partial h hu (by
    intro p hp a b c hm
    rw [source_assembles] at hp
    injection hp with hp; injection hp with hp
    subst hp
    have hm : Instr.srm a b c ∈ program := by simpa using hm
    simp [program] at hm)
  rw [this] at hu
  exact hu

/-- **C91** fails with `srm`, which comes from data: the first re-assembly shows `srm a1, 0x0, a0`, the second `wea`. -/
theorem C91_refuted (pf : Profile) : ∃ src t u, reAssemble pf src = some t ∧ reAssemble pf t = some u ∧ u ≠ t :=
  ⟨"#d32 0xC4010000".toList, "srm a1, 0x0, a0".toList, "wea a1, 0x0, a0".toList,
    by cases pf <;> decide +kernel, by cases pf <;> decide +kernel, by decide⟩

/-- The hypotheses of `C91_accepted_iff` and `C91_idempotent_partial` on the example's source, which has no `srm`. -/
example (pf : Profile) : ∃ t p, reAssemble pf source = some t ∧ assembleProg source = some (.ok p) ∧ p.length = 25 ∧
    (∀ i, .instr i ∈ p → reassembled pf i ≠ none) ∧ ∀ a b c, .instr (.srm a b c) ∉ p := by
  refine ⟨_, _, C91_example pf, source_assembles, by decide, fun i hi => ?_, fun a b c hm => ?_⟩
  · have hi : i ∈ program := by simpa using hi
    have hall : ∀ i ∈ program, reassembled pf i ≠ none := by cases pf <;> decide +kernel
    exact hall i hi
  · have hm : Instr.srm a b c ∈ program := by simpa using hm
    simp [program] at hm

/-- A source whose re-assembly cannot be re-assembled: an interruption, from data. -/
example (pf : Profile) : ∃ t, reAssemble pf "#d32 0x83010000".toList = some t ∧ reAssemble pf t = none := by
  cases pf
  · exact ⟨_, rfl, by decide +kernel⟩
  · exact ⟨_, rfl, by decide +kernel⟩

end Lrvm.Disassemble
