import Verif.Lemmas.LasmTable
import Verif.Props.Tools.Programs
import Verif.Lemmas.Bytes

/-!
# LASM: C80 (disassembling), C81 (disassembling, then assembling)
-/

namespace Lrvm

open Spec Lasm

/-! ## Numbers -/

theorem upperDigit_hexDigit {n : Nat} (h : n < 16) : upperDigit n = hexDigit n := by
  have : ∀ k : Fin 16, upperDigit k = hexDigit k := by decide
  exact this ⟨n, h⟩

theorem digitsAux_eq {base : Nat} (h2 : 2 ≤ base) : ∀ (n fuel : Nat) (acc : Text), n < fuel →
    digitsAux base fuel n acc = digits base n ++ acc := by
  intro n
  induction n using Nat.strongRecOn with
  | _ n ih =>
    intro fuel acc hf
    obtain ⟨f, rfl⟩ : ∃ f, fuel = f + 1 := ⟨fuel - 1, by omega⟩
    unfold digits
    simp only [digitsAux]
    split
    · rfl
    · rename_i hn
      have hlt : n / base < n := Nat.div_lt_self (by omega) (by omega)
      rw [ih _ hlt f _ (by omega), ih _ hlt n _ hlt]
      simp

theorem digits_step {base n : Nat} (h2 : 2 ≤ base) (h : base ≤ n) :
    digits base n = digits base (n / base) ++ [upperDigit (n % base)] := by
  conv => lhs; unfold digits
  simp only [digitsAux]
  rw [if_neg (by omega), digitsAux_eq h2 _ _ _ (Nat.div_lt_self (by omega) (by omega))]

theorem hexDigits_zero : ∀ w, hexDigits w 0 = List.replicate w '0'
  | 0 => rfl
  | w + 1 => by
    rw [hexDigits, Nat.zero_div, hexDigits_zero w, List.replicate_succ']
    rfl

theorem digits_length {n : Nat} : ∀ {w : Nat}, n < 16 ^ (w + 1) → (digits 16 n).length ≤ w + 1 := by
  induction n using Nat.strongRecOn with
  | _ n ih =>
    intro w h
    by_cases hn : n < 16
    · have : digits 16 n = [upperDigit n] := by unfold digits; simp [digitsAux, hn]
      rw [this]; simp
    · rw [digits_step (by omega) (by omega), List.length_append, List.length_singleton]
      cases w with
      | zero => simp at h; omega
      | succ w =>
        have := ih (n / 16) (Nat.div_lt_self (by omega) (by omega)) (w := w) (by
          rw [Nat.div_lt_iff_lt_mul (by omega)]
          rw [Nat.pow_succ] at h
          exact h)
        omega

theorem padLeft_digits : ∀ {w n : Nat}, n < 16 ^ (w + 1) → padLeft '0' (w + 1) (digits 16 n) = hexDigits (w + 1) n := by
  intro w
  induction w with
  | zero =>
    intro n h
    have hn : n < 16 := by simpa using h
    have : digits 16 n = [upperDigit n] := by unfold digits; simp [digitsAux, hn]
    rw [this, upperDigit_hexDigit hn]
    simp [padLeft, hexDigits, Nat.mod_eq_of_lt hn]
  | succ w ih =>
    intro n h
    by_cases hn : n < 16
    · have : digits 16 n = [upperDigit n] := by unfold digits; simp [digitsAux, hn]
      rw [this, hexDigits, Nat.div_eq_of_lt hn, hexDigits_zero, upperDigit_hexDigit hn, Nat.mod_eq_of_lt hn]
      simp [padLeft]
    · have hlt : n / 16 < 16 ^ (w + 1) := by
        rw [Nat.div_lt_iff_lt_mul (by omega)]
        rw [Nat.pow_succ] at h
        exact h
      rw [hexDigits, ← ih hlt, digits_step (by omega) (by omega), upperDigit_hexDigit (Nat.mod_lt _ (by omega))]
      simp [padLeft, Nat.add_sub_add_right]

theorem fmtHex_address {n : Nat} (h : n < 2 ^ 32) : fmtHex 10 n = addressText n := by
  show '0' :: 'x' :: padLeft '0' 8 (digits 16 n) = _
  rw [padLeft_digits (w := 7) (by omega)]
  rfl

theorem hex2_hexDigits (b : U8) : hex2 b = hexDigits 2 b.toNat := by
  unfold hex2
  exact padLeft_digits (w := 1) (by have := b.isLt; omega)

theorem raw_toLasm (b : Bytes4) : ProgramWord.toLasm pf (.raw b) = some (rawText b) := by
  unfold rawText
  show some (_ ++ hex2 b.b0 ++ '_' :: hex2 b.b1 ++ '_' :: hex2 b.b2 ++ '_' :: hex2 b.b3) = _
  rw [hex2_hexDigits, hex2_hexDigits, hex2_hexDigits, hex2_hexDigits]
  generalize hexDigits 2 b.b0.toNat = d0
  generalize hexDigits 2 b.b1.toNat = d1
  generalize hexDigits 2 b.b2.toNat = d2
  generalize hexDigits 2 b.b3.toNat = d3
  simp [List.intercalate, List.intersperse]

theorem joinText_intercalate (sep : Text) : ∀ ts, joinText sep ts = List.intercalate sep ts
  | [] => rfl
  | [t] => by simp [joinText, List.intercalate, List.intersperse]
  | t :: u :: ts => by
    have ih := joinText_intercalate sep (u :: ts)
    rw [joinText_cons (by simp), ih]
    simp [List.intercalate, List.intersperse]

theorem toWord_ofWord (w : Word) : (Bytes4.ofWord w).toWord = w := by
  apply BitVec.eq_of_toNat_eq
  rw [toWord_toNat]
  have := w.isLt
  simp only [Bytes4.ofWord, BitVec.toNat_setWidth, BitVec.toNat_ushiftRight, Nat.shiftRight_eq_div_pow]
  omega

/-! ## C80 -/

/-- The only instruction whose text cannot be produced, and only in debug builds. -/
def Untextable (pf : Profile) (b : Bytes4) : Prop := pf = .debug ∧ Instr.decode b = .ok (.jpr (.lit 0x8000))

theorem jpr_min_debug : Instr.toLasm .debug (.jpr (.lit 0x8000)) = none := rfl

theorem word_toLasm (pf : Profile) (b : Bytes4) :
    (Untextable pf b → (ProgramWord.decode b).toLasm pf = none) ∧
    (¬ Untextable pf b → ∃ t, (ProgramWord.decode b).toLasm pf = some t ∧ '\n' ∉ t ∧
      (∀ i, Instr.decode b = .ok i → i.toLasm pf = some t) ∧ (∀ e, Instr.decode b = .error e → t = rawText b)) := by
  constructor
  · rintro ⟨rfl, h⟩
    unfold ProgramWord.decode
    rw [h]
    rfl
  · intro hn
    unfold ProgramWord.decode
    cases hd : Instr.decode b with
    | error e =>
      obtain ⟨t, ht, _, hb⟩ := raw_line (env := resolve [] []) (pf := pf) b
      have : t = rawText b := Option.some.inj (ht.symm.trans (raw_toLasm b))
      subst this
      exact ⟨_, raw_toLasm b, hb.1, fun i hi => (by cases hi), fun _ _ => rfl⟩
    | ok i =>
      obtain ⟨t, ht, _⟩ := instr_becomes (env := resolve [] []) pf i (by rintro ⟨rfl, rfl⟩; exact hn ⟨rfl, hd⟩)
      refine ⟨t, ht, instr_noBreak pf i t ht, fun j hj => ?_, fun e he => (by cases he)⟩
      cases hj; exact ht

theorem groups4_append (b : Bytes4) (rest : List U8) : groups4 (b.toList ++ rest) = b :: groups4 rest := rfl

theorem mapM_some_iff {α β : Type} {f : α → Option β} : ∀ {l : List α} {r : List β},
    l.mapM f = some r ↔ r.length = l.length ∧ ∀ (k : Nat) (a : α), l[k]? = some a → ∃ b, r[k]? = some b ∧ f a = some b
  | [], r => by
    constructor
    · intro h; cases h; exact ⟨rfl, by simp⟩
    · rintro ⟨h, _⟩
      rw [List.length_eq_zero_iff.mp h]; rfl
  | a :: l, r => by
    rw [List.mapM_cons]
    constructor
    · intro h
      cases ha : f a with
      | none => rw [ha] at h; cases h
      | some b =>
        rw [ha] at h
        cases hl : l.mapM f with
        | none => rw [hl] at h; cases h
        | some bs =>
          rw [hl] at h; cases h
          obtain ⟨h1, h2⟩ := mapM_some_iff.1 hl
          refine ⟨by simp [h1], fun k x hx => ?_⟩
          cases k with
          | zero => simp at hx; subst hx; exact ⟨b, rfl, ha⟩
          | succ k => simp at hx; exact h2 k x hx
    · rintro ⟨h1, h2⟩
      cases r with
      | nil => simp at h1
      | cons b bs =>
        obtain ⟨b', hb', hf⟩ := h2 0 a rfl
        cases hb'
        have : l.mapM f = some bs := mapM_some_iff.2 ⟨by simpa using h1, fun k x hx => h2 (k + 1) x (by simpa using hx)⟩
        rw [hf, this]; rfl

theorem mapM_none {α β : Type} {f : α → Option β} : ∀ {l : List α} {a : α}, a ∈ l → f a = none → l.mapM f = none
  | x :: l, a, h, hf => by
    rw [List.mapM_cons]
    cases hx : f x with
    | none => rfl
    | some b =>
      rcases List.mem_cons.1 h with rfl | h
      · rw [hf] at hx; cases hx
      · rw [mapM_none h hf]; rfl

theorem mapM_total {α β : Type} {f : α → Option β} : ∀ {l : List α}, (∀ a ∈ l, ∃ b, f a = some b) → ∃ r, l.mapM f = some r
  | [], _ => ⟨[], rfl⟩
  | a :: l, h => by
    obtain ⟨b, hb⟩ := h a (by simp)
    obtain ⟨r, hr⟩ := mapM_total (l := l) (fun x hx => h x (by simp [hx]))
    exact ⟨b :: r, by rw [List.mapM_cons, hb, hr]; rfl⟩

theorem decode_program {code : List U8} (h : code.length % 4 = 0) :
    Program.decode code false = .ok ((groups4 code).map ProgramWord.decode) :=
  (decode_groups h false).trans (decodeGroups_raw _ _)

/-- **C80**, without annotations: a text is refused when its length is not a multiple of 4; otherwise disassembling
produces one line per word, in order: the text of the instruction, or `#d32` and the four bytes for the data that encode no
instruction; lines are separated by line breaks, and contain none. It succeeds unless the build is a debug one and a word
is `jpr -0x8000`; in that case it crashes. -/
theorem C80_lines_partial (pf : Profile) (code : List U8) :
    (code.length % 4 ≠ 0 → disassemble pf code false = some (.error (0, .sourceNotMultipleOf4Bytes))) ∧
    (code.length % 4 = 0 → (∀ b ∈ groups4 code, ¬ Untextable pf b) →
      ∃ lines : List (List Char), disassemble pf code false = some (.ok (List.intercalate ['\n'] lines)) ∧
        lines.length = (groups4 code).length ∧
        ∀ (k : Nat) (b : Bytes4), (groups4 code)[k]? = some b → ∃ line, lines[k]? = some line ∧ '\n' ∉ line ∧
          (∀ i, Instr.decode b = .ok i → i.toLasm pf = some line) ∧
          (∀ e, Instr.decode b = .error e → line = rawText b)) ∧
    (code.length % 4 = 0 → (∃ b ∈ groups4 code, Untextable pf b) → disassemble pf code false = none) := by
  refine ⟨fun h => ?_, fun h hn => ?_, fun h hu => ?_⟩
  · unfold disassemble Program.decode
    rw [if_pos h]
  · obtain ⟨lines, hl⟩ := mapM_total (f := ProgramWord.toLasm pf) (l := (groups4 code).map ProgramWord.decode) (by
      intro w hw
      obtain ⟨b, hb, rfl⟩ := List.mem_map.1 hw
      obtain ⟨t, ht, _⟩ := (word_toLasm pf b).2 (hn b hb)
      exact ⟨t, ht⟩)
    have hd : disassemble pf code false = some (.ok (joinText ['\n'] lines)) := by
      unfold disassemble
      rw [decode_program h]
      show (Program.toLasm pf _ false).bind _ = _
      unfold Program.toLasm Program.toLasmLines
      rw [if_neg (by simp), hl]
      rfl
    obtain ⟨h1, h2⟩ := mapM_some_iff.1 hl
    refine ⟨lines, by rw [hd, joinText_intercalate], by simpa using h1, fun k b hb => ?_⟩
    obtain ⟨line, hline, ht⟩ := h2 k (ProgramWord.decode b) (by simp [hb])
    obtain ⟨t, ht', hr⟩ := (word_toLasm pf b).2 (hn b (List.mem_of_getElem? hb))
    rw [ht] at ht'; cases ht'
    exact ⟨line, hline, hr⟩
  · obtain ⟨b, hb, hu⟩ := hu
    unfold disassemble
    rw [decode_program h]
    show (Program.toLasm pf _ false).bind _ = _
    unfold Program.toLasm Program.toLasmLines
    rw [if_neg (by simp), mapM_none (List.mem_map_of_mem hb) ((word_toLasm pf b).1 hu)]
    rfl

/-- Disassembling crashes, in debug builds, on the program `jpr -0x8000`. -/
theorem C80_refuted : ∃ code : List U8, code.length % 4 = 0 ∧ ∀ annotate, disassemble .debug code annotate = none :=
  ⟨[0x70, 0x80, 0x00, 0x00], rfl, by intro a; cases a <;> rfl⟩

theorem annotatedFrom_ok (pf : Profile) : ∀ (p : Program) (lines : List Text) (k : Nat),
    p.mapM (ProgramWord.toLasm pf) = some lines → 4 * (k + p.length) < 2 ^ 31 →
    ∃ annotated, annotatedFrom pf (BitVec.ofNat 32 (4 * k)) p = some annotated ∧ annotated.length = lines.length ∧
      ∀ (j : Nat) (line : Text), lines[j]? = some line →
        annotated[j]? = some (addressText (4 * (k + j)) ++ ": ".toList ++ line)
  | [], lines, k, h, _ => by
    cases h
    exact ⟨[], rfl, rfl, by simp⟩
  | w :: p, lines, k, h, hk => by
    rw [List.mapM_cons] at h
    cases hw : w.toLasm pf with
    | none => rw [hw] at h; cases h
    | some t =>
      cases hp : List.mapM (ProgramWord.toLasm pf) p with
      | none => rw [hw, hp] at h; cases h
      | some ts =>
        rw [hw, hp] at h; cases h
        have hlen : 4 * (k + 1) + 4 * p.length < 2 ^ 31 := by simp at hk; omega
        obtain ⟨an, ha, hl, hj⟩ := annotatedFrom_ok pf p ts (k + 1) hp (by omega)
        have hn : (BitVec.ofNat 32 (4 * k)).toNat = 4 * k := by
          rw [BitVec.toNat_ofNat, Nat.mod_eq_of_lt (by omega)]
        have hi : (BitVec.ofNat 32 (4 * k)).toInt = (4 * k : Nat) := by
          rw [BitVec.toInt_eq_toNat_of_lt (by rw [hn]; omega), hn]
        refine ⟨(addressText (4 * k) ++ ": ".toList ++ t) :: an, ?_, by simp [hl], ?_⟩
        · unfold annotatedFrom
          rw [hw]
          simp only [Option.bind_eq_bind, Option.bind_some]
          rw [if_neg (by rw [hi]; omega)]
          show Option.bind (annotatedFrom pf (BitVec.ofNat 32 (4 * k) + 4) p) _ = _
          rw [show BitVec.ofNat 32 (4 * k) + 4 = BitVec.ofNat 32 (4 * (k + 1)) by
            apply BitVec.eq_of_toNat_eq
            simp [BitVec.toNat_add]; omega, ha, hn, fmtHex_address (by omega)]
          rfl
        · intro j line hline
          cases j with
          | zero => cases hline; rfl
          | succ j =>
            have := hj j line (by simpa using hline)
            rw [show k + (j + 1) = k + 1 + j by omega]
            simpa using this

/-- **C80**, with annotations: the same lines, each after its address (in 8 hexadecimal digits) and a colon. (The address
is counted on a signed 32-bit number: from 2 GiB of code on, debug builds crash.) -/
theorem C80_annotated_partial (pf : Profile) (code : List U8) (lines : List (List Char)) (h4 : code.length % 4 = 0)
    (small : code.length < 2 ^ 31) (hl : lines.length = (groups4 code).length) (hb : ∀ line ∈ lines, '\n' ∉ line)
    (h : disassemble pf code false = some (.ok (List.intercalate ['\n'] lines))) :
    ∃ annotated : List (List Char), disassemble pf code true = some (.ok (List.intercalate ['\n'] annotated)) ∧
      annotated.length = lines.length ∧
      ∀ (k : Nat) (line : List Char), lines[k]? = some line →
        annotated[k]? = some (addressText (4 * k) ++ ": ".toList ++ line) := by
  unfold disassemble at h
  rw [decode_program h4] at h
  have h : (Program.toLasm pf ((groups4 code).map ProgramWord.decode) false).bind (fun t => some (Except.ok t)) = _ := h
  unfold Program.toLasm Program.toLasmLines at h
  rw [if_neg (by simp)] at h
  cases hm : List.mapM (ProgramWord.toLasm pf) ((groups4 code).map ProgramWord.decode) with
  | none => rw [hm] at h; cases h
  | some ls =>
    rw [hm] at h
    have h : some (Except.ok (ε := Nat × InstrDecodingError) (joinText ['\n'] ls)) =
      some (.ok (List.intercalate ['\n'] lines)) := h
    have hj : joinText ['\n'] ls = List.intercalate ['\n'] lines := by
      injection h with h; injection h
    obtain ⟨m1, m2⟩ := mapM_some_iff.1 hm
    have hls : ls = lines := by
      rw [← joinText_intercalate] at hj
      by_cases he : lines = []
      · subst he
        have : (groups4 code) = [] := List.length_eq_zero_iff.mp hl.symm
        rw [this] at m1
        exact List.length_eq_zero_iff.mp (by simpa using m1)
      · have hne : ls ≠ [] := by
          intro hc
          subst hc
          rw [List.length_map] at m1
          exact he (List.length_eq_zero_iff.mp (by rw [hl, ← m1]; rfl))
        have hbs : ∀ t ∈ ls, '\n' ∉ t := by
          intro t ht
          obtain ⟨k, hk⟩ := List.mem_iff_getElem?.1 ht
          have hlt : k < (groups4 code).length := by
            have := (List.getElem?_eq_some_iff.1 hk).1
            rw [m1] at this; simpa using this
          obtain ⟨t', ht', hw⟩ := m2 k (ProgramWord.decode ((groups4 code)[k])) (by simp [hlt])
          rw [hk] at ht'; cases ht'
          obtain ⟨t'', h1, h2, _⟩ := (word_toLasm pf ((groups4 code)[k])).2 (by
            intro hu
            rw [(word_toLasm pf _).1 hu] at hw; cases hw)
          rw [hw] at h1; cases h1
          exact h2
        rw [← splitAt_joinText hne hbs, ← splitAt_joinText he hb, hj]
    subst hls
    have hlen : 4 * (groups4 code).length = code.length := by
      have := encode_groups h4
      have hlen : ∀ l : List Bytes4, (l.flatMap Bytes4.toList).length = 4 * l.length := by
        intro l
        induction l with
        | nil => rfl
        | cons b l ih => rw [List.flatMap_cons, List.length_append, ih, List.length_cons]; show 4 + _ = _; omega
      rw [← hlen, this]
    obtain ⟨an, ha, hal, hk⟩ := annotatedFrom_ok pf _ ls 0 hm (by rw [List.length_map]; omega)
    refine ⟨an, ?_, hal, ?_⟩
    · unfold disassemble
      rw [decode_program h4]
      show (Program.toLasm pf ((groups4 code).map ProgramWord.decode) true).bind (fun t => some (Except.ok t)) = _
      unfold Program.toLasm Program.toLasmLinesAnnotated
      rw [if_pos rfl, show (0 : BitVec 32) = BitVec.ofNat 32 (4 * 0) from rfl, ha]
      show some (Except.ok (joinText _ _)) = _
      rw [joinText_intercalate]
    · intro k line hline
      have := hk k line hline
      rwa [Nat.zero_add] at this

/-- **C80**, on words: they are disassembled as the four bytes of each, most significant first; there is no length to
refuse. -/
theorem C80_words (pf : Profile) (code : List Word) (annotate : Bool) :
    (∃ bytes : List U8, bytes.length = 4 * code.length ∧
      (∀ (k : Nat) (b : Bytes4), (groups4 bytes)[k]? = some b → ∃ w, code[k]? = some w ∧ IsBytesOf b w) ∧
      disassembleWords pf code annotate = disassemble pf bytes annotate) ∧
    ∀ e, disassembleWords pf code annotate ≠ some (.error e) := by
  have hlen := wordsToBytes_length code
  have hg : groups4 (wordsToBytes code) = code.map Bytes4.ofWord := by
    clear hlen
    induction code with
    | nil => rfl
    | cons w code ih =>
      rw [wordsToBytes_cons, show beBytes 4 w = (Bytes4.ofWord w).toList by rw [beBytes_four]; rfl, groups4_append, ih]
      rfl
  refine ⟨⟨_, hlen, fun k b hb => ?_, rfl⟩, fun e => ?_⟩
  · rw [hg, List.getElem?_map, Option.map_eq_some_iff] at hb
    obtain ⟨w, hw, rfl⟩ := hb
    refine ⟨w, hw, ?_⟩
    have := isBytesOf_toWord (Bytes4.ofWord w)
    rwa [toWord_ofWord] at this
  · unfold disassembleWords disassemble
    rw [decode_program (by omega)]
    intro h
    have h : (Program.toLasm pf _ annotate).bind (fun t => some (Except.ok t)) = _ := h
    cases ht : Program.toLasm pf ((groups4 (wordsToBytes code)).map ProgramWord.decode) annotate with
    | none => rw [ht] at h; cases h
    | some t => rw [ht] at h; cases h

/-- Two words: an instruction and data, with annotations. -/
example : ∃ t, disassemble .debug [0x08, 0x00, 0x00, 0x05, 0x00, 0x0A, 0x00, 0x01] true = some (.ok t) ∧
    String.ofList t = "0x00000000: cpy a0, 0x5\n0x00000004: #d32 0x00_0A_00_01" := ⟨_, rfl, by decide +kernel⟩

example : ∀ b ∈ groups4 [0x08, 0x00, 0x00, 0x05, 0x00, 0x0A, 0x00, 0x01], ¬ Untextable .debug b := by
  intro b hb
  simp only [groups4, List.mem_cons, List.not_mem_nil, or_false] at hb
  rcases hb with rfl | rfl
  · rintro ⟨_, h⟩; cases h
  · rintro ⟨_, h⟩; cases h

/-! ## C81 -/

theorem groups4_flatten (bs : List Bytes4) : groups4 (bs.map Bytes4.toList).flatten = bs := by
  induction bs with
  | nil => rfl
  | cons b bs ih => rw [List.map_cons, List.flatten_cons, groups4_append, ih]

theorem flatten_length (bs : List Bytes4) : (bs.map Bytes4.toList).flatten.length % 4 = 0 := by
  have : ∀ bs : List Bytes4, (bs.map Bytes4.toList).flatten.length = 4 * bs.length := by
    intro bs
    induction bs with
    | nil => rfl
    | cons b bs ih => rw [List.map_cons, List.flatten_cons, List.length_append, ih, List.length_cons]; show 4 + _ = _; omega
  rw [this]; omega

/-- One word: what the assembler makes of its text. -/
theorem word_becomes {env : Env} {w : ProgramWord} {t : Text} (h : w.toLasm pf = some t) :
    ('\n' ∉ t ∧ labelOf (lineCode t) = none) ∧
    ((∃ b w', assembleLine env t = some (Bytes4.toList b) ∧ ProgramWord.decode b = w' ∧ reassembledWord pf w = some w') ∨
      (assembleLine env t = none ∧ reassembledWord pf w = none)) := by
  cases w with
  | raw b =>
    obtain ⟨t', ht, ha, hb⟩ := raw_line (env := env) (pf := pf) b
    rw [h] at ht; cases ht
    refine ⟨hb, Or.inl ⟨b, _, ha, rfl, ?_⟩⟩
    simp only [reassembledWord, ProgramWord.decode]
    cases Instr.decode b <;> rfl
  | instr i =>
    refine ⟨⟨instr_noBreak pf i t h, (instr_line pf i t h).label⟩, ?_⟩
    have h : i.toLasm pf = some t := h
    obtain ⟨t', ht, hb⟩ := instr_becomes (env := env) pf i (by rintro ⟨rfl, rfl⟩; cases h)
    rw [h] at ht; cases ht
    simp only [reassembledWord]
    cases hr : reassembled pf i with
    | none => rw [hr] at hb; exact Or.inr ⟨hb, by rfl⟩
    | some j =>
      rw [hr] at hb
      obtain ⟨b, h1, h2⟩ := hb
      refine Or.inl ⟨b, .instr j, h1, ?_, rfl⟩
      unfold ProgramWord.decode
      rw [h2]

theorem assemble_lines {env : Env} : ∀ {p : Program} {lines : List Text}, p.mapM (ProgramWord.toLasm pf) = some lines →
    (∃ bs : List Bytes4, lines.mapM (assembleLine env) = some (bs.map Bytes4.toList) ∧
      p.mapM (reassembledWord pf) = some (bs.map ProgramWord.decode)) ∨
    (lines.mapM (assembleLine env) = none ∧ p.mapM (reassembledWord pf) = none)
  | [], _, h => by cases h; exact Or.inl ⟨[], rfl, rfl⟩
  | w :: p, lines, h => by
    rw [List.mapM_cons] at h
    cases hw : w.toLasm pf with
    | none => rw [hw] at h; cases h
    | some t =>
      cases hp : List.mapM (ProgramWord.toLasm pf) p with
      | none => rw [hw, hp] at h; cases h
      | some ts =>
        rw [hw, hp] at h; cases h
        rw [List.mapM_cons, List.mapM_cons]
        rcases (word_becomes (env := env) hw).2 with ⟨b, w', h1, h2, h3⟩ | ⟨h1, h2⟩
        · rw [h1, h3]
          rcases assemble_lines (env := env) hp with ⟨bs, g1, g2⟩ | ⟨g1, g2⟩
          · rw [g1, g2, ← h2]
            exact Or.inl ⟨b :: bs, rfl, rfl⟩
          · rw [g1, g2]
            exact Or.inr ⟨rfl, rfl⟩
        · rw [h1, h2]
          exact Or.inr ⟨rfl, rfl⟩

/-- **C81**, what comes back: disassembling a program, then assembling the text, gives word by word what the table
`Spec.reassembled` says, and fails if the table says so for one of them. -/
theorem C81_table_partial (pf : Profile) (p : Program) (t : List Char) (h : p.toLasm pf false = some t) :
    assembleProg t = (p.mapM (reassembledWord pf)).map .ok := by
  unfold Program.toLasm Program.toLasmLines at h
  rw [if_neg (by simp)] at h
  cases hm : List.mapM (ProgramWord.toLasm pf) p with
  | none => rw [hm] at h; cases h
  | some lines =>
    rw [hm] at h
    have h : joinText ['\n'] lines = t := Option.some.inj h
    subst h
    unfold assembleProg
    by_cases he : p = []
    · subst he
      cases hm
      rfl
    · obtain ⟨m1, m2⟩ := mapM_some_iff.1 hm
      have hne : lines ≠ [] := by
        intro hc
        subst hc
        exact he (List.length_eq_zero_iff.mp m1.symm)
      have hb : ∀ t ∈ lines, '\n' ∉ t ∧ labelOf (lineCode t) = none := by
        intro t ht
        obtain ⟨k, hk⟩ := List.mem_iff_getElem?.1 ht
        have hlt : k < p.length := by
          have := (List.getElem?_eq_some_iff.1 hk).1
          omega
        obtain ⟨t', ht', hw⟩ := m2 k p[k] (by simp [hlt])
        rw [hk] at ht'; cases ht'
        exact (word_becomes (env := resolve [] []) hw).1
      rw [assemble_plain hne (fun t ht => (hb t ht).1) (fun t ht => (hb t ht).2)]
      rcases assemble_lines (env := resolve [] []) hm with ⟨bs, g1, g2⟩ | ⟨g1, g2⟩
      · rw [g1, g2]
        show some (Program.decode (bs.map Bytes4.toList).flatten false) = some (.ok _)
        rw [decode_program (flatten_length bs), groups4_flatten]
      · rw [g1, g2]
        rfl

theorem divModeBack_iff (m : U8) : divModeBack m = some m ↔ m.toNat ∈ [0x01, 0x02, 0x03, 0x04, 0x08, 0x10] := by
  have : ∀ k : Fin 256, divModeBack (BitVec.ofNat 8 k) = some (BitVec.ofNat 8 k) ↔
      (BitVec.ofNat 8 k).toNat ∈ [0x01, 0x02, 0x03, 0x04, 0x08, 0x10] := by decide +kernel
  simpa using this ⟨m.toNat, m.isLt⟩

/-- The two tables agree. -/
theorem reassembled_iff (pf : Profile) (i : Instr) : reassembled pf i = some i ↔ Reassembles pf i := by
  cases i with
  | cpy a b =>
    cases b with
    | reg r => simp [reassembled, Reassembles]
    | lit n =>
      by_cases ha : a = .pc <;> by_cases hn : n = 0 <;> simp [reassembled, Reassembles, ha, hn]
  | mul a b =>
    cases b with
    | reg r => simp [reassembled, Reassembles]
    | lit n => by_cases hn : n = 0 <;> simp [reassembled, Reassembles, hn]
  | and a b =>
    cases b with
    | reg r => simp [reassembled, Reassembles]
    | lit n => by_cases hn : n = 0 <;> simp [reassembled, Reassembles, hn]
  | xor a b =>
    cases b with
    | reg r => simp [reassembled, Reassembles, eq_comm]
    | lit n => simp [reassembled, Reassembles]
  | div a b c =>
    cases c with
    | reg r => simp [reassembled, Reassembles]
    | lit m =>
      simp only [reassembled, Reassembles]
      rw [← divModeBack_iff]
      cases divModeBack m <;> simp
  | mod a b c =>
    cases c with
    | reg r => simp [reassembled, Reassembles]
    | lit m =>
      simp only [reassembled, Reassembles]
      rw [← divModeBack_iff]
      cases divModeBack m <;> simp
  | jpr a =>
    cases a with
    | reg r => simp [reassembled, Reassembles]
    | lit n => cases pf <;> by_cases hn : n = 0x8000 <;> simp [reassembled, Reassembles, hn]
  | «if» a => simp only [reassembled, Reassembles]; split <;> simp_all
  | ifN a => simp only [reassembled, Reassembles]; split <;> simp_all
  | if2 a b c => simp only [reassembled, Reassembles]; split <;> simp_all
  | hwd a b c =>
    cases c with
    | reg r => simp [reassembled, Reassembles]
    | lit n => simp only [reassembled, Reassembles]; split <;> simp_all
  | _ => simp [reassembled, Reassembles]

theorem reassembledWord_iff (pf : Profile) (w : ProgramWord) : reassembledWord pf w = some w ↔ WordReassembles pf w := by
  cases w with
  | instr i =>
    simp only [reassembledWord, WordReassembles]
    rw [← reassembled_iff]
    cases reassembled pf i <;> simp
  | raw b =>
    simp only [reassembledWord, WordReassembles]
    cases Instr.decode b <;> simp

/-- **C81**, exactly which programs survive: the text of a program assembles to the same program when, and only when, each
of its words is one that does. -/
theorem C81_program_partial (pf : Profile) (p : Program) (t : List Char) (h : p.toLasm pf false = some t) :
    assembleProg t = some (.ok p) ↔ ∀ w ∈ p, WordReassembles pf w := by
  rw [C81_table_partial pf p t h]
  constructor
  · intro hp w hw
    cases hm : List.mapM (reassembledWord pf) p with
    | none => rw [hm] at hp; cases hp
    | some r =>
      rw [hm] at hp
      have : r = p := by
        injection hp with hp; injection hp
      subst this
      obtain ⟨k, hk⟩ := List.mem_iff_getElem?.1 hw
      obtain ⟨b, hb, hf⟩ := (mapM_some_iff.1 hm).2 k w hk
      rw [hk] at hb; cases hb
      exact (reassembledWord_iff pf w).1 hf
  · intro hw
    have : p.mapM (reassembledWord pf) = some p :=
      mapM_some_iff.2 ⟨rfl, fun k a ha => ⟨a, ha, (reassembledWord_iff pf a).2 (hw a (List.mem_of_getElem? ha))⟩⟩
    rw [this]
    rfl

/-- **C81** on the bytes of a program: a program text made by `disassemble` assembles to a program that decodes alike, when
every word is one that survives. -/
theorem C81_code_partial (pf : Profile) (code : List U8) (t : List Char) (h : disassemble pf code false = some (.ok t))
    (p : Program) (hp : Program.decode code false = .ok p) (hw : ∀ i, .instr i ∈ p → Reassembles pf i) :
    assembleProg t = some (Program.decode code false) := by
  unfold disassemble at h
  rw [hp] at h
  have h : (p.toLasm pf false).bind (fun t => some (Except.ok t)) = _ := h
  cases ht : p.toLasm pf false with
  | none => rw [ht] at h; cases h
  | some t' =>
    rw [ht] at h
    have : t' = t := by
      have h : some (Except.ok (ε := Nat × InstrDecodingError) t') = some (.ok t) := h
      injection h with h; injection h
    subst this
    rw [hp]
    refine (C81_program_partial pf p t' ht).2 fun w hw' => ?_
    cases w with
    | instr i => exact hw i hw'
    | raw b =>
      have h4 : code.length % 4 = 0 := by
        by_cases h4 : code.length % 4 = 0
        · exact h4
        · unfold Program.decode at hp
          rw [if_pos h4] at hp; cases hp
      rw [decode_program h4] at hp
      cases hp
      obtain ⟨c, _, hc⟩ := List.mem_map.1 hw'
      unfold ProgramWord.decode at hc
      intro i hi
      cases hd : Instr.decode c with
      | ok j => rw [hd] at hc; cases hc
      | error e =>
        rw [hd] at hc
        cases hc
        rw [hi] at hd; cases hd

theorem comes_back {p : Program} {r : Option (Except (Nat × InstrDecodingError) Program)}
    (h : (p.toLasm pf false).isSome = true) (hr : (p.mapM (reassembledWord pf)).map .ok = r) :
    ∃ t, p.toLasm pf false = some t ∧ assembleProg t = r := by
  obtain ⟨t, ht⟩ := Option.isSome_iff_exists.1 h
  exact ⟨t, ht, by rw [C81_table_partial pf p t ht, hr]⟩

/-- The translation is not 1:1: `cpy a0, 0` comes back as `xor a0, a0`, `itr 1` does not assemble, `srm` comes back as
`wea`, and `div a0, a1, 0` does not assemble. -/
theorem C81_refuted (pf : Profile) :
    (∃ t, Program.toLasm pf [.instr (.cpy .a0 (.lit 0))] false = some t ∧
      assembleProg t = some (.ok [.instr (.xor .a0 (.reg .a0))])) ∧
    (∃ t, Program.toLasm pf [.instr (.xor .a0 (.reg .a1))] false = some t ∧
      assembleProg t = some (.ok [.instr (.xor .a1 (.reg .a1))])) ∧
    (∃ t, Program.toLasm pf [.instr (.itr (.lit 1))] false = some t ∧ assembleProg t = none) ∧
    (∃ t, Program.toLasm pf [.instr (.srm (.reg .a1) (.lit 0) .a0)] false = some t ∧
      assembleProg t = some (.ok [.instr (.wea (.reg .a1) (.lit 0) (.reg .a0))])) ∧
    (∃ t, Program.toLasm pf [.instr (.div .a0 (.reg .a1) (.lit 0))] false = some t ∧ assembleProg t = none) := by
  refine ⟨comes_back rfl ?_, comes_back rfl ?_, comes_back rfl ?_, comes_back rfl ?_, comes_back rfl ?_⟩
  all_goals rfl

/-- A program that survives: arithmetic, a conditional jump, a division with its mode, data. -/
example : ∃ t, Program.toLasm .debug [.instr (.cpy .a0 (.lit 5)), .instr (.div .a0 (.reg .a1) (.lit 4)),
    .instr (.«if» (.lit 0)), .instr (.jpr (.lit 0xFFF8)), .raw ⟨0, 1, 2, 3⟩] false = some t ∧
    String.ofList t = "cpy a0, 0x5\ndiv a0, a1, DIV_ZRO_MIN\nifeq\njpr -0x8\n#d32 0x00_01_02_03" ∧
    assembleProg t = some (.ok [.instr (.cpy .a0 (.lit 5)), .instr (.div .a0 (.reg .a1) (.lit 4)),
    .instr (.«if» (.lit 0)), .instr (.jpr (.lit 0xFFF8)), .raw ⟨0, 1, 2, 3⟩]) := by
  refine ⟨_, rfl, by decide +kernel, ?_⟩
  refine (C81_program_partial .debug _ _ rfl).2 ?_
  intro w hw
  simp only [List.mem_cons, List.not_mem_nil, or_false] at hw
  rcases hw with rfl | rfl | rfl | rfl | rfl
  · exact Or.inr (by decide)
  · exact (by decide : (4 : Nat) ∈ [0x01, 0x02, 0x03, 0x04, 0x08, 0x10])
  · rfl
  · exact Or.inr (by decide)
  · intro i h; cases h

end Lrvm
