import Verif.Lemmas.LasmSource
import Verif.Props.Tools.Lasm
import Verif.Spec.Asm
import Verif.Spec.LasmLabels
import Verif.Demo.Machines

/-!
# LASM: C82 (assembling documented sources)
-/

namespace Lrvm

open Spec Lasm

/-! ## C82 -/

theorem codeText_lasmLine (mn : String) (ops : List Text) : codeText mn ops = lasmLine mn ops := by
  cases ops with
  | nil => rfl
  | cons t ts => unfold codeText lasmLine; rw [joinText_intercalate]; rfl

theorem opName_isOp {table : List (String × Nat)} (h : ∀ s n, (s, n) ∈ table → opTest s.toList = true) {t : Text}
    {v : RegOrLit1} (ho : OpName table t v) : IsOp t := by
  cases ho with
  | reg r => exact isOp_reg r
  | name hm =>
    rename_i s n
    have := h s n hm
    exact isOp_of_test this

theorem tableOps (table : List (String × Nat)) (h : table.all (fun e => opTest e.1.toList) = true) :
    ∀ s n, (s, n) ∈ table → opTest s.toList = true :=
  fun s n hm => List.all_eq_true.mp h (s, n) hm

variable {names : Names} {env : Env}

theorem opJ_isOp {t : Text} {v : RegOrLit2} (hE : Agrees names env) (h : OpJ names t v) : IsOp t := by
  cases h with
  | reg r => exact isOp_reg r
  | lit h _ _ => exact (written_value hE h).isOp

theorem documented_ops {mn : String} {ops : List Text} {i : Instr} (hE : Agrees names env)
    (h : Documented names mn ops i) :
    (IsWord mn.toList ∧ labelOf mn.toList = none) ∧ ∀ t ∈ ops, IsOp t := by
  have fr : ∀ {t r}, OpReg t r → IsOp t := fun h => (opReg_writes (env := env) h).isOp
  have f1 : ∀ {t r}, Op1 names t r → IsOp t := fun h => (op1_writes hE h).isOp
  have fs : ∀ {t r}, OpS names t r → IsOp t := fun h => (opS_writes hE h).isOp
  have f2 : ∀ {t r}, Op2 names t r → IsOp t := fun h => (op2_writes hE h).isOp
  have fj : ∀ {t r}, OpJ names t r → IsOp t := fun h => opJ_isOp hE h
  have ff : ∀ {t r}, OpName flagConstants t r → IsOp t := fun h => opName_isOp (tableOps _ (by decide)) h
  have fd : ∀ {t r}, OpName divConstants t r → IsOp t := fun h => opName_isOp (tableOps _ (by decide)) h
  have fc : ∀ {t r}, OpName condConstants t r → IsOp t := fun h => opName_isOp (tableOps _ (by decide)) h
  have fi : ∀ {t r}, OpName infoConstants t r → IsOp t := fun h => opName_isOp (tableOps _ (by decide)) h
  have n0 : ∀ t ∈ ([] : List Text), IsOp t := by simp
  have n1 : ∀ {a : Text}, IsOp a → ∀ t ∈ [a], IsOp t := by simp
  have n2 : ∀ {a b : Text}, IsOp a → IsOp b → ∀ t ∈ [a, b], IsOp t := by
    intro a b ha hb t ht
    simp at ht
    rcases ht with rfl | rfl <;> assumption
  have n3 : ∀ {a b c : Text}, IsOp a → IsOp b → IsOp c → ∀ t ∈ [a, b, c], IsOp t := by
    intro a b c ha hb hc t ht
    simp at ht
    rcases ht with rfl | rfl | rfl <;> assumption
  cases h with
  | halt | ifeq | ifnq | ifgt | ifge | ifls | ifle | ret => exact ⟨by decide, n0⟩
  | pop ha | cycles ha | zro ha | inc ha | dec ha => exact ⟨by decide, n1 (fr ha)⟩
  | lsm ha | push ha | call ha | jp ha => exact ⟨by decide, n1 (f2 ha)⟩
  | jpr ha => exact ⟨by decide, n1 (fj ha)⟩
  | itr ha | reset ha | leaDefault2 ha | weaDefault2 ha => exact ⟨by decide, n1 (f1 ha)⟩
  | «if» ha | ifN ha => exact ⟨by decide, n1 (ff ha)⟩
  | ex ha hb => exact ⟨by decide, n2 (fr ha) (fr hb)⟩
  | cpy ha hb | add ha hb | sub ha hb | mul ha hb | and ha hb | bor ha hb | xor ha hb | cmp ha hb =>
    exact ⟨by decide, n2 (fr ha) (f2 hb)⟩
  | shl ha hb | shr ha hb | divDefault ha hb | modDefault ha hb | lsaDefault ha hb =>
    exact ⟨by decide, n2 (fr ha) (f1 hb)⟩
  | wsaDefault ha hb => exact ⟨by decide, n2 (f1 ha) (f1 hb)⟩
  | leaDefault1 ha hb => exact ⟨by decide, n2 (f1 ha) (fs hb)⟩
  | ifor ha hb | ifand ha hb | ifxor ha hb | ifnor ha hb | ifnand ha hb | ifleft ha hb | ifright ha hb =>
    exact ⟨by decide, n2 (ff ha) (ff hb)⟩
  | div ha hb hc | mod ha hb hc => exact ⟨by decide, n3 (fr ha) (f1 hb) (fd hc)⟩
  | if2 ha hb hc => exact ⟨by decide, n3 (ff ha) (ff hb) (fc hc)⟩
  | if2Byte ha hb hc => exact ⟨by decide, n3 (ff ha) (ff hb) (f1 hc)⟩
  | lsa ha hb hc => exact ⟨by decide, n3 (fr ha) (f1 hb) (fs hc)⟩
  | lea ha hb hc | wea ha hb hc => exact ⟨by decide, n3 (f1 ha) (fs hb) (fs hc)⟩
  | wsa ha hb hc => exact ⟨by decide, n3 (f1 ha) (fs hb) (f1 hc)⟩
  | srm ha hb hc => exact ⟨by decide, n3 (f1 ha) (fs hb) (fr hc)⟩
  | hwd ha hb hc => exact ⟨by decide, n3 (fr ha) (f1 hb) (fi hc)⟩
  | hwdByte ha hb hc => exact ⟨by decide, n3 (fr ha) (f1 hb) (f1 hc)⟩

theorem lineCode_space (t : Text) : lineCode (' ' :: t) = lineCode t := by
  unfold lineCode
  rw [List.takeWhile_cons_of_pos (by decide), trim_space]

theorem lineCode_spaces (n : Nat) (t : Text) : lineCode (List.replicate n ' ' ++ t) = lineCode t := by
  induction n with
  | zero => rfl
  | succ n ih => rw [List.replicate_succ, List.cons_append, lineCode_space, ih]

theorem lineCode_comment {t : Text} (c : Text) (h : ';' ∉ t) : lineCode (t ++ ' ' :: ';' :: c) = lineCode t := by
  have hall : ∀ x ∈ t, (x != ';') = true := fun x hx => by
    simp only [bne_iff_ne, ne_eq]; rintro rfl; exact h hx
  have h1 : (t ++ ' ' :: ';' :: c).takeWhile (· != ';') = t ++ [' '] := by
    rw [show t ++ ' ' :: ';' :: c = (t ++ [' ']) ++ ';' :: c by simp]
    refine takeWhile_stop ?_ (by decide)
    intro x hx
    rcases List.mem_append.1 hx with hx | hx
    · exact hall x hx
    · rw [List.mem_singleton.1 hx]; decide
  have h2 : t.takeWhile (· != ';') = t := takeWhile_all hall
  unfold lineCode
  rw [h1, h2, trim_snoc_space]

theorem lineCode_line {mn : String} {ops : List Text} (hm : IsWord mn.toList) (ho : ∀ t ∈ ops, IsOp t) :
    lineCode (lasmLine mn ops) = lasmLine mn ops := by
  have := lasmLine_code (mn := mn) (tail := []) hm ho (Or.inl rfl)
  rwa [List.append_nil] at this

theorem assembleLine_congr {env : Env} {s t : Text} (h : lineCode s = lineCode t) :
    assembleLine env s = assembleLine env t := by
  unfold assembleLine
  rw [h]

theorem unescape_quoted {t u : Text} (h : Quoted t u) : unescape (t ++ ['"']) = some u := by
  induction h with
  | nil => rfl
  | @plain c t u hc _ ih =>
    simp only [List.mem_cons, List.not_mem_nil, or_false, not_or] at hc
    rw [List.cons_append, unescape]
    · rw [ih]; rfl
    all_goals (intros; simp_all)
  | @escape e c t u he _ ih =>
    simp only [List.mem_cons, List.not_mem_nil, or_false, Prod.mk.injEq] at he
    rcases he with ⟨rfl, rfl⟩ | ⟨rfl, rfl⟩ | ⟨rfl, rfl⟩ | ⟨rfl, rfl⟩ | ⟨rfl, rfl⟩ | ⟨rfl, rfl⟩ <;>
      (rw [List.cons_append, List.cons_append, unescape, ih]; rfl)

theorem quoted_chars {t u : Text} (h : Quoted t u) : ∀ c ∈ t, c ≠ ';' ∧ c ≠ '\n' := by
  induction h with
  | nil => simp
  | @plain c t u hc _ ih =>
    simp only [List.mem_cons, List.not_mem_nil, or_false, not_or] at hc
    intro x hx
    rcases List.mem_cons.1 hx with rfl | hx
    · exact ⟨hc.2.2.1, hc.2.2.2⟩
    · exact ih x hx
  | @escape e c t u he _ ih =>
    simp only [List.mem_cons, List.not_mem_nil, or_false, Prod.mk.injEq] at he
    intro x hx
    rcases List.mem_cons.1 hx with rfl | hx
    · decide
    rcases List.mem_cons.1 hx with rfl | hx
    · rcases he with ⟨rfl, -⟩ | ⟨rfl, -⟩ | ⟨rfl, -⟩ | ⟨rfl, -⟩ | ⟨rfl, -⟩ | ⟨rfl, -⟩ <;> decide
    · exact ih x hx

/-- The line of a text. -/
def textLine (t : Text) : Text := '#' :: 'd' :: ' ' :: '"' :: (t ++ ['"'])

theorem textLine_code {t u : Text} (h : Quoted t u) : lineCode (textLine t) = textLine t := by
  unfold lineCode textLine
  rw [takeWhile_all, trim_of (by simp) (by simp [List.getLast?_cons])]
  intro c hc
  simp only [List.mem_cons, List.mem_append, List.not_mem_nil, or_false] at hc
  rcases hc with rfl | rfl | rfl | rfl | hc | rfl
  all_goals first | decide | skip
  simpa using (quoted_chars h c hc).1

theorem textLine_rest (t : Text) : (textLine t).takeWhile (· != ' ') = "#d".toList ∧
    trim ((textLine t).dropWhile (· != ' ')) = '"' :: (t ++ ['"']) := by
  refine ⟨rfl, ?_⟩
  have : (textLine t).dropWhile (· != ' ') = ' ' :: '"' :: (t ++ ['"']) := rfl
  rw [this, trim_space, trim_of (by simp) (by simp [List.getLast?_cons])]

theorem textLine_bytes {t u : Text} (h : Quoted t u) : stringBytes ('"' :: (t ++ ['"'])) = some (utf8 u) := by
  show Option.map utf8 (unescape (t ++ ['"'])) = _
  rw [unescape_quoted h]
  rfl

theorem assembleLine_text {t u : Text} (h : Quoted t u) : assembleLine env (textLine t) = some (utf8 u) := by
  have hc := textLine_code h
  unfold assembleLine
  simp only []
  generalize lineCode (textLine t) = code at hc
  subst hc
  rw [if_neg (by simp [textLine]), (textLine_rest t).1, if_pos rfl, (textLine_rest t).2, textLine_bytes h]

theorem lineSize_congr {s t : Text} (h : lineCode s = lineCode t) : lineSize s = lineSize t := by
  unfold lineSize
  rw [h]

theorem lineSize_text {t u : Text} (h : Quoted t u) : lineSize (textLine t) = (utf8 u).length := by
  have hc := textLine_code h
  unfold lineSize
  simp only []
  generalize lineCode (textLine t) = code at hc
  subst hc
  rw [if_neg (by simp [textLine]), (textLine_rest t).1, if_pos rfl, (textLine_rest t).2, textLine_bytes h]
  rfl

theorem lineSize_code {mn : String} {ops : List Text} (hm : IsWord mn.toList) (hd : mn.toList ≠ "#d".toList)
    (ho : ∀ t ∈ ops, IsOp t) : lineSize (lasmLine mn ops) = 4 := by
  have hc := lineCode_line hm ho
  unfold lineSize
  simp only []
  generalize lineCode (lasmLine mn ops) = code at hc
  subst hc
  rw [if_neg (lasmLine_ne_nil hm), lasmLine_mnemonic hm, if_neg hd]

theorem directive_value {t : Text} {z : Int} (hE : Agrees names env) (h : Value names t z) :
    assembleLine env (lasmLine "#d32" [t]) = d32 z := by
  have hm : IsWord "#d32".toList := by decide
  have hops : ∀ u ∈ [t], IsOp u := by simpa using (written_value hE h).isOp
  have hcode := lineCode_line hm hops
  unfold assembleLine
  simp only []
  generalize lineCode (lasmLine "#d32" [t]) = code at hcode
  subst hcode
  rw [if_neg (lasmLine_ne_nil hm), lasmLine_mnemonic hm, lasmLine_operands hm hops, if_neg (by decide), if_pos rfl]
  show (exprVal env t).bind d32 = _
  rw [value_exprVal hE h]
  rfl

theorem d32_value {z : Int} (h1 : -2 ^ 31 ≤ z) (h2 : z < 2 ^ 32) :
    d32 z = some (Bytes4.ofWord (BitVec.ofInt 32 z)).toList := by
  unfold d32
  rw [if_pos ⟨h1, h2⟩]

theorem mnemonic_ne {mn : String} {ops : List Text} {i : Instr} (h : Documented names mn ops i) :
    mn.toList ≠ "#d".toList := by
  cases h <;> decide

/-- What a line of a source gives: the bytes of its words; and it defines no label. -/
theorem sourceLine_bytes {t : Text} {ws : List ProgramWord} (hE : Agrees names env) (h : SourceLine names t ws) :
    ('\n' ∉ t ∧ labelOf (lineCode t) = none ∧ lineSize t = 4 * ws.length) ∧
      ∃ bs : List Bytes4, assembleLine env t = some (bs.map Bytes4.toList).flatten ∧ bs.length = ws.length ∧
        bs.map ProgramWord.decode = ws.map asRead := by
  have nosp : ∀ n, '\n' ∉ List.replicate n ' ' := fun n hc => by
    have := (List.mem_replicate.1 hc).2; revert this; decide
  cases h with
  | blank n =>
    have hl : lineCode (List.replicate n ' ') = lineCode [] := by simpa using lineCode_spaces n []
    refine ⟨⟨nosp n, by rw [hl]; decide, by rw [lineSize_congr hl]; decide⟩, [], ?_, rfl, rfl⟩
    rw [assembleLine_congr hl]; rfl
  | comment n hc =>
    rename_i c
    have hl : lineCode (List.replicate n ' ' ++ ';' :: c) = lineCode [] := by rw [lineCode_spaces]; rfl
    refine ⟨⟨noBreak_append (nosp n) (by simp [hc]), by rw [hl]; decide, by rw [lineSize_congr hl]; decide⟩, [], ?_, rfl, rfl⟩
    rw [assembleLine_congr hl]; rfl
  | code n hd hb =>
    rename_i mn ops i
    obtain ⟨⟨hm, hl⟩, ho⟩ := documented_ops hE hd
    obtain ⟨b, h1, h2⟩ := documented_gives hE hd hb
    rw [codeText_lasmLine]
    have hc := lineCode_spaces n (lasmLine mn ops)
    refine ⟨⟨noBreak_append (nosp n) (noBreak hm ho), by rw [hc, lineCode_line hm ho, labelOf_lasmLine hl ho], by
      rw [lineSize_congr hc, lineSize_code hm (mnemonic_ne hd) ho]; rfl⟩, [b], ?_, rfl, ?_⟩
    · rw [assembleLine_congr hc, h1]; simp
    · simp only [List.map_cons, List.map_nil, asRead]
      rw [decode_ok h2]
  | codeComment n hd hb hc =>
    rename_i mn ops i c
    obtain ⟨⟨hm, hl⟩, ho⟩ := documented_ops hE hd
    obtain ⟨b, h1, h2⟩ := documented_gives hE hd hb
    rw [codeText_lasmLine]
    have hcd : lineCode (List.replicate n ' ' ++ lasmLine mn ops ++ ' ' :: ';' :: c) = lineCode (lasmLine mn ops) := by
      rw [List.append_assoc, lineCode_spaces, lineCode_comment c (fun hc => (lasmLine_mem hm ho hc).1 rfl)]
    refine ⟨⟨noBreak_append (noBreak_append (nosp n) (noBreak hm ho)) (by simp [hc]), by
      rw [hcd, lineCode_line hm ho, labelOf_lasmLine hl ho], by
      rw [lineSize_congr hcd, lineSize_code hm (mnemonic_ne hd) ho]; rfl⟩, [b], ?_, rfl, ?_⟩
    · rw [assembleLine_congr hcd, h1]
      simp
    · simp only [List.map_cons, List.map_nil, asRead]
      rw [decode_ok h2]
  | data n hu h1 h2 hb =>
    rename_i t b z
    have hw := written_value hE hu
    have ht : "#d32 ".toList ++ t = lasmLine "#d32" [t] := rfl
    have hm : IsWord "#d32".toList := by decide
    have ho : ∀ u ∈ [t], IsOp u := by simpa using hw.isOp
    rw [List.append_assoc, ht]
    have hc := lineCode_spaces n (lasmLine "#d32" [t])
    refine ⟨⟨noBreak_append (nosp n) (noBreak hm ho), by
      rw [hc, lineCode_line hm ho, labelOf_lasmLine (by decide) ho], by
      rw [lineSize_congr hc, lineSize_code hm (by decide) ho]; rfl⟩, [b], ?_, rfl, ?_⟩
    · rw [assembleLine_congr hc, directive_value hE hu, d32_value h1 h2, ← hb]
      simp
    · simp only [List.map_cons, List.map_nil, asRead]
      unfold ProgramWord.decode
      rfl
  | text n hq hu =>
    rename_i t u bs
    have ht : List.replicate n ' ' ++ "#d \"".toList ++ t ++ ['"'] = List.replicate n ' ' ++ textLine t := by
      simp [textLine]
    rw [ht]
    have hc := lineCode_spaces n (textLine t)
    have hflat : bs.flatMap Bytes4.toList = (bs.map Bytes4.toList).flatten := by rw [List.flatMap_def]
    refine ⟨⟨noBreak_append (nosp n) ?_, ?_, ?_⟩, bs, ?_, by simp, ?_⟩
    · intro hx
      simp only [textLine, List.mem_cons, List.mem_append, List.not_mem_nil, or_false] at hx
      rcases hx with hx | hx | hx | hx | hx | hx
      all_goals first | (revert hx; decide) | exact (quoted_chars hq _ hx).2 rfl
    · rw [hc, textLine_code hq]
      unfold labelOf
      rw [if_neg]
      rintro ⟨-, -, h⟩
      have : ' ' ∈ (textLine t).dropLast := by
        unfold textLine
        rw [List.dropLast_cons_of_ne_nil (by simp), List.dropLast_cons_of_ne_nil (by simp),
          List.dropLast_cons_of_ne_nil (by simp)]
        simp
      exact absurd (List.all_eq_true.1 h ' ' this) (by decide)
    · rw [lineSize_congr hc, lineSize_text hq, hu, List.length_map]
      clear hu ht hc hflat
      induction bs with
      | nil => rfl
      | cons b bs ih => rw [List.flatMap_cons, List.length_append, ih, List.length_cons]; show 4 + _ = _; omega
    · rw [assembleLine_congr hc, assembleLine_text hq, hu, hflat]
    · rw [List.map_map]
      refine List.map_congr_left fun b _ => ?_
      simp only [Function.comp, asRead]
      unfold ProgramWord.decode
      rfl

theorem source_bytes (hE : Agrees names env) : ∀ {src : List (Text × List ProgramWord)},
    (∀ e ∈ src, SourceLine names e.1 e.2) →
    ∃ bs : List Bytes4,
      ((src.map (·.1)).mapM (assembleLine env)).map List.flatten = some (bs.map Bytes4.toList).flatten ∧
      bs.map ProgramWord.decode = (src.flatMap (·.2)).map asRead
  | [], _ => ⟨[], rfl, rfl⟩
  | e :: src, h => by
    obtain ⟨_, bs, h1, _, h2⟩ := sourceLine_bytes hE (h e (by simp))
    obtain ⟨cs, g1, g2⟩ := source_bytes hE (src := src) (fun x hx => h x (by simp [hx]))
    refine ⟨bs ++ cs, ?_, by simp [h2, g2]⟩
    rw [List.map_cons, List.mapM_cons, h1]
    cases hm : (src.map (·.1)).mapM (assembleLine env) with
    | none => rw [hm] at g1; cases g1
    | some r =>
      rw [hm] at g1
      have g1 : r.flatten = (cs.map Bytes4.toList).flatten := Option.some.inj g1
      show some (List.flatten (_ :: r)) = _
      rw [List.flatten_cons, g1]
      simp

/-- **C82**: a source whose lines are blank, comments, words of data or documented instructions (other than the broken
forms), indented or not, with or without a comment, assembles to the words of its lines, in order. -/
theorem C82_source_partial (src : List (List Char × List ProgramWord)) (h : ∀ e ∈ src, SourceLine noNames e.1 e.2) :
    assembleProg (List.intercalate ['\n'] (src.map (·.1))) = some (.ok ((src.flatMap (·.2)).map asRead)) := by
  obtain ⟨bs, h1, h2⟩ := source_bytes (agrees_none (env := resolve [] [])) h
  have hs : assemble (List.intercalate ['\n'] (src.map (·.1))) = some (bs.map Bytes4.toList).flatten := by
    rw [← joinText_intercalate]
    by_cases hn : src = []
    · subst hn
      exact h1
    · rw [assemble_plain (by simpa using hn) ?_ ?_, h1]
      · intro t ht
        obtain ⟨e, he, rfl⟩ := List.mem_map.1 ht
        exact (sourceLine_bytes (agrees_none (env := resolve [] [])) (h e he)).1.1
      · intro t ht
        obtain ⟨e, he, rfl⟩ := List.mem_map.1 ht
        exact (sourceLine_bytes (agrees_none (env := resolve [] [])) (h e he)).1.2.1
  unfold assembleProg
  rw [hs]
  show some (Program.decode _ false) = _
  rw [decode_program (flatten_length bs), groups4_flatten, h2]

/-- **C82**, one instruction. -/
theorem C82_instruction_partial {mn : String} {ops : List (List Char)} {i : Instr} (h : Documented noNames mn ops i)
    (hb : ¬ Misassembled noNames mn ops) : assembleProg (codeText mn ops) = some (.ok [.instr i]) := by
  have := C82_source_partial [(codeText mn ops, [.instr i])] (by
    intro e he
    rw [List.mem_singleton.1 he]
    exact .code 0 h hb)
  simpa [List.intercalate, List.intersperse, asRead] using this

/-! ### The broken forms -/

theorem assemble_one {mn : String} {ops : List Text} {i : Instr} (hd : Documented noNames mn ops i) :
    assemble (codeText mn ops) = assembleLine (resolve [] []) (lasmLine mn ops) := by
  obtain ⟨⟨hm, hl⟩, ho⟩ := documented_ops (agrees_none (env := resolve [] [])) hd
  have := assemble_plain (lines := [lasmLine mn ops]) (by simp)
    (fun t ht => by rw [List.mem_singleton.1 ht]; exact noBreak hm ho)
    (fun t ht => by rw [List.mem_singleton.1 ht, lineCode_line hm ho, labelOf_lasmLine hl ho])
  rw [show joinText ['\n'] [lasmLine mn ops] = lasmLine mn ops by rfl] at this
  rw [codeText_lasmLine, this, List.mapM_cons, List.mapM_nil]
  cases assembleLine (resolve [] []) (lasmLine mn ops) with
  | none => rfl
  | some b => simp

theorem prog_of_gives {mn : String} {ops : List Text} {i j : Instr} (hd : Documented noNames mn ops i)
    (h : Gives (resolve [] []) (lasmLine mn ops) j) : assembleProg (codeText mn ops) = some (.ok [.instr j]) := by
  obtain ⟨b, h1, h2⟩ := h
  have hs : assemble (codeText mn ops) = some ([b].map Bytes4.toList).flatten := by
    rw [assemble_one hd, h1]
    simp
  unfold assembleProg
  rw [hs]
  show some (Program.decode _ false) = _
  rw [decode_program (flatten_length [b]), groups4_flatten]
  simp only [List.map_cons, List.map_nil]
  rw [decode_ok h2]

theorem prog_of_none {mn : String} {ops : List Text} {i : Instr} (hd : Documented noNames mn ops i)
    (h : assembleLine (resolve [] []) (lasmLine mn ops) = none) : assembleProg (codeText mn ops) = none := by
  have hs : assemble (codeText mn ops) = none := by
    rw [assemble_one hd, h]
  unfold assembleProg
  rw [hs]
  rfl

/-- **C82** fails for every `srm`: it assembles to a WEA (whose factor is the register that SRM reads into). -/
theorem C82_srm_refuted {ta tb tc : List Char} {a b : RegOrLit1} {c : Reg} (ha : Op1 noNames ta a) (hb : OpS noNames tb b)
    (hc : OpReg tc c) : Documented noNames "srm" [ta, tb, tc] (.srm a b c) ∧
      assembleProg (codeText "srm" [ta, tb, tc]) = some (.ok [.instr (.wea a b (.reg c))]) :=
  ⟨.srm ha hb hc, prog_of_gives (.srm ha hb hc) (srcS_srm (op1_writes agrees_none ha) (opS_writes agrees_none hb) (opReg_writes hc))⟩

/-- **C82** fails for every `itr`: it does not assemble. -/
theorem C82_itr_refuted {ta : List Char} {a : RegOrLit1} (ha : Op1 noNames ta a) : Documented noNames "itr" [ta] (.itr a) ∧
      assembleProg (codeText "itr" [ta]) = none := by
  refine ⟨.itr ha, prog_of_none (.itr ha) ?_⟩
  have wa := op1_writes (agrees_none (env := resolve [] [])) ha
  rw [lineOut1 rulesFor_itr (by decide) (by decide) wa.isOp wa.value]
  cases a with
  | reg a => eval_cands; simp [Rule.eval, Field.eval]
  | lit a => eval_cands; simp [Rule.eval, Field.eval]

/-- **C82** fails for `div` and `mod` without a mode: the mode is the value of the register `a0`. -/
theorem C82_division_refuted {ta tb : List Char} {a : Reg} {b : RegOrLit1} (ha : OpReg ta a) (hb : Op1 noNames tb b) :
    Documented noNames "div" [ta, tb] (.div a b (.lit 0)) ∧
      assembleProg (codeText "div" [ta, tb]) = some (.ok [.instr (.div a b (.reg .a0))]) ∧
    Documented noNames "mod" [ta, tb] (.mod a b (.lit 0)) ∧
      assembleProg (codeText "mod" [ta, tb]) = some (.ok [.instr (.mod a b (.reg .a0))]) :=
  ⟨.divDefault ha hb, prog_of_gives (.divDefault ha hb) (src_div2 (opReg_writes ha) (op1_writes agrees_none hb)),
    .modDefault ha hb, prog_of_gives (.modDefault ha hb) (src_mod2 (opReg_writes ha) (op1_writes agrees_none hb))⟩

/-- **C82** fails for `lea` with an offset and no factor: the factor is 0 instead of 1, so that the offset is ignored. -/
theorem C82_lea_refuted {ta tb : List Char} {a b : RegOrLit1} (ha : Op1 noNames ta a) (hb : OpS noNames tb b) :
    Documented noNames "lea" [ta, tb] (.lea a b (.lit 1)) ∧
      assembleProg (codeText "lea" [ta, tb]) = some (.ok [.instr (.lea a b (.lit 0))]) :=
  ⟨.leaDefault1 ha hb, prog_of_gives (.leaDefault1 ha hb) (src_lea2 (op1_writes agrees_none ha) (opS_writes agrees_none hb))⟩

theorem perform_lea_a0 {D : Type} [Bus D] (pf : Profile) (a : RegOrLit1) :
    perform (D := D) pf (.lea a (.reg .a0) (.lit 0)) = perform pf (.lea a (.lit 0) (.lit 1)) := by
  funext s
  show (value1 a >>= fun x => getReg .a0 >>= fun y => load pf (x + y * 0#32) >>= fun w => _) s =
    (value1 a >>= fun x => load pf (x + 0#32 * 1#32) >>= fun w => _) s
  simp only [BitVec.mul_zero, BitVec.zero_mul, BitVec.add_zero]
  rfl

theorem perform_wea_a0 {D : Type} [Bus D] (pf : Profile) (a : RegOrLit1) :
    perform (D := D) pf (.wea a (.reg .a0) (.lit 0)) = perform pf (.wea a (.lit 0) (.lit 1)) := by
  funext s
  show (value1 a >>= fun x => getReg .a0 >>= fun y => get >>= fun s => store pf (x + y * 0#32) s.regs.avr) s =
    (value1 a >>= fun x => get >>= fun s => store pf (x + 0#32 * 1#32) s.regs.avr) s
  simp only [BitVec.mul_zero, BitVec.zero_mul, BitVec.add_zero]
  rfl

/-- **C82**, `lea` and `wea` with an address only: `a0 * 0` takes the place of `0 * 1`, and the processor does the same. -/
theorem C82_address_only_partial {ta : List Char} {a : RegOrLit1} (ha : Op1 noNames ta a) :
    (∃ i j, Documented noNames "lea" [ta] i ∧ assembleProg (codeText "lea" [ta]) = some (.ok [.instr j]) ∧
      ∀ (D : Type) [Bus D] (pf : Profile) (s : Machine D) (devs : List D),
        runInstruction pf s devs j = runInstruction pf s devs i) ∧
    (∃ i j, Documented noNames "wea" [ta] i ∧ assembleProg (codeText "wea" [ta]) = some (.ok [.instr j]) ∧
      ∀ (D : Type) [Bus D] (pf : Profile) (s : Machine D) (devs : List D),
        runInstruction pf s devs j = runInstruction pf s devs i) := by
  refine ⟨⟨_, _, .leaDefault2 ha, prog_of_gives (.leaDefault2 ha) (src_lea1 (op1_writes agrees_none ha)), ?_⟩,
    ⟨_, _, .weaDefault2 ha, prog_of_gives (.weaDefault2 ha) (src_wea1 (op1_writes agrees_none ha)), ?_⟩⟩
  · intro D _ pf s devs
    unfold runInstruction
    rw [perform_lea_a0]
  · intro D _ pf s devs
    unfold runInstruction
    rw [perform_wea_a0]

/-- **C82** fails for `if2` and `hwd` with a number where the assembler wants a name: nothing is assembled. -/
theorem C82_numbers_refuted {ta tb ua ub tc : List Char} {a b d : RegOrLit1} {c : Reg} {z : Int}
    (ha : OpName flagConstants ta a) (hb : OpName flagConstants tb b) (hc : OpReg ua c) (hd : Op1 noNames ub d)
    (hn : Value noNames tc z) (h0 : 0 ≤ z) (h : z < 256) :
    Documented noNames "if2" [ta, tb, tc] (.if2 a b (.lit (BitVec.ofInt 8 z))) ∧ assembleProg (codeText "if2" [ta, tb, tc]) = none ∧
    Documented noNames "hwd" [ua, ub, tc] (.hwd c d (.lit (BitVec.ofInt 8 z))) ∧
      assembleProg (codeText "hwd" [ua, ub, tc]) = none := by
  have g1 : Documented noNames "if2" [ta, tb, tc] (.if2 a b (.lit (BitVec.ofInt 8 z))) := .if2Byte ha hb (.lit hn h0 h)
  have g2 : Documented noNames "hwd" [ua, ub, tc] (.hwd c d (.lit (BitVec.ofInt 8 z))) := .hwdByte hc hd (.lit hn h0 h)
  have wn := written_value (agrees_none (env := resolve [] [])) hn
  refine ⟨g1, prog_of_none g1 ?_, g2, prog_of_none g2 ?_⟩
  · have wa := opFlag_writes (env := resolve [] []) ha
    have wb := opFlag_writes (env := resolve [] []) hb
    cases wa with
    | @reg a wa =>
      cases wb with
      | @reg b wb =>
        rw [lineOut3 rulesFor_if2 (by decide) (by decide) wa.isOp wb.isOp wn.isOp wa.value wb.value wn.value]
        eval_cands
      | @lit b wb =>
        rw [lineOut3 rulesFor_if2 (by decide) (by decide) wa.isOp wb.isOp wn.isOp wa.value wb.value wn.value]
        eval_cands
    | @lit a wa =>
      cases wb with
      | @reg b wb =>
        rw [lineOut3 rulesFor_if2 (by decide) (by decide) wa.isOp wb.isOp wn.isOp wa.value wb.value wn.value]
        eval_cands
      | @lit b wb =>
        rw [lineOut3 rulesFor_if2 (by decide) (by decide) wa.isOp wb.isOp wn.isOp wa.value wb.value wn.value]
        eval_cands
  · have wc := opReg_writes (env := resolve [] []) hc
    have wd := op1_writes (agrees_none (env := resolve [] [])) hd
    rw [lineOut3 rulesFor_hwd (by decide) (by decide) wc.isOp wd.isOp wn.isOp wc.value wd.value wn.value]
    cases d with
    | reg d => eval_cands
    | lit d => eval_cands

theorem notBroken {mn : String} {ops : List Text} (h : mn ∉ ["srm", "itr", "div", "mod", "lea", "wea", "if2", "hwd"]) :
    ¬ Misassembled names mn ops := by
  intro hb
  cases hb <;> exact h (by decide)

/-- A source: `  cpy a0, 0x1F ; start`, a comment, `jpr -8`, and a word of data. -/
example : ∀ e ∈ ([("  cpy a0, 0x1F ; start".toList, [.instr (.cpy .a0 (.lit 0x1F))]), ("; note".toList, []),
      ("jpr -8".toList, [.instr (.jpr (.lit 0xFFF8))]), ("#d32 12".toList, [.raw ⟨0, 0, 0, 12⟩])] :
        List (List Char × List ProgramWord)), SourceLine noNames e.1 e.2 := by
  have d8 : IsDigit '8' 8 := .inl rfl
  have d1 : IsDigit '1' 1 := .inl rfl
  have d2 : IsDigit '2' 2 := .inl rfl
  have dF : IsDigit 'F' 15 := .inl rfl
  intro e he
  simp only [List.mem_cons, List.not_mem_nil, or_false] at he
  rcases he with rfl | rfl | rfl | rfl
  · exact .codeComment 2 (mn := "cpy") (ops := ["a0".toList, "0x1F".toList]) (c := " start".toList)
      (.cpy (.name .a0) (.lit (z := 31) (.term (.num (.pos (n := 31) (.hex (.more (.one d1 (by decide)) dF (by decide)))))) (by decide) (by decide)))
      (notBroken (by decide)) (by decide)
  · exact .comment 0 (c := " note".toList) (by decide)
  · exact .code 0 (mn := "jpr") (ops := ["-8".toList])
      (.jpr (.lit (z := -8) (.term (.num (.neg (n := 8) (.dec (.one d8 (by decide)))))) (by decide) (by decide))) (notBroken (by decide))
  · exact .data 0 (t := "12".toList) (z := 12) (.term (.num (.pos (n := 12) (.dec (.more (.one d1 (by decide)) d2 (by decide)))))) (by decide)
      (by decide) (by decide)

/-- The broken forms exist: `srm a1, 0, a0` is documented. -/
example : Op1 noNames "a1".toList (.reg .a1) ∧ OpS noNames "0".toList (.lit 0) ∧ OpReg "a0".toList .a0 :=
  ⟨.reg .a1, .lit (z := 0) (.term (.num (.pos (n := 0) (.dec (.one (.inl rfl) (by decide)))))) (by decide) (by decide), .name .a0⟩

end Lrvm
