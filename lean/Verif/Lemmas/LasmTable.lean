import Verif.Lemmas.Reassembly

/-!
# Every disassembled word, and what the assembler makes of it
-/

namespace Lrvm

open Lasm Spec

variable {env : Env}

/-! ## Division modes and information codes -/

/-- A test for `IsOp`. -/
def opTest (t : Text) : Bool :=
  !t.isEmpty && t.all (fun c => (c != ',' && c != '"') && c != ';' && c != '\n') && t.head? != some ' ' && t.getLast? != some ' '

theorem isOp_of_test {t : Text} (h : opTest t = true) : IsOp t := by
  simp only [opTest, Bool.and_eq_true, Bool.not_eq_true', List.isEmpty_eq_false_iff, List.all_eq_true, bne_iff_ne] at h
  exact ⟨h.1.1.1, fun c hc => ⟨(h.1.1.2 c hc).1.1, (h.1.1.2 c hc).1.2, (h.1.1.2 c hc).2⟩, h.1.2, h.2⟩

theorem isOp_divMode (m : U8) : IsOp (divModeText m) := by
  have h : ∀ k : Fin 256, opTest (divModeText (BitVec.ofNat 8 k)) = true := by decide +kernel
  exact isOp_of_test (by simpa using h ⟨m.toNat, m.isLt⟩)

/-- The operand written for a division mode. -/
def divOperand (m : U8) : Option Operand :=
  match divModeBack m with
  | some m' => some (.divMode m'.toNat)
  | none => if m.toNat % 32 = 0 then some (.num 0) else none

/-- The second word of a text, and that it is not an operator. -/
def noSum (t : Text) : Bool :=
  match (splitAt ' ' t).filter (· != []) with
  | _ :: x :: _ => x != ['+'] && x != ['-']
  | _ => false

theorem exprVal_noSum {t : Text} (h : noSum t = true) : exprVal env t = none := by
  unfold noSum at h
  unfold exprVal
  split at h
  · rename_i a x ts e
    rw [e]
    simp only [Bool.and_eq_true, bne_iff_ne] at h
    show (term env a).bind (fun v => sumFrom env v (x :: ts)) = none
    have : ∀ v, sumFrom env v (x :: ts) = none := by
      intro v
      unfold sumFrom
      split
      · rename_i e; cases e
      · rename_i e; cases e; exact absurd rfl h.1
      · rename_i e; cases e; exact absurd rfl h.2
      · rfl
    cases term env a with
    | none => rfl
    | some v => exact this v
  · cases h

theorem classify_divMode (m : U8) : classify env (divModeText m) = divOperand m := by
  have h : ∀ k : Fin 256, classifyPlain (divModeText (BitVec.ofNat 8 k)) = divOperand (BitVec.ofNat 8 k) ∧
      (divOperand (BitVec.ofNat 8 k) = none → noSum (divModeText (BitVec.ofNat 8 k)) = true) := by
    decide +kernel
  have hm : classifyPlain (divModeText m) = divOperand m ∧ (divOperand m = none → noSum (divModeText m) = true) := by
    simpa using h ⟨m.toNat, m.isLt⟩
  cases hd : divOperand m with
  | none => rw [classify, hm.1, hd, exprVal_noSum (hm.2 hd), charVal_isOp (isOp_divMode m)]; rfl
  | some o => exact classify_plain (hm.1.trans hd)

theorem lineOut_none {mn : String} {ops : List Text} (tail : Text) (hm : IsWord mn.toList)
    (hd : mn.toList ≠ "#d32".toList ∧ mn.toList ≠ "#d".toList) (ho : ∀ t ∈ ops, IsOp t) (ht : IsTail tail) (hc : ops.mapM (classify env) = none) :
    assembleLine env (lasmLine mn ops ++ tail) = none := by
  rw [assembleLine_lasmLine hm hd ho ht, hc, Option.bind_none]

theorem gives_div (a : Reg) (b : RegOrLit1) {m m' : U8} (h : divModeBack m = some m') :
    Gives env (lasmLine "div" [a.toLasm, b.toLasm, divModeText m]) (.div a b (.lit m')) := by
  have hl := lineOut3 (env := env) rulesFor_div (by decide) (by decide) (isOp_reg a) (isOp_rl1 b) (isOp_divMode m)
    (classify_reg a) (classify_rl1 b) (o := _) (p := _) (q := .divMode m'.toNat) (by rw [classify_divMode, divOperand, h])
  cases b with
  | reg b =>
    refine ⟨⟨0x36, a.code, b.code, m'⟩, ?_, by eval_decode⟩
    rw [hl]; eval_cands; apply eval_rule <;> eval_field
  | lit b =>
    refine ⟨⟨0x34, a.code, b, m'⟩, ?_, by eval_decode⟩
    rw [hl]; eval_cands; apply eval_rule <;> eval_field

theorem gives_mod (a : Reg) (b : RegOrLit1) {m m' : U8} (h : divModeBack m = some m') :
    Gives env (lasmLine "mod" [a.toLasm, b.toLasm, divModeText m]) (.mod a b (.lit m')) := by
  have hl := lineOut3 (env := env) rulesFor_mod (by decide) (by decide) (isOp_reg a) (isOp_rl1 b) (isOp_divMode m)
    (classify_reg a) (classify_rl1 b) (o := _) (p := _) (q := .divMode m'.toNat) (by rw [classify_divMode, divOperand, h])
  cases b with
  | reg b =>
    refine ⟨⟨0x3E, a.code, b.code, m'⟩, ?_, by eval_decode⟩
    rw [hl]; eval_cands; apply eval_rule <;> eval_field
  | lit b =>
    refine ⟨⟨0x3C, a.code, b, m'⟩, ?_, by eval_decode⟩
    rw [hl]; eval_cands; apply eval_rule <;> eval_field

theorem fails_div (a : Reg) (b : RegOrLit1) {m : U8} (h : divModeBack m = none) :
    assembleLine env (lasmLine "div" [a.toLasm, b.toLasm, divModeText m]) = none := by
  have hc := classify_divMode (env := env) m
  rw [divOperand, h] at hc
  dsimp only at hc
  split at hc
  · rw [lineOut3 (env := env) rulesFor_div (by decide) (by decide) (isOp_reg a) (isOp_rl1 b) (isOp_divMode m)
      (classify_reg a) (classify_rl1 b) hc]
    cases b <;> eval_cands
  · have := lineOut_none (env := env) (mn := "div") (ops := [a.toLasm, b.toLasm, divModeText m]) [] (by decide) (by decide)
      (by simp [isOp_reg, isOp_rl1, isOp_divMode]) (Or.inl rfl) (by simp [classify_reg, classify_rl1, hc])
    rwa [List.append_nil] at this

theorem fails_mod (a : Reg) (b : RegOrLit1) {m : U8} (h : divModeBack m = none) :
    assembleLine env (lasmLine "mod" [a.toLasm, b.toLasm, divModeText m]) = none := by
  have hc := classify_divMode (env := env) m
  rw [divOperand, h] at hc
  dsimp only at hc
  split at hc
  · rw [lineOut3 (env := env) rulesFor_mod (by decide) (by decide) (isOp_reg a) (isOp_rl1 b) (isOp_divMode m)
      (classify_reg a) (classify_rl1 b) hc]
    cases b <;> eval_cands
  · have := lineOut_none (env := env) (mn := "mod") (ops := [a.toLasm, b.toLasm, divModeText m]) [] (by decide) (by decide)
      (by simp [isOp_reg, isOp_rl1, isOp_divMode]) (Or.inl rfl) (by simp [classify_reg, classify_rl1, hc])
    rwa [List.append_nil] at this

theorem info_decode (n : U8) : (HwInfo.decode n).isSome = infoNamed n := by
  have h : ∀ k : Fin 256, (HwInfo.decode (BitVec.ofNat 8 k)).isSome = infoNamed (BitVec.ofNat 8 k) := by decide +kernel
  simpa using h ⟨n.toNat, n.isLt⟩

theorem info_code {n : U8} {i : HwInfo} (h : HwInfo.decode n = some i) : i.code = n := by
  have hk : ∀ k : Fin 256, (HwInfo.decode (BitVec.ofNat 8 k)).map HwInfo.code =
      (HwInfo.decode (BitVec.ofNat 8 k)).map fun _ => BitVec.ofNat 8 k := by decide +kernel
  have := hk ⟨n.toNat, n.isLt⟩
  simp only [BitVec.ofNat_toNat, BitVec.setWidth_eq, h, Option.map_some, Option.some.injEq] at this
  exact this

theorem gives_hwdLit (a : Reg) (b : RegOrLit1) {n : U8} {i : HwInfo} (h : HwInfo.decode n = some i) :
    Gives env (lasmLine "hwd" [a.toLasm, b.toLasm, i.toLasm.toList]) (.hwd a b (.lit n)) := by
  have hl := lineOut3 (env := env) rulesFor_hwd (by decide) (by decide) (isOp_reg a) (isOp_rl1 b) (isOp_hwInfo i)
    (classify_reg a) (classify_rl1 b) (classify_hwInfo i)
  have := info_code h
  subst this
  cases b with
  | reg b =>
    refine ⟨⟨0xE6, a.code, b.code, i.code⟩, ?_, by eval_decode⟩
    rw [hl]; eval_cands; apply eval_rule <;> eval_field
  | lit b =>
    refine ⟨⟨0xE4, a.code, b, i.code⟩, ?_, by eval_decode⟩
    rw [hl]; eval_cands; apply eval_rule <;> eval_field

theorem fails_hwd (a : Reg) (b : RegOrLit1) (n : U8) (c : Text) (hc : IsTail c) :
    assembleLine env (lasmLine "hwd" [a.toLasm, b.toLasm, fmtHex 0 n.toNat ++ c]) = none := by
  rw [lasmLine_comment3, lineOut (env := env) c rulesFor_hwd (by decide) (by decide) (os := [.reg a.code.toNat, b.operand, .num n.toNat])
    (by simp [isOp_reg, isOp_rl1, isOp_hex]) hc (by simp [classify_reg, classify_rl1, classify_hex])]
  cases b <;> eval_cands

/-! ## Every instruction -/

/-- What the assembler makes of a text. -/
def Becomes (env : Env) (t : Text) : Option Instr → Prop
  | some j => Gives env t j
  | none => assembleLine env t = none

theorem cond_decode (n : U8) : (If2Cond.decode n).isSome = condNamed (.lit n) := by
  have h : ∀ k : Fin 256, (If2Cond.decode (BitVec.ofNat 8 k)).isSome = condNamed (.lit (BitVec.ofNat 8 k)) := by
    decide +kernel
  simpa using h ⟨n.toNat, n.isLt⟩

theorem cond_code {n : U8} {k : If2Cond} (h : If2Cond.decode n = some k) : n = k.code := by
  have hk : ∀ k : Fin 256, (If2Cond.decode (BitVec.ofNat 8 k)).map If2Cond.code =
      (If2Cond.decode (BitVec.ofNat 8 k)).map fun _ => BitVec.ofNat 8 k := by decide +kernel
  have := hk ⟨n.toNat, n.isLt⟩
  simp only [BitVec.ofNat_toNat, BitVec.setWidth_eq, h, Option.map_some, Option.some.injEq] at this
  exact this.symm

theorem flagWarn_named {v : RegOrLit1} {w : String} (h : flagNamed v = true) : flagWarn v w = [] := by
  cases v with
  | reg r => rfl
  | lit n =>
    have : ArFlag.decode n ≠ none := fun e => (flag_decode n).1 e (by simpa [flagNamed] using h)
    cases hd : ArFlag.decode n with
    | none => exact absurd hd this
    | some f => simp [flagWarn, hd]

/-- The comment that follows an `if2`. -/
theorem warn_tail (t : Text) (warns : List Text) : ∃ c, IsTail c ∧
    (if warns.isEmpty then t else t ++ " ; ".toList ++ joinText ", ".toList warns) = t ++ c := by
  split
  · exact ⟨[], Or.inl rfl, by simp⟩
  · exact ⟨' ' :: ';' :: ' ' :: joinText ", ".toList warns, Or.inr ⟨_, rfl⟩, by simp⟩

theorem if2_becomes (pf : Profile) (a b c : RegOrLit1) :
    ∃ t, Instr.toLasm pf (.if2 a b c) = some t ∧ Becomes env t (reassembled pf (.if2 a b c)) := by
  obtain ⟨tail, ht, he⟩ := warn_tail (if2Text a b c).1 (if2Text a b c).2
  refine ⟨if (if2Text a b c).2.isEmpty then (if2Text a b c).1
    else (if2Text a b c).1 ++ " ; ".toList ++ joinText ", ".toList (if2Text a b c).2, rfl, ?_⟩
  rw [show reassembled pf (.if2 a b c) =
    if flagNamed a = true ∧ flagNamed b = true ∧ condNamed c = true then some (.if2 a b c) else none from rfl]
  by_cases hn : flagNamed a = true ∧ flagNamed b = true ∧ condNamed c = true
  · rw [if_pos hn]
    obtain ⟨ha, hb, hc⟩ := hn
    cases c with
    | reg r =>
      simp only [if2Text, flagWarn_named ha, flagWarn_named hb, List.nil_append, List.isEmpty_nil, if_true]
      exact gives_if2Reg a b r ha hb
    | lit n =>
      have hd : ∃ k, If2Cond.decode n = some k := by
        rw [← cond_decode] at hc
        exact Option.isSome_iff_exists.1 hc
      obtain ⟨k, hk⟩ := hd
      have hcode := cond_code hk
      simp only [if2Text, hk, flagWarn_named ha, flagWarn_named hb, List.nil_append]
      split
      · rename_i h
        obtain ⟨rfl, rfl, rfl⟩ := h
        rw [hcode]
        exact gives_ifgt
      · split
        · rename_i h
          obtain ⟨rfl, rfl, rfl⟩ := h
          rw [hcode]
          exact gives_ifle
        · simp only [List.isEmpty_nil, if_true]
          rw [hcode]
          cases k with
          | or => exact gives_ifor a b ha hb
          | and => exact gives_ifand a b ha hb
          | xor => exact gives_ifxor a b ha hb
          | nor => exact gives_ifnor a b ha hb
          | nand => exact gives_ifnand a b ha hb
          | left => exact gives_ifleft a b ha hb
          | right => exact gives_ifright a b ha hb
  · rw [if_neg hn, he]
    show assembleLine env _ = none
    cases c with
    | reg r =>
      have hab : ¬ (flagNamed a = true ∧ flagNamed b = true) := fun h => hn ⟨h.1, h.2, rfl⟩
      simp only [if2Text]
      exact fails_if2Reg a b r hab tail ht
    | lit n =>
      cases hk : If2Cond.decode n with
      | none =>
        simp only [if2Text, hk]
        exact fails_if2Lit a b n tail ht
      | some k =>
        have hab : ¬ (flagNamed a = true ∧ flagNamed b = true) := by
          intro h
          refine hn ⟨h.1, h.2, ?_⟩
          rw [← cond_decode, hk]
          rfl
        simp only [if2Text, hk]
        rw [if_neg (by rintro ⟨-, rfl, rfl⟩; exact hab ⟨rfl, rfl⟩), if_neg (by rintro ⟨-, rfl, rfl⟩; exact hab ⟨rfl, rfl⟩)]
        cases k with
        | or => exact fails_ifor a b hab tail ht
        | and => exact fails_ifand a b hab tail ht
        | xor => exact fails_ifxor a b hab tail ht
        | nor => exact fails_ifnor a b hab tail ht
        | nand => exact fails_ifnand a b hab tail ht
        | left => exact fails_ifleft a b hab tail ht
        | right => exact fails_ifright a b hab tail ht

theorem isTail_comment (c : Text) : IsTail (' ' :: ';' :: c) := Or.inr ⟨c, rfl⟩

/-- Disassembling an instruction never fails, except the least literal of `jpr` in debug builds; and what the assembler
makes of the text is what the table says. -/
theorem instr_becomes (pf : Profile) (i : Instr) (h : ¬ (pf = .debug ∧ i = .jpr (.lit 0x8000))) :
    ∃ t, i.toLasm pf = some t ∧ Becomes env t (reassembled pf i) := by
  cases i with
  | cpy a b =>
    simp only [Instr.toLasm]
    by_cases ha : a = .pc
    · subst ha
      refine ⟨_, if_pos rfl, ?_⟩
      cases b <;> exact gives_jp _
    · rw [if_neg ha]
      cases b with
      | reg b => exact ⟨_, rfl, gives_cpy a _⟩
      | lit n =>
        by_cases hn : n = 0
        · subst hn
          refine ⟨_, rfl, ?_⟩
          show Becomes env _ (some (if _ then _ else _))
          rw [if_pos ⟨ha, rfl⟩]
          exact gives_zro a
        · rw [if_neg (by simpa using hn)]
          refine ⟨_, rfl, ?_⟩
          show Becomes env _ (some (if _ then _ else _))
          rw [if_neg (fun e => hn e.2)]
          exact gives_cpy a _
  | ex a b => exact ⟨_, rfl, gives_ex a b⟩
  | add a b =>
    refine ⟨_, rfl, ?_⟩
    by_cases hb : b = .lit 1
    · subst hb
      exact gives_inc a
    · rw [if_neg hb]
      exact gives_add a b
  | sub a b =>
    refine ⟨_, rfl, ?_⟩
    by_cases hb : b = .lit 1
    · subst hb
      exact gives_dec a
    · rw [if_neg hb]
      exact gives_sub a b
  | mul a b =>
    refine ⟨_, rfl, ?_⟩
    cases b with
    | reg b => exact gives_mul a _
    | lit n =>
      show Becomes env (if _ then _ else _) (some (if _ then _ else _))
      by_cases hn : n = 0
      · subst hn
        exact gives_zro a
      · rw [if_neg (by simpa using hn), if_neg hn]
        exact gives_mul a _
  | div a b c =>
    cases c with
    | reg c => exact ⟨_, rfl, gives_divReg a b c⟩
    | lit m =>
      refine ⟨_, rfl, ?_⟩
      show Becomes env _ ((divModeBack m).map _)
      cases hm : divModeBack m with
      | none => exact fails_div a b hm
      | some m' => exact gives_div a b hm
  | mod a b c =>
    cases c with
    | reg c => exact ⟨_, rfl, gives_modReg a b c⟩
    | lit m =>
      refine ⟨_, rfl, ?_⟩
      show Becomes env _ ((divModeBack m).map _)
      cases hm : divModeBack m with
      | none => exact fails_mod a b hm
      | some m' => exact gives_mod a b hm
  | and a b =>
    refine ⟨_, rfl, ?_⟩
    cases b with
    | reg b => exact gives_and a _
    | lit n =>
      show Becomes env (if _ then _ else _) (some (if _ then _ else _))
      by_cases hn : n = 0
      · subst hn
        exact gives_zro a
      · rw [if_neg (by simpa using hn), if_neg hn]
        exact gives_and a _
  | bor a b => exact ⟨_, rfl, gives_bor a b⟩
  | xor a b =>
    cases b with
    | reg b => exact ⟨_, rfl, gives_zro b⟩
    | lit n => exact ⟨_, rfl, gives_xor a _⟩
  | shl a b => exact ⟨_, rfl, gives_shl a b⟩
  | shr a b => exact ⟨_, rfl, gives_shr a b⟩
  | cmp a b => exact ⟨_, rfl, gives_cmp a b⟩
  | jpr a =>
    cases a with
    | reg a => exact ⟨_, rfl, gives_jprReg a⟩
    | lit n =>
      have hn : ¬ (pf = .debug ∧ n = 0x8000) := fun e => h ⟨e.1, by rw [e.2]⟩
      have : ∃ t, (RegOrLit2.lit n).toLasmSigned pf = some t := by
        simp only [RegOrLit2.toLasmSigned]
        split
        · rw [if_neg (fun e => hn ⟨e.2, e.1⟩)]
          exact ⟨_, rfl⟩
        · exact ⟨_, rfl⟩
      obtain ⟨t, ht⟩ := this
      refine ⟨lasmLine "jpr" [t], by simp [Instr.toLasm, ht], ?_⟩
      show Becomes env _ (if _ then _ else _)
      rw [if_neg hn]
      exact gives_jprLit ht
  | lsm a => exact ⟨_, rfl, gives_lsm a⟩
  | itr a => exact ⟨_, rfl, fails_itr a⟩
  | «if» a =>
    cases a with
    | reg a => exact ⟨_, rfl, gives_ifReg a⟩
    | lit n =>
      refine ⟨_, rfl, ?_⟩
      show Becomes env _ (if _ then _ else _)
      cases hf : ArFlag.decode n with
      | none =>
        rw [if_neg (by simpa [flagNamed] using (flag_decode n).1 hf)]
        exact fails_if n _ (isTail_comment _)
      | some f =>
        have hn : n.toNat ≤ 6 := Classical.byContradiction fun e => by
          rw [(flag_decode n).2 e] at hf
          cases hf
        rw [if_pos (by simpa [flagNamed] using hn)]
        have hc := flag_code hf
        cases f with
        | zero => subst hc; exact gives_ifeq
        | carry => subst hc; exact gives_ifls
        | overflow => exact gives_ifFlag hf
        | sign => exact gives_ifFlag hf
        | even => exact gives_ifFlag hf
        | zeroUpper => exact gives_ifFlag hf
        | zeroLower => exact gives_ifFlag hf
  | ifN a =>
    cases a with
    | reg a => exact ⟨_, rfl, gives_ifnReg a⟩
    | lit n =>
      refine ⟨_, rfl, ?_⟩
      show Becomes env _ (if _ then _ else _)
      cases hf : ArFlag.decode n with
      | none =>
        rw [if_neg (by simpa [flagNamed] using (flag_decode n).1 hf)]
        exact fails_ifn n _ (isTail_comment _)
      | some f =>
        have hn : n.toNat ≤ 6 := Classical.byContradiction fun e => by
          rw [(flag_decode n).2 e] at hf
          cases hf
        rw [if_pos (by simpa [flagNamed] using hn)]
        have hc := flag_code hf
        cases f with
        | zero => subst hc; exact gives_ifnq
        | carry => subst hc; exact gives_ifge
        | overflow => exact gives_ifnFlag hf
        | sign => exact gives_ifnFlag hf
        | even => exact gives_ifnFlag hf
        | zeroUpper => exact gives_ifnFlag hf
        | zeroLower => exact gives_ifnFlag hf
  | if2 a b c => exact if2_becomes pf a b c
  | lsa a b c => exact ⟨_, rfl, gives_lsa a b c⟩
  | lea a b c => exact ⟨_, rfl, gives_lea a b c⟩
  | wsa a b c => exact ⟨_, rfl, gives_wsa a b c⟩
  | wea a b c => exact ⟨_, rfl, gives_wea a b c⟩
  | srm a b c => exact ⟨_, rfl, gives_srm a b c⟩
  | push a => exact ⟨_, rfl, gives_push a⟩
  | pop a =>
    refine ⟨_, rfl, ?_⟩
    by_cases ha : a = .pc
    · subst ha
      exact gives_ret
    · rw [if_neg ha]
      exact gives_pop a
  | call a => exact ⟨_, rfl, gives_call a⟩
  | hwd a b c =>
    cases c with
    | reg c => exact ⟨_, rfl, gives_hwdReg a b c⟩
    | lit n =>
      refine ⟨_, rfl, ?_⟩
      show Becomes env _ (if _ then _ else _)
      simp only [RegOrLit1.toLasmWith]
      have hi := info_decode n
      cases hd : HwInfo.decode n with
      | none =>
        rw [hd] at hi
        rw [if_neg (by rw [← hi]; decide)]
        exact fails_hwd a b n _ (isTail_comment _)
      | some i =>
        rw [hd] at hi
        rw [if_pos (by rw [← hi]; rfl)]
        exact gives_hwdLit a b hd
  | cycles a => exact ⟨_, rfl, gives_cycles a⟩
  | halt => exact ⟨_, rfl, gives_halt⟩
  | reset a => exact ⟨_, rfl, gives_reset a⟩

/-! ## Raw words -/

theorem hex2_eq (b : U8) : hex2 b = [upperDigit (b.toNat / 16), upperDigit (b.toNat % 16)] := by
  have h : ∀ k : Fin 256, hex2 (BitVec.ofNat 8 k) = [upperDigit (k.val / 16), upperDigit (k.val % 16)] := by decide +kernel
  have := h ⟨b.toNat, b.isLt⟩
  simpa using this

theorem parseNum_hex (c : Char) (cs : Text) :
    parseNum ('0' :: 'x' :: c :: cs) = (digitsVal 16 0 (c :: cs)).map fun n => (n : Int) := rfl

theorem toWord_toNat (b : Bytes4) :
    b.toWord.toNat = b.b0.toNat * 16777216 + b.b1.toNat * 65536 + b.b2.toNat * 256 + b.b3.toNat := by
  have h1 := b.b1.isLt
  have h2 := b.b2.isLt
  have h3 := b.b3.isLt
  unfold Bytes4.toWord
  rw [BitVec.toNat_append, BitVec.toNat_append, BitVec.toNat_append,
    ← Nat.shiftLeft_add_eq_or_of_lt h3, ← Nat.shiftLeft_add_eq_or_of_lt h2, ← Nat.shiftLeft_add_eq_or_of_lt h1]
  simp only [Nat.shiftLeft_eq]
  omega

theorem d32_word (w : Word) : d32 (w.toNat : Int) = some (Bytes4.ofWord w).toList := by
  have h := w.isLt
  unfold d32
  rw [if_pos ⟨by omega, by omega⟩, BitVec.ofInt_natCast, BitVec.ofNat_toNat, BitVec.setWidth_eq]

theorem digitsVal_underscore {base acc : Nat} {cs : Text} : digitsVal base acc ('_' :: cs) = digitsVal base acc cs := by
  rw [digitsVal, if_pos rfl]

variable {pf : Profile}

theorem raw_text (b : Bytes4) : ∃ t, ProgramWord.toLasm pf (.raw b) = some (lasmLine "#d32" [t]) ∧ IsWord t ∧
    parseNum t = some (b.toWord.toNat : Int) := by
  refine ⟨'0' :: 'x' :: (hex2 b.b0 ++ '_' :: hex2 b.b1 ++ '_' :: hex2 b.b2 ++ '_' :: hex2 b.b3), ?_, ?_, ?_⟩
  · simp [ProgramWord.toLasm, lasmLine, joinText]
  · refine ⟨by simp, ?_⟩
    have hd : ∀ (b : U8) (c : Char), c ∈ hex2 b → (c ≠ ',' ∧ c ≠ '"') ∧ c ≠ ';' ∧ c ≠ '\n' ∧ c ≠ ' ' := by
      intro b c hc
      have := b.isLt
      rw [hex2_eq] at hc
      have : c = upperDigit (b.toNat / 16) ∨ c = upperDigit (b.toNat % 16) := by simpa using hc
      rcases this with rfl | rfl <;> exact digit_ne (by omega)
    intro c hc
    simp only [List.mem_cons, List.mem_append, List.append_assoc, List.cons_append] at hc
    rcases hc with rfl | rfl | hc | rfl | hc | rfl | hc | rfl | hc
    all_goals first | decide | exact hd _ _ hc
  · have h0 := b.b0.isLt
    have h1 := b.b1.isLt
    have h2 := b.b2.isLt
    have h3 := b.b3.isLt
    rw [hex2_eq, hex2_eq, hex2_eq, hex2_eq]
    simp only [List.cons_append, List.nil_append]
    rw [parseNum_hex]
    rw [digitsVal_digit (by decide) (by omega), digitsVal_digit (by decide) (by omega), digitsVal_underscore,
      digitsVal_digit (by decide) (by omega), digitsVal_digit (by decide) (by omega), digitsVal_underscore,
      digitsVal_digit (by decide) (by omega), digitsVal_digit (by decide) (by omega), digitsVal_underscore,
      digitsVal_digit (by decide) (by omega), digitsVal_digit (by decide) (by omega)]
    show some _ = some _
    congr 1
    rw [toWord_toNat]
    dsimp only
    omega

theorem ofWord_toWord (b : Bytes4) : Bytes4.ofWord b.toWord = b := by
  have h := toWord_toNat b
  have h0 := b.b0.isLt
  have h1 := b.b1.isLt
  have h2 := b.b2.isLt
  have h3 := b.b3.isLt
  cases b with
  | mk b0 b1 b2 b3 =>
    simp only [Bytes4.ofWord, Bytes4.mk.injEq]
    dsimp only at h h0 h1 h2 h3
    refine ⟨?_, ?_, ?_, ?_⟩ <;> apply BitVec.eq_of_toNat_eq <;>
      simp only [BitVec.toNat_setWidth, BitVec.toNat_ushiftRight, Nat.shiftRight_eq_div_pow] <;> rw [h] <;> omega

theorem exprVal_word {t : Text} {v : Int} (hw : ' ' ∉ t) (h : parseNum t = some v) : exprVal env t = some v := by
  have hne : t ≠ [] := by rintro rfl; cases h
  unfold exprVal
  rw [splitAt_none hw, List.filter_cons_of_pos (by simpa using hne), List.filter_nil]
  show (term env t).bind (fun v => sumFrom env v []) = some v
  rw [term, h]
  rfl

theorem directive_line {t : Text} {v : Int} (ho : IsOp t) (hw : ' ' ∉ t) (hv : parseNum t = some v) :
    assembleLine env (lasmLine "#d32" [t]) = d32 v := by
  have hm : IsWord "#d32".toList := by decide
  have hops : ∀ u ∈ [t], IsOp u := by simpa using ho
  have hcode : lineCode (lasmLine "#d32" [t]) = lasmLine "#d32" [t] := by
    have := lasmLine_code (mn := "#d32") (tail := []) hm hops (Or.inl rfl)
    rwa [List.append_nil] at this
  unfold assembleLine
  simp only []
  generalize lineCode (lasmLine "#d32" [t]) = code at hcode
  subst hcode
  rw [if_neg (lasmLine_ne_nil hm), lasmLine_mnemonic hm, lasmLine_operands hm hops, if_neg (by decide), if_pos rfl]
  show (exprVal env t).bind d32 = _
  rw [exprVal_word hw hv]
  rfl

theorem raw_line (b : Bytes4) : ∃ t, ProgramWord.toLasm pf (.raw b) = some t ∧ assembleLine env t = some b.toList ∧
    '\n' ∉ t ∧ labelOf (lineCode t) = none := by
  obtain ⟨t, h, hw, hv⟩ := raw_text (pf := pf) b
  have ho : IsOp t := isOp_of hw.1 hw.2
  have hm : IsWord "#d32".toList := by decide
  have hops : ∀ u ∈ [t], IsOp u := by simpa using ho
  have hcode : lineCode (lasmLine "#d32" [t]) = lasmLine "#d32" [t] := by
    have := lasmLine_code (mn := "#d32") (tail := []) hm hops (Or.inl rfl)
    rwa [List.append_nil] at this
  refine ⟨_, h, ?_, fun hc => (lasmLine_mem hm hops hc).2 rfl, by
    rw [hcode, labelOf_lasmLine (by decide) hops]⟩
  rw [directive_line ho (fun hc => (hw.2 _ hc).2.2.2 rfl) hv, d32_word, ofWord_toWord]

/-! ## No line break inside a line -/

theorem noBreak {mn : String} {ops : List Text} (hm : IsWord mn.toList) (ho : ∀ t ∈ ops, IsOp t) : '\n' ∉ lasmLine mn ops :=
  fun hc => (lasmLine_mem hm ho hc).2 rfl

theorem noBreak_append {s t : Text} (hs : '\n' ∉ s) (ht : '\n' ∉ t) : '\n' ∉ s ++ t := by
  simp [hs, ht]

theorem flagWarn_noBreak {v : RegOrLit1} {w : String} (hw : '\n' ∉ w.toList) : ∀ t ∈ flagWarn v w, '\n' ∉ t := by
  intro t ht
  cases v with
  | reg r => cases ht
  | lit n =>
    simp only [flagWarn] at ht
    split at ht
    · rw [List.mem_singleton.1 ht]
      exact hw
    · cases ht

/-- A line of code, maybe with a comment: it defines no label. -/
def IsLine (t : Text) : Prop :=
  ∃ (mn : String) (ops : List Text) (tail : Text), t = lasmLine mn ops ++ tail ∧ IsWord mn.toList ∧
    labelOf mn.toList = none ∧ (∀ t ∈ ops, IsOp t) ∧ IsTail tail ∧ '\n' ∉ tail

theorem IsLine.noBreak {t : Text} (h : IsLine t) : '\n' ∉ t := by
  obtain ⟨mn, ops, tail, rfl, hm, -, ho, -, hn⟩ := h
  exact noBreak_append (Lrvm.noBreak hm ho) hn

theorem IsLine.label {t : Text} (h : IsLine t) : labelOf (lineCode t) = none := by
  obtain ⟨mn, ops, tail, rfl, hm, hl, ho, ht, -⟩ := h
  rw [lineCode, lasmLine_code hm ho ht, labelOf_lasmLine hl ho]

theorem isLine {mn : String} {ops : List Text} (hm : IsWord mn.toList) (ho : ∀ t ∈ ops, IsOp t)
    (hl : labelOf mn.toList = none := by decide) : IsLine (lasmLine mn ops) :=
  ⟨mn, ops, [], by simp, hm, hl, ho, Or.inl rfl, by simp⟩

theorem isLine_append {mn : String} {ops : List Text} {tail : Text} (hm : IsWord mn.toList) (ho : ∀ t ∈ ops, IsOp t)
    (ht : IsTail tail) (hn : '\n' ∉ tail) (hl : labelOf mn.toList = none := by decide) :
    IsLine (lasmLine mn ops ++ tail) := ⟨mn, ops, tail, rfl, hm, hl, ho, ht, hn⟩

theorem instr_line (pf : Profile) (i : Instr) (t : Text) (h : i.toLasm pf = some t) : IsLine t := by
  have fr : ∀ r : Reg, IsOp r.toLasm := isOp_reg
  have f1 : ∀ v : RegOrLit1, IsOp v.toLasm := isOp_rl1
  have f2 : ∀ v : RegOrLit2, IsOp v.toLasm := isOp_rl2
  cases i with
  | cpy a b =>
    simp only [Instr.toLasm] at h
    split at h
    · cases h; exact isLine (by decide) (by simp [f2])
    · split at h
      · cases h; exact isLine (by decide) (by simp [fr])
      · cases h; exact isLine (by decide) (by simp [fr, f2])
  | ex a b => cases h; exact isLine (by decide) (by simp [fr])
  | add a b =>
    simp only [Instr.toLasm] at h
    split at h
    · cases h; exact isLine (by decide) (by simp [fr])
    · cases h; exact isLine (by decide) (by simp [fr, f2])
  | sub a b =>
    simp only [Instr.toLasm] at h
    split at h
    · cases h; exact isLine (by decide) (by simp [fr])
    · cases h; exact isLine (by decide) (by simp [fr, f2])
  | mul a b =>
    simp only [Instr.toLasm] at h
    split at h
    · cases h; exact isLine (by decide) (by simp [fr])
    · cases h; exact isLine (by decide) (by simp [fr, f2])
  | div a b c =>
    cases c with
    | reg c => cases h; exact isLine (by decide) (by simp [fr, f1])
    | lit m => cases h; exact isLine (by decide) (by simp [fr, f1, isOp_divMode])
  | mod a b c =>
    cases c with
    | reg c => cases h; exact isLine (by decide) (by simp [fr, f1])
    | lit m => cases h; exact isLine (by decide) (by simp [fr, f1, isOp_divMode])
  | and a b =>
    simp only [Instr.toLasm] at h
    split at h
    · cases h; exact isLine (by decide) (by simp [fr])
    · cases h; exact isLine (by decide) (by simp [fr, f2])
  | bor a b => cases h; exact isLine (by decide) (by simp [fr, f2])
  | xor a b =>
    cases b with
    | reg b => cases h; exact isLine (by decide) (by simp [fr])
    | lit n => cases h; exact isLine (by decide) (by simp [fr, f2])
  | shl a b => cases h; exact isLine (by decide) (by simp [fr, f1])
  | shr a b => cases h; exact isLine (by decide) (by simp [fr, f1])
  | cmp a b => cases h; exact isLine (by decide) (by simp [fr, f2])
  | jpr a =>
    have hs : ∀ u, a.toLasmSigned pf = some u → IsOp u := by
      intro u hu
      cases a with
      | reg r => cases hu; exact isOp_reg r
      | lit n =>
        simp only [RegOrLit2.toLasmSigned] at hu
        split at hu
        · split at hu
          · cases hu
          · cases hu; exact isOp_negHex _
        · cases hu; exact isOp_hex _
    simp only [Instr.toLasm] at h
    cases hu : a.toLasmSigned pf with
    | none => rw [hu] at h; cases h
    | some u =>
      rw [hu] at h
      cases h
      exact isLine (by decide) (by simp [hs u hu])
  | lsm a => cases h; exact isLine (by decide) (by simp [f2])
  | itr a => cases h; exact isLine (by decide) (by simp [f1])
  | «if» a =>
    cases a with
    | reg r => cases h; exact isLine (by decide) (by simp [fr])
    | lit n =>
      simp only [Instr.toLasm] at h
      cases h
      split
      · exact isLine (mn := "ifeq") (ops := []) (by decide) (by simp)
      · exact isLine (mn := "ifls") (ops := []) (by decide) (by simp)
      · exact isLine (by decide) (by simp [isOp_flag])
      · rw [lasmLine_comment1]
        exact isLine_append (by decide) (by simp [isOp_hex]) (isTail_comment _) (by decide)
  | ifN a =>
    cases a with
    | reg r => cases h; exact isLine (by decide) (by simp [fr])
    | lit n =>
      simp only [Instr.toLasm] at h
      cases h
      split
      · exact isLine (mn := "ifnq") (ops := []) (by decide) (by simp)
      · exact isLine (mn := "ifge") (ops := []) (by decide) (by simp)
      · exact isLine (by decide) (by simp [isOp_flag])
      · rw [lasmLine_comment1]
        exact isLine_append (by decide) (by simp [isOp_hex]) (isTail_comment _) (by decide)
  | if2 a b c =>
    have h1 : ∃ (mn : String) (ops : List Text), (if2Text a b c).1 = lasmLine mn ops ∧ IsWord mn.toList ∧
        labelOf mn.toList = none ∧ ∀ t ∈ ops, IsOp t := by
      cases c with
      | reg r =>
        simp only [if2Text]
        exact ⟨_, _, rfl, by decide, by decide, by simp [isOp_flagText, fr]⟩
      | lit n =>
        simp only [if2Text]
        split
        · rename_i k _
          split
          · exact ⟨"ifgt", [], rfl, by decide, by decide, by simp⟩
          · split
            · exact ⟨"ifle", [], rfl, by decide, by decide, by simp⟩
            · exact ⟨k.mnemonic, [flagText a, flagText b], rfl, by cases k <;> decide, by cases k <;> decide, by simp [isOp_flagText]⟩
        · exact ⟨"if2", [flagText a, flagText b, fmtHex 4 n.toNat], rfl, by decide, by decide, by simp [isOp_flagText, isOp_hex4]⟩
    obtain ⟨mn, ops, e, hm, hl, ho⟩ := h1
    have h2 : ∀ w ∈ (if2Text a b c).2, '\n' ∉ w := by
      have hw : ∀ w ∈ flagWarn a "invalid left flag" ++ flagWarn b "invalid right flag", '\n' ∉ w := by
        intro w hw
        rcases List.mem_append.1 hw with hw | hw
        · exact flagWarn_noBreak (by decide) w hw
        · exact flagWarn_noBreak (by decide) w hw
      cases c with
      | reg r => exact hw
      | lit n =>
        simp only [if2Text]
        split
        · split
          · simp
          · split
            · simp
            · exact hw
        · intro w hm
          rcases List.mem_append.1 hm with hm | hm
          · exact hw w hm
          · rw [List.mem_singleton.1 hm]
            decide
    have h' : t = if (if2Text a b c).2.isEmpty then (if2Text a b c).1
        else (if2Text a b c).1 ++ " ; ".toList ++ joinText ", ".toList (if2Text a b c).2 := by
      have : Instr.toLasm pf (.if2 a b c) = some (if (if2Text a b c).2.isEmpty then (if2Text a b c).1
        else (if2Text a b c).1 ++ " ; ".toList ++ joinText ", ".toList (if2Text a b c).2) := rfl
      rw [this] at h
      exact (Option.some.inj h).symm
    rw [h']
    split
    · rw [e]; exact isLine hm ho hl
    · rw [e, List.append_assoc]
      refine isLine_append hm ho (isTail_comment _) (noBreak_append (by decide) ?_) hl
      intro hc
      rcases mem_joinText hc with hc | ⟨w, hw, hc⟩
      · revert hc; decide
      · exact h2 w hw hc
  | lsa a b c => cases h; exact isLine (by decide) (by simp [fr, f1])
  | lea a b c => cases h; exact isLine (by decide) (by simp [f1])
  | wsa a b c => cases h; exact isLine (by decide) (by simp [f1])
  | wea a b c => cases h; exact isLine (by decide) (by simp [f1])
  | srm a b c => cases h; exact isLine (by decide) (by simp [fr, f1])
  | push a => cases h; exact isLine (by decide) (by simp [f2])
  | pop a =>
    simp only [Instr.toLasm] at h
    split at h
    · cases h; exact isLine (mn := "ret") (ops := []) (by decide) (by simp)
    · cases h; exact isLine (by decide) (by simp [fr])
  | call a => cases h; exact isLine (by decide) (by simp [f2])
  | hwd a b c =>
    cases c with
    | reg r => cases h; exact isLine (by decide) (by simp [fr, f1, RegOrLit1.toLasmWith])
    | lit n =>
      simp only [Instr.toLasm, RegOrLit1.toLasmWith] at h
      cases h
      split
      · exact isLine (by decide) (by simp [fr, f1, isOp_hwInfo])
      · rw [lasmLine_comment3]
        exact isLine_append (by decide) (by simp [fr, f1, isOp_hex]) (isTail_comment _) (by decide)
  | cycles a => cases h; exact isLine (by decide) (by simp [fr])
  | halt => cases h; exact isLine (mn := "halt") (ops := []) (by decide) (by simp)
  | reset a => cases h; exact isLine (by decide) (by simp [f1])

theorem instr_noBreak (pf : Profile) (i : Instr) (t : Text) (h : i.toLasm pf = some t) : '\n' ∉ t :=
  (instr_line pf i t h).noBreak

end Lrvm
