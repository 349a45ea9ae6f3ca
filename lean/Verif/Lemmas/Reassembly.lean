import Verif.Lemmas.LasmRules
import Verif.Props.Tools.Programs
import Verif.Spec.Lasm

/-!
# What the assembler makes of a disassembled instruction
-/

namespace Lrvm

open Lasm Spec

variable {env : Env}

theorem decode4 {b0 b1 b2 b3 : U8} : Program.decode [b0, b1, b2, b3] false = .ok [ProgramWord.decode ⟨b0, b1, b2, b3⟩] :=
  (decode_groups (prog := [b0, b1, b2, b3]) (by simp) false).trans (decodeGroups_raw _ _)

/-- The operand written for a value. -/
def RegOrLit1.operand : RegOrLit1 → Operand
  | .reg r => .reg r.code.toNat
  | .lit n => .num n.toNat

def RegOrLit2.operand : RegOrLit2 → Operand
  | .reg r => .reg r.code.toNat
  | .lit n => .num n.toNat

theorem isOp_rl1 (v : RegOrLit1) : IsOp v.toLasm := by
  cases v with
  | reg r => exact isOp_reg r
  | lit n => exact isOp_hex _

theorem isOp_rl2 (v : RegOrLit2) : IsOp v.toLasm := by
  cases v with
  | reg r => exact isOp_reg r
  | lit n => exact isOp_hex _

theorem classify_rl1 (v : RegOrLit1) : classify env v.toLasm = some v.operand := by
  cases v with
  | reg r => exact classify_reg r
  | lit n => exact classify_hex _

theorem classify_rl2 (v : RegOrLit2) : classify env v.toLasm = some v.operand := by
  cases v with
  | reg r => exact classify_reg r
  | lit n => exact classify_hex _

/-- The rules that match, with the values of their parameters. -/
def cands (rs : List Rule) (os : List Operand) : List (Rule × List Int) :=
  rs.filterMap fun r => (acceptAll r.params os).map fun vs => (r, vs)

theorem cands_nil (os : List Operand) : cands [] os = [] := by unfold cands; rfl

theorem cands_cons (mn : String) (ps : List Pat) (out : List Field) (rs : List Rule) (os : List Operand) :
    cands (⟨mn, ps, out⟩ :: rs) os = ((acceptAll ps os).map fun vs => ((⟨mn, ps, out⟩ : Rule), vs)).toList ++ cands rs os := by
  unfold cands
  rw [List.filterMap_cons]
  cases acceptAll ps os <;> rfl

/-- The result of the assembler, from the rules that match. -/
def outcome : List (Rule × List Int) → Option (List U8)
  | [(r, vs)] => r.eval vs
  | _ => none

theorem assembleInstr_cands {mn : Text} {os : List Operand} {rs : List Rule}
    (hr : (rules.filter fun r => r.mnemonic.toList == mn) = rs) : assembleInstr mn os = outcome (cands rs os) := by
  rw [assembleInstr, hr]
  rfl

theorem acceptAll_nil : acceptAll [] [] = some [] := by unfold acceptAll; rfl

theorem acceptAll_short {p : Pat} {ps : List Pat} : acceptAll (p :: ps) [] = none := by unfold acceptAll; rfl

theorem acceptAll_long {o : Operand} {os : List Operand} : acceptAll [] (o :: os) = none := by unfold acceptAll; rfl

theorem acceptAll_some {p : Pat} {o : Operand} {v : Int} {ps : List Pat} {os : List Operand} (h : p.accept o = some v) :
    acceptAll (p :: ps) (o :: os) = (acceptAll ps os).map (v :: ·) := by
  rw [acceptAll, h]
  cases acceptAll ps os <;> rfl

theorem acceptAll_none {p : Pat} {o : Operand} {ps : List Pat} {os : List Operand} (h : p.accept o = none) :
    acceptAll (p :: ps) (o :: os) = none := by
  rw [acceptAll, h]
  rfl

section Accept
variable {ps : List Pat} {os : List Operand} {v : Nat} {w : Int}

theorem acc_reg : acceptAll (.reg :: ps) (.reg v :: os) = (acceptAll ps os).map ((v : Int) :: ·) := acceptAll_some rfl
theorem acc_arflag : acceptAll (.arflag :: ps) (.arflag v :: os) = (acceptAll ps os).map ((v : Int) :: ·) := acceptAll_some rfl
theorem acc_divMode : acceptAll (.divMode :: ps) (.divMode v :: os) = (acceptAll ps os).map ((v : Int) :: ·) := acceptAll_some rfl
theorem acc_hwInfo : acceptAll (.hwInfo :: ps) (.hwInfo v :: os) = (acceptAll ps os).map ((v : Int) :: ·) := acceptAll_some rfl
theorem acc_if2Mode : acceptAll (.if2Mode :: ps) (.if2Mode v :: os) = (acceptAll ps os).map ((v : Int) :: ·) := acceptAll_some rfl
theorem rej_reg_arflag : acceptAll (.reg :: ps) (.arflag v :: os) = none := acceptAll_none rfl
theorem rej_reg_divMode : acceptAll (.reg :: ps) (.divMode v :: os) = none := acceptAll_none rfl
theorem rej_reg_hwInfo : acceptAll (.reg :: ps) (.hwInfo v :: os) = none := acceptAll_none rfl
theorem rej_reg_if2Mode : acceptAll (.reg :: ps) (.if2Mode v :: os) = none := acceptAll_none rfl
theorem rej_reg_num : acceptAll (.reg :: ps) (.num w :: os) = none := acceptAll_none rfl
theorem rej_arflag_reg : acceptAll (.arflag :: ps) (.reg v :: os) = none := acceptAll_none rfl
theorem rej_arflag_divMode : acceptAll (.arflag :: ps) (.divMode v :: os) = none := acceptAll_none rfl
theorem rej_arflag_hwInfo : acceptAll (.arflag :: ps) (.hwInfo v :: os) = none := acceptAll_none rfl
theorem rej_arflag_if2Mode : acceptAll (.arflag :: ps) (.if2Mode v :: os) = none := acceptAll_none rfl
theorem rej_arflag_num : acceptAll (.arflag :: ps) (.num w :: os) = none := acceptAll_none rfl
theorem rej_divMode_reg : acceptAll (.divMode :: ps) (.reg v :: os) = none := acceptAll_none rfl
theorem rej_divMode_arflag : acceptAll (.divMode :: ps) (.arflag v :: os) = none := acceptAll_none rfl
theorem rej_divMode_hwInfo : acceptAll (.divMode :: ps) (.hwInfo v :: os) = none := acceptAll_none rfl
theorem rej_divMode_if2Mode : acceptAll (.divMode :: ps) (.if2Mode v :: os) = none := acceptAll_none rfl
theorem rej_divMode_num : acceptAll (.divMode :: ps) (.num w :: os) = none := acceptAll_none rfl
theorem rej_hwInfo_reg : acceptAll (.hwInfo :: ps) (.reg v :: os) = none := acceptAll_none rfl
theorem rej_hwInfo_arflag : acceptAll (.hwInfo :: ps) (.arflag v :: os) = none := acceptAll_none rfl
theorem rej_hwInfo_divMode : acceptAll (.hwInfo :: ps) (.divMode v :: os) = none := acceptAll_none rfl
theorem rej_hwInfo_if2Mode : acceptAll (.hwInfo :: ps) (.if2Mode v :: os) = none := acceptAll_none rfl
theorem rej_hwInfo_num : acceptAll (.hwInfo :: ps) (.num w :: os) = none := acceptAll_none rfl
theorem rej_if2Mode_reg : acceptAll (.if2Mode :: ps) (.reg v :: os) = none := acceptAll_none rfl
theorem rej_if2Mode_arflag : acceptAll (.if2Mode :: ps) (.arflag v :: os) = none := acceptAll_none rfl
theorem rej_if2Mode_divMode : acceptAll (.if2Mode :: ps) (.divMode v :: os) = none := acceptAll_none rfl
theorem rej_if2Mode_hwInfo : acceptAll (.if2Mode :: ps) (.hwInfo v :: os) = none := acceptAll_none rfl
theorem rej_if2Mode_num : acceptAll (.if2Mode :: ps) (.num w :: os) = none := acceptAll_none rfl
theorem rej_u8_reg : acceptAll (.u8 :: ps) (.reg v :: os) = none := acceptAll_none rfl
theorem rej_u8_arflag : acceptAll (.u8 :: ps) (.arflag v :: os) = none := acceptAll_none rfl
theorem rej_u8_divMode : acceptAll (.u8 :: ps) (.divMode v :: os) = none := acceptAll_none rfl
theorem rej_u8_hwInfo : acceptAll (.u8 :: ps) (.hwInfo v :: os) = none := acceptAll_none rfl
theorem rej_u8_if2Mode : acceptAll (.u8 :: ps) (.if2Mode v :: os) = none := acceptAll_none rfl
theorem rej_u16_reg : acceptAll (.u16 :: ps) (.reg v :: os) = none := acceptAll_none rfl
theorem rej_u16_arflag : acceptAll (.u16 :: ps) (.arflag v :: os) = none := acceptAll_none rfl
theorem rej_u16_divMode : acceptAll (.u16 :: ps) (.divMode v :: os) = none := acceptAll_none rfl
theorem rej_u16_hwInfo : acceptAll (.u16 :: ps) (.hwInfo v :: os) = none := acceptAll_none rfl
theorem rej_u16_if2Mode : acceptAll (.u16 :: ps) (.if2Mode v :: os) = none := acceptAll_none rfl
theorem rej_i8_reg : acceptAll (.i8 :: ps) (.reg v :: os) = none := acceptAll_none rfl
theorem rej_i8_arflag : acceptAll (.i8 :: ps) (.arflag v :: os) = none := acceptAll_none rfl
theorem rej_i8_divMode : acceptAll (.i8 :: ps) (.divMode v :: os) = none := acceptAll_none rfl
theorem rej_i8_hwInfo : acceptAll (.i8 :: ps) (.hwInfo v :: os) = none := acceptAll_none rfl
theorem rej_i8_if2Mode : acceptAll (.i8 :: ps) (.if2Mode v :: os) = none := acceptAll_none rfl
theorem rej_i16_reg : acceptAll (.i16 :: ps) (.reg v :: os) = none := acceptAll_none rfl
theorem rej_i16_arflag : acceptAll (.i16 :: ps) (.arflag v :: os) = none := acceptAll_none rfl
theorem rej_i16_divMode : acceptAll (.i16 :: ps) (.divMode v :: os) = none := acceptAll_none rfl
theorem rej_i16_hwInfo : acceptAll (.i16 :: ps) (.hwInfo v :: os) = none := acceptAll_none rfl
theorem rej_i16_if2Mode : acceptAll (.i16 :: ps) (.if2Mode v :: os) = none := acceptAll_none rfl

theorem acc_u8 (n : U8) : acceptAll (.u8 :: ps) (.num n.toNat :: os) = (acceptAll ps os).map ((n.toNat : Int) :: ·) := by
  refine acceptAll_some ?_
  have := n.isLt
  simp only [Pat.accept]
  rw [if_pos (by omega)]

theorem acc_i8 (n : U8) : acceptAll (.i8 :: ps) (.num n.toNat :: os) = (acceptAll ps os).map ((n.toNat : Int) :: ·) := by
  refine acceptAll_some ?_
  have := n.isLt
  simp only [Pat.accept]
  rw [if_pos (by omega)]

theorem acc_u16 (n : U16) : acceptAll (.u16 :: ps) (.num n.toNat :: os) = (acceptAll ps os).map ((n.toNat : Int) :: ·) := by
  refine acceptAll_some ?_
  have := n.isLt
  simp only [Pat.accept]
  rw [if_pos (by omega)]

theorem acc_i16 (n : U16) : acceptAll (.i16 :: ps) (.num n.toNat :: os) = (acceptAll ps os).map ((n.toNat : Int) :: ·) := by
  refine acceptAll_some ?_
  have := n.isLt
  simp only [Pat.accept]
  rw [if_pos (by omega)]

end Accept

theorem ofInt_byte (n : U8) : BitVec.ofInt 8 (n.toNat : Int) = n := by
  rw [BitVec.ofInt_natCast]
  simp

theorem ofInt_low (n : U16) : BitVec.ofInt 8 (n.toNat : Int) = n.setWidth 8 := by
  rw [BitVec.ofInt_natCast]
  rfl

theorem ofInt_high (n : U16) : BitVec.ofInt 8 ((n.toNat : Int) / 256) = (n >>> 8).setWidth 8 := by
  have : (n.toNat : Int) / 256 = ((n.toNat / 256 : Nat) : Int) := by omega
  rw [this, BitVec.ofInt_natCast]
  apply BitVec.eq_of_toNat_eq
  simp [Nat.shiftRight_eq_div_pow]

theorem join16 (n : U16) : (n >>> 8).setWidth 8 ++ n.setWidth 8 = n := by
  have := n.isLt
  apply BitVec.eq_of_toNat_eq
  rw [BitVec.toNat_append, BitVec.toNat_setWidth, BitVec.toNat_setWidth, BitVec.toNat_ushiftRight,
    ← Nat.shiftLeft_add_eq_or_of_lt (Nat.mod_lt _ (by decide)), Nat.shiftLeft_eq, Nat.shiftRight_eq_div_pow]
  omega

/-- Assembling a line of the disassembler. -/
theorem lineOut {mn : String} {ops : List Text} {os : List Operand} {rs : List Rule} (tail : Text)
    (hr : (rules.filter fun r => r.mnemonic.toList == mn.toList) = rs) (hm : IsWord mn.toList)
    (hd : mn.toList ≠ "#d32".toList ∧ mn.toList ≠ "#d".toList) (ho : ∀ t ∈ ops, IsOp t) (ht : IsTail tail) (hc : ops.mapM (classify env) = some os) :
    assembleLine env (lasmLine mn ops ++ tail) = outcome (cands rs os) := by
  rw [assembleLine_lasmLine hm hd ho ht, hc, Option.bind_some, assembleInstr_cands hr]

theorem lineOut1 {mn : String} {t : Text} {o : Operand} {rs : List Rule}
    (hr : (rules.filter fun r => r.mnemonic.toList == mn.toList) = rs) (hm : IsWord mn.toList)
    (hd : mn.toList ≠ "#d32".toList ∧ mn.toList ≠ "#d".toList) (ht : IsOp t) (ct : classify env t = some o) :
    assembleLine env (lasmLine mn [t]) = outcome (cands rs [o]) := by
  have := lineOut (env := env) [] hr hm hd (ops := [t]) (os := [o]) (by simp [ht])
    (Or.inl rfl) (by simp [ct])
  rwa [List.append_nil] at this

theorem lineOut2 {mn : String} {t u : Text} {o p : Operand} {rs : List Rule}
    (hr : (rules.filter fun r => r.mnemonic.toList == mn.toList) = rs) (hm : IsWord mn.toList)
    (hd : mn.toList ≠ "#d32".toList ∧ mn.toList ≠ "#d".toList) (ht : IsOp t) (hu : IsOp u) (ct : classify env t = some o) (cu : classify env u = some p) :
    assembleLine env (lasmLine mn [t, u]) = outcome (cands rs [o, p]) := by
  have := lineOut (env := env) [] hr hm hd (ops := [t, u]) (os := [o, p]) (by simp [ht, hu])
    (Or.inl rfl) (by simp [ct, cu])
  rwa [List.append_nil] at this

theorem lineOut3 {mn : String} {t u v : Text} {o p q : Operand} {rs : List Rule}
    (hr : (rules.filter fun r => r.mnemonic.toList == mn.toList) = rs) (hm : IsWord mn.toList)
    (hd : mn.toList ≠ "#d32".toList ∧ mn.toList ≠ "#d".toList) (ht : IsOp t) (hu : IsOp u) (hv : IsOp v) (ct : classify env t = some o) (cu : classify env u = some p) (cv : classify env v = some q) :
    assembleLine env (lasmLine mn [t, u, v]) = outcome (cands rs [o, p, q]) := by
  have := lineOut (env := env) [] hr hm hd (ops := [t, u, v]) (os := [o, p, q]) (by simp [ht, hu, hv])
    (Or.inl rfl) (by simp [ct, cu, cv])
  rwa [List.append_nil] at this

theorem outcome_one (r : Rule) (vs : List Int) : outcome [(r, vs)] = r.eval vs := by unfold outcome; rfl

theorem outcome_zero : outcome [] = none := by unfold outcome; rfl

theorem eval_rule (mn : String) (ps : List Pat) (f0 f1 f2 f3 : Field) (vs : List Int) {b0 b1 b2 b3 : U8}
    (h0 : f0.eval vs = some b0) (h1 : f1.eval vs = some b1) (h2 : f2.eval vs = some b2) (h3 : f3.eval vs = some b3) :
    Rule.eval ⟨mn, ps, [f0, f1, f2, f3]⟩ vs = some (Bytes4.toList ⟨b0, b1, b2, b3⟩) := by
  simp [Rule.eval, h0, h1, h2, h3, Bytes4.toList]

macro "eval_cands" : tactic => `(tactic|
  simp only [cands_nil, cands_cons, RegOrLit1.operand, RegOrLit2.operand, acc_reg, acc_arflag, acc_divMode, acc_hwInfo, acc_if2Mode, acceptAll_nil, acceptAll_short, acceptAll_long, rej_reg_arflag, rej_reg_divMode, rej_reg_hwInfo, rej_reg_if2Mode, rej_reg_num, rej_arflag_reg, rej_arflag_divMode, rej_arflag_hwInfo, rej_arflag_if2Mode, rej_arflag_num, rej_divMode_reg, rej_divMode_arflag, rej_divMode_hwInfo, rej_divMode_if2Mode, rej_divMode_num, rej_hwInfo_reg, rej_hwInfo_arflag, rej_hwInfo_divMode, rej_hwInfo_if2Mode, rej_hwInfo_num, rej_if2Mode_reg, rej_if2Mode_arflag, rej_if2Mode_divMode, rej_if2Mode_hwInfo, rej_if2Mode_num, rej_u8_reg, rej_u8_arflag, rej_u8_divMode, rej_u8_hwInfo, rej_u8_if2Mode, rej_u16_reg, rej_u16_arflag, rej_u16_divMode, rej_u16_hwInfo, rej_u16_if2Mode, rej_i8_reg, rej_i8_arflag, rej_i8_divMode, rej_i8_hwInfo, rej_i8_if2Mode, rej_i16_reg, rej_i16_arflag, rej_i16_divMode, rej_i16_hwInfo, rej_i16_if2Mode, acc_u8, acc_i8, acc_u16, acc_i16,
    Option.map_none, Option.map_some, Option.toList_none, Option.toList_some, List.nil_append, List.cons_append,
    outcome_one, outcome_zero])

macro "eval_field" : tactic => `(tactic| simp [Field.eval, ofInt_byte, ofInt_low, ofInt_high])

theorem decode_ok {b : Bytes4} {i : Instr} (h : Instr.decode b = .ok i) : ProgramWord.decode b = .instr i := by
  rw [ProgramWord.decode, h]

/-- What a line gives: four bytes that decode to an instruction. -/
def Gives (env : Env) (t : Text) (i : Instr) : Prop :=
  ∃ b : Bytes4, assembleLine env t = some b.toList ∧ Instr.decode b = .ok i

macro "eval_decode" : tactic => `(tactic|
  simp [Instr.decode, argReg, argRegOrLit1, argRegOrLit2, argIsLit, Bytes4.get, fromCode_code, join16, bind, Except.bind])

/-! ## Operands as they are written -/

/-- A text that is one operand with a given meaning. -/
structure Written (env : Env) (t : Text) (o : Operand) : Prop where
  isOp : IsOp t
  value : classify env t = some o

abbrev WritesReg (env : Env) (t : Text) (r : Reg) : Prop := Written env t (.reg r.code.toNat)
abbrev Writes1 (env : Env) (t : Text) (v : RegOrLit1) : Prop := Written env t v.operand
abbrev Writes2 (env : Env) (t : Text) (v : RegOrLit2) : Prop := Written env t v.operand

theorem writesReg (r : Reg) : WritesReg env r.toLasm r := ⟨isOp_reg r, classify_reg r⟩
theorem writes1 (v : RegOrLit1) : Writes1 env v.toLasm v := ⟨isOp_rl1 v, classify_rl1 v⟩
theorem writes2 (v : RegOrLit2) : Writes2 env v.toLasm v := ⟨isOp_rl2 v, classify_rl2 v⟩

theorem src_cpy {ta tb : Text} {a : Reg} {b : RegOrLit2}
    (wa : WritesReg env ta a) (wb : Writes2 env tb b) :
    Gives env (lasmLine "cpy" [ta, tb]) (.cpy a b) := by
  have h := lineOut2 (env := env) rulesFor_cpy (by decide) (by decide) wa.isOp wb.isOp
    wa.value wb.value
  cases b with
  | reg b =>
    refine ⟨⟨0x0E, a.code, b.code, 0⟩, ?_, ?_⟩
    · rw [h]; eval_cands; apply eval_rule <;> eval_field
    · eval_decode
  | lit b =>
    refine ⟨⟨0x0C, a.code, (b >>> 8).setWidth 8, b.setWidth 8⟩, ?_, ?_⟩
    · rw [h]; eval_cands; apply eval_rule <;> eval_field
    · eval_decode

theorem gives_cpy (a : Reg) (b : RegOrLit2) :
    Gives env (lasmLine "cpy" [a.toLasm, b.toLasm]) (.cpy a b) :=
  src_cpy (writesReg a) (writes2 b)

theorem src_ex {ta tb : Text} {a : Reg} {b : Reg}
    (wa : WritesReg env ta a) (wb : WritesReg env tb b) :
    Gives env (lasmLine "ex" [ta, tb]) (.ex a b) := by
  have h := lineOut2 (env := env) rulesFor_ex (by decide) (by decide) wa.isOp wb.isOp
    wa.value wb.value
  refine ⟨⟨0x16, a.code, b.code, 0⟩, ?_, ?_⟩
  · rw [h]; eval_cands; apply eval_rule <;> eval_field
  · eval_decode

theorem gives_ex (a : Reg) (b : Reg) :
    Gives env (lasmLine "ex" [a.toLasm, b.toLasm]) (.ex a b) :=
  src_ex (writesReg a) (writesReg b)

theorem src_add {ta tb : Text} {a : Reg} {b : RegOrLit2}
    (wa : WritesReg env ta a) (wb : Writes2 env tb b) :
    Gives env (lasmLine "add" [ta, tb]) (.add a b) := by
  have h := lineOut2 (env := env) rulesFor_add (by decide) (by decide) wa.isOp wb.isOp
    wa.value wb.value
  cases b with
  | reg b =>
    refine ⟨⟨0x1E, a.code, b.code, 0⟩, ?_, ?_⟩
    · rw [h]; eval_cands; apply eval_rule <;> eval_field
    · eval_decode
  | lit b =>
    refine ⟨⟨0x1C, a.code, (b >>> 8).setWidth 8, b.setWidth 8⟩, ?_, ?_⟩
    · rw [h]; eval_cands; apply eval_rule <;> eval_field
    · eval_decode

theorem gives_add (a : Reg) (b : RegOrLit2) :
    Gives env (lasmLine "add" [a.toLasm, b.toLasm]) (.add a b) :=
  src_add (writesReg a) (writes2 b)

theorem src_sub {ta tb : Text} {a : Reg} {b : RegOrLit2}
    (wa : WritesReg env ta a) (wb : Writes2 env tb b) :
    Gives env (lasmLine "sub" [ta, tb]) (.sub a b) := by
  have h := lineOut2 (env := env) rulesFor_sub (by decide) (by decide) wa.isOp wb.isOp
    wa.value wb.value
  cases b with
  | reg b =>
    refine ⟨⟨0x26, a.code, b.code, 0⟩, ?_, ?_⟩
    · rw [h]; eval_cands; apply eval_rule <;> eval_field
    · eval_decode
  | lit b =>
    refine ⟨⟨0x24, a.code, (b >>> 8).setWidth 8, b.setWidth 8⟩, ?_, ?_⟩
    · rw [h]; eval_cands; apply eval_rule <;> eval_field
    · eval_decode

theorem gives_sub (a : Reg) (b : RegOrLit2) :
    Gives env (lasmLine "sub" [a.toLasm, b.toLasm]) (.sub a b) :=
  src_sub (writesReg a) (writes2 b)

theorem src_mul {ta tb : Text} {a : Reg} {b : RegOrLit2}
    (wa : WritesReg env ta a) (wb : Writes2 env tb b) :
    Gives env (lasmLine "mul" [ta, tb]) (.mul a b) := by
  have h := lineOut2 (env := env) rulesFor_mul (by decide) (by decide) wa.isOp wb.isOp
    wa.value wb.value
  cases b with
  | reg b =>
    refine ⟨⟨0x2E, a.code, b.code, 0⟩, ?_, ?_⟩
    · rw [h]; eval_cands; apply eval_rule <;> eval_field
    · eval_decode
  | lit b =>
    refine ⟨⟨0x2C, a.code, (b >>> 8).setWidth 8, b.setWidth 8⟩, ?_, ?_⟩
    · rw [h]; eval_cands; apply eval_rule <;> eval_field
    · eval_decode

theorem gives_mul (a : Reg) (b : RegOrLit2) :
    Gives env (lasmLine "mul" [a.toLasm, b.toLasm]) (.mul a b) :=
  src_mul (writesReg a) (writes2 b)

theorem src_divReg {ta tb tc : Text} {a : Reg} {b : RegOrLit1} {c : Reg}
    (wa : WritesReg env ta a) (wb : Writes1 env tb b) (wc : WritesReg env tc c) :
    Gives env (lasmLine "div" [ta, tb, tc]) (.div a b (.reg c)) := by
  have h := lineOut3 (env := env) rulesFor_div (by decide) (by decide) wa.isOp wb.isOp wc.isOp
    wa.value wb.value wc.value
  cases b with
  | reg b =>
    refine ⟨⟨0x37, a.code, b.code, c.code⟩, ?_, ?_⟩
    · rw [h]; eval_cands; apply eval_rule <;> eval_field
    · eval_decode
  | lit b =>
    refine ⟨⟨0x35, a.code, b, c.code⟩, ?_, ?_⟩
    · rw [h]; eval_cands; apply eval_rule <;> eval_field
    · eval_decode

theorem gives_divReg (a : Reg) (b : RegOrLit1) (c : Reg) :
    Gives env (lasmLine "div" [a.toLasm, b.toLasm, c.toLasm]) (.div a b (.reg c)) :=
  src_divReg (writesReg a) (writes1 b) (writesReg c)

theorem src_modReg {ta tb tc : Text} {a : Reg} {b : RegOrLit1} {c : Reg}
    (wa : WritesReg env ta a) (wb : Writes1 env tb b) (wc : WritesReg env tc c) :
    Gives env (lasmLine "mod" [ta, tb, tc]) (.mod a b (.reg c)) := by
  have h := lineOut3 (env := env) rulesFor_mod (by decide) (by decide) wa.isOp wb.isOp wc.isOp
    wa.value wb.value wc.value
  cases b with
  | reg b =>
    refine ⟨⟨0x3F, a.code, b.code, c.code⟩, ?_, ?_⟩
    · rw [h]; eval_cands; apply eval_rule <;> eval_field
    · eval_decode
  | lit b =>
    refine ⟨⟨0x3D, a.code, b, c.code⟩, ?_, ?_⟩
    · rw [h]; eval_cands; apply eval_rule <;> eval_field
    · eval_decode

theorem gives_modReg (a : Reg) (b : RegOrLit1) (c : Reg) :
    Gives env (lasmLine "mod" [a.toLasm, b.toLasm, c.toLasm]) (.mod a b (.reg c)) :=
  src_modReg (writesReg a) (writes1 b) (writesReg c)

theorem src_and {ta tb : Text} {a : Reg} {b : RegOrLit2}
    (wa : WritesReg env ta a) (wb : Writes2 env tb b) :
    Gives env (lasmLine "and" [ta, tb]) (.and a b) := by
  have h := lineOut2 (env := env) rulesFor_and (by decide) (by decide) wa.isOp wb.isOp
    wa.value wb.value
  cases b with
  | reg b =>
    refine ⟨⟨0x46, a.code, b.code, 0⟩, ?_, ?_⟩
    · rw [h]; eval_cands; apply eval_rule <;> eval_field
    · eval_decode
  | lit b =>
    refine ⟨⟨0x44, a.code, (b >>> 8).setWidth 8, b.setWidth 8⟩, ?_, ?_⟩
    · rw [h]; eval_cands; apply eval_rule <;> eval_field
    · eval_decode

theorem gives_and (a : Reg) (b : RegOrLit2) :
    Gives env (lasmLine "and" [a.toLasm, b.toLasm]) (.and a b) :=
  src_and (writesReg a) (writes2 b)

theorem src_bor {ta tb : Text} {a : Reg} {b : RegOrLit2}
    (wa : WritesReg env ta a) (wb : Writes2 env tb b) :
    Gives env (lasmLine "bor" [ta, tb]) (.bor a b) := by
  have h := lineOut2 (env := env) rulesFor_bor (by decide) (by decide) wa.isOp wb.isOp
    wa.value wb.value
  cases b with
  | reg b =>
    refine ⟨⟨0x4E, a.code, b.code, 0⟩, ?_, ?_⟩
    · rw [h]; eval_cands; apply eval_rule <;> eval_field
    · eval_decode
  | lit b =>
    refine ⟨⟨0x4C, a.code, (b >>> 8).setWidth 8, b.setWidth 8⟩, ?_, ?_⟩
    · rw [h]; eval_cands; apply eval_rule <;> eval_field
    · eval_decode

theorem gives_bor (a : Reg) (b : RegOrLit2) :
    Gives env (lasmLine "bor" [a.toLasm, b.toLasm]) (.bor a b) :=
  src_bor (writesReg a) (writes2 b)

theorem src_xor {ta tb : Text} {a : Reg} {b : RegOrLit2}
    (wa : WritesReg env ta a) (wb : Writes2 env tb b) :
    Gives env (lasmLine "xor" [ta, tb]) (.xor a b) := by
  have h := lineOut2 (env := env) rulesFor_xor (by decide) (by decide) wa.isOp wb.isOp
    wa.value wb.value
  cases b with
  | reg b =>
    refine ⟨⟨0x56, a.code, b.code, 0⟩, ?_, ?_⟩
    · rw [h]; eval_cands; apply eval_rule <;> eval_field
    · eval_decode
  | lit b =>
    refine ⟨⟨0x54, a.code, (b >>> 8).setWidth 8, b.setWidth 8⟩, ?_, ?_⟩
    · rw [h]; eval_cands; apply eval_rule <;> eval_field
    · eval_decode

theorem gives_xor (a : Reg) (b : RegOrLit2) :
    Gives env (lasmLine "xor" [a.toLasm, b.toLasm]) (.xor a b) :=
  src_xor (writesReg a) (writes2 b)

theorem src_shl {ta tb : Text} {a : Reg} {b : RegOrLit1}
    (wa : WritesReg env ta a) (wb : Writes1 env tb b) :
    Gives env (lasmLine "shl" [ta, tb]) (.shl a b) := by
  have h := lineOut2 (env := env) rulesFor_shl (by decide) (by decide) wa.isOp wb.isOp
    wa.value wb.value
  cases b with
  | reg b =>
    refine ⟨⟨0x5E, a.code, b.code, 0⟩, ?_, ?_⟩
    · rw [h]; eval_cands; apply eval_rule <;> eval_field
    · eval_decode
  | lit b =>
    refine ⟨⟨0x5C, a.code, b, 0⟩, ?_, ?_⟩
    · rw [h]; eval_cands; apply eval_rule <;> eval_field
    · eval_decode

theorem gives_shl (a : Reg) (b : RegOrLit1) :
    Gives env (lasmLine "shl" [a.toLasm, b.toLasm]) (.shl a b) :=
  src_shl (writesReg a) (writes1 b)

theorem src_shr {ta tb : Text} {a : Reg} {b : RegOrLit1}
    (wa : WritesReg env ta a) (wb : Writes1 env tb b) :
    Gives env (lasmLine "shr" [ta, tb]) (.shr a b) := by
  have h := lineOut2 (env := env) rulesFor_shr (by decide) (by decide) wa.isOp wb.isOp
    wa.value wb.value
  cases b with
  | reg b =>
    refine ⟨⟨0x66, a.code, b.code, 0⟩, ?_, ?_⟩
    · rw [h]; eval_cands; apply eval_rule <;> eval_field
    · eval_decode
  | lit b =>
    refine ⟨⟨0x64, a.code, b, 0⟩, ?_, ?_⟩
    · rw [h]; eval_cands; apply eval_rule <;> eval_field
    · eval_decode

theorem gives_shr (a : Reg) (b : RegOrLit1) :
    Gives env (lasmLine "shr" [a.toLasm, b.toLasm]) (.shr a b) :=
  src_shr (writesReg a) (writes1 b)

theorem src_cmp {ta tb : Text} {a : Reg} {b : RegOrLit2}
    (wa : WritesReg env ta a) (wb : Writes2 env tb b) :
    Gives env (lasmLine "cmp" [ta, tb]) (.cmp a b) := by
  have h := lineOut2 (env := env) rulesFor_cmp (by decide) (by decide) wa.isOp wb.isOp
    wa.value wb.value
  cases b with
  | reg b =>
    refine ⟨⟨0x6E, a.code, b.code, 0⟩, ?_, ?_⟩
    · rw [h]; eval_cands; apply eval_rule <;> eval_field
    · eval_decode
  | lit b =>
    refine ⟨⟨0x6C, a.code, (b >>> 8).setWidth 8, b.setWidth 8⟩, ?_, ?_⟩
    · rw [h]; eval_cands; apply eval_rule <;> eval_field
    · eval_decode

theorem gives_cmp (a : Reg) (b : RegOrLit2) :
    Gives env (lasmLine "cmp" [a.toLasm, b.toLasm]) (.cmp a b) :=
  src_cmp (writesReg a) (writes2 b)

theorem src_jprReg {ta : Text} {a : Reg}
    (wa : WritesReg env ta a) :
    Gives env (lasmLine "jpr" [ta]) (.jpr (.reg a)) := by
  have h := lineOut1 (env := env) rulesFor_jpr (by decide) (by decide) wa.isOp
    wa.value
  refine ⟨⟨0x74, a.code, 0, 0⟩, ?_, ?_⟩
  · rw [h]; eval_cands; apply eval_rule <;> eval_field
  · eval_decode

theorem gives_jprReg (a : Reg) :
    Gives env (lasmLine "jpr" [a.toLasm]) (.jpr (.reg a)) :=
  src_jprReg (writesReg a)

theorem src_lsm {ta : Text} {a : RegOrLit2}
    (wa : Writes2 env ta a) :
    Gives env (lasmLine "lsm" [ta]) (.lsm a) := by
  have h := lineOut1 (env := env) rulesFor_lsm (by decide) (by decide) wa.isOp
    wa.value
  cases a with
  | reg a =>
    refine ⟨⟨0x7C, a.code, 0, 0⟩, ?_, ?_⟩
    · rw [h]; eval_cands; apply eval_rule <;> eval_field
    · eval_decode
  | lit a =>
    refine ⟨⟨0x78, (a >>> 8).setWidth 8, a.setWidth 8, 0⟩, ?_, ?_⟩
    · rw [h]; eval_cands; apply eval_rule <;> eval_field
    · eval_decode

theorem gives_lsm (a : RegOrLit2) :
    Gives env (lasmLine "lsm" [a.toLasm]) (.lsm a) :=
  src_lsm (writes2 a)

theorem src_ifReg {ta : Text} {a : Reg}
    (wa : WritesReg env ta a) :
    Gives env (lasmLine "if" [ta]) (.«if» (.reg a)) := by
  have h := lineOut1 (env := env) rulesFor_if (by decide) (by decide) wa.isOp
    wa.value
  refine ⟨⟨0x8C, a.code, 0, 0⟩, ?_, ?_⟩
  · rw [h]; eval_cands; apply eval_rule <;> eval_field
  · eval_decode

theorem gives_ifReg (a : Reg) :
    Gives env (lasmLine "if" [a.toLasm]) (.«if» (.reg a)) :=
  src_ifReg (writesReg a)

theorem src_ifnReg {ta : Text} {a : Reg}
    (wa : WritesReg env ta a) :
    Gives env (lasmLine "ifn" [ta]) (.ifN (.reg a)) := by
  have h := lineOut1 (env := env) rulesFor_ifn (by decide) (by decide) wa.isOp
    wa.value
  refine ⟨⟨0x94, a.code, 0, 0⟩, ?_, ?_⟩
  · rw [h]; eval_cands; apply eval_rule <;> eval_field
  · eval_decode

theorem gives_ifnReg (a : Reg) :
    Gives env (lasmLine "ifn" [a.toLasm]) (.ifN (.reg a)) :=
  src_ifnReg (writesReg a)

theorem src_lsa {ta tb tc : Text} {a : Reg} {b : RegOrLit1} {c : RegOrLit1}
    (wa : WritesReg env ta a) (wb : Writes1 env tb b) (wc : Writes1 env tc c) :
    Gives env (lasmLine "lsa" [ta, tb, tc]) (.lsa a b c) := by
  have h := lineOut3 (env := env) rulesFor_lsa (by decide) (by decide) wa.isOp wb.isOp wc.isOp
    wa.value wb.value wc.value
  cases b with
  | reg b =>
    cases c with
    | reg c =>
      refine ⟨⟨0xA7, a.code, b.code, c.code⟩, ?_, ?_⟩
      · rw [h]; eval_cands; apply eval_rule <;> eval_field
      · eval_decode
    | lit c =>
      refine ⟨⟨0xA6, a.code, b.code, c⟩, ?_, ?_⟩
      · rw [h]; eval_cands; apply eval_rule <;> eval_field
      · eval_decode
  | lit b =>
    cases c with
    | reg c =>
      refine ⟨⟨0xA5, a.code, b, c.code⟩, ?_, ?_⟩
      · rw [h]; eval_cands; apply eval_rule <;> eval_field
      · eval_decode
    | lit c =>
      refine ⟨⟨0xA4, a.code, b, c⟩, ?_, ?_⟩
      · rw [h]; eval_cands; apply eval_rule <;> eval_field
      · eval_decode

theorem gives_lsa (a : Reg) (b : RegOrLit1) (c : RegOrLit1) :
    Gives env (lasmLine "lsa" [a.toLasm, b.toLasm, c.toLasm]) (.lsa a b c) :=
  src_lsa (writesReg a) (writes1 b) (writes1 c)

theorem src_lea {ta tb tc : Text} {a : RegOrLit1} {b : RegOrLit1} {c : RegOrLit1}
    (wa : Writes1 env ta a) (wb : Writes1 env tb b) (wc : Writes1 env tc c) :
    Gives env (lasmLine "lea" [ta, tb, tc]) (.lea a b c) := by
  have h := lineOut3 (env := env) rulesFor_lea (by decide) (by decide) wa.isOp wb.isOp wc.isOp
    wa.value wb.value wc.value
  cases a with
  | reg a =>
    cases b with
    | reg b =>
      cases c with
      | reg c =>
        refine ⟨⟨0xAF, a.code, b.code, c.code⟩, ?_, ?_⟩
        · rw [h]; eval_cands; apply eval_rule <;> eval_field
        · eval_decode
      | lit c =>
        refine ⟨⟨0xAE, a.code, b.code, c⟩, ?_, ?_⟩
        · rw [h]; eval_cands; apply eval_rule <;> eval_field
        · eval_decode
    | lit b =>
      cases c with
      | reg c =>
        refine ⟨⟨0xAD, a.code, b, c.code⟩, ?_, ?_⟩
        · rw [h]; eval_cands; apply eval_rule <;> eval_field
        · eval_decode
      | lit c =>
        refine ⟨⟨0xAC, a.code, b, c⟩, ?_, ?_⟩
        · rw [h]; eval_cands; apply eval_rule <;> eval_field
        · eval_decode
  | lit a =>
    cases b with
    | reg b =>
      cases c with
      | reg c =>
        refine ⟨⟨0xAB, a, b.code, c.code⟩, ?_, ?_⟩
        · rw [h]; eval_cands; apply eval_rule <;> eval_field
        · eval_decode
      | lit c =>
        refine ⟨⟨0xAA, a, b.code, c⟩, ?_, ?_⟩
        · rw [h]; eval_cands; apply eval_rule <;> eval_field
        · eval_decode
    | lit b =>
      cases c with
      | reg c =>
        refine ⟨⟨0xA9, a, b, c.code⟩, ?_, ?_⟩
        · rw [h]; eval_cands; apply eval_rule <;> eval_field
        · eval_decode
      | lit c =>
        refine ⟨⟨0xA8, a, b, c⟩, ?_, ?_⟩
        · rw [h]; eval_cands; apply eval_rule <;> eval_field
        · eval_decode

theorem gives_lea (a : RegOrLit1) (b : RegOrLit1) (c : RegOrLit1) :
    Gives env (lasmLine "lea" [a.toLasm, b.toLasm, c.toLasm]) (.lea a b c) :=
  src_lea (writes1 a) (writes1 b) (writes1 c)

theorem src_wsa {ta tb tc : Text} {a : RegOrLit1} {b : RegOrLit1} {c : RegOrLit1}
    (wa : Writes1 env ta a) (wb : Writes1 env tb b) (wc : Writes1 env tc c) :
    Gives env (lasmLine "wsa" [ta, tb, tc]) (.wsa a b c) := by
  have h := lineOut3 (env := env) rulesFor_wsa (by decide) (by decide) wa.isOp wb.isOp wc.isOp
    wa.value wb.value wc.value
  cases a with
  | reg a =>
    cases b with
    | reg b =>
      cases c with
      | reg c =>
        refine ⟨⟨0xB7, a.code, b.code, c.code⟩, ?_, ?_⟩
        · rw [h]; eval_cands; apply eval_rule <;> eval_field
        · eval_decode
      | lit c =>
        refine ⟨⟨0xB6, a.code, b.code, c⟩, ?_, ?_⟩
        · rw [h]; eval_cands; apply eval_rule <;> eval_field
        · eval_decode
    | lit b =>
      cases c with
      | reg c =>
        refine ⟨⟨0xB5, a.code, b, c.code⟩, ?_, ?_⟩
        · rw [h]; eval_cands; apply eval_rule <;> eval_field
        · eval_decode
      | lit c =>
        refine ⟨⟨0xB4, a.code, b, c⟩, ?_, ?_⟩
        · rw [h]; eval_cands; apply eval_rule <;> eval_field
        · eval_decode
  | lit a =>
    cases b with
    | reg b =>
      cases c with
      | reg c =>
        refine ⟨⟨0xB3, a, b.code, c.code⟩, ?_, ?_⟩
        · rw [h]; eval_cands; apply eval_rule <;> eval_field
        · eval_decode
      | lit c =>
        refine ⟨⟨0xB2, a, b.code, c⟩, ?_, ?_⟩
        · rw [h]; eval_cands; apply eval_rule <;> eval_field
        · eval_decode
    | lit b =>
      cases c with
      | reg c =>
        refine ⟨⟨0xB1, a, b, c.code⟩, ?_, ?_⟩
        · rw [h]; eval_cands; apply eval_rule <;> eval_field
        · eval_decode
      | lit c =>
        refine ⟨⟨0xB0, a, b, c⟩, ?_, ?_⟩
        · rw [h]; eval_cands; apply eval_rule <;> eval_field
        · eval_decode

theorem gives_wsa (a : RegOrLit1) (b : RegOrLit1) (c : RegOrLit1) :
    Gives env (lasmLine "wsa" [a.toLasm, b.toLasm, c.toLasm]) (.wsa a b c) :=
  src_wsa (writes1 a) (writes1 b) (writes1 c)

theorem src_wea {ta tb tc : Text} {a : RegOrLit1} {b : RegOrLit1} {c : RegOrLit1}
    (wa : Writes1 env ta a) (wb : Writes1 env tb b) (wc : Writes1 env tc c) :
    Gives env (lasmLine "wea" [ta, tb, tc]) (.wea a b c) := by
  have h := lineOut3 (env := env) rulesFor_wea (by decide) (by decide) wa.isOp wb.isOp wc.isOp
    wa.value wb.value wc.value
  cases a with
  | reg a =>
    cases b with
    | reg b =>
      cases c with
      | reg c =>
        refine ⟨⟨0xBF, a.code, b.code, c.code⟩, ?_, ?_⟩
        · rw [h]; eval_cands; apply eval_rule <;> eval_field
        · eval_decode
      | lit c =>
        refine ⟨⟨0xBE, a.code, b.code, c⟩, ?_, ?_⟩
        · rw [h]; eval_cands; apply eval_rule <;> eval_field
        · eval_decode
    | lit b =>
      cases c with
      | reg c =>
        refine ⟨⟨0xBD, a.code, b, c.code⟩, ?_, ?_⟩
        · rw [h]; eval_cands; apply eval_rule <;> eval_field
        · eval_decode
      | lit c =>
        refine ⟨⟨0xBC, a.code, b, c⟩, ?_, ?_⟩
        · rw [h]; eval_cands; apply eval_rule <;> eval_field
        · eval_decode
  | lit a =>
    cases b with
    | reg b =>
      cases c with
      | reg c =>
        refine ⟨⟨0xBB, a, b.code, c.code⟩, ?_, ?_⟩
        · rw [h]; eval_cands; apply eval_rule <;> eval_field
        · eval_decode
      | lit c =>
        refine ⟨⟨0xBA, a, b.code, c⟩, ?_, ?_⟩
        · rw [h]; eval_cands; apply eval_rule <;> eval_field
        · eval_decode
    | lit b =>
      cases c with
      | reg c =>
        refine ⟨⟨0xB9, a, b, c.code⟩, ?_, ?_⟩
        · rw [h]; eval_cands; apply eval_rule <;> eval_field
        · eval_decode
      | lit c =>
        refine ⟨⟨0xB8, a, b, c⟩, ?_, ?_⟩
        · rw [h]; eval_cands; apply eval_rule <;> eval_field
        · eval_decode

theorem gives_wea (a : RegOrLit1) (b : RegOrLit1) (c : RegOrLit1) :
    Gives env (lasmLine "wea" [a.toLasm, b.toLasm, c.toLasm]) (.wea a b c) :=
  src_wea (writes1 a) (writes1 b) (writes1 c)

theorem src_srm {ta tb tc : Text} {a : RegOrLit1} {b : RegOrLit1} {c : Reg}
    (wa : Writes1 env ta a) (wb : Writes1 env tb b) (wc : WritesReg env tc c) :
    Gives env (lasmLine "srm" [ta, tb, tc]) (.wea a b (.reg c)) := by
  have h := lineOut3 (env := env) rulesFor_srm (by decide) (by decide) wa.isOp wb.isOp wc.isOp
    wa.value wb.value wc.value
  cases a with
  | reg a =>
    cases b with
    | reg b =>
      refine ⟨⟨0xBF, a.code, b.code, c.code⟩, ?_, ?_⟩
      · rw [h]; eval_cands; apply eval_rule <;> eval_field
      · eval_decode
    | lit b =>
      refine ⟨⟨0xBD, a.code, b, c.code⟩, ?_, ?_⟩
      · rw [h]; eval_cands; apply eval_rule <;> eval_field
      · eval_decode
  | lit a =>
    cases b with
    | reg b =>
      refine ⟨⟨0xBB, a, b.code, c.code⟩, ?_, ?_⟩
      · rw [h]; eval_cands; apply eval_rule <;> eval_field
      · eval_decode
    | lit b =>
      refine ⟨⟨0xB9, a, b, c.code⟩, ?_, ?_⟩
      · rw [h]; eval_cands; apply eval_rule <;> eval_field
      · eval_decode

theorem gives_srm (a : RegOrLit1) (b : RegOrLit1) (c : Reg) :
    Gives env (lasmLine "srm" [a.toLasm, b.toLasm, c.toLasm]) (.wea a b (.reg c)) :=
  src_srm (writes1 a) (writes1 b) (writesReg c)

theorem src_push {ta : Text} {a : RegOrLit2}
    (wa : Writes2 env ta a) :
    Gives env (lasmLine "push" [ta]) (.push a) := by
  have h := lineOut1 (env := env) rulesFor_push (by decide) (by decide) wa.isOp
    wa.value
  cases a with
  | reg a =>
    refine ⟨⟨0xCC, a.code, 0, 0⟩, ?_, ?_⟩
    · rw [h]; eval_cands; apply eval_rule <;> eval_field
    · eval_decode
  | lit a =>
    refine ⟨⟨0xC8, (a >>> 8).setWidth 8, a.setWidth 8, 0⟩, ?_, ?_⟩
    · rw [h]; eval_cands; apply eval_rule <;> eval_field
    · eval_decode

theorem gives_push (a : RegOrLit2) :
    Gives env (lasmLine "push" [a.toLasm]) (.push a) :=
  src_push (writes2 a)

theorem src_pop {ta : Text} {a : Reg}
    (wa : WritesReg env ta a) :
    Gives env (lasmLine "pop" [ta]) (.pop a) := by
  have h := lineOut1 (env := env) rulesFor_pop (by decide) (by decide) wa.isOp
    wa.value
  refine ⟨⟨0xD4, a.code, 0, 0⟩, ?_, ?_⟩
  · rw [h]; eval_cands; apply eval_rule <;> eval_field
  · eval_decode

theorem gives_pop (a : Reg) :
    Gives env (lasmLine "pop" [a.toLasm]) (.pop a) :=
  src_pop (writesReg a)

theorem src_call {ta : Text} {a : RegOrLit2}
    (wa : Writes2 env ta a) :
    Gives env (lasmLine "call" [ta]) (.call a) := by
  have h := lineOut1 (env := env) rulesFor_call (by decide) (by decide) wa.isOp
    wa.value
  cases a with
  | reg a =>
    refine ⟨⟨0xDC, a.code, 0, 0⟩, ?_, ?_⟩
    · rw [h]; eval_cands; apply eval_rule <;> eval_field
    · eval_decode
  | lit a =>
    refine ⟨⟨0xD8, (a >>> 8).setWidth 8, a.setWidth 8, 0⟩, ?_, ?_⟩
    · rw [h]; eval_cands; apply eval_rule <;> eval_field
    · eval_decode

theorem gives_call (a : RegOrLit2) :
    Gives env (lasmLine "call" [a.toLasm]) (.call a) :=
  src_call (writes2 a)

theorem src_hwdReg {ta tb tc : Text} {a : Reg} {b : RegOrLit1} {c : Reg}
    (wa : WritesReg env ta a) (wb : Writes1 env tb b) (wc : WritesReg env tc c) :
    Gives env (lasmLine "hwd" [ta, tb, tc]) (.hwd a b (.reg c)) := by
  have h := lineOut3 (env := env) rulesFor_hwd (by decide) (by decide) wa.isOp wb.isOp wc.isOp
    wa.value wb.value wc.value
  cases b with
  | reg b =>
    refine ⟨⟨0xE7, a.code, b.code, c.code⟩, ?_, ?_⟩
    · rw [h]; eval_cands; apply eval_rule <;> eval_field
    · eval_decode
  | lit b =>
    refine ⟨⟨0xE5, a.code, b, c.code⟩, ?_, ?_⟩
    · rw [h]; eval_cands; apply eval_rule <;> eval_field
    · eval_decode

theorem gives_hwdReg (a : Reg) (b : RegOrLit1) (c : Reg) :
    Gives env (lasmLine "hwd" [a.toLasm, b.toLasm, c.toLasm]) (.hwd a b (.reg c)) :=
  src_hwdReg (writesReg a) (writes1 b) (writesReg c)

theorem src_cycles {ta : Text} {a : Reg}
    (wa : WritesReg env ta a) :
    Gives env (lasmLine "cycles" [ta]) (.cycles a) := by
  have h := lineOut1 (env := env) rulesFor_cycles (by decide) (by decide) wa.isOp
    wa.value
  refine ⟨⟨0xEC, a.code, 0, 0⟩, ?_, ?_⟩
  · rw [h]; eval_cands; apply eval_rule <;> eval_field
  · eval_decode

theorem gives_cycles (a : Reg) :
    Gives env (lasmLine "cycles" [a.toLasm]) (.cycles a) :=
  src_cycles (writesReg a)

theorem src_reset {ta : Text} {a : RegOrLit1}
    (wa : Writes1 env ta a) :
    Gives env (lasmLine "reset" [ta]) (.reset a) := by
  have h := lineOut1 (env := env) rulesFor_reset (by decide) (by decide) wa.isOp
    wa.value
  cases a with
  | reg a =>
    refine ⟨⟨0xFC, a.code, 0, 0⟩, ?_, ?_⟩
    · rw [h]; eval_cands; apply eval_rule <;> eval_field
    · eval_decode
  | lit a =>
    refine ⟨⟨0xF8, a, 0, 0⟩, ?_, ?_⟩
    · rw [h]; eval_cands; apply eval_rule <;> eval_field
    · eval_decode

theorem gives_reset (a : RegOrLit1) :
    Gives env (lasmLine "reset" [a.toLasm]) (.reset a) :=
  src_reset (writes1 a)

/-! ## Aliases -/

theorem fromCode_pc : Reg.fromCode 22#8 = some .pc := rfl

theorem gives_jp (b : RegOrLit2) : Gives env (lasmLine "jp" [b.toLasm]) (.cpy .pc b) := by
  have h := lineOut1 (env := env) rulesFor_jp (by decide) (by decide) (isOp_rl2 b) (classify_rl2 b)
  cases b with
  | reg b =>
    refine ⟨⟨0x0E, 0x16, b.code, 0⟩, ?_, ?_⟩
    · rw [h]; eval_cands; apply eval_rule <;> eval_field
    · simp [Instr.decode, argReg, argRegOrLit2, argIsLit, Bytes4.get, fromCode_code, fromCode_pc, bind, Except.bind]
  | lit b =>
    refine ⟨⟨0x0C, 0x16, (b >>> 8).setWidth 8, b.setWidth 8⟩, ?_, ?_⟩
    · rw [h]; eval_cands; apply eval_rule <;> eval_field
    · simp [Instr.decode, argReg, argRegOrLit2, argIsLit, Bytes4.get, join16, fromCode_pc, bind, Except.bind]

theorem gives_zro (a : Reg) : Gives env (lasmLine "zro" [a.toLasm]) (.xor a (.reg a)) := by
  have h := lineOut1 (env := env) rulesFor_zro (by decide) (by decide) (isOp_reg a) (classify_reg a)
  refine ⟨⟨0x56, a.code, a.code, 0⟩, ?_, ?_⟩
  · rw [h]; eval_cands; apply eval_rule <;> eval_field
  · eval_decode

theorem gives_inc (a : Reg) : Gives env (lasmLine "inc" [a.toLasm]) (.add a (.lit 1)) := by
  have h := lineOut1 (env := env) rulesFor_inc (by decide) (by decide) (isOp_reg a) (classify_reg a)
  refine ⟨⟨0x1C, a.code, 0, 1⟩, ?_, ?_⟩
  · rw [h]; eval_cands; apply eval_rule <;> eval_field
  · eval_decode

theorem gives_dec (a : Reg) : Gives env (lasmLine "dec" [a.toLasm]) (.sub a (.lit 1)) := by
  have h := lineOut1 (env := env) rulesFor_dec (by decide) (by decide) (isOp_reg a) (classify_reg a)
  refine ⟨⟨0x24, a.code, 0, 1⟩, ?_, ?_⟩
  · rw [h]; eval_cands; apply eval_rule <;> eval_field
  · eval_decode

theorem line0 {mn : String} {b : List U8} (hm : IsWord mn.toList)
    (hd : mn.toList ≠ "#d32".toList ∧ mn.toList ≠ "#d".toList) (h : assembleInstr mn.toList [] = some b) :
    assembleLine env mn.toList = some b := by
  have := assembleLine_lasmLine (env := env) (ops := []) (tail := []) hm hd (by simp) (Or.inl rfl)
  rw [List.append_nil] at this
  exact this.trans h

theorem gives_ret : Gives env "ret".toList (.pop .pc) := ⟨⟨0xD4, 0x16, 0, 0⟩, line0 (by decide) (by decide) (by decide +kernel), rfl⟩

theorem gives_halt : Gives env "halt".toList .halt := ⟨⟨0xF0, 0, 0, 0⟩, line0 (by decide) (by decide) (by decide +kernel), rfl⟩

theorem gives_ifgt : Gives env "ifgt".toList (.if2 (.lit 0) (.lit 1) (.lit 4)) :=
  ⟨⟨0x98, 0, 1, 4⟩, line0 (by decide) (by decide) (by decide +kernel), rfl⟩

theorem gives_ifle : Gives env "ifle".toList (.if2 (.lit 0) (.lit 1) (.lit 1)) :=
  ⟨⟨0x98, 0, 1, 1⟩, line0 (by decide) (by decide) (by decide +kernel), rfl⟩

theorem fails_itr (a : RegOrLit1) : assembleLine env (lasmLine "itr" [a.toLasm]) = none := by
  have h := lineOut1 (env := env) rulesFor_itr (by decide) (by decide) (isOp_rl1 a) (classify_rl1 a)
  rw [h]
  cases a with
  | reg a => eval_cands; simp [Rule.eval, Field.eval]
  | lit a => eval_cands; simp [Rule.eval, Field.eval]

/-! ## Signed literals -/

theorem gives_jprLit {pf : Profile} {n : U16} {t : Text} (h : (RegOrLit2.lit n).toLasmSigned pf = some t) :
    Gives env (lasmLine "jpr" [t]) (.jpr (.lit n)) := by
  refine ⟨⟨0x70, (n >>> 8).setWidth 8, n.setWidth 8, 0⟩, ?_, by eval_decode⟩
  unfold RegOrLit2.toLasmSigned at h
  dsimp only at h
  split at h
  · rename_i hneg
    split at h
    · cases h
    · injection h with h
      subst h
      have hlt := n.isLt
      have hge : 32768 ≤ n.toNat := by
        rw [BitVec.toInt_eq_toNat_cond] at hneg
        split at hneg <;> omega
      have hm : (-n).toNat = 65536 - n.toNat := by rw [BitVec.toNat_neg]; omega
      rw [lineOut1 (env := env) rulesFor_jpr (by decide) (by decide) (isOp_negHex _) (classify_negHex _), hm]
      have hacc : acceptAll [.i16] [.num (-((65536 - n.toNat : Nat) : Int))] = some [-((65536 - n.toNat : Nat) : Int)] := by
        rw [acceptAll_some (v := -((65536 - n.toNat : Nat) : Int)), acceptAll_nil]
        · rfl
        · simp only [Pat.accept]
          rw [if_pos (by omega)]
      simp only [cands_cons, cands_nil, rej_reg_num, hacc, Option.map_none, Option.map_some, Option.toList_none,
        Option.toList_some, List.nil_append, List.append_nil, outcome_one]
      apply eval_rule
      · rfl
      · simp only [Field.eval, List.getElem?_cons_zero, Option.map_some, Option.some.injEq]
        apply BitVec.eq_of_toNat_eq
        rw [BitVec.toNat_ofInt, BitVec.toNat_setWidth, BitVec.toNat_ushiftRight, Nat.shiftRight_eq_div_pow]
        omega
      · simp only [Field.eval, List.getElem?_cons_zero, Option.map_some, Option.some.injEq]
        apply BitVec.eq_of_toNat_eq
        rw [BitVec.toNat_ofInt, BitVec.toNat_setWidth]
        omega
      · rfl
  · injection h with h
    subst h
    rw [lineOut1 (env := env) rulesFor_jpr (by decide) (by decide) (isOp_hex _) (classify_hex _)]
    eval_cands; apply eval_rule <;> eval_field

/-! ## Flags -/

theorem lasmLine_comment1 (mn : String) (t c : Text) : lasmLine mn [t ++ c] = lasmLine mn [t] ++ c := by
  simp [lasmLine, joinText]

theorem lasmLine_comment3 (mn : String) (t u v c : Text) : lasmLine mn [t, u, v ++ c] = lasmLine mn [t, u, v] ++ c := by
  simp [lasmLine, joinText]

theorem flag_decode (n : U8) : ArFlag.decode n = none ↔ ¬ n.toNat ≤ 6 := by
  have : ∀ k : Fin 256, ArFlag.decode (BitVec.ofNat 8 k) = none ↔ ¬ (BitVec.ofNat 8 k).toNat ≤ 6 := by decide +kernel
  have h := this ⟨n.toNat, n.isLt⟩
  simpa using h

theorem flag_code {n : U8} {f : ArFlag} (h : ArFlag.decode n = some f) : f.code = n := by
  have : ∀ k : Fin 256, ∀ f, ArFlag.decode (BitVec.ofNat 8 k) = some f → f.code = BitVec.ofNat 8 k := by
    intro k f h
    have hk : ∀ k : Fin 256, (ArFlag.decode (BitVec.ofNat 8 k)).map ArFlag.code = (ArFlag.decode (BitVec.ofNat 8 k)).map fun _ => BitVec.ofNat 8 k := by
      decide +kernel
    have := hk k
    rw [h] at this
    simpa using this
  have h' := this ⟨n.toNat, n.isLt⟩ f (by simpa using h)
  simpa using h'

theorem gives_ifFlag {n : U8} {f : ArFlag} (h : ArFlag.decode n = some f) :
    Gives env (lasmLine "if" [f.toLasm.toList]) (.«if» (.lit n)) := by
  have hl := lineOut1 (env := env) rulesFor_if (by decide) (by decide) (isOp_flag f) (classify_flag f)
  have := flag_code h
  subst this
  refine ⟨⟨0x88, f.code, 0, 0⟩, ?_, by eval_decode⟩
  rw [hl]; eval_cands; apply eval_rule <;> eval_field

theorem gives_ifnFlag {n : U8} {f : ArFlag} (h : ArFlag.decode n = some f) :
    Gives env (lasmLine "ifn" [f.toLasm.toList]) (.ifN (.lit n)) := by
  have hl := lineOut1 (env := env) rulesFor_ifn (by decide) (by decide) (isOp_flag f) (classify_flag f)
  have := flag_code h
  subst this
  refine ⟨⟨0x90, f.code, 0, 0⟩, ?_, by eval_decode⟩
  rw [hl]; eval_cands; apply eval_rule <;> eval_field

theorem gives_ifeq : Gives env "ifeq".toList (.«if» (.lit 0)) := ⟨⟨0x88, 0, 0, 0⟩, line0 (by decide) (by decide) (by decide +kernel), rfl⟩
theorem gives_ifls : Gives env "ifls".toList (.«if» (.lit 1)) := ⟨⟨0x88, 1, 0, 0⟩, line0 (by decide) (by decide) (by decide +kernel), rfl⟩
theorem gives_ifnq : Gives env "ifnq".toList (.ifN (.lit 0)) := ⟨⟨0x90, 0, 0, 0⟩, line0 (by decide) (by decide) (by decide +kernel), rfl⟩
theorem gives_ifge : Gives env "ifge".toList (.ifN (.lit 1)) := ⟨⟨0x90, 1, 0, 0⟩, line0 (by decide) (by decide) (by decide +kernel), rfl⟩

theorem fails_if (n : U8) (c : Text) (hc : IsTail c) : assembleLine env (lasmLine "if" [fmtHex 0 n.toNat ++ c]) = none := by
  rw [lasmLine_comment1, lineOut (env := env) c rulesFor_if (by decide) (by decide) (os := [.num n.toNat]) (by simp [isOp_hex]) hc
    (by simp [classify_hex])]
  eval_cands

theorem fails_ifn (n : U8) (c : Text) (hc : IsTail c) : assembleLine env (lasmLine "ifn" [fmtHex 0 n.toNat ++ c]) = none := by
  rw [lasmLine_comment1, lineOut (env := env) c rulesFor_ifn (by decide) (by decide) (os := [.num n.toNat]) (by simp [isOp_hex]) hc
    (by simp [classify_hex])]
  eval_cands

/-- The operand written for a flag. -/
def flagOperand (v : RegOrLit1) : Operand :=
  match v with
  | .reg r => .reg r.code.toNat
  | .lit n => if n.toNat ≤ 6 then .arflag n.toNat else .num n.toNat

theorem isOp_hex4 (n : Nat) : IsOp (fmtHex 4 n) := by
  have : fmtHex 4 n = ('0' :: 'x' :: List.replicate (2 - (digits 16 n).length) '0') ++ digits 16 n := by
    simp [fmtHex, padLeft]
  rw [this]
  refine isOp_hexTail ?_
  intro c hc
  rcases List.mem_cons.1 hc with rfl | hc
  · decide
  · rcases List.mem_cons.1 hc with rfl | hc
    · decide
    · rw [(List.mem_replicate.1 hc).2]
      decide

theorem classify_hex4 (n : U8) : classify env (fmtHex 4 n.toNat) = some (.num n.toNat) := by
  have h : ∀ k : Fin 256, classifyPlain (fmtHex 4 k.val) = some (.num k.val) := by decide +kernel
  exact classify_plain (h ⟨n.toNat, n.isLt⟩)

theorem isOp_flagText (v : RegOrLit1) : IsOp (flagText v) := by
  cases v with
  | reg r => exact isOp_reg r
  | lit n =>
    show IsOp (match ArFlag.decode n with | some f => f.toLasm.toList | none => fmtHex 4 n.toNat)
    cases ArFlag.decode n with
    | none => exact isOp_hex4 _
    | some f => exact isOp_flag f

theorem classify_flagText (v : RegOrLit1) : classify env (flagText v) = some (flagOperand v) := by
  cases v with
  | reg r => exact classify_reg r
  | lit n =>
    show classify env (match ArFlag.decode n with | some f => f.toLasm.toList | none => fmtHex 4 n.toNat) = some (if _ then _ else _)
    cases hf : ArFlag.decode n with
    | none => rw [if_neg ((flag_decode n).1 hf)]; exact classify_hex4 _
    | some f =>
      have : n.toNat ≤ 6 := by
        refine Classical.byContradiction fun hn => ?_
        rw [(flag_decode n).2 hn] at hf
        cases hf
      rw [if_pos this, ← flag_code hf]
      exact classify_flag f

theorem isTail_nil : IsTail [] := Or.inl rfl

theorem flagOperand_cases (v : RegOrLit1) :
    (flagNamed v = true ∧ ∃ n, flagOperand v = .reg n) ∨ (flagNamed v = true ∧ ∃ n, flagOperand v = .arflag n) ∨
    (flagNamed v = false ∧ ∃ n, flagOperand v = .num n) := by
  cases v with
  | reg r => exact Or.inl ⟨rfl, _, rfl⟩
  | lit n =>
    by_cases h : n.toNat ≤ 6
    · exact Or.inr (Or.inl ⟨by simp [flagNamed, h], n.toNat, by simp [flagOperand, h]⟩)
    · exact Or.inr (Or.inr ⟨by simp only [flagNamed, h, decide_false], n.toNat, by simp [flagOperand, h]⟩)

theorem gives_ifor (a b : RegOrLit1) (ha : flagNamed a = true) (hb : flagNamed b = true) :
    Gives env (lasmLine "ifor" [flagText a, flagText b]) (.if2 a b (.lit 1)) := by
  have h := lineOut2 (env := env) rulesFor_ifor (by decide) (by decide) (isOp_flagText a) (isOp_flagText b) (classify_flagText a)
    (classify_flagText b)
  cases a with
  | reg a =>
    cases b with
    | reg b =>
      refine ⟨⟨0x9E, a.code, b.code, 1⟩, ?_, by eval_decode⟩
      rw [h]; simp only [flagOperand]; eval_cands; apply eval_rule <;> eval_field
    | lit b =>
      have hb' : b.toNat ≤ 6 := by simpa [flagNamed] using hb
      refine ⟨⟨0x9C, a.code, b, 1⟩, ?_, by eval_decode⟩
      rw [h]; simp only [flagOperand, if_pos hb']; eval_cands; apply eval_rule <;> eval_field
  | lit a =>
    have ha' : a.toNat ≤ 6 := by simpa [flagNamed] using ha
    cases b with
    | reg b =>
      refine ⟨⟨0x9A, a, b.code, 1⟩, ?_, by eval_decode⟩
      rw [h]; simp only [flagOperand, if_pos ha']; eval_cands; apply eval_rule <;> eval_field
    | lit b =>
      have hb' : b.toNat ≤ 6 := by simpa [flagNamed] using hb
      refine ⟨⟨0x98, a, b, 1⟩, ?_, by eval_decode⟩
      rw [h]; simp only [flagOperand, if_pos ha', if_pos hb']; eval_cands; apply eval_rule <;> eval_field

theorem fails_ifor (a b : RegOrLit1) (h : ¬ (flagNamed a = true ∧ flagNamed b = true)) (c : Text) (hc : IsTail c) :
    assembleLine env (lasmLine "ifor" [flagText a, flagText b] ++ c) = none := by
  rw [lineOut (env := env) c rulesFor_ifor (by decide) (by decide) (os := [flagOperand a, flagOperand b])
    (by simp [isOp_flagText]) hc (by simp [classify_flagText])]
  rcases flagOperand_cases a with ⟨ha, v, e⟩ | ⟨ha, v, e⟩ | ⟨ha, v, e⟩ <;> rw [e] <;>
  rcases flagOperand_cases b with ⟨hb, w, e'⟩ | ⟨hb, w, e'⟩ | ⟨hb, w, e'⟩ <;> rw [e'] <;>
  first | (eval_cands; done) | exact absurd ⟨ha, hb⟩ h

theorem gives_ifand (a b : RegOrLit1) (ha : flagNamed a = true) (hb : flagNamed b = true) :
    Gives env (lasmLine "ifand" [flagText a, flagText b]) (.if2 a b (.lit 2)) := by
  have h := lineOut2 (env := env) rulesFor_ifand (by decide) (by decide) (isOp_flagText a) (isOp_flagText b) (classify_flagText a)
    (classify_flagText b)
  cases a with
  | reg a =>
    cases b with
    | reg b =>
      refine ⟨⟨0x9E, a.code, b.code, 2⟩, ?_, by eval_decode⟩
      rw [h]; simp only [flagOperand]; eval_cands; apply eval_rule <;> eval_field
    | lit b =>
      have hb' : b.toNat ≤ 6 := by simpa [flagNamed] using hb
      refine ⟨⟨0x9C, a.code, b, 2⟩, ?_, by eval_decode⟩
      rw [h]; simp only [flagOperand, if_pos hb']; eval_cands; apply eval_rule <;> eval_field
  | lit a =>
    have ha' : a.toNat ≤ 6 := by simpa [flagNamed] using ha
    cases b with
    | reg b =>
      refine ⟨⟨0x9A, a, b.code, 2⟩, ?_, by eval_decode⟩
      rw [h]; simp only [flagOperand, if_pos ha']; eval_cands; apply eval_rule <;> eval_field
    | lit b =>
      have hb' : b.toNat ≤ 6 := by simpa [flagNamed] using hb
      refine ⟨⟨0x98, a, b, 2⟩, ?_, by eval_decode⟩
      rw [h]; simp only [flagOperand, if_pos ha', if_pos hb']; eval_cands; apply eval_rule <;> eval_field

theorem fails_ifand (a b : RegOrLit1) (h : ¬ (flagNamed a = true ∧ flagNamed b = true)) (c : Text) (hc : IsTail c) :
    assembleLine env (lasmLine "ifand" [flagText a, flagText b] ++ c) = none := by
  rw [lineOut (env := env) c rulesFor_ifand (by decide) (by decide) (os := [flagOperand a, flagOperand b])
    (by simp [isOp_flagText]) hc (by simp [classify_flagText])]
  rcases flagOperand_cases a with ⟨ha, v, e⟩ | ⟨ha, v, e⟩ | ⟨ha, v, e⟩ <;> rw [e] <;>
  rcases flagOperand_cases b with ⟨hb, w, e'⟩ | ⟨hb, w, e'⟩ | ⟨hb, w, e'⟩ <;> rw [e'] <;>
  first | (eval_cands; done) | exact absurd ⟨ha, hb⟩ h

theorem gives_ifxor (a b : RegOrLit1) (ha : flagNamed a = true) (hb : flagNamed b = true) :
    Gives env (lasmLine "ifxor" [flagText a, flagText b]) (.if2 a b (.lit 3)) := by
  have h := lineOut2 (env := env) rulesFor_ifxor (by decide) (by decide) (isOp_flagText a) (isOp_flagText b) (classify_flagText a)
    (classify_flagText b)
  cases a with
  | reg a =>
    cases b with
    | reg b =>
      refine ⟨⟨0x9E, a.code, b.code, 3⟩, ?_, by eval_decode⟩
      rw [h]; simp only [flagOperand]; eval_cands; apply eval_rule <;> eval_field
    | lit b =>
      have hb' : b.toNat ≤ 6 := by simpa [flagNamed] using hb
      refine ⟨⟨0x9C, a.code, b, 3⟩, ?_, by eval_decode⟩
      rw [h]; simp only [flagOperand, if_pos hb']; eval_cands; apply eval_rule <;> eval_field
  | lit a =>
    have ha' : a.toNat ≤ 6 := by simpa [flagNamed] using ha
    cases b with
    | reg b =>
      refine ⟨⟨0x9A, a, b.code, 3⟩, ?_, by eval_decode⟩
      rw [h]; simp only [flagOperand, if_pos ha']; eval_cands; apply eval_rule <;> eval_field
    | lit b =>
      have hb' : b.toNat ≤ 6 := by simpa [flagNamed] using hb
      refine ⟨⟨0x98, a, b, 3⟩, ?_, by eval_decode⟩
      rw [h]; simp only [flagOperand, if_pos ha', if_pos hb']; eval_cands; apply eval_rule <;> eval_field

theorem fails_ifxor (a b : RegOrLit1) (h : ¬ (flagNamed a = true ∧ flagNamed b = true)) (c : Text) (hc : IsTail c) :
    assembleLine env (lasmLine "ifxor" [flagText a, flagText b] ++ c) = none := by
  rw [lineOut (env := env) c rulesFor_ifxor (by decide) (by decide) (os := [flagOperand a, flagOperand b])
    (by simp [isOp_flagText]) hc (by simp [classify_flagText])]
  rcases flagOperand_cases a with ⟨ha, v, e⟩ | ⟨ha, v, e⟩ | ⟨ha, v, e⟩ <;> rw [e] <;>
  rcases flagOperand_cases b with ⟨hb, w, e'⟩ | ⟨hb, w, e'⟩ | ⟨hb, w, e'⟩ <;> rw [e'] <;>
  first | (eval_cands; done) | exact absurd ⟨ha, hb⟩ h

theorem gives_ifnor (a b : RegOrLit1) (ha : flagNamed a = true) (hb : flagNamed b = true) :
    Gives env (lasmLine "ifnor" [flagText a, flagText b]) (.if2 a b (.lit 4)) := by
  have h := lineOut2 (env := env) rulesFor_ifnor (by decide) (by decide) (isOp_flagText a) (isOp_flagText b) (classify_flagText a)
    (classify_flagText b)
  cases a with
  | reg a =>
    cases b with
    | reg b =>
      refine ⟨⟨0x9E, a.code, b.code, 4⟩, ?_, by eval_decode⟩
      rw [h]; simp only [flagOperand]; eval_cands; apply eval_rule <;> eval_field
    | lit b =>
      have hb' : b.toNat ≤ 6 := by simpa [flagNamed] using hb
      refine ⟨⟨0x9C, a.code, b, 4⟩, ?_, by eval_decode⟩
      rw [h]; simp only [flagOperand, if_pos hb']; eval_cands; apply eval_rule <;> eval_field
  | lit a =>
    have ha' : a.toNat ≤ 6 := by simpa [flagNamed] using ha
    cases b with
    | reg b =>
      refine ⟨⟨0x9A, a, b.code, 4⟩, ?_, by eval_decode⟩
      rw [h]; simp only [flagOperand, if_pos ha']; eval_cands; apply eval_rule <;> eval_field
    | lit b =>
      have hb' : b.toNat ≤ 6 := by simpa [flagNamed] using hb
      refine ⟨⟨0x98, a, b, 4⟩, ?_, by eval_decode⟩
      rw [h]; simp only [flagOperand, if_pos ha', if_pos hb']; eval_cands; apply eval_rule <;> eval_field

theorem fails_ifnor (a b : RegOrLit1) (h : ¬ (flagNamed a = true ∧ flagNamed b = true)) (c : Text) (hc : IsTail c) :
    assembleLine env (lasmLine "ifnor" [flagText a, flagText b] ++ c) = none := by
  rw [lineOut (env := env) c rulesFor_ifnor (by decide) (by decide) (os := [flagOperand a, flagOperand b])
    (by simp [isOp_flagText]) hc (by simp [classify_flagText])]
  rcases flagOperand_cases a with ⟨ha, v, e⟩ | ⟨ha, v, e⟩ | ⟨ha, v, e⟩ <;> rw [e] <;>
  rcases flagOperand_cases b with ⟨hb, w, e'⟩ | ⟨hb, w, e'⟩ | ⟨hb, w, e'⟩ <;> rw [e'] <;>
  first | (eval_cands; done) | exact absurd ⟨ha, hb⟩ h

theorem gives_ifnand (a b : RegOrLit1) (ha : flagNamed a = true) (hb : flagNamed b = true) :
    Gives env (lasmLine "ifnand" [flagText a, flagText b]) (.if2 a b (.lit 5)) := by
  have h := lineOut2 (env := env) rulesFor_ifnand (by decide) (by decide) (isOp_flagText a) (isOp_flagText b) (classify_flagText a)
    (classify_flagText b)
  cases a with
  | reg a =>
    cases b with
    | reg b =>
      refine ⟨⟨0x9E, a.code, b.code, 5⟩, ?_, by eval_decode⟩
      rw [h]; simp only [flagOperand]; eval_cands; apply eval_rule <;> eval_field
    | lit b =>
      have hb' : b.toNat ≤ 6 := by simpa [flagNamed] using hb
      refine ⟨⟨0x9C, a.code, b, 5⟩, ?_, by eval_decode⟩
      rw [h]; simp only [flagOperand, if_pos hb']; eval_cands; apply eval_rule <;> eval_field
  | lit a =>
    have ha' : a.toNat ≤ 6 := by simpa [flagNamed] using ha
    cases b with
    | reg b =>
      refine ⟨⟨0x9A, a, b.code, 5⟩, ?_, by eval_decode⟩
      rw [h]; simp only [flagOperand, if_pos ha']; eval_cands; apply eval_rule <;> eval_field
    | lit b =>
      have hb' : b.toNat ≤ 6 := by simpa [flagNamed] using hb
      refine ⟨⟨0x98, a, b, 5⟩, ?_, by eval_decode⟩
      rw [h]; simp only [flagOperand, if_pos ha', if_pos hb']; eval_cands; apply eval_rule <;> eval_field

theorem fails_ifnand (a b : RegOrLit1) (h : ¬ (flagNamed a = true ∧ flagNamed b = true)) (c : Text) (hc : IsTail c) :
    assembleLine env (lasmLine "ifnand" [flagText a, flagText b] ++ c) = none := by
  rw [lineOut (env := env) c rulesFor_ifnand (by decide) (by decide) (os := [flagOperand a, flagOperand b])
    (by simp [isOp_flagText]) hc (by simp [classify_flagText])]
  rcases flagOperand_cases a with ⟨ha, v, e⟩ | ⟨ha, v, e⟩ | ⟨ha, v, e⟩ <;> rw [e] <;>
  rcases flagOperand_cases b with ⟨hb, w, e'⟩ | ⟨hb, w, e'⟩ | ⟨hb, w, e'⟩ <;> rw [e'] <;>
  first | (eval_cands; done) | exact absurd ⟨ha, hb⟩ h

theorem gives_ifleft (a b : RegOrLit1) (ha : flagNamed a = true) (hb : flagNamed b = true) :
    Gives env (lasmLine "ifleft" [flagText a, flagText b]) (.if2 a b (.lit 6)) := by
  have h := lineOut2 (env := env) rulesFor_ifleft (by decide) (by decide) (isOp_flagText a) (isOp_flagText b) (classify_flagText a)
    (classify_flagText b)
  cases a with
  | reg a =>
    cases b with
    | reg b =>
      refine ⟨⟨0x9E, a.code, b.code, 6⟩, ?_, by eval_decode⟩
      rw [h]; simp only [flagOperand]; eval_cands; apply eval_rule <;> eval_field
    | lit b =>
      have hb' : b.toNat ≤ 6 := by simpa [flagNamed] using hb
      refine ⟨⟨0x9C, a.code, b, 6⟩, ?_, by eval_decode⟩
      rw [h]; simp only [flagOperand, if_pos hb']; eval_cands; apply eval_rule <;> eval_field
  | lit a =>
    have ha' : a.toNat ≤ 6 := by simpa [flagNamed] using ha
    cases b with
    | reg b =>
      refine ⟨⟨0x9A, a, b.code, 6⟩, ?_, by eval_decode⟩
      rw [h]; simp only [flagOperand, if_pos ha']; eval_cands; apply eval_rule <;> eval_field
    | lit b =>
      have hb' : b.toNat ≤ 6 := by simpa [flagNamed] using hb
      refine ⟨⟨0x98, a, b, 6⟩, ?_, by eval_decode⟩
      rw [h]; simp only [flagOperand, if_pos ha', if_pos hb']; eval_cands; apply eval_rule <;> eval_field

theorem fails_ifleft (a b : RegOrLit1) (h : ¬ (flagNamed a = true ∧ flagNamed b = true)) (c : Text) (hc : IsTail c) :
    assembleLine env (lasmLine "ifleft" [flagText a, flagText b] ++ c) = none := by
  rw [lineOut (env := env) c rulesFor_ifleft (by decide) (by decide) (os := [flagOperand a, flagOperand b])
    (by simp [isOp_flagText]) hc (by simp [classify_flagText])]
  rcases flagOperand_cases a with ⟨ha, v, e⟩ | ⟨ha, v, e⟩ | ⟨ha, v, e⟩ <;> rw [e] <;>
  rcases flagOperand_cases b with ⟨hb, w, e'⟩ | ⟨hb, w, e'⟩ | ⟨hb, w, e'⟩ <;> rw [e'] <;>
  first | (eval_cands; done) | exact absurd ⟨ha, hb⟩ h

theorem gives_ifright (a b : RegOrLit1) (ha : flagNamed a = true) (hb : flagNamed b = true) :
    Gives env (lasmLine "ifright" [flagText a, flagText b]) (.if2 a b (.lit 7)) := by
  have h := lineOut2 (env := env) rulesFor_ifright (by decide) (by decide) (isOp_flagText a) (isOp_flagText b) (classify_flagText a)
    (classify_flagText b)
  cases a with
  | reg a =>
    cases b with
    | reg b =>
      refine ⟨⟨0x9E, a.code, b.code, 7⟩, ?_, by eval_decode⟩
      rw [h]; simp only [flagOperand]; eval_cands; apply eval_rule <;> eval_field
    | lit b =>
      have hb' : b.toNat ≤ 6 := by simpa [flagNamed] using hb
      refine ⟨⟨0x9C, a.code, b, 7⟩, ?_, by eval_decode⟩
      rw [h]; simp only [flagOperand, if_pos hb']; eval_cands; apply eval_rule <;> eval_field
  | lit a =>
    have ha' : a.toNat ≤ 6 := by simpa [flagNamed] using ha
    cases b with
    | reg b =>
      refine ⟨⟨0x9A, a, b.code, 7⟩, ?_, by eval_decode⟩
      rw [h]; simp only [flagOperand, if_pos ha']; eval_cands; apply eval_rule <;> eval_field
    | lit b =>
      have hb' : b.toNat ≤ 6 := by simpa [flagNamed] using hb
      refine ⟨⟨0x98, a, b, 7⟩, ?_, by eval_decode⟩
      rw [h]; simp only [flagOperand, if_pos ha', if_pos hb']; eval_cands; apply eval_rule <;> eval_field

theorem fails_ifright (a b : RegOrLit1) (h : ¬ (flagNamed a = true ∧ flagNamed b = true)) (c : Text) (hc : IsTail c) :
    assembleLine env (lasmLine "ifright" [flagText a, flagText b] ++ c) = none := by
  rw [lineOut (env := env) c rulesFor_ifright (by decide) (by decide) (os := [flagOperand a, flagOperand b])
    (by simp [isOp_flagText]) hc (by simp [classify_flagText])]
  rcases flagOperand_cases a with ⟨ha, v, e⟩ | ⟨ha, v, e⟩ | ⟨ha, v, e⟩ <;> rw [e] <;>
  rcases flagOperand_cases b with ⟨hb, w, e'⟩ | ⟨hb, w, e'⟩ | ⟨hb, w, e'⟩ <;> rw [e'] <;>
  first | (eval_cands; done) | exact absurd ⟨ha, hb⟩ h

/-! ## `if2` -/

theorem gives_if2Reg (a b : RegOrLit1) (c : Reg) (ha : flagNamed a = true) (hb : flagNamed b = true) :
    Gives env (lasmLine "if2" [flagText a, flagText b, c.toLasm]) (.if2 a b (.reg c)) := by
  have h := lineOut3 (env := env) rulesFor_if2 (by decide) (by decide) (isOp_flagText a) (isOp_flagText b) (isOp_reg c)
    (classify_flagText a) (classify_flagText b) (classify_reg c)
  cases a with
  | reg a =>
    cases b with
    | reg b =>
      refine ⟨⟨0x9F, a.code, b.code, c.code⟩, ?_, by eval_decode⟩
      rw [h]; simp only [flagOperand]; eval_cands; apply eval_rule <;> eval_field
    | lit b =>
      have hb' : b.toNat ≤ 6 := by simpa [flagNamed] using hb
      refine ⟨⟨0x9D, a.code, b, c.code⟩, ?_, by eval_decode⟩
      rw [h]; simp only [flagOperand, if_pos hb']; eval_cands; apply eval_rule <;> eval_field
  | lit a =>
    have ha' : a.toNat ≤ 6 := by simpa [flagNamed] using ha
    cases b with
    | reg b =>
      refine ⟨⟨0x9B, a, b.code, c.code⟩, ?_, by eval_decode⟩
      rw [h]; simp only [flagOperand, if_pos ha']; eval_cands; apply eval_rule <;> eval_field
    | lit b =>
      have hb' : b.toNat ≤ 6 := by simpa [flagNamed] using hb
      refine ⟨⟨0x99, a, b, c.code⟩, ?_, by eval_decode⟩
      rw [h]; simp only [flagOperand, if_pos ha', if_pos hb']; eval_cands; apply eval_rule <;> eval_field

theorem fails_if2Reg (a b : RegOrLit1) (r : Reg) (h : ¬ (flagNamed a = true ∧ flagNamed b = true)) (c : Text)
    (hc : IsTail c) : assembleLine env (lasmLine "if2" [flagText a, flagText b, r.toLasm] ++ c) = none := by
  rw [lineOut (env := env) c rulesFor_if2 (by decide) (by decide) (os := [flagOperand a, flagOperand b, .reg r.code.toNat])
    (by simp [isOp_flagText, isOp_reg]) hc (by simp [classify_flagText, classify_reg])]
  rcases flagOperand_cases a with ⟨ha, v, e⟩ | ⟨ha, v, e⟩ | ⟨ha, v, e⟩ <;> rw [e] <;>
  rcases flagOperand_cases b with ⟨hb, w, e'⟩ | ⟨hb, w, e'⟩ | ⟨hb, w, e'⟩ <;> rw [e'] <;>
  first | (eval_cands; done) | exact absurd ⟨ha, hb⟩ h

theorem fails_if2Lit (a b : RegOrLit1) (n : U8) (c : Text) (hc : IsTail c) :
    assembleLine env (lasmLine "if2" [flagText a, flagText b, fmtHex 4 n.toNat] ++ c) = none := by
  rw [lineOut (env := env) c rulesFor_if2 (by decide) (by decide) (os := [flagOperand a, flagOperand b, .num n.toNat])
    (by simp [isOp_flagText, isOp_hex4]) hc (by simp [classify_flagText, classify_hex4])]
  rcases flagOperand_cases a with ⟨ha, v, e⟩ | ⟨ha, v, e⟩ | ⟨ha, v, e⟩ <;> rw [e] <;>
  rcases flagOperand_cases b with ⟨hb, w, e'⟩ | ⟨hb, w, e'⟩ | ⟨hb, w, e'⟩ <;> rw [e'] <;>
  eval_cands

end Lrvm
