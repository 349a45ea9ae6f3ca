import Verif.Model.Tools.Describe
import Verif.Model.Tools.LasmRules
import Verif.Model.Tools.Bytes
import Verif.Model.Bus

/-!
# LASM: the disassembler (`to_lasm`) and the assembler's rules

The disassembler (`lrvm_tools/src/asm/*.rs`, `lrvm_tools/src/lasm/mod.rs:58-72`) is modelled exactly. `assemble`
(`lrvm_tools/src/lasm/mod.rs:20-42`) calls the external crate `customasm` on `customasm.def`; what that crate does with a
rule file is modelled here for sources made of comments, labels alone on their line (global ones, and local ones that
start with a dot), instructions whose operands are names of the rule file, numbers, labels, or sums and differences of
those, and the directives `#d32` (one number) and `#d` (one string). Other directives, other operators, strings as operands,
semicolons inside strings and error messages are not modelled: what is not known is refused.
-/

namespace Lrvm

/-- `ArFlag::short_name`, `lrvm_tools/src/asm/arflag.rs:57-67`, and `ArFlag::to_lasm`,
`lrvm_tools/src/asm/arflag.rs:70-72`. -/
def ArFlag.toLasm : ArFlag → String
  | .zero => "ZF" | .carry => "CF" | .overflow => "OF" | .sign => "SF" | .even => "EF" | .zeroUpper => "ZUF"
  | .zeroLower => "ZLF"

/-- `HwInfo::to_lasm`, `lrvm_tools/src/asm/hw_infos.rs:84-108`. -/
def HwInfo.toLasm : HwInfo → String
  | .count => "HWD_COUNT" | .uidUpper => "HWD_UID_UPPER" | .uidLower => "HWD_UID_LOWER" | .nameLength => "HWD_NAME_LEN"
  | .nameW1 => "HWD_NAME_W1" | .nameW2 => "HWD_NAME_W2" | .nameW3 => "HWD_NAME_W3" | .nameW4 => "HWD_NAME_W4"
  | .nameW5 => "HWD_NAME_W5" | .nameW6 => "HWD_NAME_W6" | .nameW7 => "HWD_NAME_W7" | .nameW8 => "HWD_NAME_W8"
  | .devSize => "HWD_SIZE" | .category => "HWD_CAT" | .type => "HWD_TYPE" | .model => "HWD_MODEL"
  | .dataUpper => "HWD_DATA_UPPER" | .dataLower => "HWD_DATA_LOWER" | .isMapped => "HWD_IS_MAPPED"
  | .mapStart => "HWD_MAP_START" | .mapEnd => "HWD_MAP_END"

/-- `If2Cond::name`, `lrvm_tools/src/asm/cond.rs:41-51`. -/
def If2Cond.name : If2Cond → String
  | .or => "OR" | .and => "AND" | .xor => "XOR" | .nor => "NOR" | .nand => "NAND" | .left => "LEFT" | .right => "RIGHT"

/-- `If2Cond::to_lasm`, `lrvm_tools/src/asm/cond.rs:54-56`. -/
def If2Cond.toLasm (c : If2Cond) : Text := "CMP_".toList ++ c.name.toList

/-- `DivSignMode::to_lasm`, `lrvm_tools/src/asm/div_modes.rs:69-74`. -/
def DivSignMode.toLasm : DivSignMode → String
  | .unsigned => "DIV_USG" | .signed => "DIV_SIG"

/-- `DivByZeroMode::to_lasm`, `lrvm_tools/src/asm/div_modes.rs:139-146`. -/
def DivByZeroMode.toLasm : DivByZeroMode → String
  | .forbid => "DIV_ZRO_FRB" | .eqToMin => "DIV_ZRO_MIN" | .eqToZero => "DIV_ZRO_ZRO" | .eqToMax => "DIV_ZRO_MAX"

/-- `DivOverflowMode::to_lasm`, `lrvm_tools/src/asm/div_modes.rs:211-218`. -/
def DivOverflowMode.toLasm : DivOverflowMode → String
  | .forbid => "DIV_OFW_FRB" | .eqToMin => "DIV_OFW_MIN" | .eqToZero => "DIV_OFW_ZRO" | .eqToMax => "DIV_OFW_MAX"

/-- `texts.join(sep)`. -/
def joinText (sep : Text) : List Text → Text
  | [] => []
  | [t] => t
  | t :: ts => t ++ sep ++ joinText sep ts

/-- `DivMode::to_lasm`, `lrvm_tools/src/asm/div_modes.rs:317-337`. -/
def DivMode.toLasm (m : DivMode) : Text :=
  let modes := (if m.sign ≠ .unsigned then [m.sign.toLasm.toList] else []) ++
    (if m.zero ≠ .forbid then [m.zero.toLasm.toList] else []) ++
    (if m.overflow ≠ .forbid then [m.overflow.toLasm.toList] else [])
  if modes.isEmpty then "0".toList else joinText " | ".toList modes

/-- `Reg::to_lasm`, `lrvm_tools/src/asm/reg.rs:210-212`. -/
def Reg.toLasm (r : Reg) : Text := r.name.toList

/-- `RegOrLit1::to_lasm`, `lrvm_tools/src/asm/val.rs:53-58`. -/
def RegOrLit1.toLasm : RegOrLit1 → Text
  | .reg r => r.toLasm
  | .lit n => fmtHex 0 n.toNat

/-- `RegOrLit2::to_lasm`, `lrvm_tools/src/asm/val.rs:53-58`. -/
def RegOrLit2.toLasm : RegOrLit2 → Text
  | .reg r => r.toLasm
  | .lit n => fmtHex 0 n.toNat

/-- `RegOrLit2::to_lasm_signed`, `lrvm_tools/src/asm/val.rs:62-70`: the negation of the least number panics in debug builds
and gives the same number in release builds, printed as its 16 bits. -/
def RegOrLit2.toLasmSigned (pf : Profile) : RegOrLit2 → Res Text
  | .reg r => some r.toLasm
  | .lit n =>
    if n.toInt < 0 then
      if n = 0x8000 ∧ pf = .debug then none else some ('-' :: fmtHex 0 (-n).toNat)
    else some (fmtHex 0 n.toNat)

/-- `RegOrLit1::to_lasm_with`, `lrvm_tools/src/asm/val.rs:73-78`. -/
def RegOrLit1.toLasmWith (f : U8 → Text) : RegOrLit1 → Text
  | .reg r => r.toLasm
  | .lit n => f n

/-- `{:#0wb}`: `0b`, then binary digits filled with zeroes up to a total width of `w`. -/
def fmtBin (w n : Nat) : Text := "0b".toList ++ padLeft '0' (w - 2) (digits 2 n)

/-- A mnemonic and its operands, as every `format!` of `Instr::to_lasm` writes them. -/
def lasmLine (mnemonic : String) (operands : List Text) : Text :=
  match operands with
  | [] => mnemonic.toList
  | _ => mnemonic.toList ++ ' ' :: joinText ", ".toList operands

/-- The third operand of a division or a modulo, `lrvm_tools/src/asm/instr.rs:440-443`. -/
def divModeText (mode : U8) : Text :=
  match DivMode.decode mode with
  | some m => m.toLasm
  | none => fmtBin 10 mode.toNat ++ " ; Warning: invalid division mode".toList

/-- The mnemonic of a condition, `lrvm_tools/src/asm/instr.rs:535-543`. -/
def If2Cond.mnemonic : If2Cond → String
  | .or => "ifor" | .and => "ifand" | .xor => "ifxor" | .nor => "ifnor" | .nand => "ifnand" | .left => "ifleft"
  | .right => "ifright"

/-- The closure `decode_flag` of `Instr::to_lasm` on an operand, `lrvm_tools/src/asm/instr.rs:503-515`: the text. -/
def flagText (v : RegOrLit1) : Text :=
  v.toLasmWith fun n => match ArFlag.decode n with
    | some f => f.toLasm.toList
    | none => fmtHex 4 n.toNat

/-- The closure `decode_flag`: the warning it pushes. -/
def flagWarn (v : RegOrLit1) (warning : String) : List Text :=
  match v with
  | .reg _ => []
  | .lit n => if (ArFlag.decode n).isNone then [warning.toList] else []

/-- The arm `Self::If2` of `Instr::to_lasm`, `lrvm_tools/src/asm/instr.rs:494-571`: the text and the warnings. -/
def if2Text (a b c : RegOrLit1) : Text × List Text :=
  let warns := flagWarn a "invalid left flag" ++ flagWarn b "invalid right flag"
  match c with
  | .lit cond =>
    match If2Cond.decode cond with
    | some k =>
      if k = .nor ∧ a = .lit 0 ∧ b = .lit 1 then ("ifgt".toList, [])
      else if k = .or ∧ a = .lit 0 ∧ b = .lit 1 then ("ifle".toList, [])
      else (lasmLine k.mnemonic [flagText a, flagText b], warns)
    | none => (lasmLine "if2" [flagText a, flagText b, fmtHex 4 cond.toNat], warns ++ ["invalid condition".toList])
  | .reg r => (lasmLine "if2" [flagText a, flagText b, r.toLasm], warns)

/-- `Instr::to_lasm`, `lrvm_tools/src/asm/instr.rs:393-606`. -/
def Instr.toLasm (pf : Profile) : Instr → Res Text
  | .cpy a b =>
    if a = .pc then some (lasmLine "jp" [b.toLasm])
    else if b = .lit 0 then some (lasmLine "zro" [a.toLasm])
    else some (lasmLine "cpy" [a.toLasm, b.toLasm])
  | .ex a b => some (lasmLine "ex" [a.toLasm, b.toLasm])
  | .add a b => some (if b = .lit 1 then lasmLine "inc" [a.toLasm] else lasmLine "add" [a.toLasm, b.toLasm])
  | .sub a b => some (if b = .lit 1 then lasmLine "dec" [a.toLasm] else lasmLine "sub" [a.toLasm, b.toLasm])
  | .mul a b => some (if b = .lit 0 then lasmLine "zro" [a.toLasm] else lasmLine "mul" [a.toLasm, b.toLasm])
  | .div a b (.reg c) => some (lasmLine "div" [a.toLasm, b.toLasm, c.toLasm])
  | .mod a b (.reg c) => some (lasmLine "mod" [a.toLasm, b.toLasm, c.toLasm])
  | .div a b (.lit m) => some (lasmLine "div" [a.toLasm, b.toLasm, divModeText m])
  | .mod a b (.lit m) => some (lasmLine "mod" [a.toLasm, b.toLasm, divModeText m])
  | .and a b => some (if b = .lit 0 then lasmLine "zro" [a.toLasm] else lasmLine "and" [a.toLasm, b.toLasm])
  | .bor a b => some (lasmLine "bor" [a.toLasm, b.toLasm])
  | .xor _ (.reg b) => some (lasmLine "zro" [b.toLasm])
  | .xor a (.lit n) => some (lasmLine "xor" [a.toLasm, (RegOrLit2.lit n).toLasm])
  | .shl a b => some (lasmLine "shl" [a.toLasm, b.toLasm])
  | .shr a b => some (lasmLine "shr" [a.toLasm, b.toLasm])
  | .cmp a b => some (lasmLine "cmp" [a.toLasm, b.toLasm])
  | .jpr a => do some (lasmLine "jpr" [← a.toLasmSigned pf])
  | .lsm a => some (lasmLine "lsm" [a.toLasm])
  | .itr a => some (lasmLine "itr" [a.toLasm])
  | .«if» (.reg r) => some (lasmLine "if" [r.toLasm])
  | .«if» (.lit n) => some (match ArFlag.decode n with
    | some .zero => "ifeq".toList
    | some .carry => "ifls".toList
    | some f => lasmLine "if" [f.toLasm.toList]
    | none => lasmLine "if" [fmtHex 0 n.toNat ++ " ; Warning: unknown flag".toList])
  | .ifN (.reg r) => some (lasmLine "ifn" [r.toLasm])
  | .ifN (.lit n) => some (match ArFlag.decode n with
    | some .zero => "ifnq".toList
    | some .carry => "ifge".toList
    | some f => lasmLine "ifn" [f.toLasm.toList]
    | none => lasmLine "ifn" [fmtHex 0 n.toNat ++ " ; Warning: unknown flag".toList])
  | .if2 a b c =>
    let (text, warns) := if2Text a b c
    some (if warns.isEmpty then text else text ++ " ; ".toList ++ joinText ", ".toList warns)
  | .lsa a b c => some (lasmLine "lsa" [a.toLasm, b.toLasm, c.toLasm])
  | .lea a b c => some (lasmLine "lea" [a.toLasm, b.toLasm, c.toLasm])
  | .wsa a b c => some (lasmLine "wsa" [a.toLasm, b.toLasm, c.toLasm])
  | .wea a b c => some (lasmLine "wea" [a.toLasm, b.toLasm, c.toLasm])
  | .srm a b c => some (lasmLine "srm" [a.toLasm, b.toLasm, c.toLasm])
  | .push a => some (lasmLine "push" [a.toLasm])
  | .pop a => some (if a = .pc then "ret".toList else lasmLine "pop" [a.toLasm])
  | .call a => some (lasmLine "call" [a.toLasm])
  | .hwd a b c => some (lasmLine "hwd" [a.toLasm, b.toLasm, c.toLasmWith fun n => match HwInfo.decode n with
    | some info => info.toLasm.toList
    | none => fmtHex 0 n.toNat ++ " ; Warning: unknown hardware information".toList])
  | .cycles a => some (lasmLine "cycles" [a.toLasm])
  | .halt => some "halt".toList
  | .reset a => some (lasmLine "reset" [a.toLasm])

/-- `{:02X}` of a byte. -/
def hex2 (b : U8) : Text := padLeft '0' 2 (digits 16 b.toNat)

/-- `ProgramWord::to_lasm`, `lrvm_tools/src/asm/prog_word.rs:44-52`. -/
def ProgramWord.toLasm (pf : Profile) : ProgramWord → Res Text
  | .instr i => i.toLasm pf
  | .raw b => some ("#d32 0x".toList ++ hex2 b.b0 ++ '_' :: hex2 b.b1 ++ '_' :: hex2 b.b2 ++ '_' :: hex2 b.b3)

/-- `Program::to_lasm_lines`, `lrvm_tools/src/asm/prog.rs:139-141`. -/
def Program.toLasmLines (pf : Profile) (p : Program) : Res (List Text) := p.mapM (ProgramWord.toLasm pf)

/-- The closure of `Program::to_lasm_lines_annotated`, `lrvm_tools/src/asm/prog.rs:146-151`, from a value of `counter` (an
`i32`, shown as its 32 bits): `counter += 4` panics on overflow in debug builds and wraps in release builds. -/
def annotatedFrom (pf : Profile) : (counter : BitVec 32) → Program → Res (List Text)
  | _, [] => some []
  | counter, w :: ws => do
    let text ← w.toLasm pf
    let line := fmtHex 10 counter.toNat ++ ": ".toList ++ text
    let next ← if pf = .debug ∧ counter.toInt + 4 ≥ 2 ^ 31 then none else some (counter + 4)
    let rest ← annotatedFrom pf next ws
    some (line :: rest)

/-- `Program::to_lasm_lines_annotated`, `lrvm_tools/src/asm/prog.rs:144-153`. -/
def Program.toLasmLinesAnnotated (pf : Profile) (p : Program) : Res (List Text) := annotatedFrom pf 0 p

/-- `Program::to_lasm`, `lrvm_tools/src/asm/prog.rs:129-136`. -/
def Program.toLasm (pf : Profile) (p : Program) (annotate : Bool) : Res Text := do
  let lines ← if annotate then p.toLasmLinesAnnotated pf else p.toLasmLines pf
  some (joinText ['\n'] lines)

/-- `ExtInstr::to_lasm`, `lrvm_tools/src/asm/extinstr.rs:79-81`. -/
def ExtInstr.toLasm (pf : Profile) (e : ExtInstr) : Res Text := (Program.fromInstr e.toInstr).toLasm pf false

/-- `disassemble`, `lrvm_tools/src/lasm/mod.rs:58-63`. -/
def disassemble (pf : Profile) (code : List U8) (annotate : Bool) : Res (Except (Nat × InstrDecodingError) Text) :=
  match Program.decode code false with
  | .error e => some (.error e)
  | .ok p => do
    let t ← p.toLasm pf annotate
    some (.ok t)

/-- `disassemble_words`, `lrvm_tools/src/lasm/mod.rs:67-72`. -/
def disassembleWords (pf : Profile) (code : List Word) (annotate : Bool) :
    Res (Except (Nat × InstrDecodingError) Text) :=
  disassemble pf (wordsToBytes code) annotate

namespace Lasm

/-- What an operand may be: one of the names of a `#subruledef` (with its value), or a number. -/
inductive Operand
  | reg (v : Nat)
  | arflag (v : Nat)
  | divMode (v : Nat)
  | hwInfo (v : Nat)
  | if2Mode (v : Nat)
  | num (v : Int)
  deriving DecidableEq, Repr

/-- The value of a name in a table. -/
def lookupName (table : List (String × Nat)) (t : Text) : Option Nat :=
  (table.find? fun e => e.1.toList == t).map (·.2)

/-- The value of a digit. -/
def digitVal (c : Char) : Option Nat :=
  if '0' ≤ c ∧ c ≤ '9' then some (c.toNat - 48)
  else if 'A' ≤ c ∧ c ≤ 'F' then some (c.toNat - 55)
  else if 'a' ≤ c ∧ c ≤ 'f' then some (c.toNat - 87)
  else none

/-- The number written by digits of a base (underscores are ignored). -/
def digitsVal (base : Nat) : (acc : Nat) → Text → Option Nat
  | acc, [] => some acc
  | acc, c :: cs =>
    if c = '_' then digitsVal base acc cs
    else match digitVal c with
      | some d => if d < base then digitsVal base (acc * base + d) cs else none
      | none => none

/-- A number without a sign. -/
def parseNat : Text → Option Nat
  | '0' :: 'x' :: c :: cs => digitsVal 16 0 (c :: cs)
  | '0' :: 'b' :: c :: cs => digitsVal 2 0 (c :: cs)
  | c :: cs => if c = '_' then none else digitsVal 10 0 (c :: cs)
  | [] => none

/-- A number. -/
def parseNum : Text → Option Int
  | '-' :: t => (parseNat t).map fun n => -(n : Int)
  | t => (parseNat t).map fun n => (n : Int)

/-- What an operand is, labels and expressions aside: the names of the five tables are all different, and none is a
number. -/
def classifyPlain (t : Text) : Option Operand :=
  ((lookupName regNames t).map Operand.reg).or <|
  ((lookupName arflagNames t).map Operand.arflag).or <|
  ((lookupName divModeNames t).map Operand.divMode).or <|
  ((lookupName hwInfoNames t).map Operand.hwInfo).or <|
  ((lookupName if2ModeNames t).map Operand.if2Mode).or <|
  (parseNum t).map Operand.num

/-- Split a text at every occurrence of a character. -/
def splitAt (c : Char) : Text → List Text
  | [] => [[]]
  | d :: ds =>
    if d = c then [] :: splitAt c ds
    else match splitAt c ds with
      | [] => [[d]]
      | t :: ts => (d :: t) :: ts

/-- Split a text at the commas that are not inside a string (a string contains no escaped quote); the flag tells whether
the text begins inside one. -/
def splitOperands : (inString : Bool) → Text → List Text
  | _, [] => [[]]
  | q, d :: ds =>
    if d = ',' ∧ q = false then [] :: splitOperands q ds
    else match splitOperands (if d = '"' then !q else q) ds with
      | [] => [[d]]
      | t :: ts => (d :: t) :: ts

/-- The labels that a line can mention, with their addresses. -/
abbrev Env := Text → Option Nat

/-- A number or a label. -/
def term (env : Env) (t : Text) : Option Int := (parseNum t).or ((env t).map fun n => (n : Int))

/-- The rest of a sum: operators and terms. -/
def sumFrom (env : Env) : Int → List Text → Option Int
  | acc, [] => some acc
  | acc, ['+'] :: t :: ts => (term env t).bind fun v => sumFrom env (acc + v) ts
  | acc, ['-'] :: t :: ts => (term env t).bind fun v => sumFrom env (acc - v) ts
  | _, _ => none

/-- A sum or difference of numbers and labels, separated by spaces. -/
def exprVal (env : Env) (t : Text) : Option Int :=
  match (splitAt ' ' t).filter (· != []) with
  | [] => none
  | x :: ts => (term env x).bind fun v => sumFrom env v ts

/-- A string of one ASCII character, neither a quote nor a backslash, as a number: its code. -/
def charVal : Text → Option Int
  | ['"', c, '"'] => if c.toNat < 128 ∧ c ≠ '"' ∧ c ≠ '\\' then some c.toNat else none
  | _ => none

/-- What an operand is. -/
def classify (env : Env) (t : Text) : Option Operand :=
  (classifyPlain t).or (((exprVal env t).or (charVal t)).map Operand.num)

/-- The value an operand gives to a parameter, if the parameter accepts it: `uN` accepts the numbers from 0 to `2^N - 1`
and `iN` those from `-2^(N-1)` to `2^N - 1`. -/
def Pat.accept : Pat → Operand → Option Int
  | .reg, .reg v => some v
  | .arflag, .arflag v => some v
  | .divMode, .divMode v => some v
  | .hwInfo, .hwInfo v => some v
  | .if2Mode, .if2Mode v => some v
  | .u8, .num v => if 0 ≤ v ∧ v < 256 then some v else none
  | .u16, .num v => if 0 ≤ v ∧ v < 65536 then some v else none
  | .i8, .num v => if -128 ≤ v ∧ v < 256 then some v else none
  | .i16, .num v => if -32768 ≤ v ∧ v < 65536 then some v else none
  | _, _ => none

/-- The values of the parameters of a rule, if the operands fit. -/
def acceptAll : List Pat → List Operand → Option (List Int)
  | [], [] => some []
  | p :: ps, o :: os => do
    let v ← p.accept o
    let vs ← acceptAll ps os
    some (v :: vs)
  | _, _ => none

/-- One byte produced by a rule. -/
def Field.eval (vs : List Int) : Field → Option U8
  | .byte n => some (BitVec.ofNat 8 n)
  | .low i => (vs[i]?).map (BitVec.ofInt 8)
  | .high i => (vs[i]?).map fun v => BitVec.ofInt 8 (v / 256)
  | .undefined => none

/-- The bytes produced by a rule of `customasm.def`. -/
def Rule.eval (r : Rule) (vs : List Int) : Option (List U8) := r.out.mapM (Field.eval vs)

/-- Assemble an instruction: exactly one rule must match. -/
def assembleInstr (mnemonic : Text) (operands : List Operand) : Option (List U8) :=
  let candidates := (rules.filter fun r => r.mnemonic.toList == mnemonic).filterMap fun r =>
    (acceptAll r.params operands).map fun vs => (r, vs)
  match candidates with
  | [(r, vs)] => r.eval vs
  | _ => none

/-- Remove the spaces on both sides. -/
def trim (t : Text) : Text := ((t.dropWhile (· == ' ')).reverse.dropWhile (· == ' ')).reverse

/-- The directive `#d32`. -/
def d32 (v : Int) : Option (List U8) :=
  if -2 ^ 31 ≤ v ∧ v < 2 ^ 32 then some (Bytes4.ofWord (BitVec.ofInt 32 v)).toList else none

/-- The characters between the quotes of a string, escape sequences replaced. -/
def unescape : Text → Option Text
  | ['"'] => some []
  | '\\' :: 'n' :: t => (unescape t).map ('\n' :: ·)
  | '\\' :: 'r' :: t => (unescape t).map ('\r' :: ·)
  | '\\' :: 't' :: t => (unescape t).map ('\t' :: ·)
  | '\\' :: '0' :: t => (unescape t).map ('\u0000' :: ·)
  | '\\' :: '"' :: t => (unescape t).map ('"' :: ·)
  | '\\' :: '\\' :: t => (unescape t).map ('\\' :: ·)
  | '\\' :: _ => none
  | '"' :: _ => none
  | c :: t => (unescape t).map (c :: ·)
  | [] => none

/-- The directive `#d` with a string: its UTF-8 bytes. -/
def stringBytes : Text → Option (List U8)
  | '"' :: t => (unescape t).map utf8
  | _ => none

/-- A line without its comment. -/
def lineCode (line : Text) : Text := trim (line.takeWhile (· != ';'))

/-- A character of a label. -/
def labelChar (c : Char) : Bool := c.isAlphanum || c == '_' || c == '.'

/-- The label that a line defines. -/
def labelOf (code : Text) : Option Text :=
  if code.getLast? = some ':' ∧ code.dropLast ≠ [] ∧ code.dropLast.all labelChar then some code.dropLast else none

/-- Assemble a line that defines no label: the comment goes, the first word is the mnemonic or a directive, the rest is
the operands, separated by commas. -/
def assembleLine (env : Env) (line : Text) : Option (List U8) :=
  let code := lineCode line
  if code = [] then some []
  else
    let mnemonic := code.takeWhile (· != ' ')
    let rest := trim (code.dropWhile (· != ' '))
    if mnemonic = "#d".toList then stringBytes rest
    else
      let texts := if rest = [] then [] else (splitOperands false rest).map trim
      if mnemonic = "#d32".toList then
        match texts with
        | [t] => (exprVal env t).bind d32
        | _ => none
      else do
        let operands ← texts.mapM (classify env)
        assembleInstr mnemonic operands

/-- The number of bytes of a line that defines no label (if it assembles): every instruction has 4. -/
def lineSize (line : Text) : Nat :=
  let code := lineCode line
  if code = [] then 0
  else if code.takeWhile (· != ' ') = "#d".toList then
    ((stringBytes (trim (code.dropWhile (· != ' ')))).getD []).length
  else 4

/-- The full name of a label: a local label belongs to the last global one. -/
def fullName (scope name : Text) : Text := if name.head? = some '.' then scope ++ name else name

/-- The last global label after a label. -/
def nextScope (scope name : Text) : Text := if name.head? = some '.' then scope else name

/-- `#labelalign 32`, `lrvm_tools/src/lasm/customasm.def:6`: labels are at multiples of 4 bytes. -/
def alignPos (pos : Nat) : Nat := (pos + 3) / 4 * 4

/-- The labels of a source with their addresses. -/
def layout : (pos : Nat) → (scope : Text) → List Text → List (Text × Nat)
  | _, _, [] => []
  | pos, scope, line :: lines =>
    match labelOf (lineCode line) with
    | some name => (fullName scope name, alignPos pos) :: layout (alignPos pos) (nextScope scope name) lines
    | none => layout (pos + lineSize line) scope lines

/-- What a name mentioned after a global label stands for. -/
def resolve (labels : List (Text × Nat)) (scope : Text) : Env := fun t =>
  (labels.find? fun e => e.1 == fullName scope t).map (·.2)

/-- The bytes of a source. -/
def emit (labels : List (Text × Nat)) : (pos : Nat) → (scope : Text) → List Text → Option (List U8)
  | _, _, [] => some []
  | pos, scope, line :: lines =>
    match labelOf (lineCode line) with
    | some name => do
      let rest ← emit labels (alignPos pos) (nextScope scope name) lines
      some (List.replicate (alignPos pos - pos) 0 ++ rest)
    | none => do
      let bytes ← assembleLine (resolve labels scope) line
      let rest ← emit labels (pos + bytes.length) scope lines
      some (bytes ++ rest)

end Lasm

/-- `assemble`, `lrvm_tools/src/lasm/mod.rs:20-42`, on the sources described above; `none` is the error. A label may be
defined only once. -/
def assemble (source : Text) : Option (List U8) :=
  let lines := Lasm.splitAt '\n' source
  let labels := Lasm.layout 0 [] lines
  if (labels.map (·.1)).Nodup then Lasm.emit labels 0 [] lines else none

/-- `assemble_words`, `lrvm_tools/src/lasm/mod.rs:46-48`. -/
def assembleWords (source : Text) : Option (List Word) := do
  let bytes ← assemble source
  some (bytesToWords bytes)

/-- `assemble_prog`, `lrvm_tools/src/lasm/mod.rs:52-54`. -/
def assembleProg (source : Text) : Option (Except (Nat × InstrDecodingError) Program) := do
  let bytes ← assemble source
  some (Program.decode bytes false)

end Lrvm
