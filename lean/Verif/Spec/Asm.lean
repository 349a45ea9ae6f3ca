import Verif.Model.Tools.Asm
import Verif.Spec.Hw

/-!
# Reference semantics of assembly instructions

`perform pf i` says what the instruction `i` of the strongly-typed assembler does to a machine, following the
table of `docs/Architecture.md`, "Instructions", one entry per instruction, on operands as the programmer wrote
them. It knows nothing of the binary format. It is written with the documented vocabulary of `Spec/Isa.lean`; the
memory port (`load`, `store`) and the hardware information port (`ask`) are those of the machine, characterised by
the theorems C24, C27 and C39.

Where the code departs from the documentation (each departure is refuted under its own property) the entry below
says what the code does: ZLF (C19), MUL's carry (C16), division overflow (C17), LSM's landing address, IF2's
unchecked flags, SRM's and CALL's plain additions, RESET's modes 3 and 4 (C41).
-/

namespace Lrvm.Spec

variable {D : Type} [Bus D]

/-- Why an instruction does not complete: an exception with its code and data, or a crash of the program that
hosts the machine. -/
inductive Stop
  | exception (code data : Nat)
  | crash

/-- What is done to a machine, until completion or `Stop`. -/
abbrev Act (D : Type) := EStateM Stop (Machine D)

/-- Raise an exception. -/
def fault (code data : Nat) : Act D α := throw (.exception code data)

/-- The value of a register, if the current mode may read it. -/
def getReg (r : Reg) : Act D Word := do
  let s ← get
  if mayRead (supervisor s.regs) r.code.toNat then pure (reg s.regs r.code.toNat)
  else fault 0x03 r.code.toNat

/-- Assign a register, if the current mode may write it. Assigning `pc` is a jump. -/
def putReg (r : Reg) (w : Word) : Act D Unit := do
  let s ← get
  if mayWrite (supervisor s.regs) r.code.toNat then
    set { s with regs := setReg s.regs r.code.toNat w, changedPc := s.changedPc || r == Reg.pc }
  else fault 0x04 r.code.toNat

/-- The value of an operand "register or constant on 1 byte". -/
def value1 : RegOrLit1 → Act D Word
  | .reg r => getReg r
  | .lit n => pure (BitVec.ofNat 32 n.toNat)

/-- The value of an operand "register or constant on 2 bytes". -/
def value2 : RegOrLit2 → Act D Word
  | .reg r => getReg r
  | .lit n => pure (BitVec.ofNat 32 n.toNat)

/-- A request to one of the machine's ports: the exception it may raise is the one described by `et`. -/
def port (m : M D α) : Act D α := fun s =>
  match m s with
  | .ok a t => .ok a { s with devs := t.devs }
  | .ex t => .error (.exception (t.regs.et.toNat / 2 ^ 16 % 256) (t.regs.et.toNat % 2 ^ 16)) { s with devs := t.devs }
  | .panic => .error .crash s

/-- Read the word at a virtual address. -/
def load (pf : Profile) (a : Word) : Act D Word := port (cpuRead pf a)

/-- Write a word at a virtual address. -/
def store (pf : Profile) (a w : Word) : Act D Unit := port (cpuWrite pf a w)

/-- Ask for the information `code` about component `id`. -/
def ask (pf : Profile) (id : Nat) (code : Word) : Act D Word := port (getHwInfo pf code id)

/-- Result, carry and overflow of an operation, or the code of an exception. -/
abbrev Calc := Except Nat (Word × Bool × Bool)

/-- Addition. -/
def calcAdd (x y : Word) : Calc :=
  .ok (BitVec.ofNat 32 (x.toNat + y.toNat), decide (2 ^ 32 ≤ x.toNat + y.toNat), !fitsSigned (x.toInt + y.toInt))

/-- Subtraction. -/
def calcSub (x y : Word) : Calc :=
  .ok (BitVec.ofInt 32 (x.toNat - y.toNat), decide (x.toNat < y.toNat), !fitsSigned (x.toInt - y.toInt))

/-- Multiplication: carry is the signed overflow. -/
def calcMul (x y : Word) : Calc :=
  .ok (BitVec.ofNat 32 (x.toNat * y.toNat), !fitsSigned (x.toInt * y.toInt), !fitsSigned (x.toInt * y.toInt))

/-- A bit by bit operation. -/
def calcBits (g : Bool → Bool → Bool) (x y : Word) : Calc :=
  .ok (BitVec.ofNat 32 (Nat.bitwise g x.toNat y.toNat), false, false)

/-- Left shift: the amount is taken modulo 32, an amount of 32 or more sets carry and overflow. -/
def calcShl (x k : Word) : Calc :=
  .ok (BitVec.ofNat 32 (x.toNat * 2 ^ (k.toNat % 32)), decide (32 ≤ k.toNat), decide (32 ≤ k.toNat))

/-- Right shift. -/
def calcShr (x k : Word) : Calc :=
  .ok (BitVec.ofNat 32 (x.toNat / 2 ^ (k.toNat % 32)), decide (32 ≤ k.toNat), decide (32 ≤ k.toNat))

/-- Division (`rest = false`) or remainder (`rest = true`), with the given mode: bit 4 for a signed division, bits
3 and 2 for what to do when dividing by zero. A signed division of the smallest number by -1 always raises the
exception 0x0B. -/
def calcDiv (rest : Bool) (mode : Word) (x y : Word) : Calc :=
  if y.toNat = 0 then
    match mode.toNat / 4 % 4 with
    | 0 => .error 0x0A
    | 1 => .ok (BitVec.ofInt 32 (-2 ^ 31), true, true)
    | 2 => .ok (0, true, true)
    | _ => .ok (BitVec.ofInt 32 (2 ^ 31 - 1), true, true)
  else if mode.toNat / 16 % 2 = 1 then
    if x.toInt = -2 ^ 31 ∧ y.toInt = -1 then .error 0x0B
    else .ok (BitVec.ofInt 32 (if rest then x.toInt.tmod y.toInt else x.toInt.tdiv y.toInt), false, false)
  else .ok (BitVec.ofNat 32 (if rest then x.toNat % y.toNat else x.toNat / y.toNat), false, false)

/-- Set the arithmetic flags from a calculation and give its result. -/
def settle : Calc → Act D Word
  | .error code => fault code 0
  | .ok (res, cf, of) => do
    modify fun s => { s with regs := { s.regs with af := flagsFor res cf of (zlfCode res) } }
    pure res

/-- `reg := f reg operand`, the operand being read first. -/
def update (r : Reg) (operand : Act D Word) (f : Word → Word → Calc) : Act D Unit := do
  let y ← operand
  let x ← getReg r
  putReg r (← settle (f x y))

/-- Jump to an address. -/
def jump (a : Word) : Act D Unit := modify fun s => { s with regs := { s.regs with pc := a }, changedPc := true }

/-- Skip the next instruction. -/
def skip : Act D Unit := modify fun s => { s with regs := { s.regs with pc := s.regs.pc + 4 } }

/-- IF and IFN: execute the next instruction only if the flag is as wanted. Flag 7 is accepted. -/
def onFlag (wanted : Bool) (v : RegOrLit1) : Act D Unit := do
  let n ← value1 v
  if n.toNat ≤ 7 then
    if flag (← get).regs.af n.toNat = wanted then pure () else skip
  else fault 0x0C (n.toNat % 256)

/-- A flag of IF2: numbers above 7 crash a build with overflow checks and wrap around in a release build. -/
def flagOf (pf : Profile) (af n : Word) : Act D Bool :=
  if n.toNat ≤ 7 then pure (flag af n.toNat)
  else match pf with
    | .debug => throw .crash
    | .release => pure (af.getLsbD ((7 - (n.toNat : Int)) % 32).toNat)

/-- The conditions of IF2. -/
def if2Condition (code : Nat) (a b : Bool) : Option Bool :=
  match code with
  | 1 => some (a || b)
  | 2 => some (a && b)
  | 3 => some (a != b)
  | 4 => some (!(a || b))
  | 5 => some (!(a && b))
  | 6 => some (a && !b)
  | 7 => some (b && !a)
  | _ => none

/-- Addition of addresses that must not wrap around in a build with overflow checks. -/
def plainAdd (pf : Profile) (a b : Word) : Act D Word :=
  if pf = .debug ∧ 2 ^ 32 ≤ a.toNat + b.toNat then throw .crash else pure (a + b)

/-- Move the stack pointer of the current mode. -/
def moveSp (a : Word) : Act D Unit := modify fun s => { s with regs := withStackPtr s.regs a }

/-- Reset the components that satisfy the test, in order; `none` if one of them crashes. -/
def resetSome (sel : Nat → Bool) (devs : List D) : Option (List D) :=
  (devs.zipIdx).mapM fun (d, i) => if sel i then Bus.reset d else some d

/-- The component half of RESET. -/
def resetComponents (mode : Nat) : Act D Unit := do
  let s ← get
  if mode = 1 ∧ s.devs.length ≤ s.regs.avr.toNat then fault 0x10 (s.regs.avr.toNat % 2 ^ 16)
  else match resetSome (codeResets mode s.regs.avr.toNat) s.devs with
    | none => throw .crash
    | some devs => set { s with devs := devs }

/-- What each instruction does. -/
def perform (pf : Profile) : Instr → Act D Unit
  | .cpy r v => do putReg r (← value2 v)
  | .ex a b => do
    let x ← getReg a
    let y ← getReg b
    putReg a y
    putReg b x
  | .add r v => update r (value2 v) calcAdd
  | .sub r v => update r (value2 v) calcSub
  | .mul r v => update r (value2 v) calcMul
  | .div r v m => do
    let y ← value1 v
    let mode ← value1 m
    update r (pure y) (calcDiv false mode)
  | .mod r v m => do
    let y ← value1 v
    let mode ← value1 m
    update r (pure y) (calcDiv true mode)
  | .and r v => update r (value2 v) (calcBits and)
  | .bor r v => update r (value2 v) (calcBits or)
  | .xor r v => update r (value2 v) (calcBits xor)
  | .shl r v => update r (value1 v) calcShl
  | .shr r v => update r (value1 v) calcShr
  | .cmp r v => do
    let y ← value2 v
    let x ← getReg r
    let _ ← settle (calcSub x y)
  | .jpr v => do
    let n ← value2 v
    jump ((← get).regs.pc + BitVec.ofInt 32 (BitVec.ofNat 16 n.toNat).toInt)
  | .lsm v => do
    if supervisor (← get).regs then
      let a ← value2 v
      modify fun s => { s with regs := { s.regs with pc := a, smt := 0 } }
    else fault 0x09 0x0F
  | .itr v => do
    let n ← value1 v
    fault 0xF0 (n.toNat % 2 ^ 16)
  | .if v => onFlag true v
  | .ifN v => onFlag false v
  | .if2 a b c => do
    let m ← value1 a
    let n ← value1 b
    let cond ← value1 c
    let af := (← get).regs.af
    let x ← flagOf pf af m
    let y ← flagOf pf af n
    match if2Condition cond.toNat x y with
    | none => fault 0x0D (cond.toNat % 256)
    | some true => pure ()
    | some false => skip
  | .lsa r a b => do
    let x ← value1 a
    let y ← value1 b
    putReg r (← load pf (x + y))
  | .lea a b c => do
    let x ← value1 a
    let y ← value1 b
    let z ← value1 c
    let w ← load pf (x + y * z)
    modify fun s => { s with regs := { s.regs with avr := w } }
  | .wsa a b c => do
    let x ← value1 a
    let y ← value1 b
    let w ← value1 c
    store pf (x + y) w
  | .wea a b c => do
    let x ← value1 a
    let y ← value1 b
    let z ← value1 c
    store pf (x + y * z) (← get).regs.avr
  | .srm a b r => do
    let x ← value1 a
    let y ← value1 b
    let addr ← plainAdd pf x y
    let old ← load pf addr
    let new ← getReg r
    store pf addr new
    putReg r old
  | .push v => do
    let w ← value2 v
    let p := stackPtr (← get).regs - 4
    store pf p w
    moveSp p
  | .pop r => do
    let p := stackPtr (← get).regs
    let w ← load pf p
    moveSp (p + 4)
    putReg r w
  | .call v => do
    let target ← value2 v
    let s ← get
    let p := stackPtr s.regs - 4
    store pf p (← plainAdd pf s.regs.pc 4)
    moveSp p
    jump target
  | .hwd r a b => do
    let id ← value1 a
    let code ← value1 b
    if id.toNat = 0 ∧ code.toNat = 0 then putReg r (BitVec.ofNat 32 (← get).devs.length)
    else putReg r (← ask pf id.toNat code)
  | .cycles r => do putReg r (BitVec.ofNat 32 (← get).cycles.toNat)
  | .halt => modify fun s => { s with halted := true }
  | .reset v => do
    let mode ← value1 v
    resetComponents (mode.toNat % 16)
    if mode.toNat / 16 % 16 = 0 then
      modify fun s => { s with regs := startup, cycles := 0, halted := false, changedPc := true }

/-- The machine after a cycle that executes instruction `i`, fetched with the components left in state `devs`:
`none` if the host program crashes. One cycle is counted; the program counter advances by 4 after an instruction
that did not jump; an exception is entered as documented. -/
def runInstruction (pf : Profile) (s : Machine D) (devs : List D) (i : Instr) : Option (Machine D) :=
  match perform pf i { s with cycles := s.cycles + 1, devs := devs, changedPc := false } with
  | .ok _ t => some (if t.changedPc then t else { t with regs := advance t.regs })
  | .error (.exception code data) t => some { t with regs := trap t.regs code data, changedPc := true }
  | .error .crash _ => none

/-- The four bytes of a word, strongest first, are `b`. -/
def IsBytesOf (b : Bytes4) (w : Word) : Prop :=
  w.toNat = b.b0.toNat * 2 ^ 24 + b.b1.toNat * 2 ^ 16 + b.b2.toNat * 2 ^ 8 + b.b3.toNat

/-- The operand "register or constant on 2 bytes" of an instruction, if it has one. -/
def wideOperand : Instr → Option RegOrLit2
  | .cpy _ v | .add _ v | .sub _ v | .mul _ v | .and _ v | .bor _ v | .xor _ v | .cmp _ v => some v
  | .jpr v | .lsm v | .push v | .call v => some v
  | _ => none

/-- The instruction with another "register or constant on 2 bytes" operand, if it has one. -/
def withWide (v : RegOrLit2) : Instr → Instr
  | .cpy r _ => .cpy r v
  | .add r _ => .add r v
  | .sub r _ => .sub r v
  | .mul r _ => .mul r v
  | .and r _ => .and r v
  | .bor r _ => .bor r v
  | .xor r _ => .xor r v
  | .cmp r _ => .cmp r v
  | .jpr _ => .jpr v
  | .lsm _ => .lsm v
  | .push _ => .push v
  | .call _ => .call v
  | i => i

/-- The instruction names a register other than `a0` as its wide operand. -/
def LosesRegister (i : Instr) : Prop := ∃ r, wideOperand i = some (.reg r) ∧ r ≠ .a0

/-- The names of the registers in the order of their codes (`docs/Architecture.md`, "Registers"). -/
def registerNames : List String :=
  ["a0", "a1", "a2", "a3", "a4", "a5", "a6", "a7", "c0", "c1", "ac0", "ac1", "ac2", "rr0", "rr1", "rr2", "rr3",
    "rr4", "rr5", "rr6", "rr7", "avr", "pc", "af", "ssp", "usp", "et", "era", "ev", "mtt", "pda", "smt"]

/-- The functions `decode` and `code` are the two directions of a table of values and codes. -/
def IsTable (decode : U8 → Option α) (code : α → U8) (table : List (α × Nat)) : Prop :=
  (∀ a n, (a, n) ∈ table ↔ (code a).toNat = n) ∧ ∀ c a, decode c = some a ↔ (a, c.toNat) ∈ table

/-- The registers in the order of their codes. -/
def registerTable : List (Reg × Nat) :=
  [(.a0, 0), (.a1, 1), (.a2, 2), (.a3, 3), (.a4, 4), (.a5, 5), (.a6, 6), (.a7, 7), (.c0, 8), (.c1, 9), (.ac0, 10),
    (.ac1, 11), (.ac2, 12), (.rr0, 13), (.rr1, 14), (.rr2, 15), (.rr3, 16), (.rr4, 17), (.rr5, 18), (.rr6, 19),
    (.rr7, 20), (.avr, 21), (.pc, 22), (.af, 23), (.ssp, 24), (.usp, 25), (.et, 26), (.era, 27), (.ev, 28), (.mtt, 29),
    (.pda, 30), (.smt, 31)]

/-- The documented flags (`docs/Architecture.md`, "Flags"). -/
def flagTable : List (ArFlag × Nat) :=
  [(.zero, 0), (.carry, 1), (.overflow, 2), (.sign, 3), (.even, 4), (.zeroUpper, 5), (.zeroLower, 6)]

/-- The documented conditions of IF2 (`docs/Architecture.md`, "Conditions"). -/
def conditionTable : List (If2Cond × Nat) :=
  [(.or, 1), (.and, 2), (.xor, 3), (.nor, 4), (.nand, 5), (.left, 6), (.right, 7)]

/-- What the conditions check, in the words of the documentation. -/
def conditionMeaning (first second : Bool) : If2Cond → Prop
  | .or => first = true ∨ second = true
  | .and => first = true ∧ second = true
  | .xor => (first = true ∧ second = false) ∨ (first = false ∧ second = true)
  | .nor => first = false ∧ second = false
  | .nand => ¬ (first = true ∧ second = true)
  | .left => first = true ∧ second = false
  | .right => first = false ∧ second = true

/-- The documented hardware information codes (`docs/Architecture.md`, "HWD hardware information codes"). -/
def hwInfoTable : List (HwInfo × Nat) :=
  [(.count, 0x00), (.uidUpper, 0x01), (.uidLower, 0x02), (.nameLength, 0x10), (.nameW1, 0x11), (.nameW2, 0x12),
    (.nameW3, 0x13), (.nameW4, 0x14), (.nameW5, 0x15), (.nameW6, 0x16), (.nameW7, 0x17), (.nameW8, 0x18),
    (.devSize, 0x20), (.category, 0x21), (.type, 0x22), (.model, 0x23), (.dataUpper, 0x24), (.dataLower, 0x25),
    (.isMapped, 0xA0), (.mapStart, 0xA1), (.mapEnd, 0xA2)]

/-- The division modes: bit 4 is set for a signed division, bits 3 and 2 give the result of a division by zero (forbid,
smallest, zero, greatest number), bits 1 and 0 the result of an overflow (same values); the other bits are 0. -/
def divModeNumber (m : DivMode) : Nat :=
  (match m.sign with | .unsigned => 0 | .signed => 16) +
  (match m.zero with | .forbid => 0 | .eqToMin => 4 | .eqToZero => 8 | .eqToMax => 12) +
  (match m.overflow with | .forbid => 0 | .eqToMin => 1 | .eqToZero => 2 | .eqToMax => 3)

/-- What a division by zero gives in each mode. -/
def divZeroOutcome : DivByZeroMode → Except Nat Int
  | .forbid => .error 0x0A
  | .eqToMin => .ok (-2 ^ 31)
  | .eqToZero => .ok 0
  | .eqToMax => .ok (2 ^ 31 - 1)

/-- What an overflowing signed division gives in each mode, according to the documentation. -/
def divOverflowOutcome : DivOverflowMode → Except Nat Int
  | .forbid => .error 0x0B
  | .eqToMin => .ok (-2 ^ 31)
  | .eqToZero => .ok 0
  | .eqToMax => .ok (2 ^ 31 - 1)

/-- The complete 4-byte groups of a byte string, in order. -/
def groups4 : List U8 → List Bytes4
  | a :: b :: c :: d :: rest => ⟨a, b, c, d⟩ :: groups4 rest
  | _ => []

/-- A word of a program that the encoder and the decoder preserve: an instruction that does not name a register other
than `a0` as its wide operand, or raw data that do not happen to be an instruction. -/
def Preserved : ProgramWord → Prop
  | .instr i => ¬ LosesRegister i
  | .raw b => ∀ i, Instr.decode b ≠ .ok i

/-- A group of bytes that the decoder and the encoder preserve: undecodable, or the encoding of the instruction it
decodes to. -/
def Canonical (b : Bytes4) : Prop := ∀ i, Instr.decode b = .ok i → i.encode = b

/-- From `s`, the processor fetches and executes the given words one after the other, and ends in the second machine. -/
inductive RunsThrough (pf : Profile) : Machine D → List Word → Machine D → Prop
  | done (s : Machine D) : RunsThrough pf s [] s
  | step {s s' s'' : Machine D} {w : Word} {ws : List Word} {devs : List D} : Fetches pf s w devs →
      next pf s = some s' → RunsThrough pf s' ws s'' → RunsThrough pf s (w :: ws) s''

/-- Between the two machines, the register with code `r` received `w`, `pc` advanced by `k` instructions, `af` may have
changed, and no other register did. -/
def Assigned (s s' : Machine D) (r : Nat) (w : Word) (k : Nat) : Prop :=
  reg s'.regs r = w ∧ s'.regs.pc = s.regs.pc + BitVec.ofNat 32 (4 * k) ∧
  ∀ n, n < 32 → n ≠ r → n ≠ 0x16 → n ≠ 0x17 → reg s'.regs n = reg s.regs n

end Lrvm.Spec
