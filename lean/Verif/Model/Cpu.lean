import Verif.Model.Mmu

/-!
# The CPU (`lrvm/src/cpu/cpu.rs`)

The methods of `Cpu` that return `Result<T, ()>` are actions of the monad `M`: they transform the
machine and end normally (`ok`), after having raised a CPU exception (`ex`, Rust's `Err(())`), or with
a panic.
-/

namespace Lrvm

/-- Outcome of a CPU action. -/
inductive Out (σ : Type u) (α : Type v)
  | ok (a : α) (s : σ)
  | ex (s : σ)
  | panic

/-- CPU actions: `&mut self` methods returning `Result<α, ()>`. -/
def M (D : Type u) (α : Type v) := Machine D → Out (Machine D) α

/-- Sequencing with `?`. -/
def M.bind (m : M D α) (f : α → M D β) : M D β := fun s =>
  match m s with
  | .ok a s' => f a s'
  | .ex s' => .ex s'
  | .panic => .panic

instance : Monad (M D) where
  pure a := fun s => .ok a s
  bind := M.bind

/-- Read the machine state. -/
def getM : M D (Machine D) := fun s => .ok s s

/-- Read a part of the machine state. -/
def getsM (f : Machine D → α) : M D α := fun s => .ok (f s) s

/-- Update the machine state. -/
def modifyM (f : Machine D → Machine D) : M D Unit := fun s => .ok () (f s)

/-- A computation that may panic. -/
def liftRes (r : Res α) : M D α := fun s =>
  match r with
  | some a => .ok a s
  | none => .panic

/-- Update the registers. -/
def modRegs (f : Regs → Regs) : M D Unit := modifyM (fun s => { s with regs := f s.regs })

/-- `Cpu::sv_mode`, `lrvm/src/cpu/cpu.rs:773-775`. -/
def Machine.svMode (s : Machine D) : Bool := s.regs.smt != 0

/-- `Cpu::exception`, `lrvm/src/cpu/cpu.rs:779-793`. `data = 0` stands for `None`
(`associated.unwrap_or(0)`). The two plain additions cannot overflow (the three fields occupy disjoint
bits), so they are written as wrapping additions. -/
def Machine.exception (s : Machine D) (code : U8) (data : U16) : Machine D :=
  { s with
    regs := { s.regs with
      et := (if s.svMode then 1#32 <<< 24 else 0#32) + (code.setWidth 32 <<< 16) + data.setWidth 32
      pc := s.regs.ev
      smt := 1 }
    changedPc := true }

/-- `self.exception(code, Some(data)); Err(())`. -/
def raise (code : U8) (data : U16) : M D α := fun s => .ex (s.exception code data)

/-- `Cpu::reset`, `lrvm/src/cpu/cpu.rs:47-53`. -/
def Machine.cpuReset (s : Machine D) : Machine D :=
  { s with
    regs := { s.regs.reset with smt := 1 }
    cycles := 0
    halted := false
    changedPc := true }

/-- The `match` of `Cpu::read_reg`, `lrvm/src/cpu/cpu.rs:568-594`; `none` for an unknown register. -/
def Regs.read (r : Regs) (code : U8) : Option Word :=
  if h : code.toNat < 0x08 then some r.a[code.toNat]
  else if h : code.toNat < 0x0A then some r.c[code.toNat - 0x08]
  else if h : code.toNat < 0x0D then some r.ac[code.toNat - 0x0A]
  else if h : code.toNat < 0x15 then some r.rr[code.toNat - 0x0D]
  else match code.toNat with
    | 0x15 => some r.avr
    | 0x16 => some r.pc
    | 0x17 => some r.af
    | 0x18 => some r.ssp
    | 0x19 => some r.usp
    | 0x1A => some r.et
    | 0x1B => some r.era
    | 0x1C => some r.ev
    | 0x1D => some r.mtt
    | 0x1E => some r.pda
    | 0x1F => some r.smt
    | _ => none

/-- The `match` of `Cpu::write_reg`, `lrvm/src/cpu/cpu.rs:620-646`; `none` for an unknown register. -/
def Regs.write (r : Regs) (code : U8) (w : Word) : Option Regs :=
  if h : code.toNat < 0x08 then some { r with a := r.a.set code.toNat w }
  else if h : code.toNat < 0x0A then some { r with c := r.c.set (code.toNat - 0x08) w }
  else if h : code.toNat < 0x0D then some { r with ac := r.ac.set (code.toNat - 0x0A) w }
  else if h : code.toNat < 0x15 then some { r with rr := r.rr.set (code.toNat - 0x0D) w }
  else match code.toNat with
    | 0x15 => some { r with avr := w }
    | 0x16 => some { r with pc := w }
    | 0x17 => some { r with af := w }
    | 0x18 => some { r with ssp := w }
    | 0x19 => some { r with usp := w }
    | 0x1A => some { r with et := w }
    | 0x1B => some { r with era := w }
    | 0x1C => some { r with ev := w }
    | 0x1D => some { r with mtt := w }
    | 0x1E => some { r with pda := w }
    | 0x1F => some { r with smt := w }
    | _ => none

/-- `Cpu::read_reg`, `lrvm/src/cpu/cpu.rs:561-595`. -/
def readReg (code : U8) : M D Word := fun s =>
  if 0x18#8 ≤ code ∧ s.svMode = false then raise 0x03 (code.setWidth 16) s
  else match s.regs.read code with
    | some w => .ok w s
    | none => raise 0x02 (code.setWidth 16) s

/-- `Cpu::write_reg`, `lrvm/src/cpu/cpu.rs:600-649`. -/
def writeReg (code : U8) (word : Word) : M D Unit := fun s =>
  if 0x17#8 ≤ code ∧ s.svMode = false then raise 0x04 (code.setWidth 16) s
  else if code = 0x17#8 ∨ code = 0x1A#8 ∨ code = 0x1B#8 then raise 0x04 (code.setWidth 16) s
  else
    let s1 := if code = 0x16#8 then { s with changedPc := true } else s
    match s1.regs.write code word with
    | some r => .ok () { s1 with regs := r }
    | none => raise 0x02 (code.setWidth 16) s1

/-- `Op`, `lrvm/src/cpu/cpu.rs:948-959`. -/
inductive Op
  | add | sub | mul
  | div (mode : U8)
  | mod (mode : U8)
  | and | bor | xor | shl | shr
  deriving DecidableEq, Repr

/-- The division arm of `Cpu::compute`, `lrvm/src/cpu/cpu.rs:674-723`. `isDiv` is
`op == Op::Div { mode }`. An error is the code of the exception to raise. The second mode test shifts
two masked bits right by two, as in the source. -/
def divCore (isDiv : Bool) (mode : U8) (op1 op2 : Word) : Except U8 (Word × Bool × Bool) :=
  let signed := mode &&& 0b00010000#8 ≠ 0
  if op2 = 0 then
    match ((mode &&& 0b00001100#8) >>> 2).toNat with
    | 0b00 => .error 0x0A
    | 0b01 => .ok (0x80000000, true, true)
    | 0b10 => .ok (0x00000000, true, true)
    | _ => .ok (0x7FFFFFFF, true, true)
  else if signed ∧ op1 = 0x80000000#32 ∧ op2 = 0xFFFFFFFF#32 then
    match ((mode &&& 0b00000011#8) >>> 2).toNat with
    | 0b00 => .error 0x0B
    | 0b01 => .ok (0x80000000, true, true)
    | 0b10 => .ok (0x00000000, true, true)
    | _ => .ok (0x7FFFFFFF, true, true)
  else if signed then
    if isDiv then .ok (op1.sdiv op2, false, false) else .ok (op1.srem op2, false, false)
  else
    if isDiv then .ok (op1 / op2, false, false) else .ok (op1 % op2, false, false)

/-- The `match op` of `Cpu::compute`, `lrvm/src/cpu/cpu.rs:657-740`: result, carry, overflow.
`overflowing_add/sub/mul` on `u32`/`i32` are core Lean's `uaddOverflow`, `saddOverflow`, ...;
`overflowing_shl/shr` shift by the amount modulo 32 and report whether the amount was 32 or more. -/
def computeCore (op1 op2 : Word) (op : Op) : Except U8 (Word × Bool × Bool) :=
  match op with
  | .add => .ok (op1 + op2, BitVec.uaddOverflow op1 op2, BitVec.saddOverflow op1 op2)
  | .sub => .ok (op1 - op2, BitVec.usubOverflow op1 op2, BitVec.ssubOverflow op1 op2)
  | .mul => .ok (op1 * op2, BitVec.smulOverflow op1 op2, BitVec.smulOverflow op1 op2)
  | .div mode => divCore true mode op1 op2
  | .mod mode => divCore false mode op1 op2
  | .and => .ok (op1 &&& op2, false, false)
  | .bor => .ok (op1 ||| op2, false, false)
  | .xor => .ok (op1 ^^^ op2, false, false)
  | .shl => .ok (op1 <<< (op2.toNat % 32), decide (32 ≤ op2.toNat), decide (32 ≤ op2.toNat))
  | .shr => .ok (op1 >>> (op2.toNat % 32), decide (32 ≤ op2.toNat), decide (32 ≤ op2.toNat))

/-- Rust `u32::trailing_zeros`. -/
def trailingZeros (w : Word) : Nat := ((List.range 32).find? (fun i => w.getLsbD i)).getD 32

/-- The flag list of `Cpu::compute`, `lrvm/src/cpu/cpu.rs:746-761`. -/
def flagList (result : Word) (carry overflow : Bool) : List Bool :=
  [ result == 0,
    carry,
    overflow,
    (result >>> 31) &&& 1 == 1,
    result &&& 1 == 0,
    decide (result ≤ 0xFFFF#32),
    trailingZeros (result >>> 16) == 0 ]

/-- The loop of `lrvm/src/cpu/cpu.rs:763-767` from index `bit`, adding `1 << (7 - bit)` for each set
flag (seven distinct powers of two: the plain addition cannot overflow). -/
def sumFlags : Nat → List Bool → Word → Word
  | _, [], af => af
  | bit, f :: fs, af => sumFlags (bit + 1) fs (if f then af + (1#32 <<< (7 - bit)) else af)

/-- The value given to `af` by `Cpu::compute`, `lrvm/src/cpu/cpu.rs:744-767`. -/
def flagsOf (result : Word) (carry overflow : Bool) : Word :=
  sumFlags 0 (flagList result carry overflow) 0

/-- `Cpu::compute`, `lrvm/src/cpu/cpu.rs:653-770`. -/
def compute (op1 op2 : Word) (op : Op) : M D Word :=
  match computeCore op1 op2 op with
  | .error code => raise code 0
  | .ok (result, carry, overflow) => do
    modRegs (fun r => { r with af := flagsOf result carry overflow })
    pure result

/-- `Cpu::ensure_aligned`, `lrvm/src/cpu/cpu.rs:796-803`. -/
def ensureAligned (vAddr : Word) : M D Word :=
  if vAddr % 4 ≠ 0 then raise 0x05 ((vAddr % 4).setWidth 16) else pure vAddr

/-- `Cpu::mem_do`, `lrvm/src/cpu/cpu.rs:813-847`. -/
def memDo [Bus D] (pf : Profile) (action : MemAction) (vAddr : Word)
    (handler : Machine D → Word → U16 → Res (α × U16 × Machine D)) : M D α := do
  let vAddr ← ensureAligned vAddr
  fun s => match translate pf s vAddr action with
    | none => .panic
    | some (.ok pAddr, s1) =>
      match handler s1 pAddr 0 with
      | none => .panic
      | some (ret, ex, s2) => if ex ≠ 0 then raise 0xA0 ex s2 else .ok ret s2
    | some (.error none, s1) => raise 0x06 (vAddr.setWidth 16) s1
    | some (.error (some ex), s1) => raise 0xA0 ex s1

/-- `Cpu::mem_read`, `lrvm/src/cpu/cpu.rs:851-855`. -/
def cpuRead [Bus D] (pf : Profile) (vAddr : Word) : M D Word :=
  memDo pf .read vAddr (fun s pAddr ex => memRead pf s pAddr ex)

/-- `Cpu::mem_write`, `lrvm/src/cpu/cpu.rs:859-863`. -/
def cpuWrite [Bus D] (pf : Profile) (vAddr : Word) (word : Word) : M D Unit :=
  memDo pf .write vAddr (fun s pAddr ex =>
    match memWrite pf s pAddr word ex with
    | none => none
    | some (ex', s') => some ((), ex', s'))

/-- `Cpu::mem_exec`, `lrvm/src/cpu/cpu.rs:867-871`. -/
def cpuExec [Bus D] (pf : Profile) (vAddr : Word) : M D Word :=
  memDo pf .exec vAddr (fun s pAddr ex => memRead pf s pAddr ex)

/-- Bytes `i .. i+3` of a name, zero padded, as a big-endian word:
`lrvm/src/cpu/cpu.rs:899-905`. -/
def nameWord (bytes : List U8) (i : Nat) : Word :=
  (bytes.getD i 0 ++ bytes.getD (i + 1) 0 ++ bytes.getD (i + 2) 0 ++ bytes.getD (i + 3) 0)

/-- `Cpu::get_hw_info`, `lrvm/src/cpu/cpu.rs:874-943`. -/
def getHwInfo (pf : Profile) (hwInfo : Word) (auxId : Nat) : M D Word := fun s =>
  match s.hwbCache[auxId]? with
  | none => raise 0x10 (BitVec.ofNat 16 auxId) s
  | some cache =>
    let mapping? := s.getMapping auxId
    let name := utf8 cache.name
    match hwInfo.toNat with
    | 0x01 => .ok cache.metadata[0] s
    | 0x02 => .ok cache.metadata[1] s
    | 0x10 => .ok (BitVec.ofNat 32 name.length) s
    | 0x20 => .ok cache.metadata[2] s
    | 0x21 => .ok cache.metadata[3] s
    | 0x22 => .ok cache.metadata[4] s
    | 0x23 => .ok cache.metadata[5] s
    | 0x24 => .ok cache.metadata[6] s
    | 0x25 => .ok cache.metadata[7] s
    | 0xA0 => .ok (if mapping?.isSome then 1 else 0) s
    | 0xA1 =>
      match mapping? with
      | none => raise 0x12 (BitVec.ofNat 16 auxId) s
      | some m => .ok m.addr s
    | 0xA2 =>
      match mapping? with
      | none => raise 0x12 (BitVec.ofNat 16 auxId) s
      | some m => liftRes (m.endAddr pf) s
    | n =>
      if 0x11 ≤ n ∧ n ≤ 0x18 then .ok (nameWord name ((n - 0x11) * 4)) s
      else raise 0x11 (hwInfo.setWidth 16) s

/-- The fields of an instruction word, `lrvm/src/cpu/cpu.rs:70-84`. -/
structure Fields where
  opcode : U8
  r0 : Bool
  r1 : Bool
  r2 : Bool
  p0 : U8
  p1 : U8
  p2 : U8
  deriving DecidableEq, Repr

/-- Splitting of an instruction's 4 bytes, `lrvm/src/cpu/cpu.rs:75-84`. -/
def fieldsOfBytes (b0 b1 b2 b3 : U8) : Fields where
  opcode := b0 >>> 3
  r0 := b0 &&& 0b100#8 != 0
  r1 := b0 &&& 0b10#8 != 0
  r2 := b0 &&& 0b1#8 != 0
  p0 := b1
  p1 := b2
  p2 := b3

/-- `u32::to_be_bytes`, most significant byte first. -/
def beByte (w : Word) (i : Nat) : U8 := (w >>> (8 * (3 - i))).setWidth 8

/-- `bytes.to_be_bytes()` then the splitting, `lrvm/src/cpu/cpu.rs:70-84`. -/
def fieldsOf (w : Word) : Fields := fieldsOfBytes (beByte w 0) (beByte w 1) (beByte w 2) (beByte w 3)

/-- `__reg_or_lit!(_with_val i, params[i].into())`, `lrvm/src/cpu/cpu.rs:198-220`. -/
def regOrLit1 (isReg : Bool) (p : U8) : M D Word :=
  if isReg then readReg p else pure (p.setWidth 32)

/-- `__reg_or_lit!(_with_val i, u16::from_be_bytes([params[i], params[i + 1]]).into())`,
`lrvm/src/cpu/cpu.rs:198-220`. -/
def regOrLit2 (isReg : Bool) (p q : U8) : M D Word :=
  if isReg then readReg p else pure ((p ++ q).setWidth 32)

/-- CPY, `lrvm/src/cpu/cpu.rs:231-234`. -/
def execCpy (f : Fields) : M D Unit := do
  let value ← regOrLit2 f.r1 f.p1 f.p2
  writeReg f.p0 value

/-- EX, `lrvm/src/cpu/cpu.rs:237-245`. -/
def execEx (f : Fields) : M D Unit := do
  let pivotA ← readReg f.p0
  let regBValue ← readReg f.p1
  writeReg f.p0 regBValue
  writeReg f.p1 pivotA

/-- The operation of opcodes 0x03..=0x05 and 0x08..=0x0C, `lrvm/src/cpu/cpu.rs:257-267`. -/
def aluOp (opcode : Nat) : Op :=
  match opcode with
  | 0x03 => .add
  | 0x04 => .sub
  | 0x05 => .mul
  | 0x08 => .and
  | 0x09 => .bor
  | 0x0A => .xor
  | 0x0B => .shl
  | _ => .shr

/-- ADD, SUB, MUL, AND, BOR, XOR, SHL, SHR, `lrvm/src/cpu/cpu.rs:248-270`. -/
def execAlu (f : Fields) : M D Unit := do
  let value ← regOrLit2 f.r1 f.p1 f.p2
  let value := if (f.opcode = 0x0B#8 ∨ f.opcode = 0x0C#8) ∧ f.r1 = false then value >>> 8 else value
  let regValue ← readReg f.p0
  let result ← compute regValue value (aluOp f.opcode.toNat)
  writeReg f.p0 result

/-- DIV and MOD, `lrvm/src/cpu/cpu.rs:273-288`. -/
def execDiv (mk : U8 → Op) (f : Fields) : M D Unit := do
  let value ← regOrLit1 f.r1 f.p1
  let mode ← regOrLit1 f.r2 f.p2
  let regValue ← readReg f.p0
  let result ← compute regValue value (mk (mode.setWidth 8))
  writeReg f.p0 result

/-- CMP, `lrvm/src/cpu/cpu.rs:291-298`. -/
def execCmp (f : Fields) : M D Unit := do
  let value ← regOrLit2 f.r1 f.p1 f.p2
  let regValue ← readReg f.p0
  let _ ← compute regValue value .sub
  pure ()

/-- JPR, `lrvm/src/cpu/cpu.rs:301-307`. -/
def execJpr (f : Fields) : M D Unit := do
  let v ← regOrLit2 f.r0 f.p0 f.p1
  let bytes : U16 := v.setWidth 16
  modifyM (fun s => { s with
    regs := { s.regs with pc := s.regs.pc + bytes.signExtend 32 }, changedPc := true })

/-- LSM, `lrvm/src/cpu/cpu.rs:310-319` (`_cycle_changed_pc` is not set). -/
def execLsm (f : Fields) : M D Unit := do
  if ← getsM (·.svMode) then
    let v ← regOrLit2 f.r0 f.p0 f.p1
    modRegs (fun r => { r with pc := v })
    modRegs (fun r => { r with smt := 0 })
  else raise 0x09 (f.opcode.setWidth 16)

/-- ITR, `lrvm/src/cpu/cpu.rs:322-327`: raises the exception but ends normally. -/
def execItr (f : Fields) : M D Unit := do
  let code ← regOrLit1 f.r0 f.p0
  modifyM (fun s => s.exception 0xF0 (code.setWidth 16))

/-- `pc.wrapping_add(4)`, the skip of the conditional instructions. -/
def skipNext : M D Unit := modRegs (fun r => { r with pc := r.pc + 4 })

/-- IF, IFN, `lrvm/src/cpu/cpu.rs:330-345`. The flag is at most 7 when it is used, so neither the
subtraction nor the shift can overflow. -/
def execIf (wanted : Bool) (f : Fields) : M D Unit := do
  let flag ← regOrLit1 f.r0 f.p0
  if 7#32 < flag then raise 0x0C ((flag.setWidth 8).setWidth 16)
  else
    let s ← getM
    let isSet := s.regs.af &&& (1#32 <<< (7 - flag.toNat)) != 0
    if isSet != wanted then skipNext else pure ()

/-- `self.regs.af & (1 << (7 - flag)) != 0` of IF2, `lrvm/src/cpu/cpu.rs:350` (plain `-` and `<<` on a
flag that has not been checked). -/
def flagTest (pf : Profile) (af flag : Word) : Res Bool := do
  let k ← pf.sub 7 flag
  let bit ← pf.oneShl k
  some (af &&& bit != 0)

/-- The condition table of IF2, `lrvm/src/cpu/cpu.rs:352-364`. -/
def if2Cond (cond : Word) (a b : Bool) : Option Bool :=
  match cond.toNat with
  | 0x01 => some (a || b)
  | 0x02 => some (a && b)
  | 0x03 => some (a ^^ b)
  | 0x04 => some (!a && !b)
  | 0x05 => some (!(a && b))
  | 0x06 => some (a && !b)
  | 0x07 => some (b && !a)
  | _ => none

/-- IF2, `lrvm/src/cpu/cpu.rs:348-371`. -/
def execIf2 (pf : Profile) (f : Fields) : M D Unit := do
  let flagA ← regOrLit1 f.r0 f.p0
  let flagB ← regOrLit1 f.r1 f.p1
  let cond ← regOrLit1 f.r2 f.p2
  let s ← getM
  let a ← liftRes (flagTest pf s.regs.af flagA)
  let b ← liftRes (flagTest pf s.regs.af flagB)
  match if2Cond cond a b with
  | none => raise 0x0D ((cond.setWidth 8).setWidth 16)
  | some result => if !result then skipNext else pure ()

/-- LSA, `lrvm/src/cpu/cpu.rs:374-380`. -/
def execLsa [Bus D] (pf : Profile) (f : Fields) : M D Unit := do
  let vAddr ← regOrLit1 f.r1 f.p1
  let add ← regOrLit1 f.r2 f.p2
  let word ← cpuRead pf (vAddr + add)
  writeReg f.p0 word

/-- LEA, `lrvm/src/cpu/cpu.rs:383-388`. -/
def execLea [Bus D] (pf : Profile) (f : Fields) : M D Unit := do
  let vAddr ← regOrLit1 f.r0 f.p0
  let add ← regOrLit1 f.r1 f.p1
  let mul ← regOrLit1 f.r2 f.p2
  let word ← cpuRead pf (vAddr + add * mul)
  modRegs (fun r => { r with avr := word })

/-- WSA, `lrvm/src/cpu/cpu.rs:391-395`. -/
def execWsa [Bus D] (pf : Profile) (f : Fields) : M D Unit := do
  let vAddr ← regOrLit1 f.r0 f.p0
  let add ← regOrLit1 f.r1 f.p1
  let val ← regOrLit1 f.r2 f.p2
  cpuWrite pf (vAddr + add) val

/-- WEA, `lrvm/src/cpu/cpu.rs:398-402`. -/
def execWea [Bus D] (pf : Profile) (f : Fields) : M D Unit := do
  let vAddr ← regOrLit1 f.r0 f.p0
  let add ← regOrLit1 f.r1 f.p1
  let mul ← regOrLit1 f.r2 f.p2
  let avr ← getsM (·.regs.avr)
  cpuWrite pf (vAddr + add * mul) avr

/-- SRM, `lrvm/src/cpu/cpu.rs:405-412` (`v_addr + add` is a plain addition, computed twice). -/
def execSrm [Bus D] (pf : Profile) (f : Fields) : M D Unit := do
  let vAddr ← regOrLit1 f.r0 f.p0
  let add ← regOrLit1 f.r1 f.p1
  let addr1 ← liftRes (pf.add vAddr add)
  let oldWord ← cpuRead pf addr1
  let toWrite ← readReg f.p2
  let addr2 ← liftRes (pf.add vAddr add)
  cpuWrite pf addr2 toWrite
  writeReg f.p2 oldWord

/-- The current mode's stack pointer. -/
def Machine.sp (s : Machine D) : Word := if s.svMode then s.regs.ssp else s.regs.usp

/-- Assignment of the current mode's stack pointer, `lrvm/src/cpu/cpu.rs:422-426,456-460`. -/
def setSp (v : Word) : M D Unit := modifyM (fun s =>
  if s.svMode then { s with regs := { s.regs with ssp := v } }
  else { s with regs := { s.regs with usp := v } })

/-- PUSH, `lrvm/src/cpu/cpu.rs:415-429`. -/
def execPush [Bus D] (pf : Profile) (f : Fields) : M D Unit := do
  let word ← regOrLit2 f.r0 f.p0 f.p1
  let sp ← getsM (·.sp)
  cpuWrite pf (sp - 4) word
  setSp (sp - 4)

/-- POP, `lrvm/src/cpu/cpu.rs:432-446`. The branch on the mode is taken once, before the memory access;
the access leaves the mode unchanged when it succeeds, and the pointer is read again after it. -/
def execPop [Bus D] (pf : Profile) (f : Fields) : M D Unit := do
  let sv ← getsM (·.svMode)
  let word ← (if sv then do
      let sp ← getsM (·.regs.ssp)
      let word ← cpuRead pf sp
      modRegs (fun r => { r with ssp := r.ssp + 4 })
      pure word
    else do
      let sp ← getsM (·.regs.usp)
      let word ← cpuRead pf sp
      modRegs (fun r => { r with usp := r.usp + 4 })
      pure word)
  writeReg f.p0 word

/-- CALL, `lrvm/src/cpu/cpu.rs:449-466` (`pc + 4` is a plain addition). -/
def execCall [Bus D] (pf : Profile) (f : Fields) : M D Unit := do
  let target ← regOrLit2 f.r0 f.p0 f.p1
  let sp ← getsM (·.sp)
  let pc ← getsM (·.regs.pc)
  let ret ← liftRes (pf.add pc 4)
  cpuWrite pf (sp - 4) ret
  setSp (sp - 4)
  modifyM (fun s => { s with regs := { s.regs with pc := target }, changedPc := true })

/-- HWD, `lrvm/src/cpu/cpu.rs:469-482` (`usize::try_from(u32)` always succeeds with a 64-bit
`usize`). -/
def execHwd (pf : Profile) (f : Fields) : M D Unit := do
  let auxId ← regOrLit1 f.r1 f.p1
  let hwInfo ← regOrLit1 f.r2 f.p2
  if auxId = 0 ∧ hwInfo = 0 then do
    let n ← getsM (·.devs.length)
    writeReg f.p0 (BitVec.ofNat 32 n)
  else do
    let data ← getHwInfo pf hwInfo auxId.toNat
    writeReg f.p0 data

/-- CYCLES, `lrvm/src/cpu/cpu.rs:485-488`. -/
def execCycles (f : Fields) : M D Unit := do
  let c ← getsM (·.cycles)
  writeReg f.p0 (c.setWidth 32)

/-- HALT, `lrvm/src/cpu/cpu.rs:491-494`. -/
def execHalt : M D Unit := modifyM (fun s => { s with halted := true })

/-- The loops `for id in 0..count { if test(id) { self.hwb.reset(id).unwrap() } }`,
`lrvm/src/cpu/cpu.rs:507-509,536-540`, from identifier `id` with `n` identifiers left. -/
def resetLoop [Bus D] (test : Nat → Bool) : (id n : Nat) → List D → Res (List D)
  | _, 0, devs => some devs
  | id, n + 1, devs =>
    if test id then
      match bridgeReset devs id with
      | some (some devs') => resetLoop test (id + 1) n devs'
      | _ => panicked
    else resetLoop test (id + 1) n devs

/-- The selection of components by RESET's modes 2, 3 and 4, `lrvm/src/cpu/cpu.rs:526-534`. -/
def resetTest (auxMode : Nat) (avr : Nat) (id : Nat) : Bool :=
  match auxMode with
  | 0x2 => decide (id ≠ avr)
  | 0x3 => decide (id < avr)
  | _ => decide (avr < id)

/-- The component part of RESET, `lrvm/src/cpu/cpu.rs:504-545`. -/
def resetDevs [Bus D] (auxMode : Nat) : M D Unit := do
  let s ← getM
  match auxMode with
  | 0x0 => do
    let devs ← liftRes (resetLoop (fun _ => true) 0 s.devs.length s.devs)
    modifyM (fun s => { s with devs := devs })
  | 0x1 => do
    match ← liftRes (bridgeReset s.devs s.regs.avr.toNat) with
    | none => raise 0x10 (s.regs.avr.setWidth 16)
    | some devs => modifyM (fun s => { s with devs := devs })
  | 0x2 | 0x3 | 0x4 => do
    let devs ← liftRes (resetLoop (resetTest auxMode s.regs.avr.toNat) 0 s.devs.length s.devs)
    modifyM (fun s => { s with devs := devs })
  | _ => pure ()

/-- RESET, `lrvm/src/cpu/cpu.rs:497-553`. -/
def execReset [Bus D] (f : Fields) : M D Unit := do
  let mode ← regOrLit1 f.r0 f.p0
  resetDevs (mode &&& 0x0F#32).toNat
  if mode &&& 0xF0#32 = 0 then modifyM Machine.cpuReset else pure ()

/-- `Cpu::run_instr`, `lrvm/src/cpu/cpu.rs:117-557`. -/
def runInstr [Bus D] (pf : Profile) (f : Fields) : M D Unit :=
  match f.opcode.toNat with
  | 0x00 => raise 0x01 (f.opcode.setWidth 16)
  | 0x01 => execCpy f
  | 0x02 => execEx f
  | 0x03 => execAlu f
  | 0x04 => execAlu f
  | 0x05 => execAlu f
  | 0x06 => execDiv .div f
  | 0x07 => execDiv .mod f
  | 0x08 => execAlu f
  | 0x09 => execAlu f
  | 0x0A => execAlu f
  | 0x0B => execAlu f
  | 0x0C => execAlu f
  | 0x0D => execCmp f
  | 0x0E => execJpr f
  | 0x0F => execLsm f
  | 0x10 => execItr f
  | 0x11 => execIf true f
  | 0x12 => execIf false f
  | 0x13 => execIf2 pf f
  | 0x14 => execLsa pf f
  | 0x15 => execLea pf f
  | 0x16 => execWsa pf f
  | 0x17 => execWea pf f
  | 0x18 => execSrm pf f
  | 0x19 => execPush pf f
  | 0x1A => execPop pf f
  | 0x1B => execCall pf f
  | 0x1C => execHwd pf f
  | 0x1D => execCycles f
  | 0x1E => execHalt
  | 0x1F => execReset f
  | _ => fun _ => .panic

/-- The second half of `Cpu::next`, `lrvm/src/cpu/cpu.rs:70-100`: decode and run a fetched word, then
advance `pc` unless the instruction changed it. -/
def execWord [Bus D] (pf : Profile) (w : Word) (s : Machine D) : Res (Machine D) :=
  match runInstr pf (fieldsOf w) { s with changedPc := false } with
  | .panic => none
  | .ex s => some s
  | .ok () s =>
    if s.changedPc then some s
    else some { s with regs := { s.regs with pc := s.regs.pc + 4 } }

/-- `Cpu::next`, `lrvm/src/cpu/cpu.rs:60-101`. -/
def next [Bus D] (pf : Profile) (s : Machine D) : Res (Machine D) :=
  if s.halted then some s
  else
    let s := { s with cycles := s.cycles + 1 }
    match cpuExec pf s.regs.pc s with
    | .panic => none
    | .ex s => some s
    | .ok w s => execWord pf w s

/-- `n` calls of `Cpu::next`. -/
def nextN [Bus D] (pf : Profile) : Nat → Machine D → Res (Machine D)
  | 0, s => some s
  | n + 1, s => do
    let s' ← next pf s
    nextN pf n s'

end Lrvm
