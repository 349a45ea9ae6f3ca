import Verif.Model.Cpu

/-!
# Specification vocabulary for instructions

The documented register table (`docs/Architecture.md`, "Registers"), instruction format ("Instructions
format"), and the words used in the statements of the instruction properties. Nothing here uses the
model's register, decoding or memory functions, except `Fetches`, `Loads` and `Stores`, which name the
outcome of the CPU's memory accesses (characterised by the theorems of `Props/Memory.lean`).
-/

namespace Lrvm.Spec

/-- The documented register table: the register with the given code. Codes are `0 .. 31`; the value for
other numbers is irrelevant. -/
def reg (r : Regs) : Nat → Word
  | 0x00 => r.a[0] | 0x01 => r.a[1] | 0x02 => r.a[2] | 0x03 => r.a[3]
  | 0x04 => r.a[4] | 0x05 => r.a[5] | 0x06 => r.a[6] | 0x07 => r.a[7]
  | 0x08 => r.c[0] | 0x09 => r.c[1]
  | 0x0A => r.ac[0] | 0x0B => r.ac[1] | 0x0C => r.ac[2]
  | 0x0D => r.rr[0] | 0x0E => r.rr[1] | 0x0F => r.rr[2] | 0x10 => r.rr[3]
  | 0x11 => r.rr[4] | 0x12 => r.rr[5] | 0x13 => r.rr[6] | 0x14 => r.rr[7]
  | 0x15 => r.avr | 0x16 => r.pc | 0x17 => r.af | 0x18 => r.ssp | 0x19 => r.usp
  | 0x1A => r.et | 0x1B => r.era | 0x1C => r.ev | 0x1D => r.mtt | 0x1E => r.pda | 0x1F => r.smt
  | _ => 0

/-- Registers after assigning the register with the given code. -/
def setReg (r : Regs) (code : Nat) (w : Word) : Regs :=
  match code with
  | 0x00 => { r with a := r.a.set 0 w } | 0x01 => { r with a := r.a.set 1 w }
  | 0x02 => { r with a := r.a.set 2 w } | 0x03 => { r with a := r.a.set 3 w }
  | 0x04 => { r with a := r.a.set 4 w } | 0x05 => { r with a := r.a.set 5 w }
  | 0x06 => { r with a := r.a.set 6 w } | 0x07 => { r with a := r.a.set 7 w }
  | 0x08 => { r with c := r.c.set 0 w } | 0x09 => { r with c := r.c.set 1 w }
  | 0x0A => { r with ac := r.ac.set 0 w } | 0x0B => { r with ac := r.ac.set 1 w }
  | 0x0C => { r with ac := r.ac.set 2 w }
  | 0x0D => { r with rr := r.rr.set 0 w } | 0x0E => { r with rr := r.rr.set 1 w }
  | 0x0F => { r with rr := r.rr.set 2 w } | 0x10 => { r with rr := r.rr.set 3 w }
  | 0x11 => { r with rr := r.rr.set 4 w } | 0x12 => { r with rr := r.rr.set 5 w }
  | 0x13 => { r with rr := r.rr.set 6 w } | 0x14 => { r with rr := r.rr.set 7 w }
  | 0x15 => { r with avr := w } | 0x16 => { r with pc := w } | 0x17 => { r with af := w }
  | 0x18 => { r with ssp := w } | 0x19 => { r with usp := w } | 0x1A => { r with et := w }
  | 0x1B => { r with era := w } | 0x1C => { r with ev := w } | 0x1D => { r with mtt := w }
  | 0x1E => { r with pda := w } | 0x1F => { r with smt := w }
  | _ => r

/-- Supervisor mode is on (`smt` "is enabled (`0` if not)"). -/
def supervisor (r : Regs) : Bool := r.smt != 0

/-- The "Read" entries of the documented table, columns Supervisor and Userland. -/
def mayRead (sv : Bool) (code : Nat) : Bool :=
  if code ≤ 0x17 then true else if code ≤ 0x1F then sv else false

/-- The "Write" entries of the documented table, columns Supervisor and Userland. -/
def mayWrite (sv : Bool) (code : Nat) : Bool :=
  if code ≤ 0x16 then true
  else if code ∈ [0x18, 0x19, 0x1C, 0x1D, 0x1E, 0x1F] then sv else false

/-- The documented instruction format, strongest bit first: 5 bits of opcode, 3 register bits, 3
parameter bytes. -/
def instrWord (opcode : BitVec 5) (r0 r1 r2 : Bool) (p0 p1 p2 : U8) : Word :=
  opcode ++ BitVec.ofBool r0 ++ BitVec.ofBool r1 ++ BitVec.ofBool r2 ++ p0 ++ p1 ++ p2

/-- The opcode of an instruction word: its 5 strongest bits. -/
def opcode (w : Word) : Nat := w.toNat / 2 ^ 27

/-- Byte `i` of an instruction word; byte 0 is the strongest, bytes 1, 2 and 3 are the parameters. -/
def byte (w : Word) (i : Nat) : Nat := w.toNat / 2 ^ (8 * (3 - i)) % 256

/-- The registers an instruction names as destinations (`docs/Architecture.md`, "Instructions"): the
first parameter of CPY, the arithmetic and bitwise instructions, LSA, POP, HWD and CYCLES, both
parameters of EX, the third of SRM. -/
def destinations (w : Word) : List Nat :=
  if opcode w ∈ [0x01, 0x03, 0x04, 0x05, 0x06, 0x07, 0x08, 0x09, 0x0A, 0x0B, 0x0C, 0x14, 0x1A, 0x1C, 0x1D]
  then [byte w 1]
  else if opcode w = 0x02 then [byte w 1, byte w 2]
  else if opcode w = 0x18 then [byte w 3]
  else []

/-- Registers at startup: all zero, in supervisor mode. -/
def startup : Regs := { Regs.zero with smt := 1 }

/-- The documented exception codes (`docs/Architecture.md`, "Exceptions"). -/
def exceptionCodes : List Nat :=
  [0x01, 0x02, 0x03, 0x04, 0x05, 0x06, 0x07, 0x08, 0x09, 0x0A, 0x0B, 0x0C, 0x0D, 0x10, 0x11, 0x12, 0xA0,
    0xF0]

/-- The value of a parameter "register or constant on 1 byte": the register's value if it may be read,
or the constant padded with zeros on its left. -/
def Val1 (r : Regs) (isReg : Bool) (p : U8) (v : Word) : Prop :=
  if isReg then mayRead (supervisor r) p.toNat = true ∧ v = reg r p.toNat
  else v = BitVec.ofNat 32 p.toNat

/-- The value of a parameter "register or constant on 2 bytes". The processor looks for the register in
the first of the two bytes (`lrvm/src/cpu/cpu.rs:198-220`). -/
def Val2 (r : Regs) (isReg : Bool) (p q : U8) (v : Word) : Prop :=
  if isReg then mayRead (supervisor r) p.toNat = true ∧ v = reg r p.toNat
  else v = BitVec.ofNat 32 (p.toNat * 256 + q.toNat)

/-- "The program counter `pc` is increased by 4." -/
def advance (r : Regs) : Regs := { r with pc := r.pc + 4 }

/-- Registers after an instruction whose only effect is to write `w` in the register with the given code:
`pc` then advances, unless it is the register written. -/
def assign (r : Regs) (code : Nat) (w : Word) : Regs :=
  if code = 0x16 then setReg r code w else advance (setReg r code w)

/-- The arithmetic flags register (`docs/Architecture.md`, "Arithmetic flags"): `ZF CF OF SF EF ZUF ZLF` in
bits 7 down to 1. -/
def flagWord (zf cf of sf ef zuf zlf : Bool) : Word :=
  BitVec.ofNat 32 (zf.toNat * 128 + cf.toNat * 64 + of.toNat * 32 + sf.toNat * 16 + ef.toNat * 8 +
    zuf.toNat * 4 + zlf.toNat * 2)

/-- The flags of an arithmetic result with the given carry and overflow: zero, sign, even and zero-upper as
documented. The last flag, ZLF, is given apart. -/
def flagsFor (res : Word) (cf of zlf : Bool) : Word :=
  flagWord (decide (res.toNat = 0)) cf of (decide (2 ^ 31 ≤ res.toNat)) (decide (res.toNat % 2 = 0))
    (decide (res.toNat < 2 ^ 16)) zlf

/-- ZLF as documented: "Result's lower bits are zeros". -/
def zlfDoc (res : Word) : Bool := decide (res.toNat % 2 ^ 16 = 0)

/-- ZLF as the code computes it (`lrvm/src/cpu/cpu.rs:760`, `(result >> 16).trailing_zeros() == 0`): bit 16
of the result is set. -/
def zlfCode (res : Word) : Bool := decide (res.toNat / 2 ^ 16 % 2 = 1)

/-- The integer fits in 32-bit two's complement representation. -/
def fitsSigned (i : Int) : Bool := decide (-2 ^ 31 ≤ i ∧ i < 2 ^ 31)

/-- Flag number `n` (0 is ZF, ..., 6 is ZLF) in a flags register. -/
def flag (af : Word) (n : Nat) : Bool := af.toNat / 2 ^ (7 - n) % 2 == 1

/-- Registers after the documented entry in an exception with the given code and data. -/
def trap (r : Regs) (code : Nat) (data : Nat) : Regs :=
  { r with
    et := BitVec.ofNat 32 ((if supervisor r then 2 ^ 24 else 0) + code * 2 ^ 16 + data)
    pc := r.ev
    smt := 1 }

/-- The stack pointer of the mode the registers are in: `ssp` in supervisor mode, `usp` in userland. -/
def stackPtr (r : Regs) : Word := if supervisor r then r.ssp else r.usp

/-- Registers with the stack pointer of the current mode replaced. -/
def withStackPtr (r : Regs) (v : Word) : Regs :=
  if supervisor r then { r with ssp := v } else { r with usp := v }

variable {D : Type} [Bus D]

/-- The running CPU's instruction fetch yields the word `w`, leaving the components in state `devs`. -/
def Fetches (pf : Profile) (s : Machine D) (w : Word) (devs : List D) : Prop :=
  s.halted = false ∧
  cpuExec pf s.regs.pc { s with cycles := s.cycles + 1 }
    = .ok w { s with cycles := s.cycles + 1, devs := devs }

/-- Reading virtual address `v`, with the components in state `devs`, yields `w` and leaves the
components in state `devs'`. -/
def Loads (pf : Profile) (s : Machine D) (devs : List D) (v w : Word) (devs' : List D) : Prop :=
  cpuRead pf v { s with devs := devs } = .ok w { s with devs := devs' }

/-- Writing `w` at virtual address `v`, with the components in state `devs`, succeeds and leaves the
components in state `devs'`. -/
def Stores (pf : Profile) (s : Machine D) (devs : List D) (v w : Word) (devs' : List D) : Prop :=
  cpuWrite pf v w { s with devs := devs } = .ok () { s with devs := devs' }

/-- Reading virtual address `v` raises the exception with the given code and data, leaving the components in
state `devs'`. -/
def LoadFaults (pf : Profile) (s : Machine D) (devs : List D) (v : Word) (code data : Nat)
    (devs' : List D) : Prop :=
  ∃ t, cpuRead pf v { s with devs := devs } = .ex t ∧ t.regs = trap s.regs code data ∧ t.devs = devs'

/-- Writing `w` at virtual address `v` raises the exception with the given code and data, leaving the
components in state `devs'`. -/
def StoreFaults (pf : Profile) (s : Machine D) (devs : List D) (v w : Word) (code data : Nat)
    (devs' : List D) : Prop :=
  ∃ t, cpuWrite pf v w { s with devs := devs } = .ex t ∧ t.regs = trap s.regs code data ∧ t.devs = devs'

/-- The next cycle completes with the given registers and components, having counted one cycle and left
everything else (mappings, caches, the fact that the CPU runs) unchanged. -/
def Steps (pf : Profile) (s : Machine D) (regs : Regs) (devs : List D) : Prop :=
  ∃ s', next pf s = some s' ∧ s'.regs = regs ∧ s'.devs = devs ∧ s'.cycles = s.cycles + 1 ∧
    s'.halted = s.halted ∧ s'.mappings = s.mappings ∧ s'.hwbCache = s.hwbCache ∧
    s'.memCache = s.memCache

end Lrvm.Spec
