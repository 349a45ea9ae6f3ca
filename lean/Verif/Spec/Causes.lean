import Verif.Spec.Isa
import Verif.Spec.Memory

/-!
# The causes of exceptions

The documented reasons (`docs/Architecture.md`, "Exceptions" and "Instructions") for which an instruction raises an exception,
with the exception that each of them deserves. The instructions look at their operands in the order of the lists below, and the
first reason met is the one reported. Nothing here uses the model's decoding, register or arithmetic functions.
-/

namespace Lrvm.Spec

/-- An instruction: operation code, which parameters are registers, the three parameter bytes. -/
structure Parts where
  op : BitVec 5
  r0 : Bool
  r1 : Bool
  r2 : Bool
  p0 : U8
  p1 : U8
  p2 : U8

/-- The word that holds the instruction. -/
def Parts.word (i : Parts) : Word := instrWord i.op i.r0 i.r1 i.r2 i.p0 i.p1 i.p2

/-- The register read for a parameter "register or constant": none for a constant. -/
def ifReg (isReg : Bool) (p : U8) : List Nat := if isReg then [p.toNat] else []

/-- The registers an instruction reads for its operands, in the order in which they are looked at. -/
def Parts.sources (i : Parts) : List Nat :=
  match i.op.toNat with
  | 0x01 => ifReg i.r1 i.p1                                            -- CPY
  | 0x02 => [i.p0.toNat, i.p1.toNat]                                   -- EX
  | 0x06 | 0x07 => ifReg i.r1 i.p1 ++ ifReg i.r2 i.p2 ++ [i.p0.toNat]  -- DIV, MOD
  | 0x03 | 0x04 | 0x05 | 0x08 | 0x09 | 0x0A | 0x0B | 0x0C | 0x0D => ifReg i.r1 i.p1 ++ [i.p0.toNat]
  | 0x0E | 0x0F | 0x10 | 0x11 | 0x12 => ifReg i.r0 i.p0                -- JPR, LSM, ITR, IF, IFN
  | 0x13 => ifReg i.r0 i.p0 ++ ifReg i.r1 i.p1 ++ ifReg i.r2 i.p2      -- IF2
  | 0x14 => ifReg i.r1 i.p1 ++ ifReg i.r2 i.p2                         -- LSA
  | 0x15 | 0x16 | 0x17 => ifReg i.r0 i.p0 ++ ifReg i.r1 i.p1 ++ ifReg i.r2 i.p2  -- LEA, WSA, WEA
  | 0x18 => ifReg i.r0 i.p0 ++ ifReg i.r1 i.p1                         -- SRM (its register: after the memory)
  | 0x19 | 0x1B => ifReg i.r0 i.p0                                     -- PUSH, CALL
  | 0x1C => ifReg i.r1 i.p1 ++ ifReg i.r2 i.p2                         -- HWD
  | 0x1F => ifReg i.r0 i.p0                                            -- RESET
  | _ => []

/-- The first of the operands that may not be read, if any. -/
def Parts.refused (i : Parts) (r : Regs) : Option Nat := i.sources.find? fun n => !mayRead (supervisor r) n

/-- The value of a parameter "register or constant on 1 byte". -/
def operand1 (r : Regs) (isReg : Bool) (p : U8) : Word := if isReg then reg r p.toNat else BitVec.ofNat 32 p.toNat

/-- The value of a parameter "register or constant on 2 bytes". -/
def operand2 (r : Regs) (isReg : Bool) (p q : U8) : Word :=
  if isReg then reg r p.toNat else BitVec.ofNat 32 (p.toNat * 256 + q.toNat)

/-- The address an instruction loads from. -/
def Parts.loadsFrom (i : Parts) (r : Regs) : Option Word :=
  match i.op.toNat with
  | 0x14 => some (operand1 r i.r1 i.p1 + operand1 r i.r2 i.p2)                           -- LSA
  | 0x15 => some (operand1 r i.r0 i.p0 + operand1 r i.r1 i.p1 * operand1 r i.r2 i.p2)      -- LEA
  | 0x18 => some (operand1 r i.r0 i.p0 + operand1 r i.r1 i.p1)                           -- SRM
  | 0x1A => some (stackPtr r)                                                        -- POP
  | _ => none

/-- The address an instruction that does not load stores to, and what it stores. -/
def Parts.storesTo (i : Parts) (r : Regs) : Option (Word × Word) :=
  match i.op.toNat with
  | 0x16 => some (operand1 r i.r0 i.p0 + operand1 r i.r1 i.p1, operand1 r i.r2 i.p2)                       -- WSA
  | 0x17 => some (operand1 r i.r0 i.p0 + operand1 r i.r1 i.p1 * operand1 r i.r2 i.p2, r.avr)               -- WEA
  | 0x19 => some (stackPtr r - 4, operand2 r i.r0 i.p0 i.p1)                                           -- PUSH
  | 0x1B => some (stackPtr r - 4, r.pc + 4)                                                          -- CALL
  | _ => none

/-- The additions that a debug build refuses to wrap: the address of SRM, the return address of CALL. -/
def Parts.adds (pf : Profile) (i : Parts) (r : Regs) : Prop :=
  pf = .debug →
    (i.op = 0x18 → (operand1 r i.r0 i.p0).toNat + (operand1 r i.r1 i.p1).toNat < 2 ^ 32) ∧ (i.op = 0x1B → r.pc.toNat + 4 < 2 ^ 32)

/-- Operand of DIV and MOD: the divisor, the mode, and the number that is divided. -/
def Parts.divisor (i : Parts) (r : Regs) : Word := operand1 r i.r1 i.p1
def Parts.divMode (i : Parts) (r : Regs) : Nat := (operand1 r i.r2 i.p2).toNat
def Parts.dividend (i : Parts) (r : Regs) : Word := reg r i.p0.toNat

/-- Division by zero, when the mode forbids it (`DIV_ZRO_FRB`). -/
def Parts.divByZero (i : Parts) (r : Regs) : Prop := i.divisor r = 0 ∧ i.divMode r / 4 % 4 = 0

/-- Signed division of the smallest number by -1. -/
def Parts.divOverflow (i : Parts) (r : Regs) : Prop :=
  (i.divisor r).toInt = -1 ∧ (i.dividend r).toInt = -2 ^ 31 ∧ i.divMode r / 16 % 2 = 1

/-- The component and the information that HWD asks for. -/
def Parts.hwId (i : Parts) (r : Regs) : Nat := (operand1 r i.r1 i.p1).toNat
def Parts.hwInfo (i : Parts) (r : Regs) : Nat := (operand1 r i.r2 i.p2).toNat

/-- The codes of the information about a component. -/
def hwInfos : List Nat :=
  [0x01, 0x02, 0x10, 0x11, 0x12, 0x13, 0x14, 0x15, 0x16, 0x17, 0x18, 0x20, 0x21, 0x22, 0x23, 0x24, 0x25, 0xA0, 0xA1, 0xA2]

/-- The range of a component, if it is mapped. -/
def rangeOf (maps : List Mapping) (id : Nat) : Option Mapping := maps.find? fun m => m.auxId == id

/-- The last address of a range can be computed: a debug build refuses additions that wrap. -/
def endFits (pf : Profile) (m : Mapping) : Prop :=
  pf = .debug → m.addr.toNat + m.size.toNat < 2 ^ 32 ∧ 0 < m.addr.toNat + m.size.toNat

/-- The exception of a register that may not be read. -/
def noRead (r : Regs) : Nat := if supervisor r then 0x02 else 0x03

/-- The exception of a register that may not be written. -/
def noWrite (r : Regs) (n : Nat) : Nat := if supervisor r = true ∧ 32 ≤ n then 0x02 else 0x04

/-- The instruction has computed a result (and updated the flags) before its destination was refused. -/
def Parts.computed (i : Parts) (r : Regs) (c : Nat) : Prop :=
  (0x03 ≤ i.op.toNat ∧ i.op.toNat ≤ 0x0C) ∧ i.refused r = none ∧ (c = 0x02 ∨ c = 0x04)

/-- HWD asks for the number of components. -/
def Parts.hwCount (i : Parts) (r : Regs) : Prop := i.hwId r = 0 ∧ i.hwInfo r = 0

/-- The reason for which HWD cannot answer: exception and data. -/
inductive HwRefusal (s : Machine D) (i : Parts) : Nat → Nat → Prop
  | unknown : s.hwbCache.length ≤ i.hwId s.regs → HwRefusal s i 0x10 (i.hwId s.regs % 2 ^ 16)
  | info : i.hwId s.regs < s.hwbCache.length → i.hwInfo s.regs ∉ hwInfos → HwRefusal s i 0x11 (i.hwInfo s.regs % 2 ^ 16)
  | unmapped : i.hwId s.regs < s.hwbCache.length → i.hwInfo s.regs = 0xA1 ∨ i.hwInfo s.regs = 0xA2 →
      rangeOf s.mappings (i.hwId s.regs) = none → HwRefusal s i 0x12 (i.hwId s.regs % 2 ^ 16)

/-- `Cause pf s devs i r c d devs'`: on machine `s`, with the components as the fetch left them (`devs`), the instruction `i`
must raise the exception `c` with data `d`; the registers are then those of `r` (before the entry in the exception) and the
components are `devs'`. -/
inductive Cause [Bus D] (pf : Profile) (s : Machine D) (devs : List D) (i : Parts) : Regs → Nat → Nat → List D → Prop
  /-- The word is not an instruction. -/
  | notInstr : i.op = 0x00 → Cause pf s devs i s.regs 0x01 0 devs
  /-- LSM is reserved to the supervisor. -/
  | reserved : i.op = 0x0F → supervisor s.regs = false → Cause pf s devs i s.regs 0x09 0x0F devs
  /-- An operand may not be read. -/
  | source {n : Nat} : (i.op = 0x0F → supervisor s.regs = true) → i.refused s.regs = some n →
      Cause pf s devs i s.regs (noRead s.regs) n devs
  /-- Forbidden division by zero. -/
  | divByZero : i.op = 0x06 ∨ i.op = 0x07 → i.refused s.regs = none → i.divByZero s.regs → Cause pf s devs i s.regs 0x0A 0 devs
  /-- Overflow of a division. -/
  | divOverflow : i.op = 0x06 ∨ i.op = 0x07 → i.refused s.regs = none → i.divOverflow s.regs → Cause pf s devs i s.regs 0x0B 0 devs
  /-- An interruption. -/
  | interruption : i.op = 0x10 → i.refused s.regs = none →
      Cause pf s devs i s.regs 0xF0 ((operand1 s.regs i.r0 i.p0).toNat % 2 ^ 16) devs
  /-- IF and IFN: unknown flag. -/
  | flag : i.op = 0x11 ∨ i.op = 0x12 → i.refused s.regs = none → 7 < (operand1 s.regs i.r0 i.p0).toNat →
      Cause pf s devs i s.regs 0x0C ((operand1 s.regs i.r0 i.p0).toNat % 256) devs
  /-- IF2: unknown condition. -/
  | condition : i.op = 0x13 → i.refused s.regs = none →
      (pf = .debug → (operand1 s.regs i.r0 i.p0).toNat ≤ 7 ∧ (operand1 s.regs i.r1 i.p1).toNat ≤ 7) →
      ¬ (1 ≤ (operand1 s.regs i.r2 i.p2).toNat ∧ (operand1 s.regs i.r2 i.p2).toNat ≤ 7) →
      Cause pf s devs i s.regs 0x0D ((operand1 s.regs i.r2 i.p2).toNat % 256) devs
  /-- The memory refuses to be read. -/
  | load {v : Word} {c d : Nat} {devs' : List D} : i.refused s.regs = none → i.adds pf s.regs → i.loadsFrom s.regs = some v →
      LoadFaults pf s devs v c d devs' → Cause pf s devs i s.regs c d devs'
  /-- The memory refuses to be written. -/
  | store {v w : Word} {c d : Nat} {devs' : List D} : i.refused s.regs = none → i.adds pf s.regs →
      i.storesTo s.regs = some (v, w) → StoreFaults pf s devs v w c d devs' → Cause pf s devs i s.regs c d devs'
  /-- SRM: the register may not be read. -/
  | swapSource {v w : Word} {devs' : List D} : i.op = 0x18 → i.refused s.regs = none → i.adds pf s.regs →
      i.loadsFrom s.regs = some v → Loads pf s devs v w devs' → mayRead (supervisor s.regs) i.p2.toNat = false →
      Cause pf s devs i s.regs (noRead s.regs) i.p2.toNat devs'
  /-- SRM: the memory refuses to be written. -/
  | swapStore {v w : Word} {c d : Nat} {devs' devs'' : List D} : i.op = 0x18 → i.refused s.regs = none → i.adds pf s.regs →
      i.loadsFrom s.regs = some v → Loads pf s devs v w devs' → mayRead (supervisor s.regs) i.p2.toNat = true →
      StoreFaults pf s devs' v (reg s.regs i.p2.toNat) c d devs'' → Cause pf s devs i s.regs c d devs''
  /-- SRM: the register may not be written (the memory has been). -/
  | swapDest {v w : Word} {devs' devs'' : List D} : i.op = 0x18 → i.refused s.regs = none → i.adds pf s.regs →
      i.loadsFrom s.regs = some v → Loads pf s devs v w devs' → mayRead (supervisor s.regs) i.p2.toNat = true →
      Stores pf s devs' v (reg s.regs i.p2.toNat) devs'' → mayWrite (supervisor s.regs) i.p2.toNat = false →
      Cause pf s devs i s.regs (noWrite s.regs i.p2.toNat) i.p2.toNat devs''
  /-- CPY, the operations on numbers and CYCLES: the destination may not be written. -/
  | dest : i.op.toNat ∈ [0x01, 0x03, 0x04, 0x05, 0x08, 0x09, 0x0A, 0x0B, 0x0C, 0x1D] → i.refused s.regs = none →
      mayWrite (supervisor s.regs) i.p0.toNat = false →
      Cause pf s devs i s.regs (noWrite s.regs i.p0.toNat) i.p0.toNat devs
  /-- DIV and MOD: the destination may not be written. -/
  | divDest : i.op = 0x06 ∨ i.op = 0x07 → i.refused s.regs = none → ¬ i.divByZero s.regs → ¬ i.divOverflow s.regs →
      mayWrite (supervisor s.regs) i.p0.toNat = false →
      Cause pf s devs i s.regs (noWrite s.regs i.p0.toNat) i.p0.toNat devs
  /-- LSA: the destination may not be written. -/
  | loadDest {v w : Word} {devs' : List D} : i.op = 0x14 → i.refused s.regs = none → i.loadsFrom s.regs = some v →
      Loads pf s devs v w devs' → mayWrite (supervisor s.regs) i.p0.toNat = false →
      Cause pf s devs i s.regs (noWrite s.regs i.p0.toNat) i.p0.toNat devs'
  /-- POP: the destination may not be written (the stack pointer has moved). -/
  | popDest {v w : Word} {devs' : List D} : i.op = 0x1A → i.loadsFrom s.regs = some v → Loads pf s devs v w devs' →
      mayWrite (supervisor s.regs) i.p0.toNat = false →
      Cause pf s devs i (withStackPtr s.regs (stackPtr s.regs + 4)) (noWrite s.regs i.p0.toNat) i.p0.toNat devs'
  /-- EX: the first register may not be written. -/
  | exFirst : i.op = 0x02 → i.refused s.regs = none → mayWrite (supervisor s.regs) i.p0.toNat = false →
      Cause pf s devs i s.regs (noWrite s.regs i.p0.toNat) i.p0.toNat devs
  /-- EX: the second register may not be written, in the mode that the first write leads to (the first register has been). -/
  | exSecond {r : Regs} : i.op = 0x02 → i.refused s.regs = none → mayWrite (supervisor s.regs) i.p0.toNat = true →
      r = setReg s.regs i.p0.toNat (reg s.regs i.p1.toNat) → mayWrite (supervisor r) i.p1.toNat = false →
      Cause pf s devs i r (noWrite r i.p1.toNat) i.p1.toNat devs
  /-- HWD cannot answer. -/
  | hw {c d : Nat} : i.op = 0x1C → i.refused s.regs = none → ¬ i.hwCount s.regs → HwRefusal s i c d →
      Cause pf s devs i s.regs c d devs
  /-- HWD: the destination may not be written. -/
  | hwDest : i.op = 0x1C → i.refused s.regs = none → (i.hwCount s.regs ∨ ∀ c d, ¬ HwRefusal s i c d) →
      (i.hwInfo s.regs = 0xA2 → ∀ m, rangeOf s.mappings (i.hwId s.regs) = some m → endFits pf m) →
      mayWrite (supervisor s.regs) i.p0.toNat = false →
      Cause pf s devs i s.regs (noWrite s.regs i.p0.toNat) i.p0.toNat devs
  /-- RESET of a component that does not exist. -/
  | reset : i.op = 0x1F → i.refused s.regs = none → (operand1 s.regs i.r0 i.p0).toNat % 16 = 1 →
      devs.length ≤ s.regs.avr.toNat → Cause pf s devs i s.regs 0x10 (s.regs.avr.toNat % 2 ^ 16) devs

end Lrvm.Spec
