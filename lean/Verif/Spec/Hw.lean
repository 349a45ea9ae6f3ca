import Verif.Spec.Memory

/-!
# Specification vocabulary for HWD, component names and RESET

Transcription of the tables of `docs/Architecture.md` ("`HWD`", "`RESET`"). Nothing here uses the model's
hardware bridge.
-/

namespace Lrvm.Spec

/-- The UTF-8 encoding of a text, as numbers. -/
def utf8Bytes (s : List Char) : List Nat := (s.flatMap String.utf8EncodeChar).map UInt8.toNat

/-- `shown` is what is displayed of the name `full`: the longest prefix made of whole characters that fits in 32
bytes. -/
structure Shown (full shown : List Char) : Prop where
  isPrefix : shown <+: full
  fits : (utf8Bytes shown).length ≤ 32
  longest : ∀ p, p <+: full → (utf8Bytes p).length ≤ 32 → p <+: shown

/-- What the hardware reports of a component. -/
structure Component where
  name : List Char
  metadata : Metadata
  /-- First and last address of the component's range, if it is mapped. -/
  range : Option (Nat × Nat)

/-- An answer of HWD: a value for the destination register, or an exception with its data. -/
inductive HwAnswer
  | value (n : Nat)
  | fault (code data : Nat)

/-- Byte `i` of a list of bytes, or zero past its end. -/
def byteAt (bs : List Nat) (i : Nat) : Nat := (bs[i]?).getD 0

/-- The documented table of HWD information codes. -/
def componentAnswer (c : Component) (id code : Nat) : HwAnswer :=
  match code with
  | 0x01 => .value c.metadata[0].toNat
  | 0x02 => .value c.metadata[1].toNat
  | 0x10 => .value (utf8Bytes c.name).length
  | 0x20 => .value c.metadata[2].toNat
  | 0x21 => .value c.metadata[3].toNat
  | 0x22 => .value c.metadata[4].toNat
  | 0x23 => .value c.metadata[5].toNat
  | 0x24 => .value c.metadata[6].toNat
  | 0x25 => .value c.metadata[7].toNat
  | 0xA0 => .value (if c.range.isSome then 1 else 0)
  | 0xA1 => match c.range with
    | some (first, _) => .value first
    | none => .fault 0x12 (id % 2 ^ 16)
  | 0xA2 => match c.range with
    | some (_, last) => .value last
    | none => .fault 0x12 (id % 2 ^ 16)
  | n =>
    if 0x11 ≤ n ∧ n ≤ 0x18 then
      let i := 4 * (n - 0x11)
      let b := byteAt (utf8Bytes c.name)
      .value (b i * 2 ^ 24 + b (i + 1) * 2 ^ 16 + b (i + 2) * 2 ^ 8 + b (i + 3))
    else .fault 0x11 (n % 2 ^ 16)

/-- The answer of HWD on a board with the given components. -/
def hwAnswer (cs : List Component) (id code : Nat) : HwAnswer :=
  if id = 0 ∧ code = 0 then .value cs.length
  else match cs[id]? with
    | none => .fault 0x10 (id % 2 ^ 16)
    | some c => componentAnswer c id code

/-- The list `cs` describes the components `devs` (as they were when the board was built) with the given mapping
table: names cut to 32 bytes, metadata, and the range of those that are mapped. -/
def Describes [Bus D] (pf : Profile) (devs : List D) (maps : List Mapping) (cs : List Component) : Prop :=
  cs.length = devs.length ∧
  ∀ i d c, devs[i]? = some d → cs[i]? = some c →
    Shown (Bus.name d) c.name ∧ Bus.metadata pf d = some c.metadata ∧
    ∀ a b, c.range = some (a, b) ↔
      ∃ m ∈ maps, m.auxId = i ∧ a = m.addr.toNat ∧ b = m.addr.toNat + m.size.toNat - 1

/-- The registers after HWD with the given destination register and answer. -/
def answered (r : Regs) (dest : Nat) : HwAnswer → Regs
  | .value n => assign r dest (BitVec.ofNat 32 n)
  | .fault code data => trap r code data

/-- Each component satisfying the test has been reset once, the others have not been touched. -/
def ResetWhere [Bus D] (sel : Nat → Bool) (devs devs' : List D) : Prop :=
  devs'.length = devs.length ∧
  ∀ i d, devs[i]? = some d →
    if sel i then ∃ d', Bus.reset d = some d' ∧ devs'[i]? = some d' else devs'[i]? = some d

/-- The components RESET resets according to the documentation, for the lower half of its mode and the value of
`avr`. -/
def docResets (mode avr id : Nat) : Bool :=
  match mode with
  | 0 => true
  | 1 => decide (id = avr)
  | 2 => decide (id ≠ avr)
  | 3 => decide (id ≤ avr)
  | 4 => decide (avr ≤ id)
  | _ => false

/-- The components RESET resets in the code: modes 3 and 4 leave the component named by `avr` alone. -/
def codeResets (mode avr id : Nat) : Bool :=
  match mode with
  | 0 => true
  | 1 => decide (id = avr)
  | 2 => decide (id ≠ avr)
  | 3 => decide (id < avr)
  | 4 => decide (avr < id)
  | _ => false

end Lrvm.Spec
