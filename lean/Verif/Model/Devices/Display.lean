import Verif.Model.Devices.Memory
import Verif.Model.Text

/-!
# Displays (`lrvm_aux/src/display/*.rs`) and the debug interface (`lrvm_aux/src/debug/basic.rs`)

A handler (`Box<dyn FnMut(..)>`) is modelled by the list of the arguments of its calls, oldest first, kept in the component.
Simplification: handlers return normally and do not touch the machine. `Utf8Error` values are not modelled.
-/

namespace Lrvm

/-- Argument of the handler of a buffered display, `DecodedStr`, `lrvm_aux/src/display/buffered.rs:13`. -/
abbrev DecodedStr := Except (List U8) (List Char)

/-- `BufferedDisplay`, `lrvm_aux/src/display/buffered.rs:26-31`. -/
structure BufferedDisplay where
  buffer : List Word
  words : Word
  hwId : U64
  calls : List DecodedStr

/-- `BufferedDisplay::new`, `lrvm_aux/src/display/buffered.rs:39-64`. -/
def BufferedDisplay.new (capacity : Word) (hwId : U64) : Option BufferedDisplay :=
  if capacity = 0 then none
  else if capacity % 4 ≠ 0 then none
  else
    let capacity := capacity / 4
    some { buffer := List.replicate (capacity - 1).toNat 0, words := capacity - 1, hwId, calls := [] }

/-- `BufferedDisplay::reset`, `lrvm_aux/src/display/buffered.rs:125-127`. -/
def BufferedDisplay.clear (d : BufferedDisplay) : BufferedDisplay :=
  { d with buffer := List.replicate d.buffer.length 0 }

/-- `from_utf8(&bytes).map_err(|err| (err, bytes))`, `lrvm_aux/src/display/buffered.rs:111`. -/
def decodeStr (bytes : List U8) : DecodedStr :=
  match fromUtf8 bytes with
  | some t => .ok t
  | none => .error bytes

/-- `BufferedDisplay::write`, `lrvm_aux/src/display/buffered.rs:100-123`. -/
def BufferedDisplay.write (d : BufferedDisplay) (addr word : Word) (ex : U16) : Res (BufferedDisplay × U16) :=
  let addr := addr / 4
  if addr < d.words then
    if addr.toNat < d.buffer.length then some ({ d with buffer := d.buffer.set addr.toNat word }, ex) else none
  else
    match word.toNat with
    | 0xAA => some ({ d with calls := d.calls ++ [decodeStr (wordsToBytes d.buffer)] }, ex)
    | 0xBB => some ({ d with calls := d.calls ++ [.ok (fromUtf8Lossy (wordsToBytes d.buffer))] }, ex)
    | 0xFF => some (d.clear, ex)
    | _ => some (d, (AuxHwException.unknownOperation (word.setWidth 8)).encode)

/-- `impl Bus for BufferedDisplay`, `lrvm_aux/src/display/buffered.rs:79-128`. -/
instance : Bus BufferedDisplay where
  name _ := "Buffered Display".toList
  metadata pf d := do
    let t ← pf.mul d.words 4
    let bytes ← pf.add t 4
    let m ← DeviceMetadata.new d.hwId bytes (.display .buffered) none none
    m.encode
  read d _ _ := some (d, 0, AuxHwException.memoryNotReadable.encode)
  write := BufferedDisplay.write
  reset d := some d.clear

/-- `CharDisplay`, `lrvm_aux/src/display/character.rs:14-17`. -/
structure CharDisplay where
  hwId : U64
  calls : List (Except Word Char)

/-- `CharDisplay::new`, `lrvm_aux/src/display/character.rs:21-23`. -/
def CharDisplay.new (hwId : U64) : CharDisplay := { hwId, calls := [] }

/-- `std::char::from_u32(word).ok_or(word)`, `lrvm_aux/src/display/character.rs:53`. -/
def charOrWord (w : Word) : Except Word Char :=
  match charFromU32 w with
  | some c => .ok c
  | none => .error w

/-- `impl Bus for CharDisplay`, `lrvm_aux/src/display/character.rs:38-57`. -/
instance : Bus CharDisplay where
  name _ := "Character Display".toList
  metadata _ d := do
    let m ← DeviceMetadata.new d.hwId 4 (.display .buffered) none none
    m.encode
  read d _ _ := some (d, 0, AuxHwException.memoryNotReadable.encode)
  write d _ word ex := some ({ d with calls := d.calls ++ [charOrWord word] }, ex)
  reset d := some d

/-- `NumberDisplayFormat`, `lrvm_aux/src/display/number.rs:14-23`. -/
inductive NumberFormat
  | hex | hexLong | dec | decLong
  deriving DecidableEq, Repr

/-- `NumberDisplay`, `lrvm_aux/src/display/number.rs:32-37`. -/
structure NumberDisplay where
  hwId : U64
  calls : List (Word × NumberFormat × Bool)

/-- `NumberDisplay::new`, `lrvm_aux/src/display/number.rs:43-45`. -/
def NumberDisplay.new (hwId : U64) : NumberDisplay := { hwId, calls := [] }

/-- The `match` of `NumberDisplay::write`, `lrvm_aux/src/display/number.rs:84-90`. -/
def NumberFormat.of : Nat → Res NumberFormat
  | 0 => some .hex
  | 4 => some .hexLong
  | 8 => some .dec
  | 12 => some .decLong
  | _ => none

/-- `NumberDisplay::write`, `lrvm_aux/src/display/number.rs:83-95`. -/
def NumberDisplay.write (d : NumberDisplay) (addr word : Word) (ex : U16) : Res (NumberDisplay × U16) := do
  let fmt ← NumberFormat.of (addr % 16).toNat
  some ({ d with calls := d.calls ++ [(word, fmt, decide (addr < 16))] }, ex)

/-- `impl Bus for NumberDisplay`, `lrvm_aux/src/display/number.rs:69-98`. -/
instance : Bus NumberDisplay where
  name _ := "Number Display".toList
  metadata _ d := do
    let m ← DeviceMetadata.new d.hwId 64 (.display .number) none none
    m.encode
  read d _ _ := some (d, 0, AuxHwException.memoryNotReadable.encode)
  write := NumberDisplay.write
  reset d := some d

/-- `DebugInfo`, `lrvm_aux/src/debug/basic.rs:33-50`. The signed types `i8`, `i16`, `i32` are given by their bits. -/
inductive DebugInfo
  | unsignedByteHex (n : U8)
  | unsignedHalfWordHex (n : U16)
  | unsignedWordHex (n : Word)
  | signedByteHex (n : U8)
  | signedHalfWordHex (n : U16)
  | signedWordHex (n : Word)
  | unsignedByteDec (n : U8)
  | unsignedHalfWordDec (n : U16)
  | unsignedWordDec (n : Word)
  | signedByteDec (n : U8)
  | signedHalfWordDec (n : U16)
  | signedWordDec (n : Word)
  | boolean (b : Bool)
  | utf8Char (c : Except Word Char)
  | encodingAgnosticChar (c : Word)
  | debugMessage

/-- `BasicDebug`, `lrvm_aux/src/debug/basic.rs:27-30`. -/
structure BasicDebug where
  hwId : U64
  calls : List DebugInfo

/-- `BasicDebug::new`, `lrvm_aux/src/debug/basic.rs:55-57`. -/
def BasicDebug.new (hwId : U64) : BasicDebug := { hwId, calls := [] }

/-- The `match` of `BasicDebug::write`, `lrvm_aux/src/debug/basic.rs:135-153`. -/
def DebugInfo.of (index : Nat) (word : Word) : Res DebugInfo :=
  match index with
  | 0 => some (.unsignedByteHex (word.setWidth 8))
  | 1 => some (.unsignedHalfWordHex (word.setWidth 16))
  | 2 => some (.unsignedWordHex word)
  | 3 => some (.signedByteHex (word.setWidth 8))
  | 4 => some (.signedHalfWordHex (word.setWidth 16))
  | 5 => some (.signedWordHex word)
  | 6 => some (.unsignedByteDec (word.setWidth 8))
  | 7 => some (.unsignedHalfWordDec (word.setWidth 16))
  | 8 => some (.unsignedWordDec word)
  | 9 => some (.signedByteDec (word.setWidth 8))
  | 10 => some (.signedHalfWordDec (word.setWidth 16))
  | 11 => some (.signedWordDec word)
  | 12 => some (.boolean (word != 0))
  | 13 => some (.utf8Char (charOrWord word))
  | 14 => some (.encodingAgnosticChar word)
  | 15 => some .debugMessage
  | _ => none

/-- `impl Bus for BasicDebug`, `lrvm_aux/src/debug/basic.rs:113-159`. -/
instance : Bus BasicDebug where
  name _ := "Basic Debug Interface".toList
  metadata _ d := do
    let m ← DeviceMetadata.new d.hwId 32 (.debug .basic) none none
    m.encode
  read d _ _ := some (d, 0, AuxHwException.memoryNotReadable.encode)
  write d addr word ex := do
    let info ← DebugInfo.of (addr / 4).toNat word
    some ({ d with calls := d.calls ++ [info] }, ex)
  reset d := some d

end Lrvm
