import Verif.Model.Devices.Memory

/-!
# Keyboards (`lrvm_aux/src/keyboard/*.rs`)

The input handler is modelled by the sequence of its answers: `input n` is what its call number `n` returns, and the
component counts its calls in `asked`. The warning on stderr is in `Model/Warnings.lean`.
-/

namespace Lrvm

/-- `SyncCharKeyboard`, `lrvm_aux/src/keyboard/sync_char.rs:20-24`. -/
structure SyncCharKeyboard where
  buffer : Char
  input : Nat → Char
  asked : Nat
  hwId : U64

/-- `SyncCharKeyboard::new`, `lrvm_aux/src/keyboard/sync_char.rs:28-34`. -/
def SyncCharKeyboard.new (input : Nat → Char) (hwId : U64) : SyncCharKeyboard :=
  { buffer := Char.ofNat 0, input, asked := 0, hwId }

/-- `SyncCharKeyboard::read`, `lrvm_aux/src/keyboard/sync_char.rs:53-62`. -/
def SyncCharKeyboard.read (d : SyncCharKeyboard) (addr : Word) (ex : U16) : Res (SyncCharKeyboard × Word × U16) :=
  if addr = 0 then some (d, BitVec.ofNat 32 d.buffer.toNat, ex)
  else if addr = 4 then some (d, 0, AuxHwException.memoryNotReadable.encode)
  else none

/-- `SyncCharKeyboard::write`, `lrvm_aux/src/keyboard/sync_char.rs:64-76`. -/
def SyncCharKeyboard.write (d : SyncCharKeyboard) (addr word : Word) (ex : U16) : Res (SyncCharKeyboard × U16) :=
  if addr = 0 then some (d, 0x31 <<< 8)
  else if addr = 4 then
    match word.toNat with
    | 0x01 => some ({ d with buffer := d.input d.asked, asked := d.asked + 1 }, ex)
    | 0x02 => some ({ d with buffer := Char.ofNat 0 }, ex)
    | _ => some (d, (AuxHwException.unknownOperation (word.setWidth 8)).encode)
  else none

/-- `impl Bus for SyncCharKeyboard`, `lrvm_aux/src/keyboard/sync_char.rs:37-81`. -/
instance : Bus SyncCharKeyboard where
  name _ := "Synchronous Character Keyboard".toList
  metadata _ d := do
    let m ← DeviceMetadata.new d.hwId 8 (.keyboard .readCharSynchronous) none none
    m.encode
  read := SyncCharKeyboard.read
  write := SyncCharKeyboard.write
  reset d := some { d with buffer := Char.ofNat 0 }

/-- `SyncLineKeyboard`, `lrvm_aux/src/keyboard/sync_line.rs:20-25`. -/
structure SyncLineKeyboard where
  buffer : List Word
  capacity : Word
  input : Nat → List Char
  asked : Nat
  hwId : U64

/-- `SyncLineKeyboard::new`, `lrvm_aux/src/keyboard/sync_line.rs:32-57`. -/
def SyncLineKeyboard.new (capacity : Word) (input : Nat → List Char) (hwId : U64) : Option SyncLineKeyboard :=
  if capacity % 4 ≠ 0 then none
  else if capacity = 0 then none
  else
    let capacity := capacity / 4
    some { buffer := List.replicate (capacity - 1).toNat 0, capacity := capacity - 1, input, asked := 0, hwId }

/-- The loop and the final partial word, `lrvm_aux/src/keyboard/sync_line.rs:92-123`, from the current partial word, byte
index and position (the bytes fill disjoint bits of the word: the plain addition cannot overflow). Returns the buffer at
the end or at the early `return`. -/
def lineLoop : (word : Word) → (byteIndex pos : Nat) → (buffer : List Word) → List U8 → List Word
  | word, byteIndex, pos, buffer, [] =>
    if byteIndex > 0 then
      if pos ≥ buffer.length then buffer else buffer.set pos word
    else buffer
  | word, byteIndex, pos, buffer, byte :: bytes =>
    let word := word + (byte.setWidth 32 <<< ((3 - byteIndex) * 8))
    if byteIndex = 3 then
      if pos ≥ buffer.length then buffer
      else lineLoop 0 0 (pos + 1) (buffer.set pos word) bytes
    else lineLoop word (byteIndex + 1) pos buffer bytes

/-- `SyncLineKeyboard::write`, `lrvm_aux/src/keyboard/sync_line.rs:86-129`. -/
def SyncLineKeyboard.write (d : SyncLineKeyboard) (addr word : Word) (ex : U16) : Res (SyncLineKeyboard × U16) :=
  if addr / 4 ≠ d.capacity then some (d, 0x31 <<< 8)
  else
    match word.toNat with
    | 0xAA => some ({ d with buffer := lineLoop 0 0 0 d.buffer (utf8 (d.input d.asked)), asked := d.asked + 1 }, ex)
    | 0xFF => some ({ d with buffer := List.replicate d.buffer.length 0 }, ex)
    | _ => some (d, (AuxHwException.unknownOperation (word.setWidth 8)).encode)

/-- `impl Bus for SyncLineKeyboard`, `lrvm_aux/src/keyboard/sync_line.rs:60-134`. -/
instance : Bus SyncLineKeyboard where
  name _ := "Synchronous Line Keyboard".toList
  metadata pf d := do
    let t ← pf.mul d.capacity 4
    let bytes ← pf.add t 4
    let m ← DeviceMetadata.new d.hwId bytes (.keyboard .readLineSynchronous) none none
    m.encode
  read d addr ex :=
    let addr := addr / 4
    if addr = d.capacity then some (d, 0, ex)
    else do
      let w ← d.buffer[addr.toNat]?
      some (d, w, ex)
  write := SyncLineKeyboard.write
  reset d := some { d with buffer := List.replicate d.buffer.length 0 }

end Lrvm
