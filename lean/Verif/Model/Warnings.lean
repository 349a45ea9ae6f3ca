import Verif.Model.Mem
import Verif.Model.Devices.Keyboard
import Verif.Model.Devices.FileBacked
import Verif.Model.Tools.Describe

/-!
# Warnings printed on stderr or stdout

The functions of `Model/Mem.lean`, `Model/Devices/Keyboard.lean` and `Model/Devices/FileBacked.lean` give the effects of the
calls; the functions below give the lines the same calls print, following the same control flow. `cfg!(debug_assertions)`
holds of the builds with overflow checks (`Profile.debug`), as in Cargo's own profiles.
-/

namespace Lrvm

/-- The lines printed by `MappedMemory::read`, `lrvm/src/mem/mem.rs:94-118`. -/
def memReadPrinted {D : Type} (pf : Profile) (s : Machine D) (addr : Word) : Res (List Text) := do
  assert (addr % 4 == 0)
  match ← findMapping pf s.mappings addr with
  | some _ => some []
  | none =>
    some (if pf = .debug then
      ["Warning: tried to read non-mapped memory at address ".toList ++ fmtHex 10 addr.toNat] else [])

/-- The lines printed by `MappedMemory::write`, `lrvm/src/mem/mem.rs:124-144`. -/
def memWritePrinted {D : Type} (pf : Profile) (s : Machine D) (addr : Word) : Res (List Text) := do
  assert (addr % 4 == 0)
  match ← findMapping pf s.mappings addr with
  | some _ => some []
  | none =>
    some (if pf = .debug then
      ["Warning: tried to write non-mapped memory at address ".toList ++ fmtHex 10 addr.toNat] else [])

/-- The lines printed by the loop of `SyncLineKeyboard::write`, `lrvm_aux/src/keyboard/sync_line.rs:92-123`, for a buffer of
`size` words: `warning` at the early `return`s. The contents of the words have no influence. -/
def lineLoopPrinted (warning : Text) (size : Nat) : (byteIndex pos : Nat) → List U8 → List Text
  | byteIndex, pos, [] =>
    if byteIndex > 0 then
      if pos ≥ size then [warning] else []
    else []
  | byteIndex, pos, _ :: bytes =>
    if byteIndex = 3 then
      if pos ≥ size then [warning]
      else lineLoopPrinted warning size 0 (pos + 1) bytes
    else lineLoopPrinted warning size (byteIndex + 1) pos bytes

/-- The lines printed by `SyncLineKeyboard::write`, `lrvm_aux/src/keyboard/sync_line.rs:86-129` (`self.capacity * 4` is
computed when the warning is printed only: the capacity is below `2 ^ 30`, so that it does not overflow). -/
def SyncLineKeyboard.writePrinted (d : SyncLineKeyboard) (addr word : Word) : List Text :=
  if addr / 4 ≠ d.capacity then []
  else
    match word.toNat with
    | 0xAA => lineLoopPrinted
        ("Warning: input is too long for synchronous keyboard's buffer (max. ".toList ++ fmtDec (d.capacity * 4).toNat
          ++ " bytes)".toList) d.buffer.length 0 0 (utf8 (d.input d.asked))
    | _ => []

/-- The lines printed by `FileBackedMem::open`, `lrvm_aux/src/storage/file_backed.rs:30-56`, and by the four constructors,
which all call it once. -/
def FileBackedMem.openPrinted (file : List U8) : List Text :=
  if 4294967296 ≤ file.length then []
  else
    let realSize : Word := BitVec.ofNat 32 file.length / 4 * 4
    if realSize ≠ BitVec.ofNat 32 file.length then
      ["Warning: opened unaligned file as aligned (rounded size to nearest lower multiple of 4 bytes)".toList]
    else []

end Lrvm
