import Verif.Model.Devices.Memory

/-!
# File-backed memory (`lrvm_aux/src/storage/file_backed.rs`)

The file is its list of bytes, used by the component alone. `broken n` tells whether the operating system refuses the
component's I/O call number `n` (`seek`, `read_exact`, `write_all`); `calls` counts them. The position left by `seek` is
always used by the next call, so it is not kept. The constructors return `none` for an I/O error and for the panic on files
of 4 GB or more (the path and the permissions are not modelled; the message on stdout is in `Model/Warnings.lean`).
-/

namespace Lrvm

/-- `FileBackedMem`, `lrvm_aux/src/storage/file_backed.rs:20-26`. -/
structure FileBackedMem where
  file : List U8
  broken : Nat → Bool
  calls : Nat
  size : Word
  realSize : Word
  writable : Bool
  hwId : U64

/-- `FileBackedMem::open`, `lrvm_aux/src/storage/file_backed.rs:30-56`. -/
def FileBackedMem.open (file : List U8) (broken : Nat → Bool) (writable : Bool) (hwId : U64) : Option FileBackedMem :=
  if 4294967296 ≤ file.length then none
  else
    let realSize : Word := BitVec.ofNat 32 file.length / 4 * 4
    some { file, broken, calls := 0, size := realSize, realSize, writable, hwId }

/-- `FileBackedMem::writable`, `lrvm_aux/src/storage/file_backed.rs:59-61`. -/
def FileBackedMem.openWritable (file : List U8) (broken : Nat → Bool) (hwId : U64) : Option FileBackedMem :=
  FileBackedMem.open file broken true hwId

/-- `FileBackedMem::writable_with_size`, `lrvm_aux/src/storage/file_backed.rs:64-74` (`File::set_len` pads with
zeros, and cuts an unaligned file that is longer than `size`). -/
def FileBackedMem.writableWithSize (file : List U8) (broken : Nat → Bool) (size : Word) (hwId : U64) :
    Option FileBackedMem := do
  let mem ← FileBackedMem.openWritable file broken hwId
  if size < mem.realSize then some { mem with size := size }
  else if mem.realSize < size then
    if mem.broken mem.calls then none
    else some { mem with
      file := mem.file.take size.toNat ++ List.replicate (size.toNat - mem.file.length) 0, calls := mem.calls + 1 }
  else some mem

/-- `FileBackedMem::readonly`, `lrvm_aux/src/storage/file_backed.rs:77-79`. -/
def FileBackedMem.readonly (file : List U8) (broken : Nat → Bool) (hwId : U64) : Option FileBackedMem :=
  FileBackedMem.open file broken false hwId

/-- `FileBackedMem::readonly_with_size`, `lrvm_aux/src/storage/file_backed.rs:82-86`. -/
def FileBackedMem.readonlyWithSize (file : List U8) (broken : Nat → Bool) (size : Word) (hwId : U64) :
    Option FileBackedMem := do
  let mem ← FileBackedMem.readonly file broken hwId
  some { mem with size := size }

/-- `u32::from_be_bytes`. -/
def fromBe : List U8 → Word
  | [a, b, c, d] => a ++ b ++ c ++ d
  | _ => 0

/-- Overwriting bytes of a file from an offset, `Write::write_all` after `seek` (a hole is filled with zeros). -/
def overwrite (file : List U8) (off : Nat) (bytes : List U8) : List U8 :=
  (file ++ List.replicate (off - file.length) 0).take off ++ bytes ++ file.drop (off + bytes.length)

/-- `FileBackedMem::read`, `lrvm_aux/src/storage/file_backed.rs:105-123`. `read_exact` also fails at the end of the file. -/
def FileBackedMem.read (d : FileBackedMem) (addr : Word) (ex : U16) : Res (FileBackedMem × Word × U16) :=
  if addr ≥ d.realSize then some (d, 0, ex)
  else if d.broken d.calls then
    some ({ d with calls := d.calls + 1 }, 0, AuxHwException.genericPhysicalReadError.encode)
  else if d.broken (d.calls + 1) ∨ d.file.length < addr.toNat + 4 then
    some ({ d with calls := d.calls + 2 }, 0, AuxHwException.genericPhysicalReadError.encode)
  else some ({ d with calls := d.calls + 2 }, fromBe ((d.file.drop addr.toNat).take 4), ex)

/-- `FileBackedMem::write`, `lrvm_aux/src/storage/file_backed.rs:125-132`: the two `unwrap` panic on an I/O error. -/
def FileBackedMem.write (d : FileBackedMem) (addr word : Word) (ex : U16) : Res (FileBackedMem × U16) :=
  if d.writable = false then some (d, AuxHwException.memoryNotWritable.encode)
  else if addr < d.realSize then
    if d.broken d.calls ∨ d.broken (d.calls + 1) then none
    else some ({ d with file := overwrite d.file addr.toNat (beBytes 4 word), calls := d.calls + 2 }, ex)
  else some (d, ex)

/-- `impl Bus for FileBackedMem`, `lrvm_aux/src/storage/file_backed.rs:89-135`. -/
instance : Bus FileBackedMem where
  name _ := "Persistent Memory".toList
  metadata pf d := do
    let bytes ← pf.mul d.size 4
    let m ← DeviceMetadata.new d.hwId bytes (.storage .persistent) none none
    m.encode
  read := FileBackedMem.read
  write := FileBackedMem.write
  reset d := some d

end Lrvm
