import Verif.Model.Devices.FileBacked

/-!
# Stopping in the middle of a write to a file (`lrvm_aux/src/storage/file_backed.rs`)

`FileBackedMem::write` is one call of `seek` then one of `write_all`, which hands the four bytes to the operating system in
one or several pieces. When the process stops in the meantime (it is killed, or one of the two `unwrap` panics because the
operating system refused the call), the file holds the bytes handed so far. The other requests do not change the file.
-/

namespace Lrvm

/-- What the file may hold when the process stops during `FileBackedMem::write`, `lrvm_aux/src/storage/file_backed.rs:125-132`,
and how many of the four bytes were written: none before `write_all` (`:130`), or if the component refuses the write or
ignores it; any number of them during it. Simplified: the bytes reach the file in order (`write_all` on a file). -/
inductive FileBackedMem.StoppedInWrite (d : FileBackedMem) (addr word : Word) : Nat → List U8 → Prop
  | before : StoppedInWrite d addr word 0 d.file
  | during {k : Nat} : d.writable = true → addr < d.realSize → d.broken d.calls = false → k ≤ 4 →
      StoppedInWrite d addr word k (overwrite d.file addr.toNat ((beBytes 4 word).take k))

end Lrvm
