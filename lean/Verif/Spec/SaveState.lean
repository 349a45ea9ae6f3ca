import Verif.Spec.SameMemory
import Verif.Spec.Component

/-!
# Vocabulary: saving a machine and restoring it through the host's interface
-/

namespace Lrvm.Spec

/-- The host reads the words at these addresses (`MappedMemory::read`); the addresses and words, and the machine afterwards. -/
def save [Bus D] (pf : Profile) : List Word → Machine D → Res (List (Word × Word) × Machine D)
  | [], s => some ([], s)
  | a :: as, s => do
    let (w, _, s) ← memRead pf s a 0
    let (l, s) ← save pf as s
    some ((a, w) :: l, s)

/-- The host sets the registers (`cpu.regs`) and writes the words (`MappedMemory::write`). -/
def restore (r : Regs) (l : List (Word × Word)) : List HostOp :=
  .setRegs (fun _ => r) :: l.map fun p => .memWrite p.1 p.2 0

/-- The machines have the same mapping table and the same components, except those numbered `i` with `mem i`: these are arrays of words
(`WordMemory`), of any contents, mapped within their size. -/
structure SameButContents [Bus D] (pf : Profile) (mem : Nat → Prop) (s t : Machine D) : Prop where
  maps : s.mappings = t.mappings
  table : TableOk pf s.mappings
  others : ∀ i, ¬ mem i → s.devs[i]? = t.devs[i]?
  memories : ∀ i, mem i → ∃ d e size init init', s.devs[i]? = some d ∧ t.devs[i]? = some e ∧ WordMemory pf d size init ∧
    WordMemory pf e size init' ∧ ∀ m ∈ s.mappings, m.auxId = i → m.size.toNat ≤ size

/-- The list contains the addresses of the words of these memories, and no other. -/
def Lists (mem : Nat → Prop) (maps : List Mapping) (l : List Word) : Prop :=
  ∀ a, a ∈ l ↔ a.toNat % 4 = 0 ∧ ∃ m ∈ maps, mem m.auxId ∧ covers m a

end Lrvm.Spec
