import Verif.Model.Board
import Verif.Spec.Wiring

/-!
# Vocabulary: memories that answer alike
-/

namespace Lrvm.Spec

/-- An access to the memory at a physical address. -/
inductive Access
  | read (a : Word)
  | write (a w : Word)

/-- The host's access (`MappedMemory::read` and `write`): the word read (0 for a write) and the exception variable afterwards. -/
def access [Bus D] (pf : Profile) (s : Machine D) : Access → Res (Machine D × Word × U16)
  | .read a => (memRead pf s a 0).map fun (w, ex, s') => (s', w, ex)
  | .write a w => (memWrite pf s a w 0).map fun (ex, s') => (s', 0, ex)

/-- A sequence of accesses, and their answers. -/
def accesses [Bus D] (pf : Profile) : Machine D → List Access → Res (Machine D × List (Word × U16))
  | s, [] => some (s, [])
  | s, x :: xs => do
    let (s, r) ← access pf s x
    let (s, rs) ← accesses pf s xs
    some (s, r :: rs)

/-- The memories of the two machines give the same answers to every sequence of accesses (or both panic). -/
def SameMemory [Bus D] (pf : Profile) (s t : Machine D) : Prop :=
  ∀ l : List Access, (accesses pf s l).map (·.2) = (accesses pf t l).map (·.2)

/-- The tables of two boards which differ in one memory: component `k` in the range `whole`, or components `k` and `k + 1` in its two parts, one after
the other. The other mappings are `maps`. -/
structure CutTables (pf : Profile) (k : Nat) (maps : List Mapping) (whole part1 part2 : Mapping) : Prop where
  ids : whole.auxId = k ∧ part1.auxId = k ∧ part2.auxId = k + 1
  starts : part1.addr = whole.addr ∧ part2.addr.toNat = whole.addr.toNat + part1.size.toNat
  sizes : whole.size.toNat = part1.size.toNat + part2.size.toNat
  known : ∀ m ∈ maps, m.auxId < k
  table : TableOk pf (maps ++ [whole])
  table' : TableOk pf (maps ++ [part1, part2])

end Lrvm.Spec
