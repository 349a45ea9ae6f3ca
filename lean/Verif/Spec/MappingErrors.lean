import Verif.Spec.Memory

/-!
# What can be wrong with a mapping request

A request names a component, the address of the first word and (`last`, from the component's size) the address of
the last word, as plain integers: `lrvm/src/mem/mappings.rs:10-34` names the reasons to refuse it, and
`lrvm/src/mem/mem.rs:154-219` the order in which they are looked for.
-/

namespace Lrvm.Spec

variable {D : Type} [Bus D]

/-- The range has an address in common with the request. -/
def Meets (start last : Int) (m : Mapping) : Prop := ∃ a : Word, covers m a ∧ start ≤ a.toNat ∧ a.toNat < last + 4

/-- What each error says of a request, in plain arithmetic. -/
def MapProblem (s : Machine D) (id : Nat) (start : Word) (last : Word → Int) : MappingError → Prop
  | .unknownComponent => s.memCache[id]? = none
  | .unalignedStartAddress => start.toNat % 4 ≠ 0
  | .nullBusSize => ∃ c, s.memCache[id]? = some c ∧ c.size.toNat = 0
  | .unalignedBusSize => ∃ c, s.memCache[id]? = some c ∧ c.size.toNat % 4 ≠ 0
  | .unalignedEndAddress => ∃ c, s.memCache[id]? = some c ∧ last c.size % 4 ≠ 0
  | .nullOrNegAddressRange => ∃ c, s.memCache[id]? = some c ∧
      (last c.size < start.toNat ∨ 2 ^ 32 < last c.size + 4)
  | .mappingTooLarge n => ∃ c, s.memCache[id]? = some c ∧ n = c.size ∧
      (c.size.toNat : Int) < last c.size + 4 - start.toNat
  | .alreadyMapped => ∃ m ∈ s.mappings, m.auxId = id
  | .addressOverlaps m => ∃ c, s.memCache[id]? = some c ∧ ∃ before after, s.mappings = before ++ m :: after ∧
      Meets start.toNat (last c.size) m ∧ ∀ n ∈ before, ¬ Meets start.toNat (last c.size) n

/-- The order in which the problems are looked for. -/
def problemRank : MappingError → Nat
  | .unknownComponent => 0
  | .unalignedStartAddress => 1
  | .nullBusSize => 2
  | .unalignedBusSize => 3
  | .unalignedEndAddress => 4
  | .nullOrNegAddressRange => 5
  | .mappingTooLarge _ => 6
  | .alreadyMapped => 7
  | .addressOverlaps _ => 8

/-- The answer is the first problem of the request, or, if there is none, the range from the first word to the last
word. -/
def TellsProblem (s : Machine D) (id : Nat) (start : Word) (last : Word → Int)
    (res : Except MappingError MappingRange) : Prop :=
  (∀ e, res = .error e ↔ MapProblem s id start last e ∧
    ∀ e', problemRank e' < problemRank e → ¬ MapProblem s id start last e') ∧
  (∀ rng, res = .ok rng ↔ (∀ e, ¬ MapProblem s id start last e) ∧ rng.startAddr = start ∧
    ∃ c, s.memCache[id]? = some c ∧ (rng.endAddr.toNat : Int) = last c.size)

/-- The address of the last word of a range that starts at `start` and has the size of the component. -/
def wholeLast (start size : Word) : Int := (start.toNat : Int) + size.toNat - 4

end Lrvm.Spec
