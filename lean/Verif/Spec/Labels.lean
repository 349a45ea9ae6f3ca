import Verif.Spec.Isa
import Verif.Model.Board

/-!
# Names and identifiers of components
-/

namespace Lrvm.Spec

/-- The HWD informations that tell who a component is: its identifier (0x01, 0x02), its name (0x10 to 0x18), its category,
type, model and data (0x21 to 0x25). The others are the number of components, their size and where they are mapped. -/
def labelInfos : List Nat :=
  [0x01, 0x02, 0x10, 0x11, 0x12, 0x13, 0x14, 0x15, 0x16, 0x17, 0x18, 0x21, 0x22, 0x23, 0x24, 0x25]

/-- The instruction `w` is an HWD asking, with these registers, who a component is. -/
def AsksLabel (r : Regs) (w : Word) : Prop :=
  ∃ r0 r1 r2 p0 p1 p2 v, w = instrWord 0x1C r0 r1 r2 p0 p1 p2 ∧ Val1 r r2 p2 v ∧ v.toNat ∈ labelInfos

/-- No instruction run during these host calls asks who a component is. -/
def NeverAsks [Bus D] (pf : Profile) : List HostOp → Machine D → Prop
  | [], _ => True
  | op :: ops, s =>
    (op = .next → ∀ w devs, Fetches pf s w devs → ¬ AsksLabel s.regs w) ∧
    ∀ s', hostStep pf s op = some s' → NeverAsks pf ops s'

/-- Where a mapping is, and of which component number: all but the component's identifier. -/
def Mapping.place (m : Mapping) : Nat × Word × Word := (m.auxId, m.addr, m.size)

/-- The processors are in the same state and the same ranges are mapped to components with the same numbers. -/
structure SameButLabels (s : Machine D) (t : Machine E) : Prop where
  regs : s.regs = t.regs
  mappings : s.mappings.map Mapping.place = t.mappings.map Mapping.place
  cycles : s.cycles = t.cycles
  halted : s.halted = t.halted
  count : s.devs.length = t.devs.length

/-- Both runs panic, or both end, in machines that differ only by labels and answer every direct read alike. -/
def SameOutcomeButLabels [Bus D] [Bus E] (pf : Profile) : Res (Machine D) → Res (Machine E) → Prop
  | none, none => True
  | some s, some t => SameButLabels s t ∧
    ∀ a ex, (memRead pf s a ex).map (fun x => (x.1, x.2.1)) = (memRead pf t a ex).map (fun x => (x.1, x.2.1))
  | _, _ => False

/-- The results of mapping calls: the same range, or the same error, but for the identifier in a mapping that overlaps. -/
def SameMapping : Except MappingError MappingRange → Except MappingError MappingRange → Prop
  | .ok r, .ok r' => r = r'
  | .error (.addressOverlaps m), .error (.addressOverlaps m') => Mapping.place m = Mapping.place m'
  | .error e, .error e' => e = e'
  | _, _ => False

end Lrvm.Spec
