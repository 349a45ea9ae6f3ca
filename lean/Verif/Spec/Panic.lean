import Verif.Spec.Memory

/-!
# Specification vocabulary for panic freedom
-/

namespace Lrvm.Spec

/-- The components' contract (`lrvm/src/board/bus.rs:7-29`), for component invariants `P`: requests at aligned
addresses below `size id`, and resets, return normally and keep the invariant. -/
structure Contract [Bus D] (P : Nat → D → Prop) (size : Nat → Nat) : Prop where
  read : ∀ id d (a : Word) ex, P id d → a.toNat % 4 = 0 → a.toNat < size id →
    ∃ d' w ex', Bus.read d a ex = some (d', w, ex') ∧ P id d'
  write : ∀ id d (a : Word) w ex, P id d → a.toNat % 4 = 0 → a.toNat < size id →
    ∃ d' ex', Bus.write d a w ex = some (d', ex') ∧ P id d'
  reset : ∀ id d, P id d → ∃ d', Bus.reset d = some d' ∧ P id d'

/-- The size a component advertises in its metadata. -/
def advertised [Bus D] (pf : Profile) (devs : List D) (id : Nat) : Nat :=
  ((devs[id]?.bind (Bus.metadata pf)).map fun md => md[2].toNat).getD 0

/-- In builds with overflow checks, no mapped range reaches the end of the address space. -/
def RangesFit (pf : Profile) (maps : List Mapping) : Prop :=
  pf = .debug → ∀ m ∈ maps, m.addr.toNat + m.size.toNat < 2 ^ 32

/-- The MMU is off, or its first table is aligned and, in builds with overflow checks, lies within the address
space. -/
def MmuSafe (pf : Profile) (r : Regs) : Prop :=
  r.mtt = 0 ∨ (r.pda.toNat % 4 = 0 ∧ (pf = .debug → r.pda.toNat + 4 * 1023 < 2 ^ 32))

/-- The instructions whose address or flag arithmetic overflows: IF2 with a flag number above 7, SRM whose address sum
does not fit in 32 bits. -/
def Overflows (r : Regs) (w : Word) : Prop :=
  ∃ r0 r1 r2 p0 p1 p2,
    (w = instrWord 0x13 r0 r1 r2 p0 p1 p2 ∧ ∃ v : Word, (Val1 r r0 p0 v ∨ Val1 r r1 p1 v) ∧ 7 < v.toNat) ∨
    (w = instrWord 0x18 r0 r1 r2 p0 p1 p2 ∧ ∃ a b : Word, Val1 r r0 p0 a ∧ Val1 r r1 p1 b ∧ 2 ^ 32 ≤ a.toNat + b.toNat)

end Lrvm.Spec
