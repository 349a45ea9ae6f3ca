import Verif.Spec.Isa

/-!
# Specification vocabulary for what userland can observe
-/

namespace Lrvm.Spec

/-- The registers `r` with other values in the supervisor registers `ssp`, `et`, `era` and `ev`. -/
def withHidden (r : Regs) (ssp et era ev : Word) : Regs := { r with ssp := ssp, et := et, era := era, ev := ev }

/-- Everything but the registers is the same in both machines: components, mappings, caches, cycle counter, running
state. -/
def SameAround (s t : Machine D) : Prop :=
  t.devs = s.devs ∧ t.mappings = s.mappings ∧ t.hwbCache = s.hwbCache ∧ t.memCache = s.memCache ∧ t.cycles = s.cycles ∧
  t.halted = s.halted

end Lrvm.Spec
