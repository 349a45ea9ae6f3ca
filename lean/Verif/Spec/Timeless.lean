import Verif.Spec.Isa
import Verif.Model.Board

/-!
# Machines that differ by the time they have been running
-/

namespace Lrvm.Spec

/-- The machines are the same, except for the number of cycles they have counted and for the processor's private note that
the last instruction was a jump. -/
structure SameButTime (s t : Machine D) : Prop where
  regs : s.regs = t.regs
  devs : s.devs = t.devs
  hwbCache : s.hwbCache = t.hwbCache
  memCache : s.memCache = t.memCache
  mappings : s.mappings = t.mappings
  halted : s.halted = t.halted

/-- Both panic, or both end, in machines that differ by time only. -/
def SameOutcomeButTime : Res (Machine D) → Res (Machine D) → Prop
  | none, none => True
  | some s, some t => SameButTime s t
  | _, _ => False

/-- No CYCLES instruction is run during these host calls. -/
def NeverCycles [Bus D] (pf : Profile) : List HostOp → Machine D → Prop
  | [], _ => True
  | op :: ops, s =>
    (op = .next → ∀ w devs, Fetches pf s w devs → opcode w ≠ 0x1D) ∧
    ∀ s', hostStep pf s op = some s' → NeverCycles pf ops s'

end Lrvm.Spec
