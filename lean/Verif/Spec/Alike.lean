import Verif.Spec.Component
import Verif.Model.Board

/-!
# Vocabulary: components that answer alike, boards that show the same
-/

namespace Lrvm.Spec

/-- The two components give the same answers to every history of requests within the contract of `size` bytes (or both
panic). -/
def SameAnswers [Bus D] [Bus E] (d : D) (e : E) (size : Nat) : Prop :=
  ∀ rs : List Req, (∀ r ∈ rs, r.Within size) → (serveAll d rs).map (·.2) = (serveAll e rs).map (·.2)

/-- Everything but the components is the same. -/
structure SameMachine (s : Machine D) (t : Machine E) : Prop where
  regs : s.regs = t.regs
  mappings : s.mappings = t.mappings
  cycles : s.cycles = t.cycles
  halted : s.halted = t.halted
  hardware : s.hwbCache = t.hwbCache ∧ s.memCache = t.memCache ∧ s.devs.length = t.devs.length
  changedPc : s.changedPc = t.changedPc

/-- Both runs panic, or both end, in machines that show the same and answer every direct read alike. -/
def SameOutcome [Bus D] [Bus E] (pf : Profile) : Res (Machine D) → Res (Machine E) → Prop
  | none, none => True
  | some s, some t => SameMachine s t ∧
    ∀ a ex, (memRead pf s a ex).map (fun x => (x.1, x.2.1)) = (memRead pf t a ex).map (fun x => (x.1, x.2.1))
  | _, _ => False

/-- The answers to `rs'` after the history `rs`. -/
def answersAfter [Bus D] (d : D) (rs rs' : List Req) : Res (List Answer) :=
  (serveAll d rs).bind fun p => (serveAll p.1 rs').map (·.2)

/-- Whatever the component lived before (without panicking), once reset it answers as if it had been reset when new. -/
def Reboots [Bus D] (d : D) (size : Nat) : Prop :=
  ∀ rs rs' : List Req, (∀ r ∈ rs, r.Within size) → (∀ r ∈ rs', r.Within size) → serveAll d rs ≠ none →
    answersAfter d (rs ++ [.reset]) rs' = answersAfter d [.reset] rs'

/-- Whatever the component lived before (without panicking), once reset it answers as when new. -/
def Restores [Bus D] (d : D) (size : Nat) : Prop :=
  ∀ rs rs' : List Req, (∀ r ∈ rs, r.Within size) → (∀ r ∈ rs', r.Within size) → serveAll d rs ≠ none →
    answersAfter d (rs ++ [.reset]) rs' = answersAfter d [] rs'

/-- The component in position `i` of the first machine and the one of the second one went through the same requests since the states
`s` and `t`, with the same answers. -/
def SameRequests [Bus D] (s t s' t' : Machine D) : Prop :=
  ∀ (i : Nat) (d e : D), s'.devs[i]? = some d → t'.devs[i]? = some e → ∃ d0 e0 rs as, s.devs[i]? = some d0 ∧
    t.devs[i]? = some e0 ∧ serveAll d0 rs = some (d, as) ∧ serveAll e0 rs = some (e, as)

/-- The host call maps a component. -/
def MapsSomething : HostOp → Prop
  | .map _ _ => True
  | .mapAbs _ _ _ => True
  | .mapContiguous _ _ => True
  | _ => False

/-- What the component shows (the calls of its handler) after a reset does not depend on what it lived before: the same requests add
the same output. -/
def Repaints [Bus D] (out : D → List α) (d : D) (size : Nat) : Prop :=
  ∀ rs₁ rs₂ rs d₁ d₂ d₁' d₂' as₁ as₂ bs₁ bs₂, (∀ r ∈ rs₁, r.Within size) → (∀ r ∈ rs₂, r.Within size) →
    (∀ r ∈ rs, r.Within size) → serveAll d rs₁ = some (d₁, as₁) → serveAll d rs₂ = some (d₂, as₂) →
    serveAll d₁ (.reset :: rs) = some (d₁', bs₁) → serveAll d₂ (.reset :: rs) = some (d₂', bs₂) →
    ∃ new, out d₁' = out d₁ ++ new ∧ out d₂' = out d₂ ++ new

/-- The request writes the word `w` in the word at `a` (`a` a multiple of 4). -/
def isAsk (a w : Nat) : Req → Bool
  | .write b v _ => b.toNat / 4 * 4 == a && v.toNat == w
  | _ => false

/-- The request makes a clock sample the time. -/
def samples : Req → Bool
  | .write _ _ _ => false
  | _ => true

end Lrvm.Spec
