import Verif.Model.Bus

/-!
# Specification vocabulary for one component alone

A component receives requests through the `Bus` interface (`lrvm/src/board/bus.rs:7-29`) and answers them.
-/

namespace Lrvm.Spec

/-- A request; `ex` is the value of the exception variable passed by reference. -/
inductive Req
  | read (a : Word) (ex : U16)
  | write (a w : Word) (ex : U16)
  | reset

/-- An answer: the word read and the exception variable afterwards, the exception variable after a write, or the end of
a reset. -/
inductive Answer
  | value (w : Word) (ex : U16)
  | wrote (ex : U16)
  | done
  deriving DecidableEq

/-- One request. -/
def serve [Bus D] (d : D) : Req → Res (D × Answer)
  | .read a ex => (Bus.read d a ex).map fun (d', w, ex') => (d', .value w ex')
  | .write a w ex => (Bus.write d a w ex).map fun (d', ex') => (d', .wrote ex')
  | .reset => (Bus.reset d).map fun d' => (d', .done)

/-- A history of requests. -/
def serveAll [Bus D] : D → List Req → Res (D × List Answer)
  | d, [] => some (d, [])
  | d, r :: rs => do
    let (d, a) ← serve d r
    let (d, as) ← serveAll d rs
    some (d, a :: as)

/-- The request respects the contract of a component of `size` bytes. -/
def Req.Within (size : Nat) : Req → Prop
  | .read a _ => a.toNat % 4 = 0 ∧ a.toNat < size
  | .write a _ _ => a.toNat % 4 = 0 ∧ a.toNat < size
  | .reset => True

/-- The request neither resets the component nor writes at address `a`. -/
def Req.Spares (a : Word) : Req → Prop
  | .read _ _ => True
  | .write b _ _ => b ≠ a
  | .reset => False

/-- The component advertises `size` bytes. -/
def Advertises [Bus D] (pf : Profile) (d : D) (size : Nat) : Prop :=
  ∃ md : Metadata, Bus.metadata pf d = some md ∧ md[2].toNat = size

/-- Within its contract, from this state on, the component never panics, and its advertised size never changes. -/
def Robust [Bus D] (pf : Profile) (d : D) (size : Nat) : Prop :=
  ∀ reqs, (∀ r ∈ reqs, r.Within size) → ∃ d' as, serveAll d reqs = some (d', as) ∧ Advertises pf d' size

/-- The request is answered without exception: the exception variable keeps its value. -/
def Quiet : Req → Answer → Prop
  | .read _ ex, .value _ ex' => ex' = ex
  | .write _ _ ex, .wrote ex' => ex' = ex
  | .reset, .done => True
  | _, _ => False

/-- Every request is answered without exception. -/
def AllQuiet : List Req → List Answer → Prop
  | [], [] => True
  | r :: rs, a :: as => Quiet r a ∧ AllQuiet rs as
  | _, _ => False

/-- The component behaves as an array of words of `size` bytes with the given initial content: within its contract it
never panics nor raises an exception, and after any history a read at `a` gives the last word written at `a` since the last
reset, or 0 if there is none since the last reset, or the initial content. -/
structure WordMemory [Bus D] (pf : Profile) (d : D) (size : Nat) (init : Nat → Word) : Prop where
  serves : ∀ rs : List Req, (∀ r ∈ rs, r.Within size) →
    ∃ d' as, serveAll d rs = some (d', as) ∧ Advertises pf d' size ∧ AllQuiet rs as
  written : ∀ (rs rs' : List Req) (a w : Word) ex ex' d' as,
    (∀ r ∈ rs ++ .write a w ex' :: rs', r.Within size) → (∀ r ∈ rs', r.Spares a) →
    serveAll d (rs ++ .write a w ex' :: rs') = some (d', as) → Bus.read d' a ex = some (d', w, ex)
  zeroed : ∀ (rs rs' : List Req) (a : Word) ex d' as,
    (∀ r ∈ rs ++ .reset :: rs', r.Within size) → (∀ r ∈ rs', r.Spares a) → a.toNat % 4 = 0 → a.toNat < size →
    serveAll d (rs ++ .reset :: rs') = some (d', as) → Bus.read d' a ex = some (d', 0, ex)
  initial : ∀ (rs : List Req) (a : Word) ex d' as,
    (∀ r ∈ rs, r.Within size) → (∀ r ∈ rs, r.Spares a) → a.toNat % 4 = 0 → a.toNat < size →
    serveAll d rs = some (d', as) → Bus.read d' a ex = some (d', init (a.toNat / 4), ex)

end Lrvm.Spec
