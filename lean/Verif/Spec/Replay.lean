import Verif.Spec.Component

/-!
# Components that repeat a recorded session

A player knows a name, a metadata block and a list of requests with their answers. It answers the recorded requests, in their order, with
the recorded answers, and panics at the first request that is not the recorded one.
-/

namespace Lrvm.Spec

deriving instance DecidableEq for Req

/-- A recorded session, to be repeated. -/
structure Player where
  name : List Char
  metadata : Profile → Res Metadata
  left : List (Req × Answer)

instance : Bus Player where
  name p := p.name
  metadata pf p := p.metadata pf
  read p a ex := match p.left with
    | (.read b ex', .value w ex'') :: left => if b = a ∧ ex' = ex then some ({ p with left }, w, ex'') else none
    | _ => none
  write p a w ex := match p.left with
    | (.write b v ex', .wrote ex'') :: left => if b = a ∧ v = w ∧ ex' = ex then some ({ p with left }, ex'') else none
    | _ => none
  reset p := match p.left with
    | (.reset, .done) :: left => some { p with left }
    | _ => none

/-- The player of a recorded session of the component `d`. -/
def playerOf {D : Type} [Bus D] (d : D) (tape : List (Req × Answer)) : Player :=
  ⟨Bus.name d, fun pf => Bus.metadata pf d, tape⟩

end Lrvm.Spec
