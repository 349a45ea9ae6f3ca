import Verif.Spec.Component

/-!
# Components with a tape

A wrapper that forwards every request unchanged and keeps the requests with their answers.
-/

namespace Lrvm.Spec

/-- A component together with the requests it received and the answers it gave, oldest first. -/
structure Taped (D : Type) where
  dev : D
  tape : List (Req × Answer)

instance {D : Type} [Bus D] : Bus (Taped D) where
  name d := Bus.name d.dev
  metadata pf d := Bus.metadata pf d.dev
  read d a ex := (Bus.read d.dev a ex).map fun p =>
    (⟨p.1, d.tape ++ [(.read a ex, .value p.2.1 p.2.2)]⟩, p.2.1, p.2.2)
  write d a w ex := (Bus.write d.dev a w ex).map fun p => (⟨p.1, d.tape ++ [(.write a w ex, .wrote p.2)]⟩, p.2)
  reset d := (Bus.reset d.dev).map fun d' => ⟨d', d.tape ++ [(.reset, .done)]⟩

/-- A component at the beginning of its tape. -/
def blank {D : Type} (d : D) : Taped D := ⟨d, []⟩

/-- The word at address `a` of an array of words after the events of a tape: the last word written there since the last
reset; 0 if there is none since the last reset; what was there at the beginning if there was neither. -/
def wordAfter (init : Nat → Word) (tape : List (Req × Answer)) (a : Word) : Word :=
  tape.foldl (fun v e => match e.1 with
    | .read _ _ => v
    | .write b w _ => if b = a then w else v
    | .reset => 0) (init (a.toNat / 4))

end Lrvm.Spec
