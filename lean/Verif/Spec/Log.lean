import Verif.Model.Board

/-!
# Components that remember the requests they receive

Used to state properties about what reaches a component. The wrapper forwards every request unchanged.
-/

namespace Lrvm.Spec

/-- A request received by a component. -/
inductive Request
  | read (addr : Word)
  | write (addr word : Word)
  | reset
  deriving DecidableEq, Repr

/-- The address of a read or write request. -/
def Request.addr? : Request → Option Word
  | .read a => some a
  | .write a _ => some a
  | .reset => none

/-- A component together with the list of requests it received, oldest first. -/
structure Logged (D : Type) where
  dev : D
  log : List Request

instance {D : Type} [Bus D] : Bus (Logged D) where
  name d := Bus.name d.dev
  metadata pf d := Bus.metadata pf d.dev
  read d addr ex := (Bus.read d.dev addr ex).map fun p => (⟨p.1, d.log ++ [.read addr]⟩, p.2.1, p.2.2)
  write d addr word ex := (Bus.write d.dev addr word ex).map fun p => (⟨p.1, d.log ++ [.write addr word]⟩, p.2)
  reset d := (Bus.reset d.dev).map fun d' => ⟨d', d.log ++ [.reset]⟩

/-- A component that has received no request yet. -/
def fresh {D : Type} (d : D) : Logged D := ⟨d, []⟩

end Lrvm.Spec
