import Verif.Spec.Tape
import Verif.Spec.Buffers
import Verif.Model.Board
import Verif.Model.Devices.FileBacked

/-!
# A file in the hands of virtual machines, one after the other
-/

namespace Lrvm.Spec

/-- One virtual machine used the file: a board was built with a `FileBackedMem` that opened `file` (for writing if `wr`)
among any other components, then lived any history of host calls and was dropped. `tape` is what the component was asked
and answered, `file'` what the file contains at the end. `broken n` tells whether the operating system refuses the
component's I/O call number `n`. -/
def Session (file : List U8) (broken : Nat → Bool) (wr : Bool) (tape : List (Req × Answer)) (file' : List U8) : Prop :=
  ∃ (pf : Profile) (D : Type) (_ : Bus D) (devs : List (D ⊕ FileBackedMem)) (id : Nat) (hwId : U64) (d0 d : FileBackedMem)
    (s0 s' : Machine (Taped (D ⊕ FileBackedMem))) (ops : List HostOp),
    FileBackedMem.open file broken wr hwId = some d0 ∧ devs[id]? = some (.inr d0) ∧
    newBoard pf (devs.map blank) = some s0 ∧ hostRun pf ops s0 = some s' ∧
    s'.devs[id]? = some ⟨.inr d, tape⟩ ∧ file' = d.file

/-- Any number of machines used the file, one after the other; `reqs` are the requests made to those that had opened it for
writing, oldest first. -/
inductive Sessions (file : List U8) : List Req → List U8 → Prop
  | start : Sessions file [] file
  | reading {reqs : List Req} {now now' : List U8} {broken : Nat → Bool} {tape : List (Req × Answer)} :
      Sessions file reqs now → Session now broken false tape now' → Sessions file reqs now'
  | writing {reqs : List Req} {now now' : List U8} {broken : Nat → Bool} {tape : List (Req × Answer)} :
      Sessions file reqs now → Session now broken true tape now' → Sessions file (reqs ++ tape.map (·.1)) now'

/-- Word number `i` of a file after requests: the last one written there, or the one of the file. -/
def storedAfter (file : List U8) (reqs : List Req) (i : Nat) : Word :=
  (lastWritten (4 * i) reqs.reverse).getD (wordAt file i)

end Lrvm.Spec
