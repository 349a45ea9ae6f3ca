import Verif.Spec.Sessions
import Verif.Model.Devices.FileCrash

/-!
# A file and the crashes of the virtual machines that use it
-/

namespace Lrvm.Spec

/-- A component seen until the process stops: it serves `left` requests, kept on a tape with their answers; the next one,
`during`, is the request during which the process stops. The state of the component then stays the one before that request:
what the rest of the machine does afterwards does not exist and no one sees it. -/
structure Stopping (D : Type) where
  dev : D
  tape : List (Req × Answer)
  left : Nat
  during : Option Req

instance {D : Type} [Bus D] : Bus (Stopping D) where
  name d := Bus.name d.dev
  metadata pf d := Bus.metadata pf d.dev
  read d a ex := match d.left with
    | 0 => some ({ d with during := d.during.or (some (.read a ex)) }, 0, ex)
    | n + 1 => (Bus.read d.dev a ex).map fun p =>
      (⟨p.1, d.tape ++ [(.read a ex, .value p.2.1 p.2.2)], n, none⟩, p.2.1, p.2.2)
  write d a w ex := match d.left with
    | 0 => some ({ d with during := d.during.or (some (.write a w ex)) }, ex)
    | n + 1 => (Bus.write d.dev a w ex).map fun p => (⟨p.1, d.tape ++ [(.write a w ex, .wrote p.2)], n, none⟩, p.2)
  reset d := match d.left with
    | 0 => some { d with during := d.during.or (some .reset) }
    | n + 1 => (Bus.reset d.dev).map fun d' => ⟨d', d.tape ++ [(.reset, .done)], n, none⟩

/-- What the file may hold when the process stops during a request, and how many bytes of it were written. -/
def StoppedDuring (d : FileBackedMem) : Req → Nat → List U8 → Prop
  | .write a w _, k, file => d.StoppedInWrite a w k file
  | _, k, file => k = 0 ∧ file = d.file

/-- One virtual machine used the file and the process stopped during a request to the component. A board was built with a
`FileBackedMem` that opened `file` (for writing if `wr`) among any other components and lived any history of host calls;
the component answered the requests of `tape`, then the process stopped during request `q`, whose first `k` bytes were written,
leaving `file'`. -/
def Crash (file : List U8) (broken : Nat → Bool) (wr : Bool) (tape : List (Req × Answer)) (q : Req) (k : Nat)
    (file' : List U8) : Prop :=
  ∃ (pf : Profile) (D : Type) (_ : Bus D) (devs : List (Stopping (D ⊕ FileBackedMem))) (id : Nat) (hwId : U64)
    (d0 d : FileBackedMem) (n : Nat) (s0 s' : Machine (Stopping (D ⊕ FileBackedMem))) (ops : List HostOp),
    FileBackedMem.open file broken wr hwId = some d0 ∧ devs[id]? = some ⟨.inr d0, [], n, none⟩ ∧
    newBoard pf devs = some s0 ∧ hostRun pf ops s0 = some s' ∧
    s'.devs[id]? = some ⟨.inr d, tape, 0, some q⟩ ∧ StoppedDuring d q k file'

/-- What happened to the file: a request that was answered, or a write cut after its first `k` bytes. -/
inductive FileEvent
  | answered (r : Req)
  | cut (a w : Word) (k : Nat)

/-- The event of a process that stops during a request. -/
def cutShort : Req → Nat → List FileEvent
  | .write a w _, k => [.cut a w k]
  | _, _ => []

/-- Any number of machines used the file, one after the other, each dropped at the end or stopped anywhere; the events are
those of the machines that had opened it for writing, oldest first. -/
inductive Survives (file : List U8) : List FileEvent → List U8 → Prop
  | start : Survives file [] file
  | reading {es : List FileEvent} {now now' : List U8} {broken : Nat → Bool} {tape : List (Req × Answer)} :
      Survives file es now → Session now broken false tape now' → Survives file es now'
  | readingCrash {es : List FileEvent} {now now' : List U8} {broken : Nat → Bool} {tape : List (Req × Answer)} {q : Req} {k : Nat} :
      Survives file es now → Crash now broken false tape q k now' → Survives file es now'
  | writing {es : List FileEvent} {now now' : List U8} {broken : Nat → Bool} {tape : List (Req × Answer)} :
      Survives file es now → Session now broken true tape now' →
      Survives file (es ++ tape.map fun e => .answered e.1) now'
  | writingCrash {es : List FileEvent} {now now' : List U8} {broken : Nat → Bool} {tape : List (Req × Answer)} {q : Req} {k : Nat} :
      Survives file es now → Crash now broken true tape q k now' →
      Survives file (es ++ tape.map (fun e => .answered e.1) ++ cutShort q k) now'

/-- A word whose `k` strongest bytes are those of `new` and the others those of `old`. -/
def mixed (k : Nat) (new old : Word) : Word :=
  BitVec.ofNat 32 (new.toNat / 256 ^ (4 - k) * 256 ^ (4 - k) + old.toNat % 256 ^ (4 - k))

/-- What an event makes of word number `i` of the file. -/
def FileEvent.apply (i : Nat) (v : Word) : FileEvent → Word
  | .answered (.write b w _) => if b.toNat = 4 * i then w else v
  | .answered _ => v
  | .cut b w k => if b.toNat = 4 * i then mixed k w v else v

/-- The event is a write, cut or not, of word number `i`. -/
def FileEvent.Concerns (i : Nat) : FileEvent → Prop
  | .answered (.write b _ _) => b.toNat = 4 * i
  | .answered _ => False
  | .cut b _ _ => b.toNat = 4 * i

/-- Word number `i` of a file after events, oldest first. -/
def wordAfterEvents (file : List U8) (es : List FileEvent) (i : Nat) : Word := es.foldl (FileEvent.apply i) (wordAt file i)

end Lrvm.Spec
