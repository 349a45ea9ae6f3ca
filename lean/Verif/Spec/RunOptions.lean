import Verif.Spec.Run

/-!
# What a sequence of configuration calls asks for
-/

namespace Lrvm.Spec.RunOptions

/-- A call of the configuration's interface. -/
inductive Call
  | cyclesLimit (limit : Option U128)
  | haltOnException (b : Bool)
  | printCycles (b : Bool)
  | printExceptions (b : Bool)
  | printFinish (b : Bool)
  | newlineOnFinish (b : Bool)
  | verbose
  | quiet

/-- How a configuration is created. -/
inductive Start
  | new | haltOnEx | verbose | quiet

/-- What a call says about the limit, if anything. -/
def Call.limit? : Call → Option (Option U128)
  | .cyclesLimit l => some l
  | _ => none

/-- What a call says about stopping at exceptions. -/
def Call.halt? : Call → Option Bool
  | .haltOnException b => some b
  | _ => none

/-- What a call says about announcing each cycle. -/
def Call.cycles? : Call → Option Bool
  | .printCycles b => some b
  | .verbose => some true
  | .quiet => some false
  | _ => none

/-- What a call says about reporting exceptions. -/
def Call.exceptions? : Call → Option Bool
  | .printExceptions b => some b
  | .verbose => some true
  | .quiet => some false
  | _ => none

/-- What a call says about the final message. -/
def Call.finish? : Call → Option Bool
  | .printFinish b => some b
  | .verbose => some true
  | .quiet => some false
  | _ => none

/-- What a call says about the newline before the final message. -/
def Call.newline? : Call → Option Bool
  | .newlineOnFinish b => some b
  | _ => none

/-- The last word on a matter in a sequence of calls, oldest first, or the initial value. -/
def lastWord (f : Call → Option α) (initial : α) (calls : List Call) : α := (calls.reverse.findSome? f).getD initial

/-- The configuration documented for each way of creation, then the last word on each option. -/
def asked (start : Start) (calls : List Call) : RunConfig where
  cyclesLimit := lastWord Call.limit? none calls
  haltOnException := lastWord Call.halt? (match start with | .haltOnEx => true | _ => false) calls
  printCycles := lastWord Call.cycles? (match start with | .verbose => true | _ => false) calls
  printExceptions := lastWord Call.exceptions? (match start with | .quiet => false | _ => true) calls
  printFinish := lastWord Call.finish? (match start with | .quiet => false | _ => true) calls
  newlineOnFinish := lastWord Call.newline? false calls

end Lrvm.Spec.RunOptions
