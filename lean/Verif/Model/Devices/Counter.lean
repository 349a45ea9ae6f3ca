import Verif.Model.Bus

/-!
# The asynchronous counter (`examples/async_hw/src/counter.rs`)

A transition system: the owner of the component (the CPU's thread) and the counting threads it spawned take turns in any
order, one atomic action at a time. All the shared accesses of the code are `SeqCst`, so their interleavings are all the
behaviours. `Arc`s are indexes into a heap that only grows; sleeping takes any time. A counting thread has no panicking
instruction, so the `unwrap` of its `join` never panics.
-/

namespace Lrvm.Counter

/-- Where a counting thread is, `examples/async_hw/src/counter.rs:87-100`; `k` is the loop variable, from 1 to 99. -/
inductive At
  | sleeping (k : Nat)
  | checking (k : Nat)
  | adding
  | finished
  deriving DecidableEq

/-- A counting thread, with the two `Arc`s it captured. -/
structure Thread where
  counter : Nat
  flag : Nat
  pc : At

/-- What the owner does after `stop`: return (`stop`, `drop`), or go on with the `reset`. -/
inductive After
  | returns
  | resets
  deriving DecidableEq

/-- Where the owner is: outside of the component, or inside `stop` (`:38-43`) or `reset` (`:70-101`). The handle of the
thread is an index in the list of the threads. -/
inductive Owner
  | idle
  | storing (handle : Nat) (after : After)
  | joining (handle : Nat) (after : After)
  | newCounter
  | newFlag
  | spawning
  deriving DecidableEq

/-- The whole state: `AsyncCounter` (`:12-24`), the heaps of counters and flags, and the threads, newest first: the handle
`n` is the `n`-th thread spawned. -/
structure St where
  counter : Nat
  mustStop : Nat
  countingThread : Option Nat
  owner : Owner
  counters : List Word
  flags : List Bool
  threads : List Thread

/-- `AsyncCounter::new`, `examples/async_hw/src/counter.rs:27-35`. -/
def St.new : St :=
  { counter := 0, mustStop := 0, countingThread := none, owner := .idle, counters := [0], flags := [false], threads := [] }

/-- What can be observed: the owner's calls and their results, and what the threads do. -/
inductive Event
  | read (w : Word)
  | writeRefused
  | stopCalled
  | stopReturned
  | resetCalled
  | resetReturned
  | slept (t : Nat)
  | tick (t : Nat)
  | exited (t : Nat)
  | silent
  deriving DecidableEq

/-- What the owner does once `stop` is over. -/
def St.afterStop (s : St) : After → St × Event
  | .returns => ({ s with owner := .idle }, .stopReturned)
  | .resets => ({ s with owner := .newCounter }, .silent)

/-- One action of the owner or of a thread. -/
inductive Step : St → Event → St → Prop
  /-- `read`, `:58-60`. -/
  | read {s : St} {w : Word} : s.owner = .idle → s.counters[s.counter]? = some w → Step s (.read w) s
  /-- `write`, `:64-66`. -/
  | write {s : St} : s.owner = .idle → Step s .writeRefused s
  /-- `stop` or `drop` with no thread: `take` gives `None`, `:38-43`, `:105-109`. -/
  | stopNone {s : St} : s.owner = .idle → s.countingThread = none → Step s .stopCalled s
  /-- `stop` or `drop`: `take`, `:39`. -/
  | stop {s : St} {t : Nat} : s.owner = .idle → s.countingThread = some t →
      Step s .stopCalled { s with countingThread := none, owner := .storing t .returns }
  /-- `reset` with no thread to stop, `:70-72`. -/
  | resetNone {s : St} : s.owner = .idle → s.countingThread = none → Step s .resetCalled { s with owner := .newCounter }
  /-- `reset`: the `take` of its `stop`, `:39`, `:72`. -/
  | reset {s : St} {t : Nat} : s.owner = .idle → s.countingThread = some t →
      Step s .resetCalled { s with countingThread := none, owner := .storing t .resets }
  /-- `self.must_stop.store(true)`, `:40`. -/
  | store {s : St} {t : Nat} {a : After} : s.owner = .storing t a →
      Step s .silent { s with flags := s.flags.set s.mustStop true, owner := .joining t a }
  /-- `handle.join()`, `:41`, once the thread is over. -/
  | join {s : St} {t : Nat} {a : After} {th : Thread} : s.owner = .joining t a →
      s.threads.reverse[t]? = some th → th.pc = .finished → Step s (s.afterStop a).2 (s.afterStop a).1
  /-- `self.counter = Arc::new(..)`, `:75`. -/
  | newCounter {s : St} : s.owner = .newCounter →
      Step s .silent { s with counter := s.counters.length, counters := s.counters ++ [0], owner := .newFlag }
  /-- `self.must_stop = Arc::new(..)`, `:78`. -/
  | newFlag {s : St} : s.owner = .newFlag →
      Step s .silent { s with mustStop := s.flags.length, flags := s.flags ++ [false], owner := .spawning }
  /-- The clones, `thread::spawn` and the end of `reset`, `:81-101`. -/
  | spawn {s : St} : s.owner = .spawning →
      Step s .resetReturned { s with
        threads := { counter := s.counter, flag := s.mustStop, pc := .sleeping 1 } :: s.threads,
        countingThread := some s.threads.length, owner := .idle }
  /-- `thread::sleep(10 ms)` is over, `:90`. -/
  | slept {s : St} {new old : List Thread} {c f k : Nat} : s.threads = new ++ ⟨c, f, .sleeping k⟩ :: old →
      Step s (.slept old.length) { s with threads := new ++ ⟨c, f, .checking k⟩ :: old }
  /-- `must_stop` is set: `return`, `:93-95`. -/
  | exit {s : St} {new old : List Thread} {c f k : Nat} : s.threads = new ++ ⟨c, f, .checking k⟩ :: old →
      s.flags[f]? = some true →
      Step s (.exited old.length) { s with threads := new ++ ⟨c, f, .finished⟩ :: old }
  /-- `must_stop` is not set: the next iteration of `for _ in 1..100`, or the end of the loop, `:89-96`. -/
  | goOn {s : St} {new old : List Thread} {c f k : Nat} : s.threads = new ++ ⟨c, f, .checking k⟩ :: old →
      s.flags[f]? = some false →
      Step s .silent { s with
        threads := new ++ ⟨c, f, if k + 1 < 100 then .sleeping (k + 1) else .adding⟩ :: old }
  /-- `fetch_add(1)`, which wraps around, and the next turn of the outer loop, `:99`. -/
  | add {s : St} {new old : List Thread} {c f : Nat} {w : Word} : s.threads = new ++ ⟨c, f, .adding⟩ :: old →
      s.counters[c]? = some w →
      Step s (.tick old.length) { s with
        threads := new ++ ⟨c, f, .sleeping 1⟩ :: old, counters := s.counters.set c (w + 1) }

/-- An execution, with its events, the oldest first. -/
inductive Run : St → List Event → St → Prop
  | nil {s : St} : Run s [] s
  | cons {s s' s'' : St} {e : Event} {es : List Event} : Step s e s' → Run s' es s'' → Run s (e :: es) s''

end Lrvm.Counter
