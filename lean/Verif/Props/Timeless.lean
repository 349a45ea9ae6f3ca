import Verif.Lemmas.Timeless
import Verif.Demo.Machines

/-!
# Only CYCLES shows the time: C125
-/

namespace Lrvm

open Spec

variable {D : Type} [Bus D] {pf : Profile}

/-- **C125**. Take two machines with the same registers, components, mappings and halting state, whatever the numbers of
cycles they have counted. As long as no CYCLES instruction is run, no history of host calls and instructions tells them
apart: it panics on both or on none, and leaves the same registers, components, mappings and halting state. -/
theorem C125 {s t : Machine D} (h : SameButTime s t) (ops : List HostOp) (hc : NeverCycles pf ops s) :
    SameOutcomeButTime (hostRun pf ops s) (hostRun pf ops t) := by
  induction ops generalizing s t with
  | nil => exact h
  | cons op ops ih =>
    have key := hostStep_sameButTime (pf := pf) h op hc.1
    show SameOutcomeButTime (hostStep pf s op >>= hostRun pf ops) (hostStep pf t op >>= hostRun pf ops)
    cases h1 : hostStep pf s op <;> cases h2 : hostStep pf t op <;> rw [h1, h2] at key
    · trivial
    · exact key.elim
    · exact key.elim
    · exact ih key (hc.2 _ h1)

/-- **C125** for runs of a program. -/
theorem C125_run {s t : Machine D} (h : SameButTime s t) (n : Nat)
    (hc : ∀ k < n, ∀ u, nextN pf k s = some u → ∀ w devs, Fetches pf u w devs → opcode w ≠ 0x1D) :
    SameOutcomeButTime (nextN pf n s) (nextN pf n t) := by
  induction n generalizing s t with
  | zero => exact h
  | succ n ih =>
    have key := next_sameButTime (pf := pf) h (hc 0 (by omega) s rfl)
    show SameOutcomeButTime (next pf s >>= nextN pf n) (next pf t >>= nextN pf n)
    cases h1 : next pf s <;> cases h2 : next pf t <;> rw [h1, h2] at key
    · trivial
    · exact key.elim
    · exact key.elim
    · refine ih key fun k hk u hu => hc (k + 1) (by omega) u ?_
      show (next pf s >>= nextN pf k) = some u
      rw [h1]; exact hu

/-- **C125**, the answers of direct memory accesses and of mapping calls are the same too. -/
theorem C125_answers {s t : Machine D} (h : SameButTime s t) (a w : Word) (ex : U16) (id : Nat)
    (ids : List Nat) :
    (memRead pf s a ex).map (fun x => (x.1, x.2.1)) = (memRead pf t a ex).map (fun x => (x.1, x.2.1)) ∧
    (memWrite pf s a w ex).map (·.1) = (memWrite pf t a w ex).map (·.1) ∧
    (map pf s a id).map (·.1) = (map pf t a id).map (·.1) ∧
    (∀ e, (mapAbs pf s a e id).map (·.1) = (mapAbs pf t a e id).map (·.1)) ∧
    (mapContiguous pf s a ids).map (·.1) = (mapContiguous pf t a ids).map (·.1) := by
  rw [atTime_of h]
  refine ⟨?_, ?_, ?_, fun e => ?_, ?_⟩
  · rw [memRead_eq, memRead_eq, Option.map_map, Option.map_map]; rfl
  · rw [memWrite_eq, memWrite_eq, Option.map_map, Option.map_map]; rfl
  · unfold Lrvm.map; rw [internalMap_atTime, Option.map_map]; rfl
  · unfold mapAbs; rw [internalMap_atTime, Option.map_map]; rfl
  · rw [mapContiguous_atTime, Option.map_map]; rfl

theorem noCycles_of {s : Machine D} {w : Word} {devs : List D} (h : Fetches pf s w devs) (ho : opcode w ≠ 0x1D) :
    ∀ w devs, Fetches pf s w devs → opcode w ≠ 0x1D := by
  intro w' devs' h'
  have := h.2.symm.trans h'.2
  injection this with h1 _
  exact h1 ▸ ho

/-- A machine that has been running for 100 cycles executes `cpy a3, 7` as a new one does. -/
example : ∃ t t', SameButTime (Demo.start [instrWord 0x01 false false false 3 0 7])
      { Demo.start [instrWord 0x01 false false false 3 0 7] with cycles := 100 } ∧
    NeverCycles .debug [.next] (Demo.start [instrWord 0x01 false false false 3 0 7]) ∧
    hostRun .debug [.next] (Demo.start [instrWord 0x01 false false false 3 0 7]) = some t ∧ reg t.regs 3 = 7 ∧
    hostRun .debug [.next] { Demo.start [instrWord 0x01 false false false 3 0 7] with cycles := 100 } = some t' ∧
    reg t'.regs 3 = 7 ∧ t'.cycles = 101 :=
  ⟨_, _, ⟨rfl, rfl, rfl, rfl, rfl, rfl⟩, ⟨fun _ => noCycles_of ⟨rfl, rfl⟩ (by decide), fun _ _ => trivial⟩, rfl, rfl, rfl, rfl, rfl⟩

/-- **C125**: the restriction is needed. CYCLES tells those machines apart. -/
theorem C125_needs_no_cycles : ∃ s t s' t' : Machine Demo.Dev, SameButTime s t ∧ next .debug s = some s' ∧
    next .debug t = some t' ∧ s'.regs ≠ t'.regs :=
  ⟨Demo.start [instrWord 0x1D false false false 3 0 0], { Demo.start [instrWord 0x1D false false false 3 0 0] with cycles := 100 },
    _, _, ⟨rfl, rfl, rfl, rfl, rfl, rfl⟩, rfl, rfl, by decide⟩

end Lrvm
