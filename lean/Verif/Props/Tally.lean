import Verif.Lemmas.Tally

/-!
# How often components are contacted: C134
-/

namespace Lrvm

open Spec

variable {D : Type} [Bus D] {pf : Profile}

theorem accRead_cost_done {r : Regs} {maps : List Mapping} {devs devs' : List (Logged D)} {v w : Word}
    (h : accRead pf r maps devs v = .done w devs') : Cost (table r + 1) 0 devs devs' := by
  have := accRead_cost (pf := pf) (r := r) (maps := maps) (devs := devs) (v := v)
  rw [h] at this; exact this

theorem accRead_cost_fault {r : Regs} {maps : List Mapping} {devs devs' : List (Logged D)} {v : Word} {c : U8} {x : U16}
    (h : accRead pf r maps devs v = .fault c x devs') : Cost (table r + 1) 0 devs devs' := by
  have := accRead_cost (pf := pf) (r := r) (maps := maps) (devs := devs) (v := v)
  rw [h] at this; exact this

/-- An instruction that is not a memory instruction requests no read and no write. -/
theorem Effs.cost_other {w : Word} {t u : Machine (Logged D)} (h : Effs pf (fieldsOf w) t u)
    (hop : (fieldsOf w).opcode.toNat ∉ memOps) : Cost 0 0 t.devs u.devs :=
  h.inv (P := fun v => Cost 0 0 t.devs v.devs) (Cost.refl _) fun v v' ih e => by
    cases e with
    | busRead h0 hr => exact absurd h0 hop
    | busWrite h0 hr =>
      exact absurd (by
        simp only [storeOps, memOps, List.mem_cons, List.not_mem_nil, or_false] at h0 ⊢
        omega) hop
    | devReset h0 hr => exact ih.trans (bridgeReset_cost hr)
    | sp x hs => rw [(Machine.setSp_frame v x).1]; exact ih
    | _ => exact ih

/-- **C134**. In one step, whatever the instruction fetched and whether it completes or raises an exception, the components receive
together, besides the read of the fetch, at most one read if the instruction is a load (LSA, LEA, SRM, POP), none otherwise; at most one
write if it is a store (WSA, WEA, SRM, PUSH, CALL), none otherwise; and, when address translation is on, at most one more read (of a table
entry) for the fetch, for the load and for the store. -/
theorem C134_step {s s' : Machine (Logged D)} {w : Word} {devs : List (Logged D)} (hf : Fetches pf s w devs)
    (h : next pf s = some s') :
    let t := if s.regs.mtt = 0 then 0 else 1
    readsOf s'.devs ≤ readsOf s.devs + (1 + loadsOf (opcode w)) + t * (1 + loadsOf (opcode w) + storesOf (opcode w)) ∧
    writesOf s'.devs ≤ writesOf s.devs + storesOf (opcode w) := by
  intro t
  have h0 : Cost (t + 1) 0 s.devs devs := accRead_cost_done (fetches_iff.mp hf).2
  have key : Cost (loadsOf (opcode w) + t * (loadsOf (opcode w) + storesOf (opcode w))) (storesOf (opcode w))
      devs s'.devs := by
    rw [← fieldsOf_opcode]
    rcases next_inv h hf.1 with ⟨dv, c', d, _, ha, _, _⟩ | ⟨w', dv, hf', _, hr⟩
    · rw [(fetches_iff.mp hf).2] at ha; cases ha
    have heq := (fetches_iff.mp hf).2.symm.trans (fetches_iff.mp hf').2
    injection heq with h1 h2; subst h1 h2
    by_cases hop : (fieldsOf w).opcode.toNat ∈ memOps
    · have hc := costs_runInstr_mem (pf := pf) (t := t) hop (atExec s devs) rfl
      rcases hr with ⟨u, c', d, hrun, he, hc', rfl⟩ | ⟨u, hrun, he, rfl⟩
      · rw [hrun] at hc; exact hc
      · rw [hrun] at hc; split <;> exact hc
    · rcases hr with ⟨u, c', d, hrun, he, hc', rfl⟩ | ⟨u, hrun, he, rfl⟩
      · exact (he.cost_other hop).mono (Nat.zero_le _) (Nat.zero_le _)
      · have := (he.cost_other hop).mono (Nat.zero_le (loadsOf (fieldsOf w).opcode.toNat +
          t * (loadsOf (fieldsOf w).opcode.toNat + storesOf (fieldsOf w).opcode.toNat)))
          (Nat.zero_le (storesOf (fieldsOf w).opcode.toNat))
        split <;> exact this
  obtain ⟨h1, h2⟩ := h0.trans key
  refine ⟨?_, by omega⟩
  rw [Nat.mul_add] at h1
  rw [Nat.mul_add, Nat.mul_add]
  omega

/-- **C134**, no instruction: when nothing could be fetched, the components receive at most one read (two when address translation is
on) and no write; a halted processor requests nothing. -/
theorem C134_no_fetch {s s' : Machine (Logged D)} (hf : ∀ w devs, ¬ Fetches pf s w devs) (h : next pf s = some s') :
    readsOf s'.devs ≤ readsOf s.devs + (if s.halted then 0 else if s.regs.mtt = 0 then 1 else 2) ∧
    writesOf s'.devs ≤ writesOf s.devs := by
  by_cases hh : s.halted = true
  · unfold next at h; rw [if_pos hh] at h; injection h with h; rw [← h]; exact ⟨Nat.le_add_right _ _, Nat.le_refl _⟩
  · rcases next_inv h (by simpa using hh) with ⟨devs, c, d, _, ha, _, rfl⟩ | ⟨w, devs, hw, _⟩
    · rw [if_neg hh]
      obtain ⟨h1, h2⟩ := accRead_cost_fault ha
      refine ⟨?_, h2⟩
      show readsOf devs ≤ _
      unfold table at h1
      split
      · next h0 => rw [if_pos h0] at h1; omega
      · next h0 => rw [if_neg h0] at h1; omega
    · exact absurd hw (hf w devs)

theorem loads_le (op : Nat) : loadsOf op ≤ 1 ∧ storesOf op ≤ 1 := by
  unfold loadsOf storesOf; constructor <;> split <;> omega

/-- In any step: at most five reads and one write. -/
theorem C134_any_step {s s' : Machine (Logged D)} (h : next pf s = some s') :
    readsOf s'.devs ≤ readsOf s.devs + 5 ∧ writesOf s'.devs ≤ writesOf s.devs + 1 := by
  by_cases hf : ∃ w devs, Fetches pf s w devs
  · obtain ⟨w, devs, hf⟩ := hf
    obtain ⟨h1, h2⟩ := C134_step hf h
    obtain ⟨l1, l2⟩ := loads_le (opcode w)
    refine ⟨?_, by omega⟩
    split at h1 <;> omega
  · obtain ⟨h1, h2⟩ := C134_no_fetch (fun w devs hw => hf ⟨w, devs, hw⟩) h
    refine ⟨?_, by omega⟩
    repeat' split at h1
    all_goals omega

/-- **C134**, runs: `n` steps of any program make at most `5 * n` read and `n` write requests, to all components together. -/
theorem C134_run {s s' : Machine (Logged D)} {n : Nat} (h : nextN pf n s = some s') :
    readsOf s'.devs ≤ readsOf s.devs + 5 * n ∧ writesOf s'.devs ≤ writesOf s.devs + n := by
  induction n generalizing s with
  | zero => injection h with h; subst h; exact ⟨Nat.le_refl _, Nat.le_refl _⟩
  | succ n ih =>
    simp only [nextN, Option.bind_eq_bind, Option.bind_eq_some_iff] at h
    obtain ⟨u, hu, h⟩ := h
    obtain ⟨h1, h2⟩ := C134_any_step hu
    obtain ⟨h3, h4⟩ := ih h
    omega

/-- The bounds are reached: an SRM with translation on makes five reads and one write (ROM with the program at address 0, RAM with the
translation table and the word swapped at address 0x400). -/
example : ∃ (s0 s s' : Machine (Logged Demo.Dev)) (devs : List (Logged Demo.Dev)),
    newBoard .debug ((Demo.devices [instrWord 0x18 true false true 0 0 1]).map fresh) = some s0 ∧
    hostRun .debug [.map 0 0, .map 0x400 1, .reset, .setRegs fun r => { setReg r 0 0x404 with mtt := 1, pda := 0x400 }] s0 = some s ∧
    Fetches .debug s (instrWord 0x18 true false true 0 0 1) devs ∧ next .debug s = some s' ∧
    (readsOf s.devs, writesOf s.devs) = (0, 0) ∧ (readsOf s'.devs, writesOf s'.devs) = (5, 1) ∧
    s'.devs.map Logged.log = [[.reset, .read 0], [.reset, .read 0, .read 0x10, .read 4, .read 0x10, .write 4 0]] :=
  ⟨_, _, _, _, rfl, rfl, ⟨rfl, rfl⟩, rfl, rfl, rfl, rfl⟩

/-- Without translation, a load makes two reads and an addition one. -/
example : (∃ devs s', Fetches .debug (loggedDemo [0xA0014400#32]) 0xA0014400#32 devs ∧
      next .debug (loggedDemo [0xA0014400#32]) = some s' ∧ (readsOf s'.devs, writesOf s'.devs) = (2, 0)) ∧
    ∃ s', next .debug (loggedDemo [0x18020005]) = some s' ∧ (readsOf s'.devs, writesOf s'.devs) = (1, 0) :=
  ⟨⟨_, _, ⟨rfl, rfl⟩, rfl, rfl⟩, _, rfl, rfl⟩

/-- Nothing to fetch: `pc` is not aligned. -/
example : ∃ s', next .debug { loggedDemo [] with regs := { Regs.zero with pc := 2 } } = some s' ∧
    (readsOf s'.devs, writesOf s'.devs) = (0, 0) ∧
    ∀ w devs, ¬ Fetches .debug { loggedDemo [] with regs := { Regs.zero with pc := 2 } } w devs := by
  refine ⟨_, rfl, rfl, ?_⟩
  intro w devs h
  have := (fetches_iff.mp h).2
  cases this

end Lrvm
