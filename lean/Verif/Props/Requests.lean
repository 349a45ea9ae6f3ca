import Verif.Lemmas.Devices
import Verif.Spec.Log

/-!
# What reaches a component: C36
-/

namespace Lrvm

open Spec

variable {D : Type} [Bus D] {pf : Profile}

/-- The requests a component has received are in its contract, according to what the board remembers. -/
def logOk (cache : List AuxCache) (id : Nat) (d : Logged D) : Prop :=
  ∀ q ∈ d.log, ∀ a, q.addr? = some a → InRange cache id a

theorem logOk_devInv (cache : List AuxCache) : DevInv (D := Logged D) (logOk cache) cache where
  read := by
    intro id d a ex d' w ex' h hr hb
    simp only [Bus.read, Option.map_eq_some_iff] at hb
    obtain ⟨p, _, hp⟩ := hb
    injection hp with h1 _; subst h1
    intro q hq b hb
    rcases List.mem_append.mp hq with hq | hq
    · exact h q hq b hb
    · rw [List.mem_singleton] at hq; subst hq; injection hb with hb; subst hb; exact hr
  write := by
    intro id d a w ex d' ex' h hr hb
    simp only [Bus.write, Option.map_eq_some_iff] at hb
    obtain ⟨p, _, hp⟩ := hb
    injection hp with h1 _; subst h1
    intro q hq b hb
    rcases List.mem_append.mp hq with hq | hq
    · exact h q hq b hb
    · rw [List.mem_singleton] at hq; subst hq; injection hb with hb; subst hb; exact hr
  reset := by
    intro id d d' h hb
    simp only [Bus.reset, Option.map_eq_some_iff] at hb
    obtain ⟨p, _, hp⟩ := hb
    subst hp
    intro q hq b hb
    rcases List.mem_append.mp hq with hq | hq
    · exact h q hq b hb
    · rw [List.mem_singleton] at hq; subst hq; cases hb

/-- **C36**. Take any components, built into a new board, and any history of host calls (mapping calls of the
three kinds with any arguments, successful or not, resets, direct memory accesses, register changes) and of steps
of whatever program the memory contains. Every read or write request component `id` has received has an address
divisible by 4 and strictly below the size its metadata announced when the board was built. -/
theorem C36_requests_in_contract {devs : List D} {s0 s' : Machine (Logged D)} {ops : List HostOp}
    (hb : newBoard pf (devs.map fresh) = some s0) (h : hostRun pf ops s0 = some s')
    {id : Nat} {d : Logged D} (hd : s'.devs[id]? = some d) :
    ∃ d0 md, devs[id]? = some d0 ∧ Bus.metadata pf d0 = some md ∧
      ∀ q ∈ d.log, ∀ a, q.addr? = some a → a.toNat % 4 = 0 ∧ a.toNat < md[2].toNat := by
  obtain ⟨hc, _, hdv, hm, _⟩ := newBoard_inv hb
  obtain ⟨hl, hg⟩ := createCaches_get hc
  have hrun := hostRun_devInv (logOk_devInv s0.memCache) (by rw [hm]; intro m hm; simp at hm)
    (by
      rw [hdv]; intro i e he
      rw [List.getElem?_map, Option.map_eq_some_iff] at he
      obtain ⟨e0, _, rfl⟩ := he
      intro q hq; simp [fresh] at hq) h
  have hlen : s'.devs.length = devs.length := by
    have := hostRun_inv (P := fun t => t.devs.length = s0.devs.length) h rfl (by
      intro op _ t u ht hst
      rw [← ht]
      cases op with
      | next => exact (C38_step_keeps_hardware hst).1
      | cpuReset => injection hst with hst; rw [← hst]; rfl
      | reset =>
        simp only [hostStep, boardReset, Option.bind_eq_bind, Option.bind_eq_some_iff] at hst
        obtain ⟨dv, hr, hst⟩ := hst
        injection hst with hst; rw [← hst]
        have key : ∀ (l l' : List (Logged D)), resetAll l = some l' → l'.length = l.length := by
          intro l
          induction l with
          | nil => intro l' hr; injection hr with hr; rw [← hr]
          | cons x xs ih =>
            intro l' hr
            simp only [resetAll, Option.bind_eq_bind, Option.bind_eq_some_iff] at hr
            obtain ⟨x', h1, xs', h2, h3⟩ := hr
            injection h3 with h3; subst h3
            simp [ih xs' h2]
        exact key _ _ hr
      | map a i =>
        simp only [hostStep, Option.map_eq_some_iff] at hst
        obtain ⟨⟨r, v⟩, hm, rfl⟩ := hst
        rw [show v.devs = t.devs by rw [internalMap_frame hm]]
      | mapAbs a e i =>
        simp only [hostStep, Option.map_eq_some_iff] at hst
        obtain ⟨⟨r, v⟩, hm, rfl⟩ := hst
        rw [show v.devs = t.devs by rw [internalMap_frame hm]]
      | mapContiguous a is =>
        simp only [hostStep, Option.map_eq_some_iff] at hst
        obtain ⟨⟨r, v⟩, hm, rfl⟩ := hst
        rw [show v.devs = t.devs by rw [mapContiguous_frame hm]]
      | memRead a ex =>
        simp only [hostStep, Option.map_eq_some_iff] at hst
        obtain ⟨⟨w, e, t⟩, hm, rfl⟩ := hst
        exact memRead_length hm
      | memWrite a w ex =>
        simp only [hostStep, Option.map_eq_some_iff] at hst
        obtain ⟨⟨e, t⟩, hm, rfl⟩ := hst
        exact memWrite_length hm
      | setRegs f => injection hst with hst; rw [← hst])
    rw [this, hdv, List.length_map]
  have hid : id < devs.length := by
    rw [← hlen]; exact (List.getElem?_eq_some_iff.mp hd).1
  have hd0 : devs[id]? = some devs[id] := List.getElem?_eq_getElem hid
  obtain ⟨c, md, hci, hmd, _, hsz, _⟩ := hg id (fresh devs[id]) (by simp [hd0])
  refine ⟨devs[id], md, hd0, hmd, ?_⟩
  intro q hq a ha
  obtain ⟨h4, c', hc', hlt⟩ := hrun.2.2 id d hd q hq a ha
  rw [hci] at hc'; injection hc' with hc'; subst hc'
  exact ⟨h4, hsz ▸ hlt⟩

/-- A non-trivial history: an unaligned and a too large mapping attempt, an overlapping `map_abs`, a program of
a load and a store, and a direct access; component 1 received requests. -/
example : ∃ (s0 s' : Machine (Logged Demo.Dev)) (d : Logged Demo.Dev),
    newBoard .debug ((Demo.devices [0xA0014400#32, 0xB0480007#32]).map fresh) = some s0 ∧
    hostRun .debug [.map 2 1, .map 0 0, .mapAbs 0x40 0x40 1, .reset,
      .next, .next, .memWrite 0x7C 5 0] s0 = some s' ∧
    s'.devs[1]? = some d ∧ d.log = [.reset, .read 4, .write 8 7, .write 0x3C 5] := ⟨_, _, _, rfl, rfl, rfl, rfl⟩

end Lrvm
