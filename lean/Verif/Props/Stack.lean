import Verif.Props.Data
import Verif.Props.Memory
import Verif.Props.Modes

/-!
# The stacks: C35, C32, C34
-/

namespace Lrvm

open Spec

variable {D : Type} [Bus D] {pf : Profile}

/-! ## C35 -/

/-- The three outcomes of a memory read. -/
theorem load_cases (pf : Profile) (s : Machine D) (devs : List D) (v : Word) :
    (∃ w devs', Loads pf s devs v w devs') ∨ (∃ c d devs', LoadFaults pf s devs v c d devs') ∨
    accRead pf s.regs s.mappings devs v = .panic := by
  cases h : accRead pf s.regs s.mappings devs v with
  | done w devs' => exact .inl ⟨w, devs', loads_iff.mpr h⟩
  | fault c d devs' =>
    refine .inr (.inl ⟨c.toNat, d.toNat, devs', { s with devs := devs' }.exception c d, ?_, exception_regs _ _ _, rfl⟩)
    rw [cpuRead_eq]
    show (accRead pf s.regs s.mappings devs v).toOut _ = _
    rw [h]; rfl
  | panic => exact .inr (.inr rfl)

theorem byte_instrWord (op : BitVec 5) (r0 r1 r2 : Bool) (p0 p1 p2 : U8) :
    byte (instrWord op r0 r1 r2 p0 p1 p2) 1 = p0.toNat ∧ byte (instrWord op r0 r1 r2 p0 p1 p2) 2 = p1.toNat ∧
    byte (instrWord op r0 r1 r2 p0 p1 p2) 3 = p2.toNat := by
  have h := fieldsOf_instrWord op r0 r1 r2 p0 p1 p2
  unfold fieldsOf fieldsOfBytes at h
  injection h with _ _ _ _ h1 h2 h3
  unfold byte
  refine ⟨?_, ?_, ?_⟩
  · exact (toNat_beByte _ 1).symm.trans (congrArg BitVec.toNat h1)
  · exact (toNat_beByte _ 2).symm.trans (congrArg BitVec.toNat h2)
  · exact (toNat_beByte _ 3).symm.trans (congrArg BitVec.toNat h3)

theorem steps_regs {s s' : Machine D} {r : Regs} {devs : List D} (h : Steps pf s r devs) (hn : next pf s = some s') :
    s'.regs = r := by
  obtain ⟨t, ht, hr, _⟩ := h
  rw [hn] at ht; injection ht with ht; rw [ht]; exact hr

theorem trap_usp (r : Regs) (c d : Nat) : (trap r c d).usp = r.usp ∧ (trap r c d).ssp = r.ssp := ⟨rfl, rfl⟩

/-- Effects of PUSH and CALL in supervisor mode keep the userland stack pointer. -/
theorem Eff.sv_stack {f : Fields} {t u : Machine D} (h : Eff pf f t u) (hop : f.opcode.toNat = 0x19 ∨ f.opcode.toNat = 0x1B)
    (hs : t.svMode = true) : u.regs.usp = t.regs.usp ∧ u.svMode = true := by
  have hdest : destRegs f = [] := by unfold destRegs; rcases hop with h | h <;> rw [h] <;> rfl
  cases h with
  | regWrite hd => rw [hdest] at hd; cases hd
  | flags r c o h => exact ⟨rfl, hs⟩
  | jump v h => exact ⟨rfl, hs⟩
  | lsm v h => omega
  | skip h => exact ⟨rfl, hs⟩
  | itr d h => omega
  | avr w h => exact ⟨rfl, hs⟩
  | sp v h => unfold Machine.setSp; rw [if_pos hs]; exact ⟨rfl, hs⟩
  | busRead h hr => rw [memRead_frame hr]; exact ⟨rfl, hs⟩
  | busWrite h hr => rw [memWrite_frame hr]; exact ⟨rfl, hs⟩
  | devReset h hr => exact ⟨rfl, hs⟩
  | halt h => exact ⟨rfl, hs⟩
  | cpuReset h => omega

/-- **C35**, supervisor mode: PUSH, CALL, and POP to any register other than `usp` itself leave the userland stack
pointer unchanged, whether they complete or raise an exception. -/
theorem C35_supervisor_keeps_usp {s s' : Machine D} {w : Word} {devs : List D} (hs : supervisor s.regs = true)
    (hf : Fetches pf s w devs)
    (hop : opcode w = 0x19 ∨ opcode w = 0x1B ∨ (opcode w = 0x1A ∧ byte w 1 ≠ 0x19))
    (h : next pf s = some s') : s'.regs.usp = s.regs.usp := by
  have push : (opcode w = 0x19 ∨ opcode w = 0x1B) → s'.regs.usp = s.regs.usp := by
    intro hop
    rw [← fieldsOf_opcode] at hop
    have key : ∀ t, Effs pf (fieldsOf w) (atExec s devs) t → t.regs.usp = s.regs.usp := fun t he =>
      (he.inv (P := fun u => u.regs.usp = s.regs.usp ∧ u.svMode = true) ⟨rfl, hs⟩ (by
        rintro a b ⟨h1, h2⟩ he
        obtain ⟨e1, e2⟩ := he.sv_stack hop h2
        exact ⟨e1.trans h1, e2⟩)).1
    rcases next_inv h hf.1 with ⟨dv, c, d, _, ha, _, _⟩ | ⟨w', dv, hf', _, hr⟩
    · rw [(fetches_iff.mp hf).2] at ha; cases ha
    · have heq := (fetches_iff.mp hf).2.symm.trans (fetches_iff.mp hf').2
      injection heq with h1 h2; subst h1 h2
      rcases hr with ⟨t, c, d, _, he, _, rfl⟩ | ⟨t, _, he, rfl⟩
      · exact key t he
      · have := key t he
        split <;> exact this
  rcases hop with hop | hop | ⟨hop, hb⟩
  · exact push (.inl hop)
  · exact push (.inr hop)
  · obtain ⟨op, r0, r1, r2, p0, p1, p2, rfl⟩ := exists_instrWord w
    rw [opcode_instrWord] at hop
    have hop' : op = 0x1A#5 := BitVec.eq_of_toNat_eq hop
    subst hop'
    rw [(byte_instrWord ..).1] at hb
    have hsp : (withStackPtr s.regs (stackPtr s.regs + 4)).usp = s.regs.usp := by
      unfold withStackPtr; rw [if_pos hs]
    rcases load_cases pf s devs (stackPtr s.regs) with ⟨v, devs', hl⟩ | ⟨c, d, devs', hl⟩ | hp
    · cases hw : mayWrite (supervisor s.regs) p0.toNat with
      | true =>
        rw [steps_regs (C33_pop hf hw hl) h]
        have hlt := mayWrite_lt hw
        have : (setReg (withStackPtr s.regs (stackPtr s.regs + 4)) p0.toNat v).usp = s.regs.usp := by
          rw [← hsp]; exact reg_setReg_ne _ _ 0x19 _ hlt (by decide) hb
        unfold assign advance; split <;> exact this
      | false =>
        have hx := writeReg_fault (c := p0) (s := { atExec s devs with devs := devs', regs := withStackPtr s.regs (stackPtr s.regs + 4) })
          v (by
            show mayWrite (supervisor (withStackPtr s.regs (stackPtr s.regs + 4))) p0.toNat = false
            rw [supervisor_withStackPtr]; exact hw)
        have := steps_ex (cp := false) (devs' := devs') (r := withStackPtr s.regs (stackPtr s.regs + 4)) hf (by
          show execPop pf _ _ = _
          rw [pop_eval hl]; exact hx)
        have this : Steps pf s _ devs' := this
        rw [steps_regs this h, (trap_usp ..).1, hsp]
    · rw [steps_regs (C33_pop_fault hf hl) h]; rfl
    · exfalso
      have := next_panic hf (by
        show execPop pf _ _ = _
        unfold execPop
        rw [getsM_bind, svMode_eq, show (atExec s devs).regs = s.regs from rfl, hs]
        simp only [if_true]
        refine M.bind_panic ?_
        rw [getsM_bind]
        refine M.bind_panic ?_
        rw [cpuRead_eq]
        unfold stackPtr at hp; rw [if_pos hs] at hp
        show (accRead pf s.regs s.mappings devs s.regs.ssp).toOut _ = _
        rw [hp]; rfl)
      rw [this] at h; cases h

/-- **C35**, userland: no stack instruction changes the supervisor's stack pointer. -/
theorem C35_userland_keeps_ssp {s s' : Machine D} {w : Word} {devs : List D} (hu : supervisor s.regs = false)
    (hf : Fetches pf s w devs) (hop : opcode w ∈ [0x19, 0x1A, 0x1B]) (h : next pf s = some s') :
    s'.regs.ssp = s.regs.ssp := by
  refine (C11_userland_keeps_supervisor_state_partial hu h ?_).1
  intro w' devs' hf'
  have heq := (fetches_iff.mp hf).2.symm.trans (fetches_iff.mp hf').2
  injection heq with h1 h2; subst h1
  intro h; rw [resetsCpu_opcode h] at hop; simp at hop

/-- A supervisor POP to `a1`, and a userland PUSH, on the example board. -/
example : ∃ s' s'' : Machine Demo.Dev,
    Fetches .debug (Demo.run1 { startup with ssp := 0x40, usp := 0x7777 } (instrWord 0x1A false false false 1 0 0))
      (instrWord 0x1A false false false 1 0 0) (Demo.devices [instrWord 0x1A false false false 1 0 0]) ∧
    next .debug (Demo.run1 { startup with ssp := 0x40, usp := 0x7777 } (instrWord 0x1A false false false 1 0 0)) = some s' ∧
    s'.regs.ssp = 0x44 ∧ s'.regs.usp = 0x7777 ∧
    next .debug (Demo.user [instrWord 0x19 false false false 0x12 0x34 0]) = some s'' ∧
    s''.regs.usp ≠ (Demo.user [instrWord 0x19 false false false 0x12 0x34 0]).regs.usp :=
  ⟨_, _, Demo.run1_fetches _ _ rfl rfl, rfl, rfl, rfl, rfl, by decide⟩

/-! ## C32, C34

The specification: events of a run, and the list-based stack. -/

/-- What a stack operation put on or took from the stack. -/
inductive Spec.StackEvent
  | push (w : Word)
  | pop (w : Word)
  | other

/-- A list-based stack, top first: a pop must return the last word pushed and not yet popped. -/
def Spec.lifo : List Word → List StackEvent → Option (List Word)
  | l, [] => some l
  | l, .push w :: es => lifo (w :: l) es
  | l, .other :: es => lifo l es
  | x :: l, .pop v :: es => if v = x then lifo l es else none
  | [], .pop _ :: _ => none

/-- Starting from `n` words, the stack is never popped when empty. -/
def Spec.bracketed : Nat → List StackEvent → Bool
  | _, [] => true
  | n, .push _ :: es => bracketed (n + 1) es
  | n, .other :: es => bracketed n es
  | n + 1, .pop _ :: es => bracketed n es
  | 0, .pop _ :: _ => false

/-- Number of pushes. -/
def Spec.pushes : List StackEvent → Nat
  | [] => 0
  | .push _ :: es => pushes es + 1
  | _ :: es => pushes es

/-- Number of pops. -/
def Spec.pops : List StackEvent → Nat
  | [] => 0
  | .pop _ :: es => pops es + 1
  | _ :: es => pops es

section
variable {E : Type} [Bus E]

/-- `m` maps a RAM, in state `ram`, whose storage serves the whole range, and translation is off. The range does
not end at the very last byte of the address space (an empty stack would then have pointer 0). -/
structure Spec.OnRam (pf : Profile) (s : Machine (E ⊕ Ram)) (m : Mapping) (ram : Ram) : Prop where
  table : TableOk pf s.mappings
  mapped : m ∈ s.mappings
  dev : s.devs[m.auxId]? = some (.inr ram)
  served : m.size.toNat ≤ 4 * ram.storage.length
  mmuOff : s.regs.mtt = 0
  notTop : m.addr.toNat + m.size.toNat < 2 ^ 32

/-- The stack of the current mode lies in `m` and contains the words `l`, top first. -/
structure Spec.Holds (s : Machine (E ⊕ Ram)) (m : Mapping) (ram : Ram) (l : List Word) : Prop where
  aligned : (stackPtr s.regs).toNat % 4 = 0
  above : m.addr.toNat ≤ (stackPtr s.regs).toNat
  below : (stackPtr s.regs).toNat + 4 * l.length ≤ m.addr.toNat + m.size.toNat
  words : ∀ i w, l[i]? = some w → ram.storage[((stackPtr s.regs).toNat - m.addr.toNat) / 4 + i]? = some w

/-- A run whose steps are PUSHes and CALLs for which there is room in `m`, POPs to a register with a code up to
`0x16` (`pc`, a RET, included), and other steps that keep the mode, the stack pointer, the translation off and
the RAM words from the stack pointer up. -/
inductive Spec.StackRun (pf : Profile) (m : Mapping) : Machine (E ⊕ Ram) → List StackEvent → Machine (E ⊕ Ram) → Prop
  | done (s) : StackRun pf m s [] s
  | push {s t u devs r0 r1 r2 p0 p1 p2 w es} (hf : Fetches pf s (instrWord 0x19 r0 r1 r2 p0 p1 p2) devs)
      (hv : Val2 s.regs r0 p0 p1 w) (hroom : m.addr.toNat + 4 ≤ (stackPtr s.regs).toNat)
      (hn : next pf s = some t) (hr : StackRun pf m t es u) : StackRun pf m s (.push w :: es) u
  | call {s t u devs r0 r1 r2 p0 p1 p2 w es} (hf : Fetches pf s (instrWord 0x1B r0 r1 r2 p0 p1 p2) devs)
      (hv : Val2 s.regs r0 p0 p1 w) (hroom : m.addr.toNat + 4 ≤ (stackPtr s.regs).toNat)
      (hn : next pf s = some t) (hr : StackRun pf m t es u) : StackRun pf m s (.push (s.regs.pc + 4) :: es) u
  | pop {s t u devs r0 r1 r2 p0 p1 p2 es} (hf : Fetches pf s (instrWord 0x1A r0 r1 r2 p0 p1 p2) devs)
      (hp : p0.toNat ≤ 0x16) (hn : next pf s = some t) (hr : StackRun pf m t es u) :
      StackRun pf m s (.pop (reg t.regs p0.toNat) :: es) u
  | other {s t u ram ram' es} (hn : next pf s = some t) (hs : supervisor t.regs = supervisor s.regs)
      (hsp : stackPtr t.regs = stackPtr s.regs) (hm : t.regs.mtt = 0)
      (hd : s.devs[m.auxId]? = some (.inr ram)) (hd' : t.devs[m.auxId]? = some (.inr ram'))
      (hl : ram'.storage.length = ram.storage.length)
      (hk : ∀ i, (stackPtr s.regs).toNat ≤ m.addr.toNat + 4 * i → ram'.storage[i]? = ram.storage[i]?)
      (hr : StackRun pf m t es u) : StackRun pf m s (.other :: es) u

theorem set_self {l : List α} {i : Nat} {a : α} (h : l[i]? = some a) : l.set i a = l := by
  obtain ⟨hi, h⟩ := List.getElem?_eq_some_iff.mp h
  rw [← h, List.set_getElem_self]

/-- A read leaves a RAM as it is. -/
theorem devRead_ram {maps : List Mapping} {devs devs' : List (E ⊕ Ram)} {a w : Word} {ex ex' : U16} {i : Nat} {ram : Ram}
    (h : devRead pf maps devs a ex = some (w, ex', devs')) (hd : devs[i]? = some (.inr ram)) :
    devs'[i]? = some (.inr ram) := by
  unfold devRead at h
  simp only [Option.bind_eq_bind, Option.bind_eq_some_iff] at h
  obtain ⟨_, _, o, ho, h⟩ := h
  cases o with
  | none => simp at h; rw [← h.2.2]; exact hd
  | some m =>
    simp only [Option.bind_eq_some_iff] at h
    obtain ⟨off, hoff, r, hr, h⟩ := h
    cases r with
    | none => simp at h
    | some r =>
      simp at h; subst h
      unfold bridgeRead at hr
      simp only [Option.bind_eq_bind, Option.bind_eq_some_iff] at hr
      obtain ⟨⟨⟩, hal, hr⟩ := hr
      split at hr
      · cases hr
      · next d hdd =>
        simp only [Option.bind_eq_some_iff] at hr
        obtain ⟨⟨d', w', x'⟩, hbr, hr⟩ := hr
        injection hr with hr; injection hr with hr; injection hr with h1 hr; injection hr with h2 hr
        subst hr
        by_cases hi : m.auxId = i
        · subst hi
          rw [hd] at hdd; injection hdd with hdd; subst hdd
          simp only [Bus.read, Option.map_eq_some_iff, Option.bind_eq_bind, Option.bind_eq_some_iff] at hbr
          obtain ⟨p, ⟨v, hv, hp⟩, hq⟩ := hbr
          injection hp with hp; subst hp
          injection hq with hq _; subst hq
          rw [set_self hd]; exact hd
        · rw [List.getElem?_set_ne hi]; exact hd

theorem accRead_off {r : Regs} {maps : List Mapping} {devs devs' : List D} {v w : Word} (hm : r.mtt = 0)
    (h : accRead pf r maps devs v = .done w devs') : v.toNat % 4 = 0 ∧ devRead pf maps devs v 0 = some (w, 0, devs') := by
  unfold accRead accDo transl at h
  rw [if_pos hm] at h
  split at h
  · cases h
  · next hv =>
    dsimp only at h
    cases hr : devRead pf maps devs v 0 with
    | none => rw [hr] at h; cases h
    | some p =>
      obtain ⟨w1, ex, d1⟩ := p
      rw [hr] at h
      dsimp only at h
      by_cases hex : ex ≠ 0
      · rw [if_pos hex] at h; cases h
      · rw [if_neg hex] at h
        injection h with h1 h2
        rw [← h1, ← h2, Decidable.not_not.mp hex]
        exact ⟨mod4_nat.mp (Decidable.not_not.mp hv), rfl⟩

theorem fetch_keeps_ram {s : Machine (E ⊕ Ram)} {m : Mapping} {ram : Ram} (h : OnRam pf s m ram) {w : Word} {devs : List (E ⊕ Ram)}
    (hf : Fetches pf s w devs) : devs[m.auxId]? = some (.inr ram) :=
  devRead_ram (accRead_off h.mmuOff (fetches_iff.mp hf).2).2 h.dev

/-- The word at an address of the RAM. -/
theorem ram_loads {s : Machine (E ⊕ Ram)} {m : Mapping} {ram : Ram} (h : OnRam pf s m ram) {devs : List (E ⊕ Ram)}
    (hd : devs[m.auxId]? = some (.inr ram)) {v w : Word} (ha : v.toNat % 4 = 0) (hc : covers m v)
    (hw : ram.storage[(v.toNat - m.addr.toNat) / 4]? = some w) : Loads pf s devs v w devs := by
  rw [(C26_load_iff h.mmuOff).1]
  refine ⟨ha, ?_⟩
  rw [busRead_iff, devRead_hit h.table h.mapped hc ha hd]
  simp only [Bus.read, vecRead, offset_nat hc.1, hw, Option.bind_eq_bind, Option.bind_some, Option.map_some]
  rw [set_self hd]

theorem ram_stores {s : Machine (E ⊕ Ram)} {m : Mapping} {ram : Ram} (h : OnRam pf s m ram) {devs : List (E ⊕ Ram)}
    (hd : devs[m.auxId]? = some (.inr ram)) {v w : Word} (ha : v.toNat % 4 = 0) (hc : covers m v) :
    Stores pf s devs v w (devs.set m.auxId (.inr { ram with storage := ram.storage.set ((v.toNat - m.addr.toNat) / 4) w })) := by
  rw [(C26_load_iff h.mmuOff).2]
  refine ⟨ha, ?_⟩
  rw [busWrite_iff, devWrite_hit h.table h.mapped hc ha hd]
  have hlt : (v.toNat - m.addr.toNat) / 4 < ram.storage.length := by
    have := h.served; have := hc.2; have := hc.1; omega
  simp only [Bus.write, vecWrite, offset_nat hc.1, if_pos hlt, Option.bind_eq_bind, Option.bind_some, Option.map_some]

theorem withStackPtr_fields (r : Regs) (v : Word) : stackPtr (withStackPtr r v) = v ∧ (withStackPtr r v).mtt = r.mtt ∧
    supervisor (withStackPtr r v) = supervisor r := by
  unfold withStackPtr stackPtr
  cases h : supervisor r with
  | true => simp only [if_true]; exact ⟨by rw [if_pos (show supervisor { r with ssp := v } = true from h)], trivial, h⟩
  | false =>
    simp only [Bool.false_eq_true, if_false]
    exact ⟨by rw [if_neg (by rw [show supervisor { r with usp := v } = false from h]; simp)], trivial, h⟩

theorem sub4_nat {a : Word} (h : 4 ≤ a.toNat) : (a - 4).toNat = a.toNat - 4 := offset_nat (b := 4) h

/-- A push keeps the correspondence with the list. -/
theorem push_holds {s t : Machine (E ⊕ Ram)} {m : Mapping} {ram : Ram} {l : List Word} {w : Word} {devs : List (E ⊕ Ram)}
    (ho : OnRam pf s m ram) (hh : Holds s m ram l) (hroom : m.addr.toNat + 4 ≤ (stackPtr s.regs).toNat)
    (hd : devs[m.auxId]? = some (.inr ram))
    (hmap : t.mappings = s.mappings) (hsp : stackPtr t.regs = stackPtr s.regs - 4) (hmtt : t.regs.mtt = s.regs.mtt)
    (hdev : t.devs = devs.set m.auxId
      (.inr { ram with storage := ram.storage.set (((stackPtr s.regs - 4).toNat - m.addr.toNat) / 4) w })) :
    ∃ ram', OnRam pf t m ram' ∧ Holds t m ram' (w :: l) := by
  have h4 : (stackPtr s.regs - 4).toNat = (stackPtr s.regs).toNat - 4 := sub4_nat (by omega)
  have hal := (ho.table.ranges m ho.mapped).addrAligned
  have ha := hh.aligned
  have hb := hh.below
  have hsv := ho.served
  refine ⟨{ ram with storage := ram.storage.set (((stackPtr s.regs - 4).toNat - m.addr.toNat) / 4) w },
    ⟨hmap ▸ ho.table, hmap ▸ ho.mapped, ?_, ?_, hmtt.trans ho.mmuOff, ho.notTop⟩, ⟨?_, ?_, ?_, ?_⟩⟩
  · rw [hdev, List.getElem?_set_self (List.getElem?_eq_some_iff.mp hd).1]
  · rw [List.length_set]; exact hsv
  · rw [hsp, h4]; omega
  · rw [hsp, h4]; omega
  · rw [hsp, h4, List.length_cons]; omega
  · intro i x hx
    rw [hsp, h4, List.getElem?_set]
    cases i with
    | zero =>
      simp at hx; subst hx
      rw [if_pos (by omega), if_pos (by omega)]
    | succ i =>
      simp at hx
      have := hh.words i x hx
      rw [if_neg (by omega), ← this]
      congr 1; omega

theorem bracketed_pop {n : Nat} {v : Word} {es : List StackEvent} (h : bracketed n (.pop v :: es) = true) :
    ∃ k, n = k + 1 ∧ bracketed k es = true := by
  cases n with
  | zero => cases h
  | succ k => exact ⟨k, rfl, h⟩

/-- **C32** (and, with the CALL and RET steps, **C34**). On a machine whose current stack lies in mapped RAM and
contains `l`, run any sequence of PUSH, CALL and POP instructions (the other steps leaving the stack alone), never
popping more than is there nor pushing beyond the RAM. Then every POP returned what a list-based stack would, the
stack now contains exactly the words of that list, and the stack pointer moved by 4 per word. -/
theorem C32_lifo {s s' : Machine (E ⊕ Ram)} {m : Mapping} {ram : Ram} {l : List Word} {es : List StackEvent}
    (ho : OnRam pf s m ram) (hh : Holds s m ram l) (hb : bracketed l.length es = true)
    (hrun : StackRun pf m s es s') :
    ∃ l' ram', lifo l es = some l' ∧ OnRam pf s' m ram' ∧ Holds s' m ram' l' ∧
      (stackPtr s'.regs).toNat + 4 * pushes es = (stackPtr s.regs).toNat + 4 * pops es := by
  induction hrun generalizing ram l with
  | done s => exact ⟨l, ram, by cases l <;> rfl, ho, hh, rfl⟩
  | @push s t u devs r0 r1 r2 p0 p1 p2 w es hf hv hroom hn hr ih =>
    have hd := fetch_keeps_ram ho hf
    have h4 : (stackPtr s.regs - 4).toNat = (stackPtr s.regs).toNat - 4 := sub4_nat (by omega)
    have hcov : covers m (stackPtr s.regs - 4) := ⟨by rw [h4]; omega, by rw [h4]; have := hh.below; omega⟩
    have hst := ram_stores (w := w) ho hd (v := stackPtr s.regs - 4) (by rw [h4]; have := hh.aligned; omega) hcov
    obtain ⟨t', ht', hregs, hdevs, _, _, hmaps, _⟩ := C33_push hf hv hst
    rw [hn] at ht'; injection ht' with ht'; subst ht'
    have hf3 := withStackPtr_fields s.regs (stackPtr s.regs - 4)
    have hsp : stackPtr t.regs = stackPtr s.regs - 4 := by rw [hregs]; exact hf3.1
    obtain ⟨ram', ho', hh'⟩ := push_holds ho hh hroom hd hmaps hsp (by rw [hregs]; exact hf3.2.1) hdevs
    obtain ⟨l', ram'', e1, e2, e3, e4⟩ := ih ho' hh' (by simpa [bracketed] using hb)
    refine ⟨l', ram'', by cases l <;> exact e1, e2, e3, ?_⟩
    rw [hsp, h4] at e4
    simp only [pushes, pops]
    omega
  | @call s t u devs r0 r1 r2 p0 p1 p2 w es hf hv hroom hn hr ih =>
    have hd := fetch_keeps_ram ho hf
    have h4 : (stackPtr s.regs - 4).toNat = (stackPtr s.regs).toNat - 4 := sub4_nat (by omega)
    have hcov : covers m (stackPtr s.regs - 4) := ⟨by rw [h4]; omega, by rw [h4]; have := hh.below; omega⟩
    have hst := ram_stores (w := s.regs.pc + 4) ho hd (v := stackPtr s.regs - 4) (by rw [h4]; have := hh.aligned; omega) hcov
    have hov : pf = .debug → s.regs.pc.toNat + 4 < 2 ^ 32 := by
      intro hp
      rcases Nat.lt_or_ge (s.regs.pc.toNat + 4) (2 ^ 32) with h | h
      · exact h
      · exfalso
        have := next_panic hf (by
          show execCall pf _ _ = _
          unfold execCall
          rw [M.bind_ok (regOrLit2_val (s := atExec s devs) hv), getsM_bind, getsM_bind,
            show (atExec s devs).regs.pc = s.regs.pc from rfl,
            show pf.add s.regs.pc 4 = none by subst hp; exact if_neg (Nat.not_lt.mpr h)]
          rfl)
        rw [this] at hn; cases hn
    obtain ⟨t', ht', hregs, hdevs, _, _, hmaps, _⟩ := C33_call hf hv hov hst
    rw [hn] at ht'; injection ht' with ht'; subst ht'
    have hf3 := withStackPtr_fields s.regs (stackPtr s.regs - 4)
    have hsp : stackPtr t.regs = stackPtr s.regs - 4 := by rw [hregs]; exact hf3.1
    obtain ⟨ram', ho', hh'⟩ := push_holds ho hh hroom hd hmaps hsp (by rw [hregs]; exact hf3.2.1) hdevs
    obtain ⟨l', ram'', e1, e2, e3, e4⟩ := ih ho' hh' (by simpa [bracketed] using hb)
    refine ⟨l', ram'', by cases l <;> exact e1, e2, e3, ?_⟩
    rw [hsp, h4] at e4
    simp only [pushes, pops]
    omega
  | @pop s t u devs r0 r1 r2 p0 p1 p2 es hf hp hn hr ih =>
    obtain ⟨k, hk, hb'⟩ := bracketed_pop hb
    cases l with
    | nil => cases hk
    | cons x l =>
      have hd := fetch_keeps_ram ho hf
      have hlen : (x :: l).length = l.length + 1 := rfl
      have hbel := hh.below
      have hal := (ho.table.ranges m ho.mapped).addrAligned
      have hcov : covers m (stackPtr s.regs) := ⟨hh.above, by omega⟩
      have hw0 := hh.words 0 x rfl
      have hld := ram_loads ho hd hh.aligned hcov (w := x) hw0
      have hmw : mayWrite (supervisor s.regs) p0.toNat = true := by unfold mayWrite; rw [if_pos hp]
      obtain ⟨t', ht', hregs, hdevs, _, _, hmaps, _⟩ := C33_pop hf hmw hld
      rw [hn] at ht'; injection ht' with ht'; subst ht'
      have hf3 := withStackPtr_fields s.regs (stackPtr s.regs + 4)
      have hkeep : ∀ c, c < 32 → 0x16 < c → reg t.regs c = reg (withStackPtr s.regs (stackPtr s.regs + 4)) c := by
        intro c hc hc'
        have hne : reg (setReg (withStackPtr s.regs (stackPtr s.regs + 4)) p0.toNat x) c =
            reg (withStackPtr s.regs (stackPtr s.regs + 4)) c := reg_setReg_ne _ _ c _ (by omega) hc (by omega)
        rw [hregs]
        unfold assign
        split
        · exact hne
        · rw [← hne]
          exact reg_setReg_ne _ 0x16 c _ (by decide) hc (by omega)
      have hsmt : t.regs.smt = (withStackPtr s.regs (stackPtr s.regs + 4)).smt := hkeep 0x1F (by decide) (by decide)
      have hssp : t.regs.ssp = (withStackPtr s.regs (stackPtr s.regs + 4)).ssp := hkeep 0x18 (by decide) (by decide)
      have husp : t.regs.usp = (withStackPtr s.regs (stackPtr s.regs + 4)).usp := hkeep 0x19 (by decide) (by decide)
      have hmtt : t.regs.mtt = (withStackPtr s.regs (stackPtr s.regs + 4)).mtt := hkeep 0x1D (by decide) (by decide)
      have hsp : stackPtr t.regs = stackPtr s.regs + 4 := by
        rw [← hf3.1]
        unfold stackPtr supervisor
        rw [hsmt, hssp, husp]
        rfl
      have hval : reg t.regs p0.toNat = x := by
        have hself : reg (setReg (withStackPtr s.regs (stackPtr s.regs + 4)) p0.toNat x) p0.toNat = x :=
          reg_setReg_same _ _ _ (by omega)
        rw [hregs]
        unfold assign
        split
        · exact hself
        · next hne => exact (reg_setReg_ne _ 0x16 p0.toNat _ (by decide) (by omega) (fun h => hne h.symm)).trans hself
      have hlt' : (stackPtr s.regs).toNat + 4 < 2 ^ 32 := by have := ho.notTop; omega
      have h4 : (stackPtr s.regs + 4).toNat = (stackPtr s.regs).toNat + 4 := by
        rw [BitVec.toNat_add]; exact Nat.mod_eq_of_lt hlt'
      have ho' : OnRam pf t m ram := ⟨hmaps ▸ ho.table, hmaps ▸ ho.mapped, by rw [hdevs]; exact hd, ho.served,
        hmtt.trans (hf3.2.1.trans ho.mmuOff), ho.notTop⟩
      have hh' : Holds t m ram l := by
        have ha := hh.aligned
        have hab := hh.above
        refine ⟨by rw [hsp, h4]; omega, by rw [hsp, h4]; omega, by rw [hsp, h4]; omega, ?_⟩
        intro i w hw
        have := hh.words (i + 1) w (by simpa using hw)
        rw [hsp, h4, ← this]
        congr 1; omega
      obtain ⟨l', ram'', e1, e2, e3, e4⟩ := ih ho' hh' (by
        have : k = l.length := by omega
        rw [← this]; exact hb')
      refine ⟨l', ram'', ?_, e2, e3, ?_⟩
      · show (if _ = x then lifo l es else none) = some l'
        rw [if_pos hval]; exact e1
      · rw [hsp, h4] at e4
        simp only [pushes, pops]
        omega
  | @other s t u rm ram' es hn hs hsp hm hd hd' hl hk hr ih =>
    rw [ho.dev] at hd; injection hd with hd; injection hd with hd; subst hd
    have hmaps := (C38_step_keeps_hardware hn).2.1
    have ho' : OnRam pf t m ram' := ⟨hmaps ▸ ho.table, hmaps ▸ ho.mapped, hd', by rw [hl]; exact ho.served, hm, ho.notTop⟩
    have hh' : Holds t m ram' l := by
      refine ⟨by rw [hsp]; exact hh.aligned, by rw [hsp]; exact hh.above, by rw [hsp]; exact hh.below, ?_⟩
      intro i w hw
      rw [hsp, ← hh.words i w hw]
      apply hk
      have := hh.above
      have := hh.aligned
      have := (ho.table.ranges m ho.mapped).addrAligned
      omega
    obtain ⟨l', ram'', e1, e2, e3, e4⟩ := ih ho' hh' (by simpa [bracketed] using hb)
    refine ⟨l', ram'', by cases l <;> exact e1, e2, e3, ?_⟩
    rw [hsp] at e4
    simp only [pushes, pops]
    omega

theorem lifo_append {a l : List Word} {es : List StackEvent} (hb : bracketed a.length es = true) :
    lifo (a ++ l) es = (lifo a es).map (· ++ l) := by
  induction es generalizing a with
  | nil => cases a <;> cases l <;> rfl
  | cons e es ih =>
    cases e with
    | push w =>
      have := ih (a := w :: a) (by simpa [bracketed] using hb)
      cases a <;> cases l <;> simpa [lifo] using this
    | other =>
      have := ih (a := a) (by simpa [bracketed] using hb)
      cases a <;> cases l <;> simpa [lifo] using this
    | pop v =>
      obtain ⟨k, hk, hb'⟩ := bracketed_pop hb
      cases a with
      | nil => cases hk
      | cons x a =>
        simp only [List.cons_append, lifo]
        split
        · exact ih (by
            have : k = a.length := by simp at hk; omega
            rw [← this]; exact hb')
        · rfl

theorem lifo_length {l l' : List Word} {es : List StackEvent} (h : lifo l es = some l') :
    l'.length + pops es = l.length + pushes es := by
  induction es generalizing l with
  | nil => cases l <;> (injection h with h; subst h; rfl)
  | cons e es ih =>
    cases e with
    | push w =>
      have h' : lifo (w :: l) es = some l' := by cases l <;> exact h
      have := ih h'
      simp only [pops, pushes, List.length_cons] at this ⊢; omega
    | other =>
      have h' : lifo l es = some l' := by cases l <;> exact h
      exact ih h'
    | pop v =>
      cases l with
      | nil => cases h
      | cons x l =>
        simp only [lifo] at h
        split at h
        · have := ih h
          simp only [pops, pushes, List.length_cons] at this ⊢; omega
        · cases h

/-- **C32**, well-bracketed runs: as many pops as pushes, each pop matching an earlier push of the run. The stack's
content and pointer are restored. -/
theorem C32_well_bracketed {s s' : Machine (E ⊕ Ram)} {m : Mapping} {ram : Ram} {l : List Word} {es : List StackEvent}
    (ho : OnRam pf s m ram) (hh : Holds s m ram l) (hb : bracketed 0 es = true) (hc : pushes es = pops es)
    (hrun : StackRun pf m s es s') :
    lifo [] es = some [] ∧ stackPtr s'.regs = stackPtr s.regs ∧ ∃ ram', OnRam pf s' m ram' ∧ Holds s' m ram' l := by
  have mono : ∀ (es : List StackEvent) (n k : Nat), bracketed n es = true → bracketed (n + k) es = true := by
    intro es
    induction es with
    | nil => intro n k _; cases n + k <;> rfl
    | cons e es ih =>
      intro n k h
      cases e with
      | push w =>
        have := ih (n + 1) k (by simpa [bracketed] using h)
        simp only [bracketed]; rw [show n + k + 1 = n + 1 + k by omega]; exact this
      | other => simpa [bracketed] using ih n k (by simpa [bracketed] using h)
      | pop v =>
        obtain ⟨j, rfl, h'⟩ := bracketed_pop h
        rw [show j + 1 + k = j + k + 1 by omega]
        exact ih j k h'
  obtain ⟨l', ram', e1, e2, e3, e4⟩ := C32_lifo ho hh (by have := mono es 0 l.length hb; simpa using this) hrun
  have happ := lifo_append (a := []) (l := l) hb
  rw [List.nil_append, e1] at happ
  cases ha : lifo [] es with
  | none => rw [ha] at happ; cases happ
  | some a =>
    rw [ha] at happ
    have hl := lifo_length ha
    have hnil : a = [] := List.eq_nil_of_length_eq_zero (by simp at hl; omega)
    subst hnil
    injection happ with happ
    have happ : l' = l := happ
    subst happ
    exact ⟨rfl, BitVec.eq_of_toNat_eq (by omega), ram', e2, e3⟩

/-- **C34**. A CALL at `s` jumps to its target having pushed the address of the following instruction; after any
well-bracketed run (with its own calls and returns, nested to any depth), a RET goes to the instruction that follows
the CALL with the stack as it was. -/
theorem C34_call_ret {s0 s1 s2 s3 : Machine (E ⊕ Ram)} {m : Mapping} {ram : Ram} {l : List Word}
    {es : List StackEvent} {devs devs' : List (E ⊕ Ram)} {r0 r1 r2 q0 q1 q2 : Bool} {p0 p1 p2 k1 k2 : U8} {target : Word}
    (ho : OnRam pf s0 m ram) (hh : Holds s0 m ram l) (hroom : m.addr.toNat + 4 ≤ (stackPtr s0.regs).toNat)
    (hcall : Fetches pf s0 (instrWord 0x1B r0 r1 r2 p0 p1 p2) devs) (hv : Val2 s0.regs r0 p0 p1 target)
    (h1 : next pf s0 = some s1)
    (hb : bracketed 0 es = true) (hc : pushes es = pops es) (hrun : StackRun pf m s1 es s2)
    (hret : Fetches pf s2 (instrWord 0x1A q0 q1 q2 0x16 k1 k2) devs') (h3 : next pf s2 = some s3) :
    s1.regs.pc = target ∧ s3.regs.pc = s0.regs.pc + 4 ∧ stackPtr s3.regs = stackPtr s0.regs ∧
    ∃ ram', OnRam pf s3 m ram' ∧ Holds s3 m ram' l := by
  have hst1 : StackRun pf m s0 [.push (s0.regs.pc + 4)] s1 := .call hcall hv hroom h1 (.done s1)
  obtain ⟨l1, ram1, e1, o1, h1', p1'⟩ := C32_lifo ho hh rfl hst1
  have e1' : l1 = (s0.regs.pc + 4) :: l := by cases l <;> (injection e1 with e1; exact e1.symm)
  subst e1'
  obtain ⟨_, sp2, ram2, o2, h2⟩ := C32_well_bracketed o1 h1' hb hc hrun
  have hst3 : StackRun pf m s2 [.pop (reg s3.regs (0x16#8).toNat)] s3 :=
    .pop hret (by decide) h3 (.done s3)
  obtain ⟨l3, ram3, e3, o3, h3', p3⟩ := C32_lifo o2 h2 (by rfl) hst3
  have hpc : reg s3.regs 0x16 = s0.regs.pc + 4 := by
    simp only [lifo] at e3
    split at e3
    · assumption
    · cases e3
  have el3 : l3 = l := by
    simp only [lifo] at e3
    split at e3
    · cases l <;> (injection e3 with e3; exact e3.symm)
    · cases e3
  subst el3
  refine ⟨?_, hpc, ?_, ram3, o3, h3'⟩
  · have hd := fetch_keeps_ram ho hcall
    have h4 : (stackPtr s0.regs - 4).toNat = (stackPtr s0.regs).toNat - 4 := sub4_nat (by omega)
    have hcov : covers m (stackPtr s0.regs - 4) := ⟨by rw [h4]; omega, by rw [h4]; have := hh.below; omega⟩
    have hst := ram_stores (w := s0.regs.pc + 4) ho hd (v := stackPtr s0.regs - 4) (by rw [h4]; have := hh.aligned; omega) hcov
    have hov : pf = .debug → s0.regs.pc.toNat + 4 < 2 ^ 32 := by
      intro hp
      rcases Nat.lt_or_ge (s0.regs.pc.toNat + 4) (2 ^ 32) with h | h
      · exact h
      · exfalso
        have := next_panic hcall (by
          show execCall pf _ _ = _
          unfold execCall
          rw [M.bind_ok (regOrLit2_val (s := atExec s0 devs) hv), getsM_bind, getsM_bind,
            show (atExec s0 devs).regs.pc = s0.regs.pc from rfl,
            show pf.add s0.regs.pc 4 = none by subst hp; exact if_neg (Nat.not_lt.mpr h)]
          rfl)
        rw [this] at h1; cases h1
    rw [steps_regs (C33_call hcall hv hov hst) h1]
  · apply BitVec.eq_of_toNat_eq
    rw [sp2] at p3
    simp only [pushes, pops] at p1' p3
    omega

end

/-! A concrete run: `CALL 0x10`, `PUSH 0x1234`, `POP a0`, `RET` with the stack at the end of the RAM. -/

/-- The program of the example. -/
def Demo.callProgram : List Word :=
  [instrWord 0x1B false false false 0 0x10 0, 0, 0, 0,
   instrWord 0x19 false false false 0x12 0x34 0, instrWord 0x1A false false false 0 0 0,
   instrWord 0x1A false false false 0x16 0 0]

/-- The example machine. -/
def Demo.callMachine : Machine Demo.Dev :=
  { Demo.start Demo.callProgram with regs := { startup with ssp := 0x80 } }

/-- The machine after `n` steps of the example. -/
def Demo.callAfter : Nat → Machine Demo.Dev
  | 0 => Demo.callMachine
  | n + 1 => (next .debug (Demo.callAfter n)).getD Demo.callMachine

example : ∃ (ram : Ram) (s1 s2 s3 : Machine Demo.Dev),
    OnRam .debug Demo.callMachine ⟨1, 0x22, 0x40, 0x40⟩ ram ∧ Holds Demo.callMachine ⟨1, 0x22, 0x40, 0x40⟩ ram [] ∧
    Fetches .debug Demo.callMachine (instrWord 0x1B false false false 0 0x10 0) Demo.callMachine.devs ∧
    next .debug Demo.callMachine = some s1 ∧
    StackRun .debug ⟨1, 0x22, 0x40, 0x40⟩ s1 [.push 0x1234, .pop 0x1234] s2 ∧
    Fetches .debug s2 (instrWord 0x1A false false false 0x16 0 0) s2.devs ∧
    next .debug s2 = some s3 ∧ s3.regs.pc = 4 ∧ s3.regs.ssp = 0x80 := by
  refine ⟨_, Demo.callAfter 1, Demo.callAfter 3, Demo.callAfter 4, ⟨Demo.table_ok Demo.callProgram, by simp [Demo.callMachine, Demo.start], rfl, by decide +kernel, rfl, by decide⟩,
    ⟨by decide, by decide, by decide, by simp⟩, ⟨rfl, rfl⟩, rfl,
    .push (r0 := false) (r1 := false) (r2 := false) (p0 := 0x12) (p1 := 0x34) (p2 := 0) ⟨rfl, rfl⟩ rfl (by decide) (t := Demo.callAfter 2) rfl
      (.pop (r0 := false) (r1 := false) (r2 := false) (p0 := 0) (p1 := 0) (p2 := 0) ⟨rfl, rfl⟩ (by decide) rfl (.done (Demo.callAfter 3))),
    ⟨rfl, rfl⟩, rfl, rfl, rfl⟩

end Lrvm
