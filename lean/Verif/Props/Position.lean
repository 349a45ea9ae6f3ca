import Verif.Lemmas.Position
import Verif.Props.Devices.Memories
import Verif.Props.Tools.Idle

/-!
# Position-independent code: C117
-/

namespace Lrvm

open Spec

variable {D : Type} [Bus D] {pf : Profile} {δ : Word}

/-- **C117**, one step. Two machines differ only by `pc`, and each finds the same instruction where its `pc` is, which
does not look at where it is. Either both calls panic, or both return and the machines again differ only by `pc`, with the
same distance; or they have become the same machine (an absolute jump, an exception, a reset of the CPU). -/
theorem C117_step {s t : Machine D} {w : Word} {devs : List D} (ha : Apart δ s t) (hw : PositionFree w)
    (hs : Fetches pf s w devs) (ht : Fetches pf t w devs) :
    (next pf s = none ∧ next pf t = none) ∨
    ∃ s' t', next pf s = some s' ∧ next pf t = some t' ∧ (Apart δ s' t' ∨ s' = t') := by
  obtain ⟨i, rfl, hop, hsrc, hsrm⟩ := hw
  have ha : t = moveOn δ s := ha
  rw [next_of_fetch hs, next_of_fetch ht]
  subst ha
  unfold execWord Parts.word
  rw [fieldsOf_instrWord]
  have hm := astray_runInstr (pf := pf) (δ := δ) i hop hsrc hsrm (atExec s devs)
  change (match runInstr pf _ (atExec s devs) with | .panic => none | .ex s => some s | .ok () s => _) = none ∧
    (match runInstr pf _ (moveOn δ (atExec s devs)) with | .panic => none | .ex s => some s | .ok () s => _) = none ∨
    ∃ s' t', (match runInstr pf _ (atExec s devs) with | .panic => none | .ex s => some s | .ok () s => _) = some s' ∧
      (match runInstr pf _ (moveOn δ (atExec s devs)) with | .panic => none | .ex s => some s | .ok () s => _) = some t' ∧ _
  revert hm
  generalize runInstr pf _ (atExec s devs) = o1
  generalize runInstr pf _ (moveOn δ (atExec s devs)) = o2
  intro hm
  cases o1 <;> cases o2 <;> try exact hm.elim
  · rename_i _ u _ v
    obtain ⟨_, rfl | rfl⟩ := hm
    · refine .inr ?_
      by_cases hc : u.changedPc = true
      · exact ⟨_, _, if_pos hc, if_pos (c := (moveOn δ u).changedPc = true) hc, .inl rfl⟩
      · refine ⟨_, _, if_neg hc, if_neg (c := (moveOn δ u).changedPc = true) hc, .inl ?_⟩
        show ({ u with regs := { u.regs with pc := u.regs.pc + δ + 4 } } : Machine D) =
          { u with regs := { u.regs with pc := u.regs.pc + 4 + δ } }
        rw [add_right_comm_word]
    · refine .inr ?_
      by_cases hc : v.changedPc = true
      · exact ⟨_, _, if_pos hc, if_pos hc, .inr rfl⟩
      · exact ⟨_, _, if_neg hc, if_neg hc, .inr rfl⟩
  · cases hm; exact .inr ⟨_, _, rfl, rfl, .inr rfl⟩
  · exact .inl ⟨rfl, rfl⟩

/-- **C117**, any number of steps, as long as the machines are apart and each finds the same position-free instruction
at its `pc`. -/
theorem C117_run {s t : Machine D} (ha : Apart δ s t) (n : Nat)
    (h : ∀ k < n, ∀ u v, nextN pf k s = some u → nextN pf k t = some v → Apart δ u v →
      u.halted = true ∨ ∃ w devs, PositionFree w ∧ Fetches pf u w devs ∧ Fetches pf v w devs) :
    (nextN pf n s = none ∧ nextN pf n t = none) ∨
    ∃ s' t', nextN pf n s = some s' ∧ nextN pf n t = some t' ∧ (Apart δ s' t' ∨ s' = t') := by
  induction n generalizing s t with
  | zero => exact .inr ⟨s, t, rfl, rfl, .inl ha⟩
  | succ n ih =>
    have h1 : (next pf s = none ∧ next pf t = none) ∨
        ∃ s' t', next pf s = some s' ∧ next pf t = some t' ∧ (Apart δ s' t' ∨ s' = t') := by
      rcases h 0 (by omega) s t rfl rfl ha with hh | ⟨w, devs, hw, hs, ht⟩
      · have hh' : t.halted = true := by rw [show t = moveOn δ s from ha]; exact hh
        exact .inr ⟨s, t, if_pos hh, if_pos hh', .inl ha⟩
      · exact C117_step ha hw hs ht
    rcases h1 with ⟨e1, e2⟩ | ⟨s', t', e1, e2, hr⟩
    · exact .inl ⟨by show (next pf s).bind _ = none; rw [e1]; rfl, by show (next pf t).bind _ = none; rw [e2]; rfl⟩
    · have f1 : ∀ k, nextN pf (k + 1) s = nextN pf k s' := fun k => by
        show (next pf s).bind _ = _; rw [e1]; rfl
      have f2 : ∀ k, nextN pf (k + 1) t = nextN pf k t' := fun k => by
        show (next pf t).bind _ = _; rw [e2]; rfl
      rw [f1, f2]
      rcases hr with ha' | rfl
      · exact ih ha' fun k hk u v hu hv => h (k + 1) (by omega) u v ((f1 k).trans hu) ((f2 k).trans hv)
      · cases hn : nextN pf n s' with
        | none => exact .inl ⟨rfl, rfl⟩
        | some u => exact .inr ⟨u, u, rfl, rfl, .inr rfl⟩

theorem hostRun_then_steps {s0 s u : Machine D} {ops : List HostOp} (h : hostRun pf ops s0 = some s) (k : Nat)
    (hk : nextN pf k s = some u) : hostRun pf (ops ++ List.replicate k .next) s0 = some u := by
  induction ops generalizing s0 with
  | nil =>
    injection h with h
    subst h
    induction k generalizing s0 with
    | zero => exact hk
    | succ k ih =>
      have hk : (next pf s0).bind (nextN pf k) = some u := hk
      obtain ⟨v, hv, hvu⟩ := Option.bind_eq_some_iff.mp hk
      show (next pf s0).bind (hostRun pf ([] ++ List.replicate k .next)) = some u
      rw [hv]
      exact ih hvu
  | cons op ops ih =>
    obtain ⟨v, hv, hvs⟩ := Option.bind_eq_some_iff.mp (show (hostStep pf s0 op).bind (hostRun pf ops) = some s from h)
    show (hostStep pf s0 op).bind _ = some u
    rw [hv]
    exact ih hvs

theorem nextN_mappings {s u : Machine D} {k : Nat} (h : nextN pf k s = some u) : u.mappings = s.mappings := by
  induction k generalizing s with
  | zero => injection h with h; rw [h]
  | succ k ih =>
    obtain ⟨v, hv, hvu⟩ := Option.bind_eq_some_iff.mp (show (next pf s).bind (nextN pf k) = some u from h)
    rw [ih hvu]
    exact (C38_step_keeps_hardware hv).2.1

/-- The word 0, which boot ROMs show after their program, is position-free: it is not an instruction and raises exception 0x01
wherever it is. -/
theorem positionFree_zero : PositionFree 0 :=
  ⟨⟨0, false, false, false, 0, 0, 0⟩, rfl, by decide, by decide, by decide⟩

/-- **C117**. On a board with two boot ROMs holding the same program, all of whose instructions are position-free, take
the machine `s` after any history of host calls, and the same machine `t` with `pc` moved by the distance between the
ROMs. Run both for any number of steps, such that as long as they stay apart `pc` is in the first ROM, aligned, and the
MMU is off. Then either both panic, or both machines are the same, or they differ only by `pc`, by that same distance:
every register, every component and every counter is what it would have been at the other place. -/
theorem C117 {E : Type} [Bus E] {devs : List (BootRom ⊕ E)} {s0 s t : Machine (BootRom ⊕ E)} {ops : List HostOp}
    {m1 m2 : Mapping} {rom1 rom2 : BootRom} {prog : List Word} (hb : newBoard pf devs = some s0)
    (hid1 : devs[m1.auxId]? = some (.inl rom1)) (hid2 : devs[m2.auxId]? = some (.inl rom2))
    (hrom1 : BuiltWith rom1 prog) (hrom2 : BuiltWith rom2 prog) (hrun : hostRun pf ops s0 = some s)
    (htab : TableOk pf s.mappings) (hm1 : m1 ∈ s.mappings) (hm2 : m2 ∈ s.mappings) (hsize : m1.size = m2.size)
    (hfree : ∀ w ∈ prog, PositionFree w) (ha : Apart (m2.addr - m1.addr) s t) (n : Nat)
    (hin : ∀ k < n, ∀ u v, nextN pf k s = some u → nextN pf k t = some v → Apart (m2.addr - m1.addr) u v →
      u.halted = true ∨ covers m1 u.regs.pc ∧ u.regs.pc.toNat % 4 = 0 ∧ u.regs.mtt = 0) :
    (nextN pf n s = none ∧ nextN pf n t = none) ∨
    ∃ s' t', nextN pf n s = some s' ∧ nextN pf n t = some t' ∧ (Apart (m2.addr - m1.addr) s' t' ∨ s' = t') := by
  refine C117_run ha n fun k hk u v hu hv huv => ?_
  rcases hin k hk u v hu hv huv with hh | ⟨hc, hal, hmtt⟩
  · exact .inl hh
  by_cases hh : u.halted = true
  · exact .inl hh
  have hh : u.halted = false := by simpa using hh
  have hr := hostRun_then_steps hrun k hu
  have hmu := nextN_mappings hu
  rw [← hmu] at htab hm1 hm2
  have hr1 := htab.ranges m1 hm1
  have hr2 := htab.ranges m2 hm2
  have e1 := (C74 hb hid1 hrom1 hr htab hm1 rfl hc hal 0 0).1
  -- the other place
  have hpc : (u.regs.pc + (m2.addr - m1.addr)).toNat = m2.addr.toNat + (u.regs.pc.toNat - m1.addr.toNat) := by
    have := hc.1
    have := hc.2
    have := hr2.fits
    have hsz : m1.size.toNat = m2.size.toNat := by rw [hsize]
    have hroom : room pf ≤ 2 ^ 32 := by cases pf <;> decide
    have := u.regs.pc.isLt
    have := m1.addr.isLt
    have := m2.addr.isLt
    rw [BitVec.toNat_add, BitVec.toNat_sub]
    omega
  have hc2 : covers m2 (u.regs.pc + (m2.addr - m1.addr)) := by
    have := hc.1
    have := hc.2
    have hsz : m1.size.toNat = m2.size.toNat := by rw [hsize]
    constructor <;> rw [hpc] <;> omega
  have hal2 : (u.regs.pc + (m2.addr - m1.addr)).toNat % 4 = 0 := by
    have := hc.1
    have := hr1.addrAligned
    have := hr2.addrAligned
    rw [hpc]; omega
  have e2 := (C74 hb hid2 hrom2 hr htab hm2 rfl hc2 hal2 0 0).1
  have ho : (u.regs.pc + (m2.addr - m1.addr)).toNat - m2.addr.toNat = u.regs.pc.toNat - m1.addr.toNat := by
    rw [hpc]; omega
  rw [ho] at e2
  refine .inr ⟨(prog[(u.regs.pc.toNat - m1.addr.toNat) / 4]?).getD 0, u.devs, ?_, ?_, ?_⟩
  · cases hp : prog[(u.regs.pc.toNat - m1.addr.toNat) / 4]? with
    | none => exact positionFree_zero
    | some w => exact hfree w (List.mem_of_getElem? hp)
  · exact (C04_fetch_is_word_at_pc hmtt).2 ⟨hh, hal, e1⟩
  · subst huv
    refine (C04_fetch_is_word_at_pc (s := moveOn (m2.addr - m1.addr) u) hmtt).2 ⟨hh, hal2, ?_⟩
    rw [memRead_eq] at e2 ⊢
    obtain ⟨⟨w, ex, ds⟩, h1, h2⟩ := Option.map_eq_some_iff.mp e2
    show (devRead pf u.mappings u.devs (u.regs.pc + (m2.addr - m1.addr)) 0).map _ = _
    rw [h1]
    injection h2 with h2 h3
    injection h3 with h3 h4
    dsimp only at h2 h3 h4
    have : ds = u.devs := congrArg Machine.devs h4
    subst this; subst h2; subst h3
    rfl

/-! ## Examples -/

/-- Two boot ROMs of 8 words with the same program, then 64 bytes of RAM. -/
def Demo.twins (prog : List Word) : List Demo.Dev :=
  (match BootRom.withSize prog 0x20 0x11 with | some d => [.inl d] | none => []) ++
  (match BootRom.withSize prog 0x20 0x12 with | some d => [.inl d] | none => []) ++
  (match Ram.fromWithSize [] 0x40 0x22 with | some d => [.inr d] | none => [])

/-- `add a0, 1`, `wsa 0x40, 0, a0`, `jpr -8`. -/
def Demo.counting : List Word :=
  [instrWord 0x03 false false false 0 0 1, instrWord 0x16 false false true 0x40 0 0,
   instrWord 0x0E false false false 0xFF 0xF8 0]

theorem stays_of {s : Machine D} {n : Nat} {m : Mapping}
    (h : ((List.range n).all fun k => (nextN .debug k s).all fun u =>
      decide (covers m u.regs.pc) && (decide (u.regs.pc.toNat % 4 = 0) && decide (u.regs.mtt = 0))) = true) :
    ∀ k < n, ∀ u v, nextN .debug k s = some u → nextN .debug k (moveOn δ s) = some v → Apart δ u v →
      u.halted = true ∨ covers m u.regs.pc ∧ u.regs.pc.toNat % 4 = 0 ∧ u.regs.mtt = 0 := by
  intro k hk u v hu _ _
  have := List.all_eq_true.mp h k (List.mem_range.mpr hk)
  rw [hu] at this
  exact .inr (by simpa [Option.all] using this)

/-- A program that counts in a register and in the RAM, in the first and in the second ROM: after seven steps the two
machines differ by `pc` only. All the hypotheses of C117 hold. -/
example : ∃ (s0 s : Machine Demo.Dev) (rom1 rom2 : BootRom),
    newBoard .debug (Demo.twins Demo.counting) = some s0 ∧
    hostRun .debug [.mapContiguous 0 [0, 1, 2], .cpuReset] s0 = some s ∧
    (Demo.twins Demo.counting)[0]? = some (.inl rom1) ∧ (Demo.twins Demo.counting)[1]? = some (.inl rom2) ∧
    BuiltWith rom1 Demo.counting ∧ BuiltWith rom2 Demo.counting ∧
    s.mappings = [⟨0, 0x11, 0, 0x20⟩, ⟨1, 0x12, 0x20, 0x20⟩, ⟨2, 0x22, 0x40, 0x40⟩] ∧
    (∀ w ∈ Demo.counting, PositionFree w) ∧ Apart 0x20 s (moveOn 0x20 s) ∧
    (∀ k < 7, ∀ u v, nextN .debug k s = some u → nextN .debug k (moveOn 0x20 s) = some v → Apart 0x20 u v →
      u.halted = true ∨ covers ⟨0, 0x11, 0, 0x20⟩ u.regs.pc ∧ u.regs.pc.toNat % 4 = 0 ∧ u.regs.mtt = 0) ∧
    (nextN .debug 7 s).map (fun u => (u.regs.pc, Spec.reg u.regs 0)) = some (4, 3) ∧
    (nextN .debug 7 (moveOn 0x20 s)).map (fun u => (u.regs.pc, Spec.reg u.regs 0)) = some (0x24, 3) := by
  refine ⟨_, _, _, _, rfl, rfl, rfl, rfl, ⟨0x11, .inr ⟨0x20, rfl⟩⟩, ⟨0x12, .inr ⟨0x20, rfl⟩⟩, rfl, ?_, rfl, ?_, rfl, rfl⟩
  · intro w hw
    simp only [Demo.counting, List.mem_cons, List.not_mem_nil, or_false] at hw
    rcases hw with rfl | rfl | rfl
    · exact ⟨⟨0x03, false, false, false, 0, 0, 1⟩, rfl, by decide, by decide, by decide⟩
    · exact ⟨⟨0x16, false, false, true, 0x40, 0, 0⟩, rfl, by decide, by decide, by decide⟩
    · exact ⟨⟨0x0E, false, false, false, 0xFF, 0xF8, 0⟩, rfl, by decide, by decide, by decide⟩
  · exact stays_of (by decide +kernel)

/-- **C117**, why `pc` may not be read: after `cpy a0, pc` the two machines are neither the same nor the same but for
`pc`. -/
theorem C117_reads_pc : ∃ (s0 s s' t' : Machine Demo.Dev),
    newBoard .debug (Demo.twins [instrWord 0x01 false true false 0 0x16 0]) = some s0 ∧
    hostRun .debug [.mapContiguous 0 [0, 1, 2], .cpuReset] s0 = some s ∧
    next .debug s = some s' ∧ next .debug (moveOn 0x20 s) = some t' ∧
    s'.regs.pc = 4 ∧ t'.regs.pc = 0x24 ∧ Spec.reg s'.regs 0 = 0 ∧ Spec.reg t'.regs 0 = 0x20 :=
  ⟨_, _, _, _, rfl, rfl, rfl, rfl, rfl, rfl, rfl, rfl⟩

/-- **C117**, why CALL is excluded: it stores its return address on the stack (here at 0x7C) and jumps to the same place. -/
theorem C117_call : ∃ (s0 s s' t' : Machine Demo.Dev),
    newBoard .debug (Demo.twins [instrWord 0x01 false false false 0x18 0 0x80, instrWord 0x1B false false false 0 0x40 0])
      = some s0 ∧
    hostRun .debug [.mapContiguous 0 [0, 1, 2], .cpuReset] s0 = some s ∧
    nextN .debug 2 s = some s' ∧ nextN .debug 2 (moveOn 0x20 s) = some t' ∧
    s'.regs.pc = 0x40 ∧ t'.regs.pc = 0x40 ∧
    (memRead .debug s' 0x7C 0).map (·.1) = some 8 ∧ (memRead .debug t' 0x7C 0).map (·.1) = some 0x28 :=
  ⟨_, _, _, _, rfl, rfl, rfl, rfl, rfl, rfl, rfl, rfl⟩

end Lrvm
