import Verif.Lemmas.Renaming
import Verif.Props.Position

/-!
# The general registers are interchangeable: C127
-/

namespace Lrvm

open Spec

variable {D : Type} [Bus D] {pf : Profile} {δ : Word} {σ : Nat → Nat}

/-- The instruction does not look at where it is (`PositionFree`, for an instruction given by its parts). -/
def Spec.Parts.PositionFree (i : Parts) : Prop := i.op ≠ 0x1B ∧ 0x16 ∉ i.sources ∧ (i.op = 0x18 → i.p2.toNat ≠ 0x16)

/-- **C127**, one step. The machine `t` is `s` with its general registers renamed, `δ` further; each is about to execute
the same instruction, written with its own names. Unless they are at the same place (`δ = 0`) the instruction does not look
at where it is. Then both calls panic, or both return and the machines are again the same up to the renaming, at the same
distance or, after an absolute jump, an exception or a reset of the CPU, at the same place. -/
theorem C127_step (hσ : Renaming σ) {s t : Machine D} {i : Parts} {devs : List D} (h : Renamed σ δ s t)
    (hfree : δ = 0 ∨ i.PositionFree) (hs : Fetches pf s i.word devs) (ht : Fetches pf t (i.renamed σ).word devs) :
    (next pf s = none ∧ next pf t = none) ∨
    ∃ s' t', next pf s = some s' ∧ next pf t = some t' ∧ (Renamed σ δ s' t' ∨ Renamed σ 0 s' t') := by
  simp only [renamed_iff]
  rw [next_of_fetch hs, next_of_fetch ht]
  unfold execWord Parts.word
  rw [fieldsOf_instrWord, fieldsOf_instrWord]
  have hx : RenM σ δ (atExec s devs) (atExec t devs) := by
    obtain ⟨r', hr, rfl⟩ := renamed_iff.mp h
    exact ⟨r', hr, rfl⟩
  have hm := pair_runInstr (pf := pf) (δ := δ) hσ i hfree δ (.inl rfl) _ _ hx
  change (match runInstr pf i.decoded (atExec s devs) with | .panic => none | .ex s => some s | .ok () s => _) = none ∧
    (match runInstr pf (i.renamed σ).decoded (atExec t devs) with | .panic => none | .ex s => some s | .ok () s => _) = none ∨
    ∃ s' t', (match runInstr pf i.decoded (atExec s devs) with | .panic => none | .ex s => some s | .ok () s => _) = some s' ∧
      (match runInstr pf (i.renamed σ).decoded (atExec t devs) with | .panic => none | .ex s => some s | .ok () s => _) = some t' ∧ _
  revert hm
  generalize runInstr pf _ (atExec s devs) = o1
  generalize runInstr pf _ (atExec t devs) = o2
  intro hm
  cases o1 <;> cases o2 <;> try exact hm.elim
  · rename_i _ u _ v
    refine .inr ?_
    have key : ∀ ε, RenM σ ε u v → ∃ s' t', (if u.changedPc then some u else some { u with regs := { u.regs with pc := u.regs.pc + 4 } }) = some s' ∧
        (if v.changedPc then some v else some { v with regs := { v.regs with pc := v.regs.pc + 4 } }) = some t' ∧ RenM σ ε s' t' := by
      rintro ε ⟨r', hr, rfl⟩
      by_cases hc : u.changedPc = true
      · exact ⟨_, _, if_pos hc, if_pos hc, r', hr, rfl⟩
      · exact ⟨_, _, if_neg hc, if_neg hc, _, hr.setPc hσ (w' := r'.pc + 4) (by rw [hr.pc, add_right_comm_word]), rfl⟩
    obtain ⟨_, hm | hm⟩ := hm
    · obtain ⟨s', t', e1, e2, e3⟩ := key _ hm
      refine ⟨s', t', ?_, ?_, .inl e3⟩
      · rw [← e1]
      · rw [← e2]
    · obtain ⟨s', t', e1, e2, e3⟩ := key _ hm
      refine ⟨s', t', ?_, ?_, .inr e3⟩
      · rw [← e1]
      · rw [← e2]
  · exact .inr ⟨_, _, rfl, rfl, .inr hm⟩
  · exact .inl ⟨rfl, rfl⟩

/-- **C127**, any number of steps, as long as each machine finds, where its `pc` is, the same instruction written with its
own names; while they are not at the same place, the instructions do not look at where they are. -/
theorem C127_run (hσ : Renaming σ) {s t : Machine D} (hst : Renamed σ δ s t) (n : Nat)
    (h : ∀ k < n, ∀ ε u v, nextN pf k s = some u → nextN pf k t = some v → (ε = δ ∨ ε = 0) → Renamed σ ε u v →
      u.halted = true ∨ ∃ (i : Parts) (devs : List D), (ε = 0 ∨ i.PositionFree) ∧ Fetches pf u i.word devs ∧ Fetches pf v (i.renamed σ).word devs) :
    (nextN pf n s = none ∧ nextN pf n t = none) ∨
    ∃ s' t', nextN pf n s = some s' ∧ nextN pf n t = some t' ∧ (Renamed σ δ s' t' ∨ Renamed σ 0 s' t') := by
  suffices hh : ∀ ε, (ε = δ ∨ ε = 0) → Renamed σ ε s t → ((nextN pf n s = none ∧ nextN pf n t = none) ∨
      ∃ s' t', nextN pf n s = some s' ∧ nextN pf n t = some t' ∧ (Renamed σ δ s' t' ∨ Renamed σ 0 s' t')) from
    hh δ (.inl rfl) hst
  clear hst
  induction n generalizing s t with
  | zero =>
    rintro ε (rfl | rfl) hst
    · exact .inr ⟨s, t, rfl, rfl, .inl hst⟩
    · exact .inr ⟨s, t, rfl, rfl, .inr hst⟩
  | succ n ih =>
    intro ε hε hst
    have h1 : (next pf s = none ∧ next pf t = none) ∨
        ∃ s' t', next pf s = some s' ∧ next pf t = some t' ∧ (Renamed σ ε s' t' ∨ Renamed σ 0 s' t') := by
      rcases h 0 (by omega) ε s t rfl rfl hε hst with hh | ⟨i, devs, hw, hs, ht⟩
      · have hh' : t.halted = true := by rw [hst.rest]; exact hh
        exact .inr ⟨s, t, if_pos hh, if_pos hh', .inl hst⟩
      · exact C127_step hσ hst hw hs ht
    rcases h1 with ⟨e1, e2⟩ | ⟨s', t', e1, e2, hr⟩
    · exact .inl ⟨by show (next pf s).bind _ = none; rw [e1]; rfl, by show (next pf t).bind _ = none; rw [e2]; rfl⟩
    · have f1 : ∀ k, nextN pf (k + 1) s = nextN pf k s' := fun k => by
        show (next pf s).bind _ = _; rw [e1]; rfl
      have f2 : ∀ k, nextN pf (k + 1) t = nextN pf k t' := fun k => by
        show (next pf t).bind _ = _; rw [e2]; rfl
      rw [f1, f2]
      have ih' := ih (s := s') (t := t') fun k hk ε u v hu hv => h (k + 1) (by omega) ε u v ((f1 k).trans hu) ((f2 k).trans hv)
      rcases hr with hr | hr
      · exact ih' ε hε hr
      · exact ih' 0 (.inr rfl) hr

/-- Word 0, which boot ROMs show after their program. -/
def Spec.Parts.zero : Parts := ⟨0, false, false, false, 0, 0, 0⟩

/-- **C127**. On a board with two boot ROMs, the second holding the program of the first with its general registers
renamed, all of whose instructions are position-free, take the machine `s` after any history of host calls, and the machine
`t` that is `s` with its registers renamed and `pc` moved by the distance between the ROMs. Run both for any number of steps,
such that before each of them `pc` is in the first ROM for one and at the same place of the second ROM for the other, and
the MMU is off. Then either both panic, or both machines are the same up to the renaming, apart from `pc`: every register
has the value its counterpart has, and every component and every counter is the same. -/
theorem C127 {E : Type} [Bus E] {devs : List (BootRom ⊕ E)} {s0 s t : Machine (BootRom ⊕ E)} {ops : List HostOp}
    {m1 m2 : Mapping} {rom1 rom2 : BootRom} {prog : List Parts} (hσ : Renaming σ) (hb : newBoard pf devs = some s0)
    (hid1 : devs[m1.auxId]? = some (.inl rom1)) (hid2 : devs[m2.auxId]? = some (.inl rom2))
    (hrom1 : BuiltWith rom1 (prog.map Parts.word)) (hrom2 : BuiltWith rom2 (prog.map fun i => (i.renamed σ).word))
    (hrun : hostRun pf ops s0 = some s)
    (htab : TableOk pf s.mappings) (hm1 : m1 ∈ s.mappings) (hm2 : m2 ∈ s.mappings) (hsize : m1.size = m2.size)
    (hfree : ∀ i ∈ prog, i.PositionFree) (ha : Renamed σ (m2.addr - m1.addr) s t) (n : Nat)
    (hin : ∀ k < n, ∀ u v, nextN pf k s = some u → nextN pf k t = some v →
      u.halted = true ∨ covers m1 u.regs.pc ∧ u.regs.pc.toNat % 4 = 0 ∧ u.regs.mtt = 0 ∧
        v.regs.pc = u.regs.pc + (m2.addr - m1.addr)) :
    (nextN pf n s = none ∧ nextN pf n t = none) ∨
    ∃ s' t', nextN pf n s = some s' ∧ nextN pf n t = some t' ∧
      (Renamed σ (m2.addr - m1.addr) s' t' ∨ Renamed σ 0 s' t') := by
  refine C127_run hσ ha n fun k hk ε u v hu hv _ huv => ?_
  rcases hin k hk u v hu hv with hh | ⟨hc, hal, hmtt, hvpc⟩
  · exact .inl hh
  by_cases hh : u.halted = true
  · exact .inl hh
  have hh : u.halted = false := by simpa using hh
  have hr := hostRun_then_steps hrun k hu
  have hmu := nextN_mappings hu
  rw [← hmu] at htab hm1 hm2
  have hr1 := htab.ranges m1 hm1
  have hr2 := htab.ranges m2 hm2
  have e1 := (C74 hb hid1 hrom1 hr htab hm1 rfl hc hal 0 0).1
  -- the other place
  have hpc : (u.regs.pc + (m2.addr - m1.addr)).toNat = m2.addr.toNat + (u.regs.pc.toNat - m1.addr.toNat) := by
    have := hc.1
    have := hc.2
    have := hr2.fits
    have hsz : m1.size.toNat = m2.size.toNat := by rw [hsize]
    have hroom : room pf ≤ 2 ^ 32 := by cases pf <;> decide
    have := u.regs.pc.isLt
    have := m1.addr.isLt
    have := m2.addr.isLt
    rw [BitVec.toNat_add, BitVec.toNat_sub]
    omega
  have hc2 : covers m2 (u.regs.pc + (m2.addr - m1.addr)) := by
    have := hc.1
    have := hc.2
    have hsz : m1.size.toNat = m2.size.toNat := by rw [hsize]
    constructor <;> rw [hpc] <;> omega
  have hal2 : (u.regs.pc + (m2.addr - m1.addr)).toNat % 4 = 0 := by
    have := hc.1
    have := hr1.addrAligned
    have := hr2.addrAligned
    rw [hpc]; omega
  have e2 := (C74 hb hid2 hrom2 hr htab hm2 rfl hc2 hal2 0 0).1
  have ho : (u.regs.pc + (m2.addr - m1.addr)).toNat - m2.addr.toNat = u.regs.pc.toNat - m1.addr.toNat := by
    rw [hpc]; omega
  rw [ho] at e2
  have hpf : ((prog[(u.regs.pc.toNat - m1.addr.toNat) / 4]?).getD .zero).PositionFree := by
    cases hp : prog[(u.regs.pc.toNat - m1.addr.toNat) / 4]? with
    | none => exact ⟨by decide, by decide, by decide⟩
    | some w => exact hfree w (List.mem_of_getElem? hp)
  refine .inr ⟨(prog[(u.regs.pc.toNat - m1.addr.toNat) / 4]?).getD .zero, u.devs, .inr hpf, ?_, ?_⟩
  · have : ((prog[(u.regs.pc.toNat - m1.addr.toNat) / 4]?).getD .zero).word =
        ((prog.map Parts.word)[(u.regs.pc.toNat - m1.addr.toNat) / 4]?).getD 0 := by
      rw [List.getElem?_map]
      cases prog[(u.regs.pc.toNat - m1.addr.toNat) / 4]? <;> rfl
    rw [this]
    exact (C04_fetch_is_word_at_pc hmtt).2 ⟨hh, hal, e1⟩
  · have : (((prog[(u.regs.pc.toNat - m1.addr.toNat) / 4]?).getD .zero).renamed σ).word =
        ((prog.map fun i => (i.renamed σ).word)[(u.regs.pc.toNat - m1.addr.toNat) / 4]?).getD 0 := by
      rw [List.getElem?_map]
      cases prog[(u.regs.pc.toNat - m1.addr.toNat) / 4]? with
      | none =>
        show (Parts.renamed σ .zero).word = 0
        unfold Parts.renamed
        rw [show Parts.zero.isRegister 0 = false from by decide, show Parts.zero.isRegister 1 = false from by decide,
          show Parts.zero.isRegister 2 = false from by decide]
        simp only [renamedByte, Bool.false_eq_true, if_false]
        rfl
      | some i => rfl
    rw [this]
    have hmtt' : v.regs.mtt = 0 := by
      have := huv.regs 0x1D (by decide) (by decide)
      rw [hσ.others _ (by decide)] at this
      exact this.trans hmtt
    obtain ⟨hx1, hx2, hx3, hx4⟩ : v.halted = u.halted ∧ v.mappings = u.mappings ∧ v.devs = u.devs ∧ v = { u with regs := v.regs } :=
      ⟨by rw [huv.rest], by rw [huv.rest], by rw [huv.rest], huv.rest⟩
    refine (C04_fetch_is_word_at_pc (s := v) hmtt').2 ⟨hx1.trans hh, by rw [hvpc]; exact hal2, ?_⟩
    rw [memRead_eq] at e2 ⊢
    obtain ⟨⟨w, ex, ds⟩, h1, h2⟩ := Option.map_eq_some_iff.mp e2
    rw [hx2, hx3, hvpc, h1]
    injection h2 with h2 h3
    injection h3 with h3 h4
    dsimp only at h2 h3 h4
    have : ds = u.devs := congrArg Machine.devs h4
    subst this; subst h2; subst h3
    rfl

/-! ## Examples -/

/-- `a0` and `rr7` exchanged, and `c0` called `ac2`, `ac2` called `a5`, `a5` called `c0`. -/
def Demo.names (n : Nat) : Nat :=
  if n = 0 then 20 else if n = 20 then 0 else if n = 8 then 12 else if n = 12 then 5 else if n = 5 then 8 else n

theorem Demo.names_ok : Renaming Demo.names := by
  refine ⟨fun n h => ?_, fun m n hm hn => ?_, fun n h => ?_⟩
  · revert n; decide
  · have : ∀ m, m < 21 → ∀ n, n < 21 → Demo.names m = Demo.names n → m = n := by decide
    exact this m hm n hn
  · simp only [Demo.names]
    repeat rw [if_neg (by omega)]

/-- `add a0, 1`, `cpy c0, a0`, `mul c0, c0`, `wsa 0x40, 0, c0`, `jpr -16`. -/
def Demo.squares : List Parts :=
  [⟨0x03, false, false, false, 0, 0, 1⟩, ⟨0x01, false, true, false, 8, 0, 0⟩, ⟨0x05, false, true, false, 8, 8, 0⟩,
   ⟨0x16, false, false, true, 0x40, 0, 8⟩, ⟨0x0E, false, false, false, 0xFF, 0xF0, 0⟩]

/-- Two boot ROMs of 8 words, with the program and with the renamed program, then 64 bytes of RAM. -/
def Demo.synonyms : List Demo.Dev :=
  (match BootRom.withSize (Demo.squares.map Parts.word) 0x20 0x11 with | some d => [.inl d] | none => []) ++
  (match BootRom.withSize (Demo.squares.map fun i => (i.renamed Demo.names).word) 0x20 0x12 with | some d => [.inl d] | none => []) ++
  (match Ram.fromWithSize [] 0x40 0x22 with | some d => [.inr d] | none => [])

/-- The renamed program: `add rr7, 1`, `cpy ac2, rr7`, `mul ac2, ac2`, `wsa 0x40, 0, ac2`, `jpr -16`. -/
example : (Demo.squares.map fun i => (i.renamed Demo.names).word) =
    [instrWord 0x03 false false false 20 0 1, instrWord 0x01 false true false 12 20 0, instrWord 0x05 false true false 12 12 0,
     instrWord 0x16 false false true 0x40 0 12, instrWord 0x0E false false false 0xFF 0xF0 0] := by
  decide +kernel

/-- A machine that starts in the second ROM, with every register equal to 0 but `pc`. -/
theorem renamed_startup {s : Machine D} (h : s.regs = Spec.startup) : Renamed Demo.names δ s (moveOn δ s) := by
  refine ⟨?_, rfl, rfl⟩
  have : (moveOn δ s).regs = { s.regs with pc := s.regs.pc + δ } := rfl
  rw [this, h]
  cases32 <;> first | (intro _; rfl) | (intro h; exact absurd rfl h)

theorem stays_both {s t : Machine D} {n : Nat} {m : Mapping}
    (h : ((List.range n).all fun k => (nextN .debug k s).all fun u => (nextN .debug k t).all fun v =>
      decide (covers m u.regs.pc) && (decide (u.regs.pc.toNat % 4 = 0) && (decide (u.regs.mtt = 0) &&
        decide (v.regs.pc = u.regs.pc + δ)))) = true) :
    ∀ k < n, ∀ u v, nextN .debug k s = some u → nextN .debug k t = some v →
      u.halted = true ∨ covers m u.regs.pc ∧ u.regs.pc.toNat % 4 = 0 ∧ u.regs.mtt = 0 ∧ v.regs.pc = u.regs.pc + δ := by
  intro k hk u v hu hv
  have := List.all_eq_true.mp h k (List.mem_range.mpr hk)
  rw [hu, hv] at this
  exact .inr (by simpa [Option.all] using this)

/-- A program that computes squares, in the first ROM, and the same program with other registers in the second ROM. After
nine steps the number is in `a0` for one and in `rr7` for the other; the RAM is the same. All the hypotheses of C127 hold. -/
example : ∃ (s0 s : Machine Demo.Dev) (rom1 rom2 : BootRom),
    Renaming Demo.names ∧
    newBoard .debug Demo.synonyms = some s0 ∧
    hostRun .debug [.mapContiguous 0 [0, 1, 2], .cpuReset] s0 = some s ∧
    Demo.synonyms[0]? = some (.inl rom1) ∧ Demo.synonyms[1]? = some (.inl rom2) ∧
    BuiltWith rom1 (Demo.squares.map Parts.word) ∧ BuiltWith rom2 (Demo.squares.map fun i => (i.renamed Demo.names).word) ∧
    s.mappings = [⟨0, 0x11, 0, 0x20⟩, ⟨1, 0x12, 0x20, 0x20⟩, ⟨2, 0x22, 0x40, 0x40⟩] ∧
    (∀ i ∈ Demo.squares, i.PositionFree) ∧ Renamed Demo.names 0x20 s (moveOn 0x20 s) ∧
    (∀ k < 9, ∀ u v, nextN .debug k s = some u → nextN .debug k (moveOn 0x20 s) = some v →
      u.halted = true ∨ covers ⟨0, 0x11, 0, 0x20⟩ u.regs.pc ∧ u.regs.pc.toNat % 4 = 0 ∧ u.regs.mtt = 0 ∧
        v.regs.pc = u.regs.pc + 0x20) ∧
    (nextN .debug 9 s).map (fun u => (u.regs.pc, Spec.reg u.regs 0, Spec.reg u.regs 20)) = some (16, 2, 0) ∧
    (nextN .debug 9 (moveOn 0x20 s)).map (fun u => (u.regs.pc, Spec.reg u.regs 0, Spec.reg u.regs 20)) = some (0x30, 0, 2) ∧
    (nextN .debug 9 s).bind (fun u => (memRead .debug u 0x40 0).map (·.1)) = some 4 ∧
    (nextN .debug 9 (moveOn 0x20 s)).bind (fun u => (memRead .debug u 0x40 0).map (·.1)) = some 4 := by
  refine ⟨_, _, _, _, Demo.names_ok, rfl, rfl, rfl, rfl, ⟨0x11, .inr ⟨0x20, rfl⟩⟩, ⟨0x12, .inr ⟨0x20, rfl⟩⟩, rfl, ?_,
    renamed_startup rfl, stays_both (by decide +kernel), by decide +kernel, by decide +kernel, by decide +kernel, by decide +kernel⟩
  intro i hi
  simp only [Demo.squares, List.mem_cons, List.not_mem_nil, or_false] at hi
  rcases hi with rfl | rfl | rfl | rfl | rfl <;> exact ⟨by decide, by decide, by decide⟩

/-- **C127**, why the special registers keep their names: `ssp` may not be exchanged with `a0`, for PUSH uses it although no
operand names it. -/
theorem C127_special : ∃ (s0 s s' t' : Machine Demo.Dev),
    newBoard .debug (Demo.devices [instrWord 0x01 false false false 0x18 0 0x80, instrWord 0x19 false false false 0 1 0]) = some s0 ∧
    hostRun .debug [.mapContiguous 0 [0, 1], .cpuReset] s0 = some s ∧ nextN .debug 2 s = some s' ∧
    Spec.reg s'.regs 0x18 = 0x7C ∧
    (∃ t0 t, newBoard .debug (Demo.devices [instrWord 0x01 false false false 0 0 0x80, instrWord 0x19 false false false 0 1 0]) = some t0 ∧
      hostRun .debug [.mapContiguous 0 [0, 1], .cpuReset] t0 = some t ∧ nextN .debug 2 t = some t') ∧
    Spec.reg t'.regs 0 = 0x80 :=
  ⟨_, _, _, _, rfl, rfl, rfl, rfl, ⟨_, _, rfl, rfl, rfl⟩, rfl⟩

end Lrvm
