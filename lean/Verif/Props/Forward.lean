import Verif.Spec.Forward
import Verif.Props.Position
import Verif.Props.Footprint
import Verif.Props.Control

/-!
# Forward-only code ends: C118
-/

namespace Lrvm

open Spec

variable {D : Type} [Bus D] {pf : Profile}

/-- Where a conditional instruction leaves `pc`. -/
def SkipsOnce (s : Machine D) (o : Out (Machine D) Unit) : Prop :=
  ∀ t, o = .ok () t → t = s ∨ t = { s with regs := { s.regs with pc := s.regs.pc + 4 } }

theorem skips_if (wanted : Bool) (f : Fields) (s : Machine D) : SkipsOnce s (execIf wanted f s) := by
  intro t h
  unfold execIf at h
  rw [M.bind_def] at h
  split at h
  · next v s1 h1 =>
    obtain rfl := regOrLit1_ok h1
    split at h
    · cases h
    · have h : (if _ then skipNext else pure ()) _ = Out.ok () t := h
      split at h
      · cases h; exact .inr rfl
      · cases h; exact .inl rfl
  · cases h
  · cases h

theorem skips_if2 (f : Fields) (s : Machine D) : SkipsOnce s (execIf2 pf f s) := by
  intro t h
  unfold execIf2 at h
  rw [M.bind_def] at h
  split at h
  · next v s1 h1 =>
    obtain rfl := regOrLit1_ok h1
    rw [M.bind_def] at h
    split at h
    · next v2 s2 h2 =>
      obtain rfl := regOrLit1_ok h2
      rw [M.bind_def] at h
      split at h
      · next v3 s3 h3 =>
        obtain rfl := regOrLit1_ok h3
        have h : (liftRes (flagTest pf s3.regs.af v) >>= fun a => liftRes (flagTest pf s3.regs.af v2) >>= fun b => _ : M D Unit) s3
          = Out.ok () t := h
        cases e1 : flagTest pf s3.regs.af v with
        | none => rw [e1] at h; cases h
        | some a =>
          cases e2 : flagTest pf s3.regs.af v2 with
          | none => rw [e1, e2] at h; cases h
          | some b =>
            rw [e1, e2] at h
            have h : (match if2Cond v3 a b with
              | none => raise 0x0D ((v3.setWidth 8).setWidth 16)
              | some result => if !result then skipNext else pure () : M D Unit) s3 = Out.ok () t := h
            cases e3 : if2Cond v3 a b with
            | none => rw [e3] at h; cases h
            | some r =>
              rw [e3] at h
              cases r <;> cases h
              · exact .inr rfl
              · exact .inl rfl
      · cases h
      · cases h
    · cases h
    · cases h
  · cases h
  · cases h

/-- **C118**, one step. A running machine with the MMU off that executes a forward instruction raises an exception, or
continues at a greater address, with the MMU off: by one word, by two after a conditional instruction, by the distance
of the jump. -/
theorem C118_step {s s' : Machine D} {w : Word} {devs : List D} (hf : Fetches pf s w devs) (hw : Forward w)
    (h : next pf s = some s') :
    JustRaised s' ∨ s'.regs.mtt = s.regs.mtt ∧
      ∃ j, 0 < j ∧ j < 2 ^ 13 ∧ s'.regs.pc = s.regs.pc + BitVec.ofNat 32 (4 * j) := by
  rcases hw with ⟨ho, hd, hm⟩ | ⟨r1, r2, p0, p1, p2, rfl, h0, hpos, hal⟩
  · -- the MMU
    have hmtt : s'.regs.mtt = s.regs.mtt := by
      have hfoot : (0x1D : Nat) ∉ footprint s.regs w := by
        unfold footprint
        simp only [List.mem_append, not_or]
        refine ⟨⟨⟨⟨hm, ?_⟩, ?_⟩, ?_⟩, ?_⟩
        · split <;> simp
        · split <;> simp
        · split <;> simp
        · split
          · cases supervisor s.regs <;> simp
          · simp
      have hop : opcode w ≠ 0x1F := fun he => ho (by rw [he]; decide)
      rcases C94_registers hf hop h (c := 0x1D) (by decide) (by decide) hfoot with e | ⟨e, _⟩
      · exact e
      · rcases e with e | e <;> cases e
    by_cases hif : opcode w ∈ [0x11, 0x12, 0x13]
    · rcases next_inv h hf.1 with ⟨devs', c, d, hc, ha, hl, rfl⟩ | ⟨w', devs', hf', hl, hr⟩
      · exact .inl ⟨_, _, _, fetchCodes_doc c hc, d.isLt, exception_regs ..⟩
      · obtain ⟨rfl, rfl⟩ := fetches_unique hf hf'
        rcases hr with ⟨t, c, d, _, he, hc, rfl⟩ | ⟨t, hrun, he, rfl⟩
        · exact .inl ⟨_, _, _, faultCodes_doc c hc, d.isLt, exception_regs ..⟩
        · right
          have hsk : SkipsOnce (atExec s devs') (runInstr pf (fieldsOf w') (atExec s devs')) := by
            unfold runInstr
            rw [fieldsOf_opcode]
            simp only [List.mem_cons, List.not_mem_nil, or_false] at hif
            rcases hif with e | e | e <;> rw [e]
            · exact skips_if _ _ _
            · exact skips_if _ _ _
            · exact skips_if2 _ _
          refine ⟨hmtt, ?_⟩
          rcases hsk t hrun with rfl | rfl
          · exact ⟨1, by decide, by decide, rfl⟩
          · refine ⟨2, by decide, by decide, ?_⟩
            show s.regs.pc + 4 + 4 = s.regs.pc + 8
            rw [BitVec.add_assoc]; rfl
    · have ho' : opcode w ∉ [0x0E, 0x0F, 0x10, 0x11, 0x12, 0x13, 0x1B, 0x1F] := by
        simp only [List.mem_cons, List.not_mem_nil, or_false, not_or] at ho hif ⊢
        omega
      rcases C03_pc_advances hf h ho' hd with e | ⟨r, c, d, hc, hd', e⟩
      · exact .inr ⟨hmtt, 1, by decide, by decide, e⟩
      · exact .inl ⟨r, c, d, hc, hd', e⟩
  · right
    have hlt : p1.toNat < 256 := p1.isLt
    have hst := C24_jpr hf (v := BitVec.ofNat 32 (p0.toNat * 256 + p1.toNat)) rfl
    have hv : (BitVec.ofNat 32 (p0.toNat * 256 + p1.toNat)).toNat = p0.toNat * 256 + p1.toNat := by
      rw [BitVec.toNat_ofNat]; omega
    obtain ⟨s1, h1, hr, _⟩ := hst
    rw [h] at h1
    cases h1
    rw [hr, hv]
    refine ⟨rfl, (p0.toNat * 256 + p1.toNat) / 4, by omega, by omega, ?_⟩
    dsimp only
    rw [Nat.mod_eq_of_lt (by omega), if_pos (by omega), show 4 * ((p0.toNat * 256 + p1.toNat) / 4) = p0.toNat * 256 + p1.toNat by omega]
    apply BitVec.eq_of_toNat_eq
    have : (s.regs.pc.toNat : Int) + ((p0.toNat * 256 + p1.toNat : Nat) : Int) % 65536 = ((s.regs.pc.toNat + (p0.toNat * 256 + p1.toNat) : Nat) : Int) := by
      omega
    rw [this, BitVec.ofInt_natCast, BitVec.toNat_ofNat, BitVec.toNat_add, BitVec.toNat_ofNat]
    omega

/-- **C118**. A board has a boot ROM whose program only goes forward; take the machine after any history of host calls,
running in that ROM with the MMU off. Within as many steps as there are words from `pc` to the end of the ROM's range, the
processor halts, or raises an exception, or leaves the ROM (or the host panics, C42): such code cannot run forever. -/
theorem C118 {E : Type} [Bus E] {devs : List (BootRom ⊕ E)} {s0 s : Machine (BootRom ⊕ E)} {ops : List HostOp}
    {m : Mapping} {rom : BootRom} {prog : List Word} (hb : newBoard pf devs = some s0)
    (hid : devs[m.auxId]? = some (.inl rom)) (hrom : BuiltWith rom prog) (hrun : hostRun pf ops s0 = some s)
    (htab : TableOk pf s.mappings) (hm : m ∈ s.mappings) (hend : m.addr.toNat + m.size.toNat + 2 ^ 15 ≤ 2 ^ 32)
    (hfwd : ∀ w ∈ prog, Forward w) (hmtt : s.regs.mtt = 0) (hal : s.regs.pc.toNat % 4 = 0) (hc : covers m s.regs.pc) :
    ∃ k, 4 * k ≤ m.addr.toNat + m.size.toNat - s.regs.pc.toNat ∧
      (nextN pf k s = none ∨ ∃ u, nextN pf k s = some u ∧ (u.halted = true ∨ JustRaised u ∨ ¬ covers m u.regs.pc)) := by
  generalize hn : (m.addr.toNat + m.size.toNat - s.regs.pc.toNat) / 4 = n
  induction n using Nat.strongRecOn generalizing s ops with
  | ind n ih =>
  by_cases hh : s.halted = true
  · exact ⟨0, by omega, .inr ⟨s, rfl, .inl hh⟩⟩
  have hh : s.halted = false := by simpa using hh
  have hr := htab.ranges m hm
  have h1 := hc.1
  have h2 := hc.2
  have a1 := hr.addrAligned
  have a2 := hr.sizeAligned
  have hread := (C74 hb hid hrom hrun htab hm rfl hc hal 0 0).1
  have hf := (C04_fetch_is_word_at_pc hmtt).2 ⟨hh, hal, hread⟩
  cases hnx : next pf s with
  | none => exact ⟨1, by omega, .inl (by show (next pf s).bind _ = none; rw [hnx]; rfl)⟩
  | some s' =>
    have hone : nextN pf 1 s = some s' := by show (next pf s).bind _ = _; rw [hnx]; rfl
    have hfw : Forward ((prog[(s.regs.pc.toNat - m.addr.toNat) / 4]?).getD 0) := by
      cases hp : prog[(s.regs.pc.toNat - m.addr.toNat) / 4]? with
      | none => exact .inl (by decide)
      | some w => exact hfwd w (List.mem_of_getElem? hp)
    rcases C118_step hf hfw hnx with hj | ⟨hm', j, hj0, hj1, hpc⟩
    · exact ⟨1, by omega, .inr ⟨s', hone, .inr (.inl hj)⟩⟩
    by_cases hc' : covers m s'.regs.pc
    · have hpc' : s'.regs.pc.toNat = s.regs.pc.toNat + 4 * j := by
        rw [hpc, BitVec.toNat_add, BitVec.toNat_ofNat]
        omega
      have := hc'.2
      have hmaps := (C38_step_keeps_hardware hnx).2.1
      obtain ⟨k, hk, hres⟩ := ih ((m.addr.toNat + m.size.toNat - s'.regs.pc.toNat) / 4) (by omega) (s := s')
        (ops := ops ++ [.next]) (hostRun_then_steps hrun 1 hone) (hmaps ▸ htab) (hmaps ▸ hm)
        (hm'.trans hmtt) (by omega) hc' rfl
      have hst : nextN pf (k + 1) s = nextN pf k s' := by show (next pf s).bind _ = _; rw [hnx]; rfl
      exact ⟨k + 1, by omega, by rw [hst]; exact hres⟩
    · exact ⟨1, by omega, .inr ⟨s', hone, .inr (.inr hc')⟩⟩

/-- `cpy a0, 3`, `if ZF`, `jpr 8`, `add a0, 4`, `halt`. -/
def Demo.onward : List Word :=
  [instrWord 0x01 false false false 0 0 3, instrWord 0x11 false false false 0 0 0, instrWord 0x0E false false false 0 8 0,
   instrWord 0x03 false false false 0 0 4, instrWord 0x1E false false false 0 0 0]

/-- The hypotheses of C118 hold of a small program, which halts after four steps. -/
example : ∃ (s0 s : Machine Demo.Dev) (rom : BootRom), newBoard .debug (Demo.devices Demo.onward) = some s0 ∧
    hostRun .debug [.mapContiguous 0 [0, 1], .cpuReset] s0 = some s ∧ BuiltWith rom Demo.onward ∧
    (Demo.devices Demo.onward)[0]? = some (.inl rom) ∧ s.mappings = [⟨0, 0x11, 0, 0x40⟩, ⟨1, 0x22, 0x40, 0x40⟩] ∧
    (∀ w ∈ Demo.onward, Forward w) ∧ s.regs.mtt = 0 ∧ s.regs.pc.toNat % 4 = 0 ∧ covers ⟨0, 0x11, 0, 0x40⟩ s.regs.pc ∧
    (nextN .debug 4 s).map (fun u => (u.halted, Spec.reg u.regs 0)) = some (true, 7) := by
  refine ⟨_, _, _, rfl, rfl, ⟨0x11, .inr ⟨0x40, rfl⟩⟩, rfl, rfl, ?_, rfl, rfl, by decide, rfl⟩
  intro w hw
  simp only [Demo.onward, List.mem_cons, List.not_mem_nil, or_false] at hw
  rcases hw with rfl | rfl | rfl | rfl | rfl
  · exact .inl (by decide)
  · exact .inl (by decide)
  · exact .inr ⟨false, false, 0, 8, 0, rfl, by decide, by decide, by decide⟩
  · exact .inl (by decide)
  · exact .inl (by decide)

/-- **C118**, why the distance of a jump must be positive: a JPR by 0 read from a memory that its reading does not change
runs forever. -/
theorem C118_jpr_zero {s : Machine D} {r1 r2 : Bool} {p2 : U8}
    (hf : Fetches pf s (instrWord 0x0E false r1 r2 0 0 p2) s.devs) (n : Nat) :
    ∃ u, nextN pf n s = some u ∧ u.halted = false ∧ u.regs = s.regs ∧ u.devs = s.devs := by
  induction n generalizing s with
  | zero => exact ⟨s, rfl, hf.1, rfl, rfl⟩
  | succ n ih =>
    obtain ⟨s', hn, hr, hd, _, hh, hm, _⟩ := C24_jpr hf (v := 0) rfl
    have hr : s'.regs = s.regs := by
      rw [hr]
      show { s.regs with pc := BitVec.ofInt 32 ((s.regs.pc.toNat : Int) + 0) } = s.regs
      rw [Int.add_zero, BitVec.ofInt_natCast, BitVec.ofNat_toNat, BitVec.setWidth_eq]
    have hf' : Fetches pf s' (instrWord 0x0E false r1 r2 0 0 p2) s'.devs := by
      rw [fetches_iff] at hf ⊢
      rw [hh, hr, hm, hd]
      exact hf
    obtain ⟨u, h1, h2, h3, h4⟩ := ih hf'
    refine ⟨u, ?_, h2, h3.trans hr, h4.trans hd⟩
    show (next pf s).bind _ = _
    rw [hn]; exact h1

example : Fetches .debug (Demo.start [instrWord 0x0E false false false 0 0 0]) (instrWord 0x0E false false false 0 0 0)
    (Demo.start [instrWord 0x0E false false false 0 0 0]).devs := ⟨rfl, rfl⟩

end Lrvm
