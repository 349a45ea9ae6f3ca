import Verif.Lemmas.ClearTable
import Verif.Props.Confinement
import Verif.Props.Devices.Peek

/-!
# A translation table that refuses nothing: C121
-/

namespace Lrvm

open Spec

variable {D : Type} [Bus D] {pf : Profile}

theorem pass_of_bits {e : Word} (h0 : entryBit e 0 = false) (h1 : entryBit e 1 = false) (smt : Word) : passBit smt e = true := by
  rw [passBit_eq (r := { Regs.zero with smt := smt })]
  unfold passesThrough entryBit at *
  split <;> simp_all <;> omega

theorem Spec.ClearTable.clear {s : Machine D} (h : ClearTable pf s) : Clear pf s.mappings s.devs s.regs.pda := by
  intro v hv
  obtain ⟨hlt, e, hr, h0, h1⟩ := h v hv
  obtain ⟨a, ha, hn⟩ := entryAddr_eq (pf := pf) (pda := s.regs.pda) (v := v) hlt
  have hb : BitVec.ofNat 32 (tableEntry s.regs.pda v.toNat) = a := by
    apply BitVec.eq_of_toNat_eq
    rw [BitVec.toNat_ofNat, hn]
    exact Nat.mod_eq_of_lt hlt
  rw [hb, memRead_eq] at hr
  obtain ⟨⟨w, ex, ds⟩, hd, hr⟩ := Option.map_eq_some_iff.mp hr
  injection hr with e1 hr
  injection hr with e2 e3
  have e3 : ds = s.devs := congrArg Machine.devs e3
  dsimp only at e1 e2
  rw [e1, e2, e3] at hd
  exact ⟨a, e, ha, hd, pass_of_bits h0 h1⟩

/-- **C121**, one step. Reading changes no component, the table refuses nothing, and the instruction does not read `mtt`. Whatever `mtt`
is, the step does the same: both panic, or both end alike but for `mtt` (or alike, if the instruction set it). -/
theorem C121_step (hq : QuietReads D) {s t : Machine D} (ho : OtherMtt s t) (hc : ClearTable pf s)
    (hw : ∀ w devs, Fetches pf s w devs → MttFree w) :
    (next pf s = none ∧ next pf t = none) ∨
    ∃ s' t', next pf s = some s' ∧ next pf t = some t' ∧ (OtherMtt s' t' ∨ s' = t') := by
  obtain ⟨x, rfl⟩ := ho
  have hc := hc.clear
  show (next pf s = none ∧ next pf (withMtt x s) = none) ∨
    ∃ s' t', next pf s = some s' ∧ next pf (withMtt x s) = some t' ∧ (OtherMtt s' t' ∨ s' = t')
  unfold next
  by_cases hh : s.halted = true
  · rw [if_pos hh, if_pos (show (withMtt x s).halted = true from hh)]
    exact .inr ⟨_, _, rfl, rfl, .inl ⟨x, rfl⟩⟩
  · rw [if_neg hh, if_neg (show ¬ (withMtt x s).halted = true from hh)]
    have h1 := mttI_cpuExec (pf := pf) (x := x) hq s.regs.pc { s with cycles := s.cycles + 1 } hc
    dsimp only
    change ((match cpuExec pf s.regs.pc { s with cycles := s.cycles + 1 } with
        | .panic => none | .ex s => some s | .ok w s => execWord pf w s) = none ∧
      (match cpuExec pf s.regs.pc (withMtt x { s with cycles := s.cycles + 1 }) with
        | .panic => none | .ex s => some s | .ok w s => execWord pf w s) = none) ∨
      ∃ s' t', (match cpuExec pf s.regs.pc { s with cycles := s.cycles + 1 } with
        | .panic => none | .ex s => some s | .ok w s => execWord pf w s) = some s' ∧
      (match cpuExec pf s.regs.pc (withMtt x { s with cycles := s.cycles + 1 }) with
        | .panic => none | .ex s => some s | .ok w s => execWord pf w s) = some t' ∧ _
    cases e1 : cpuExec pf s.regs.pc { s with cycles := s.cycles + 1 } <;>
      cases e2 : cpuExec pf s.regs.pc (withMtt x { s with cycles := s.cycles + 1 }) <;> rw [e1, e2] at h1 <;> try exact h1.elim
    · next w u _ v =>
      obtain ⟨rfl, rfl, a1, a2, a3⟩ := h1
      obtain ⟨i, rfl, hsrc, hsrm⟩ := hw w u.devs ⟨by simpa using hh, by
        rw [e1]
        rw [cpuExec_eq] at e1
        obtain ⟨d, h3, h4⟩ := toOut_ok e1
        rw [h4]⟩
      dsimp only
      unfold execWord Parts.word
      rw [fieldsOf_instrWord]
      have hm := mtt_runInstr (pf := pf) (x := x) hq i hsrc hsrm { u with changedPc := false } (by
        show Clear pf u.mappings u.devs u.regs.pda
        rw [a1, a2, a3]; exact hc)
      change (match runInstr pf _ { u with changedPc := false } with | .panic => none | .ex s => some s | .ok () s => _) = none ∧
        (match runInstr pf _ (withMtt x { u with changedPc := false }) with | .panic => none | .ex s => some s | .ok () s => _) = none ∨
        ∃ s' t', (match runInstr pf _ { u with changedPc := false } with | .panic => none | .ex s => some s | .ok () s => _) = some s' ∧
          (match runInstr pf _ (withMtt x { u with changedPc := false }) with | .panic => none | .ex s => some s | .ok () s => _) = some t' ∧ _
      revert hm
      generalize runInstr pf _ { u with changedPc := false } = o1
      generalize runInstr pf _ (withMtt x { u with changedPc := false }) = o2
      intro hm
      cases o1 <;> cases o2 <;> try exact hm.elim
      · rename_i _ u _ v
        obtain ⟨_, rfl | rfl⟩ := hm
        · refine .inr ?_
          by_cases hc : u.changedPc = true
          · exact ⟨_, _, if_pos hc, if_pos (c := (withMtt x u).changedPc = true) hc, .inl ⟨x, rfl⟩⟩
          · exact ⟨_, _, if_neg hc, if_neg (c := (withMtt x u).changedPc = true) hc, .inl ⟨x, rfl⟩⟩
        · refine .inr ?_
          by_cases hc : v.changedPc = true
          · exact ⟨_, _, if_pos hc, if_pos hc, .inr rfl⟩
          · exact ⟨_, _, if_neg hc, if_neg hc, .inr rfl⟩
      · rcases hm with rfl | rfl
        · exact .inr ⟨_, _, rfl, rfl, .inl ⟨x, rfl⟩⟩
        · exact .inr ⟨_, _, rfl, rfl, .inr rfl⟩
      · exact .inl ⟨rfl, rfl⟩
    · rcases h1 with rfl | rfl
      · exact .inr ⟨_, _, rfl, rfl, .inl ⟨x, rfl⟩⟩
      · exact .inr ⟨_, _, rfl, rfl, .inr rfl⟩
    · exact .inl ⟨rfl, rfl⟩

/-- **C121**, any number of steps. -/
theorem C121_run (hq : QuietReads D) {s t : Machine D} (ho : OtherMtt s t) (n : Nat)
    (h : ∀ k < n, ∀ u, nextN pf k s = some u → ClearTable pf u ∧ ∀ w devs, Fetches pf u w devs → MttFree w) :
    (nextN pf n s = none ∧ nextN pf n t = none) ∨
    ∃ s' t', nextN pf n s = some s' ∧ nextN pf n t = some t' ∧ (OtherMtt s' t' ∨ s' = t') := by
  induction n generalizing s t with
  | zero => exact .inr ⟨s, t, rfl, rfl, .inl ho⟩
  | succ n ih =>
    obtain ⟨hc, hw⟩ := h 0 (by omega) s rfl
    rcases C121_step hq ho hc hw with ⟨e1, e2⟩ | ⟨s', t', e1, e2, hr⟩
    · exact .inl ⟨by show (next pf s).bind _ = none; rw [e1]; rfl, by show (next pf t).bind _ = none; rw [e2]; rfl⟩
    · have f1 : ∀ k, nextN pf (k + 1) s = nextN pf k s' := fun k => by
        show (next pf s).bind _ = _; rw [e1]; rfl
      have f2 : ∀ k, nextN pf (k + 1) t = nextN pf k t' := fun k => by
        show (next pf t).bind _ = _; rw [e2]; rfl
      rw [f1, f2]
      rcases hr with ha' | rfl
      · exact ih ha' fun k hk u hu => h (k + 1) (by omega) u ((f1 k).trans hu)
      · cases nextN pf n s' with
        | none => exact .inl ⟨rfl, rfl⟩
        | some u => exact .inr ⟨u, u, rfl, rfl, .inr rfl⟩

/-- **C121**, where no component is mapped there is such a table: on any machine, if nothing is mapped at the 1024 words from `pda`, which
is a multiple of 4, the table refuses nothing. -/
theorem C121_unmapped {s : Machine D} (ht : ∀ m ∈ s.mappings, RangeOk pf m) (h4 : s.regs.pda.toNat % 4 = 0)
    (hlt : s.regs.pda.toNat + 4096 ≤ 2 ^ 32)
    (hu : ∀ m ∈ s.mappings, ∀ a : Word, covers m a → a.toNat < s.regs.pda.toNat ∨ s.regs.pda.toNat + 4096 ≤ a.toNat) :
    ClearTable pf s := by
  intro a _
  have hm : a.toNat % 1024 < 1024 := Nat.mod_lt _ (by decide)
  have hl : tableEntry s.regs.pda a.toNat < 2 ^ 32 := by unfold tableEntry; omega
  refine ⟨hl, 0, ?_, rfl, rfl⟩
  have hn : (BitVec.ofNat 32 (tableEntry s.regs.pda a.toNat)).toNat = tableEntry s.regs.pda a.toNat := by
    rw [BitVec.toNat_ofNat]; exact Nat.mod_eq_of_lt hl
  rw [memRead_eq, devRead_miss ht (fun m hm hc => ?_) (by rw [hn]; unfold tableEntry; omega)]
  · rfl
  · rcases hu m hm _ hc with h | h <;> rw [hn] at h <;> unfold tableEntry at h <;> omega

theorem mttFree_of {s : Machine D} {w : Word} {devs : List D} (h : Fetches pf s w devs) (ho : MttFree w) :
    ∀ w devs, Fetches pf s w devs → MttFree w := by
  intro w' devs' h'
  have := h.2.symm.trans h'.2
  injection this with h1 _
  exact h1 ▸ ho

/-- Points `pda` to addresses where nothing is mapped, then writes 9 in the RAM, reads it back and enters userland. -/
def Demo.emptyTable : List Word := [instrWord 0x01 false false false 0x1E 0x10 0, instrWord 0x16 false false false 0x48 0 9,
  instrWord 0x14 false false false 3 0x48 0, instrWord 0x0F false false false 0 0x10 0]

theorem Demo.quiet : QuietReads Demo.Dev := C119_bundled.2.2.2.2.2.2.2.2.2 BootRom Ram C119_bundled.2.2.1 C119_bundled.1

theorem Demo.emptyTable_clear {u : Machine Demo.Dev} (hm : u.mappings = [⟨0, 0x11, 0, 0x40⟩, ⟨1, 0x22, 0x40, 0x40⟩])
    (hp : u.regs.pda = 0x1000) : ClearTable .debug u := by
  refine C121_unmapped ?_ (by rw [hp]; decide) (by rw [hp]; decide) ?_
  · intro m hmm
    rw [hm] at hmm
    simp only [List.mem_cons, List.not_mem_nil, or_false] at hmm
    rcases hmm with rfl | rfl <;> exact ⟨by decide, by decide, by decide, by decide⟩
  · intro m hmm a hc
    rw [hm] at hmm
    rw [hp]
    simp only [List.mem_cons, List.not_mem_nil, or_false] at hmm
    rcases hmm with rfl | rfl <;> exact .inl (Nat.lt_of_lt_of_le hc.2 (by decide))

/-- The two runs, with the MMU off and on: the same accesses succeed, and both end in userland. -/
example : ∃ s t s' t' : Machine Demo.Dev, nextN .debug 1 (Demo.start Demo.emptyTable) = some s ∧
    t = { s with regs := { s.regs with mtt := 1 } } ∧ s.regs.mtt = 0 ∧ OtherMtt s t ∧
    (∀ k < 3, ∀ u, nextN .debug k s = some u → ClearTable .debug u ∧ ∀ w devs, Fetches .debug u w devs → MttFree w) ∧
    nextN .debug 3 s = some s' ∧ nextN .debug 3 t = some t' ∧ reg s'.regs 3 = 9 ∧ t' = { s' with regs := { s'.regs with mtt := 1 } } ∧
    s'.regs.smt = 0 := by
  refine ⟨_, _, _, _, rfl, rfl, rfl, ⟨1, rfl⟩, ?_, rfl, rfl, rfl, rfl, rfl⟩
  intro k hk u hu
  match k, hk, hu with
  | 0, _, hu =>
    cases hu
    exact ⟨Demo.emptyTable_clear rfl rfl, mttFree_of ⟨rfl, rfl⟩ ⟨⟨0x16, false, false, false, 0x48, 0, 9⟩, rfl, by decide, by decide⟩⟩
  | 1, _, hu =>
    cases hu
    exact ⟨Demo.emptyTable_clear rfl rfl, mttFree_of ⟨rfl, rfl⟩ ⟨⟨0x14, false, false, false, 3, 0x48, 0⟩, rfl, by decide, by decide⟩⟩
  | 2, _, hu =>
    cases hu
    exact ⟨Demo.emptyTable_clear rfl rfl, mttFree_of ⟨rfl, rfl⟩ ⟨⟨0x0F, false, false, false, 0, 0x10, 0⟩, rfl, by decide, by decide⟩⟩
  | k + 3, hk, _ => omega

/-- **C121**: the restrictions are needed. A program that reads `mtt` sees it; a table that refuses something makes a difference. -/
theorem C121_restrictions :
    (∃ s t s' t' : Machine Demo.Dev, nextN .debug 1 (Demo.start [instrWord 0x01 false false false 0x1E 0x10 0,
        instrWord 0x01 false true false 0 0x1D 0]) = some s ∧ OtherMtt s t ∧ ClearTable .debug s ∧
      next .debug s = some s' ∧ next .debug t = some t' ∧ reg s'.regs 0 ≠ reg t'.regs 0) ∧
    (∃ s t s' t' : Machine Demo.Dev, nextN .debug 3 (Demo.start [instrWord 0x01 false false false 0x1E 0 0x40,
        instrWord 0x04 false false false 0 0 1, instrWord 0x16 false false true 0x60 0 0,
        instrWord 0x14 false false false 3 8 0]) = some s ∧ OtherMtt s t ∧ (∀ w devs, Fetches .debug s w devs → MttFree w) ∧
      next .debug s = some s' ∧ next .debug t = some t' ∧ s'.regs.pc = 0x10 ∧ s'.regs.et = 0 ∧ t'.regs.et.toNat / 2 ^ 16 % 2 ^ 8 = 6) :=
  ⟨⟨_, _, _, _, rfl, ⟨1, rfl⟩, Demo.emptyTable_clear rfl rfl, rfl, rfl, by decide⟩,
    ⟨_, _, _, _, rfl, ⟨1, rfl⟩, mttFree_of ⟨rfl, rfl⟩ ⟨⟨0x14, false, false, false, 3, 8, 0⟩, rfl, by decide, by decide⟩, rfl, rfl, rfl, rfl, rfl⟩⟩

end Lrvm
