import Verif.Props.Causes

/-!
# Why an instruction with a protected destination is refused: C09
-/

namespace Lrvm

open Spec

variable {D : Type} [Bus D] {pf : Profile}

theorem protected_neverOk {w : Word} {n : Nat} (hn : n ∈ destinations w) (hp : n ∈ [0x17, 0x1A, 0x1B]) :
    NeverOk (runInstr pf (fieldsOf w) : M D Unit) := by
  have hd : ∃ c ∈ destRegs (fieldsOf w), c.toNat = n := by
    rw [← destRegs_eq] at hn
    simpa using hn
  obtain ⟨c, hc, rfl⟩ := hd
  have wr := fun v => writeReg_neverOk (D := D) hp v
  have alu : c = (fieldsOf w).p0 → NeverOk (execAlu (fieldsOf w) : M D Unit) := fun hc => by
    subst hc
    exact .bind fun _ => .bind fun _ => .bind fun _ => wr _
  have div : c = (fieldsOf w).p0 → ∀ mk, NeverOk (execDiv mk (fieldsOf w) : M D Unit) :=
    fun hc mk => by
      subst hc
      exact .bind fun _ => .bind fun _ => .bind fun _ => .bind fun _ => wr _
  unfold runInstr
  split
  all_goals first
    | (next h => simp [destRegs, h] at hc; done)
    | (next h => exact alu (by simpa [destRegs, h] using hc))
    | (next h => exact div (by simpa [destRegs, h] using hc) _)
    | skip
  · next h =>
    simp only [destRegs, h, List.mem_singleton] at hc; subst hc; exact .bind fun _ => wr _
  · next h =>
    simp only [destRegs, h, List.mem_cons, List.not_mem_nil, or_false] at hc
    rcases hc with rfl | rfl
    · exact .bind fun _ => .bind fun _ => .bind_left (wr _)
    · exact .bind fun _ => .bind fun _ => .bind fun _ => wr _
  · next h =>
    simp only [destRegs, h, List.mem_singleton] at hc; subst hc
    exact .bind fun _ => .bind fun _ => .bind fun _ => wr _
  · next h =>
    simp only [destRegs, h, List.mem_singleton] at hc; subst hc
    exact .bind fun _ => .bind fun _ => .bind fun _ => .bind fun _ => .bind fun _ => .bind fun _ =>
      .bind fun _ => wr _
  · next h =>
    simp only [destRegs, h, List.mem_singleton] at hc; subst hc
    exact .bind fun _ => .bind fun _ => wr _
  · next h =>
    simp only [destRegs, h, List.mem_singleton] at hc; subst hc
    refine .bind fun _ => .bind fun _ => ?_
    split
    · exact .bind fun _ => wr _
    · exact .bind fun _ => wr _
  · next h =>
    simp only [destRegs, h, List.mem_singleton] at hc; subst hc; exact .bind fun _ => wr _

theorem byteOf_word (i : Parts) : opcode i.word = i.op.toNat ∧ byte i.word 1 = i.p0.toNat ∧ byte i.word 2 = i.p1.toNat ∧
    byte i.word 3 = i.p2.toNat := by
  obtain ⟨h1, h2, h3⟩ := byte_instrWord i.op i.r0 i.r1 i.r2 i.p0 i.p1 i.p2
  exact ⟨opcode_instrWord .., h1, h2, h3⟩

theorem noWrite_four {r : Regs} {n : Nat} (h : n < 32) : noWrite r n = 0x04 := by
  unfold noWrite
  rw [if_neg (by omega)]

/-- **C09**, the exception: when a destination is `af`, `et` or `era`, the exception that refuses the instruction is 0x04
with the code of a destination that the mode may not write, unless an operand, a memory access, the division or the hardware
information has been refused before. -/
theorem C09_reason {s s' : Machine D} {w : Word} {devs : List D} {n : Nat}
    (hf : Fetches pf s w devs) (h : next pf s = some s') (hn : n ∈ destinations w) (hp : n ∈ [0x17, 0x1A, 0x1B]) :
    ∃ i r c d devs' af, w = i.word ∧ Cause pf s devs i r c d devs' ∧ s'.regs = trap { r with af := af } c d ∧
      ((c = 0x04 ∧ d ∈ destinations w ∧ mayWrite (supervisor r) d = false) ∨
       (c = noRead r ∧ mayRead (supervisor r) d = false) ∨
       (∃ v dv dv', LoadFaults pf s dv v c d dv') ∨ (∃ v x dv dv', StoreFaults pf s dv v x c d dv') ∨
       ((i.op = 0x06 ∨ i.op = 0x07) ∧ (c = 0x0A ∧ i.divByZero s.regs ∨ c = 0x0B ∧ i.divOverflow s.regs)) ∨
       (i.op = 0x1C ∧ HwRefusal s i c d)) := by
  rcases next_inv h hf.1 with ⟨devs', c, d, _, ha, _, _⟩ | ⟨w', devs', hf', _, hr⟩
  · have := (fetches_iff.1 hf).2
    rw [ha] at this
    cases this
  obtain ⟨rfl, rfl⟩ := fetches_unique hf hf'
  rcases hr with ⟨t, c, d, hrun, _, _, _⟩ | ⟨t, hrun, _, _⟩
  rotate_left
  · exact absurd hrun (protected_neverOk hn hp _ _ _)
  obtain ⟨i, rfl⟩ := Spec.Parts.exists_word w'
  obtain ⟨r, c, d, devs', _, hc, _⟩ := raised_of_ex (i := i) (by rw [← show fieldsOf i.word = i.fields from fieldsOf_instrWord ..]; exact hrun)
  obtain ⟨af, _, t, ht, hr, _⟩ := reports_of_cause hf hc
  rw [h] at ht
  cases ht
  refine ⟨i, r, c, d, devs', af, rfl, hc, hr, ?_⟩
  obtain ⟨b0, b1, b2, b3⟩ := byteOf_word i
  have hp32 : n < 32 := by
    simp only [List.mem_cons, List.not_mem_nil, or_false] at hp
    omega
  unfold destinations at hn ⊢
  rw [b0, b1, b2, b3] at hn ⊢
  have find : ∀ m, i.refused s.regs = some m → mayRead (supervisor s.regs) m = false := by
    intro m hm
    have := List.find?_some hm
    simpa using this
  have hex : i.op = 0x02 → i.refused s.regs = none → i.p0.toNat < 32 ∧ i.p1.toNat < 32 := by
    intro hop hr
    have hs : i.sources = [i.p0.toNat, i.p1.toNat] := by unfold Spec.Parts.sources; rw [hop]; rfl
    unfold Spec.Parts.refused at hr
    rw [hs, List.find?_eq_none] at hr
    exact ⟨mayRead_lt (by simpa using hr i.p0.toNat (by simp)), mayRead_lt (by simpa using hr i.p1.toNat (by simp))⟩
  cases hc with
  | notInstr hop => rw [hop] at hn; simp at hn
  | reserved hop _ => rw [hop] at hn; simp at hn
  | source _ hr => exact .inr (.inl ⟨rfl, find _ hr⟩)
  | divByZero hop _ hz => exact .inr (.inr (.inr (.inr (.inl ⟨hop, .inl ⟨rfl, hz⟩⟩))))
  | divOverflow hop _ hz => exact .inr (.inr (.inr (.inr (.inl ⟨hop, .inr ⟨rfl, hz⟩⟩))))
  | interruption hop _ => rw [hop] at hn; simp at hn
  | flag hop _ _ => rcases hop with hop | hop <;> rw [hop] at hn <;> simp at hn
  | condition hop _ _ _ => rw [hop] at hn; simp at hn
  | load _ _ _ hl => exact .inr (.inr (.inl ⟨_, _, _, hl⟩))
  | store _ _ _ hl => exact .inr (.inr (.inr (.inl ⟨_, _, _, _, hl⟩)))
  | swapSource hop _ _ _ _ hm => exact .inr (.inl ⟨rfl, hm⟩)
  | swapStore _ _ _ _ _ _ hl => exact .inr (.inr (.inr (.inl ⟨_, _, _, _, hl⟩)))
  | swapDest hop _ _ _ _ hm _ hw =>
    refine .inl ⟨noWrite_four (mayRead_lt hm), ?_, hw⟩
    rw [hop]; simp
  | dest hop _ hw =>
    have hn' : n = i.p0.toNat := by
      simp only [List.mem_cons, List.not_mem_nil, or_false] at hop
      rcases hop with hop | hop | hop | hop | hop | hop | hop | hop | hop | hop <;> rw [hop] at hn <;> simpa using hn
    refine .inl ⟨noWrite_four (hn' ▸ hp32), ?_, hw⟩
    simp only [List.mem_cons, List.not_mem_nil, or_false] at hop
    rcases hop with hop | hop | hop | hop | hop | hop | hop | hop | hop | hop <;> rw [hop] <;> simp
  | divDest hop _ _ _ hw =>
    refine .inl ?_
    rcases hop with hop | hop <;> rw [hop] at hn ⊢ <;> simp at hn ⊢ <;> exact ⟨noWrite_four (hn ▸ hp32), hw⟩
  | loadDest hop _ _ _ hw =>
    refine .inl ?_
    rw [hop] at hn ⊢; simp at hn ⊢; exact ⟨noWrite_four (hn ▸ hp32), hw⟩
  | popDest hop _ _ hw =>
    refine .inl ?_
    rw [hop] at hn ⊢; simp at hn ⊢
    exact ⟨noWrite_four (hn ▸ hp32), (supervisor_withStackPtr s.regs _).symm ▸ hw⟩
  | exFirst hop hr2 hw =>
    exact .inl ⟨noWrite_four (hex hop hr2).1, by rw [hop]; simp, hw⟩
  | exSecond hop hr2 _ _ hw =>
    exact .inl ⟨noWrite_four (hex hop hr2).2, by rw [hop]; simp, hw⟩
  | hw hop _ _ hh => exact .inr (.inr (.inr (.inr (.inr ⟨hop, hh⟩))))
  | hwDest hop _ _ _ hw =>
    refine .inl ?_
    rw [hop] at hn ⊢; simp at hn ⊢; exact ⟨noWrite_four (hn ▸ hp32), hw⟩
  | reset hop _ _ _ => rw [hop] at hn; simp at hn

/-- `cpy et, 5` raises 0x04 with the code of `et`. -/
example : ∃ s', Fetches .debug (Demo.start [0x0C1A0005]) 0x0C1A0005 (Demo.devices [0x0C1A0005]) ∧
    0x1A ∈ destinations 0x0C1A0005 ∧ next .debug (Demo.start [0x0C1A0005]) = some s' ∧ s'.regs.et = 0x0104001A :=
  ⟨_, ⟨rfl, rfl⟩, by decide, rfl, by decide +kernel⟩

end Lrvm
