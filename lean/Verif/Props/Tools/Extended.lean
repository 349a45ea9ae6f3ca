import Verif.Props.Tools.Assembler
import Verif.Props.Data

/-!
# Extended instructions: C60
-/

namespace Lrvm

open Spec

variable {D : Type} [Bus D] {pf : Profile}

theorem reg_advance (r : Regs) (n : Nat) (h : n < 32) (hp : n ≠ 0x16) : reg (advance r) n = reg r n := by
  revert n; cases32 <;> simp [reg, advance]

theorem reg_af (r : Regs) (x : Word) (n : Nat) (h : n < 32) (hp : n ≠ 0x17) : reg { r with af := x } n = reg r n := by
  revert n; cases32 <;> simp [reg]

theorem pc_setReg (r : Regs) (c : Nat) (w : Word) (h : c < 32) (hp : c ≠ 0x16) : (setReg r c w).pc = r.pc :=
  reg_setReg_ne r c 0x16 w h (by omega) hp

theorem supervisor_reg (r : Regs) : supervisor r = (reg r 0x1F != 0) := rfl

/-- The machine right after the fetch. -/
def fetched (s : Machine D) (devs : List D) : Machine D :=
  { s with cycles := s.cycles + 1, devs := devs, changedPc := false }

/-- The fetched machine, after an assignment of a register that also sets the flags. -/
def assigned (s : Machine D) (devs : List D) (af : Word) (r : Reg) (w : Word) : Machine D :=
  { fetched s devs with regs := setReg { s.regs with af := af } r.code.toNat w }

/-- A successful assignment ends the cycle in an `Assigned` machine. -/
theorem assigned_of {s : Machine D} {devs : List D} {i : Instr} {r : Reg} {w : Word} {af : Word}
    (hn : next pf s = runInstruction pf s devs i) (hpc : r ≠ .pc)
    (hp : perform pf i (fetched s devs) = .ok () (assigned s devs af r w)) :
    ∃ s', next pf s = some s' ∧ Assigned s s' r.code.toNat w 1 ∧ s'.devs = devs := by
  have hc := r.code_lt
  have hne : r.code.toNat ≠ 0x16 := by revert hpc; cases r <;> simp [Reg.code]
  have hp' : perform pf i { s with cycles := s.cycles + 1, devs := devs, changedPc := false } = _ := hp
  refine ⟨_, by rw [hn]; unfold runInstruction; rw [hp'], ?_, rfl⟩
  refine ⟨?_, ?_, ?_⟩
  · show reg (advance (setReg { s.regs with af := af } r.code.toNat w)) r.code.toNat = w
    rw [reg_advance _ _ hc hne, reg_setReg_same _ _ _ hc]
  · show (setReg { s.regs with af := af } r.code.toNat w).pc + 4 = _
    rw [pc_setReg _ _ _ hc hne]
    rfl
  · intro n hlt h1 h2 h3
    show reg (advance (setReg { s.regs with af := af } r.code.toNat w)) n = _
    rw [reg_advance _ _ hlt h2, reg_setReg_ne _ _ _ _ hc hlt (Ne.symm h1), reg_af _ _ _ hlt h3]

theorem putReg_ok {r : Reg} {w : Word} {s : Machine D} (hw : mayWrite (supervisor s.regs) r.code.toNat = true)
    (hpc : r ≠ .pc) : (Spec.putReg r w : Act D Unit) s = .ok () { s with regs := setReg s.regs r.code.toNat w } := by
  rw [putReg_eval, if_pos hw]
  have : (r == Reg.pc) = false := by simpa using hpc
  rw [this, Bool.or_false]

theorem getReg_ok {r : Reg} {s : Machine D} (hw : mayRead (supervisor s.regs) r.code.toNat = true) :
    (Spec.getReg r : Act D Word) s = .ok (reg s.regs r.code.toNat) s := by
  rw [getReg_eval, if_pos hw]

theorem act_bind_ok {α β : Type} {m : Act D α} {k : α → Act D β} {s s' : Machine D} {a : α} (h : m s = .ok a s') :
    (m >>= k) s = k a s' := by
  show EStateM.bind m k s = _
  unfold EStateM.bind
  rw [h]

theorem step_cpy_lit {s : Machine D} {devs : List D} {r : Reg} {n : U16}
    (hf : Fetches pf s (Instr.encodeWord (.cpy r (.lit n))) devs)
    (hw : mayWrite (supervisor s.regs) r.code.toNat = true) (hpc : r ≠ .pc) :
    ∃ s', next pf s = some s' ∧ Assigned s s' r.code.toNat (BitVec.ofNat 32 n.toNat) 1 ∧ s'.devs = devs := by
  have hn := C52_partial (pf := pf) (.cpy r (.lit n)) (by rintro ⟨r, h, _⟩; cases h) hf
  exact assigned_of hn hpc (af := s.regs.af) (w := BitVec.ofNat 32 n.toNat)
    (putReg_ok (s := fetched s devs) hw hpc)

theorem step_update {s : Machine D} {devs : List D} {i : Instr} {r : Reg} {v : Word} {f : Word → Word → Calc}
    {w : Word} {c o : Bool} (hi : perform pf i = (Spec.update r (pure v) f : Act D Unit)) (hl : ¬ LosesRegister i)
    (hf : Fetches pf s i.encodeWord devs) (hw : mayWrite (supervisor s.regs) r.code.toNat = true) (hpc : r ≠ .pc)
    (hc : f (reg s.regs r.code.toNat) v = .ok (w, c, o)) :
    ∃ s', next pf s = some s' ∧ Assigned s s' r.code.toNat w 1 ∧ s'.devs = devs := by
  have hn := C52_partial (pf := pf) i hl hf
  refine assigned_of hn hpc (af := flagsFor w c o (zlfCode w)) ?_
  rw [hi]
  refine (act_bind_ok (m := Spec.getReg r) (getReg_ok (s := fetched s devs) (mayRead_of_mayWrite hw))).trans ?_
  refine (act_bind_ok (m := (Spec.settle (f (reg s.regs r.code.toNat) v) : Act D Word)) (a := w)
    (s' := { fetched s devs with regs := { s.regs with af := flagsFor w c o (zlfCode w) } }) (by rw [hc]; rfl)).trans ?_
  exact putReg_ok (s := { fetched s devs with regs := { s.regs with af := _ } }) hw hpc

theorem Spec.Assigned.trans {s s' s'' : Machine D} {r k j : Nat} {w v : Word} (h1 : Assigned s s' r w k)
    (h2 : Assigned s' s'' r v j) : Assigned s s'' r v (k + j) := by
  refine ⟨h2.1, ?_, ?_⟩
  · rw [h2.2.1, h1.2.1]
    apply BitVec.eq_of_toNat_eq
    simp only [BitVec.toNat_add, BitVec.toNat_ofNat]
    omega
  · intro n hn a b c
    rw [h2.2.2 n hn a b c, h1.2.2 n hn a b c]

theorem Spec.Assigned.supervisor {s s' : Machine D} {r k : Nat} {w : Word} (h : Assigned s s' r w k) (hr : r ≠ 0x1F) :
    supervisor s'.regs = supervisor s.regs := by
  rw [supervisor_reg, supervisor_reg, h.2.2 0x1F (by omega) (Ne.symm hr) (by omega) (by omega)]

theorem runsThrough_cons {s s'' : Machine D} {w : Word} {ws : List Word} (h : RunsThrough pf s (w :: ws) s'') :
    ∃ devs s', Fetches pf s w devs ∧ next pf s = some s' ∧ RunsThrough pf s' ws s'' := by
  cases h with
  | step h1 h2 h3 => exact ⟨_, _, h1, h2, h3⟩

theorem runsThrough_append {ws vs : List Word} : ∀ {s s'' : Machine D}, RunsThrough pf s (ws ++ vs) s'' →
    ∃ s', RunsThrough pf s ws s' ∧ RunsThrough pf s' vs s'' := by
  induction ws with
  | nil => exact fun h => ⟨_, .done _, h⟩
  | cons w ws ih =>
    intro s s'' h
    obtain ⟨devs, s1, h1, h2, h3⟩ := runsThrough_cons h
    obtain ⟨s', h4, h5⟩ := ih h3
    exact ⟨s', .step h1 h2 h4, h5⟩

/-- The words of the three instructions that build a constant. -/
def setWordCode (r : Reg) (v : Word) : List Word := (setWord r v).map Instr.encodeWord

theorem setWord_runs {s s' : Machine D} {r : Reg} {v : Word} (h : RunsThrough pf s (setWordCode r v) s')
    (hw : mayWrite (supervisor s.regs) r.code.toNat = true) (hpc : r ≠ .pc) (hsmt : r ≠ .smt) :
    Assigned s s' r.code.toNat v 3 := by
  have hc := r.code_lt
  have h1F : r.code.toNat ≠ 0x1F := by revert hsmt; cases r <;> simp [Reg.code]
  have hv := v.isLt
  obtain ⟨d1, s1, f1, n1, h⟩ := runsThrough_cons h
  obtain ⟨d2, s2, f2, n2, h⟩ := runsThrough_cons h
  obtain ⟨d3, s3, f3, n3, h⟩ := runsThrough_cons h
  cases h
  obtain ⟨t1, e1, a1, _⟩ := step_cpy_lit f1 hw hpc
  rw [n1] at e1; injection e1 with e1; subst e1
  have hw1 : mayWrite (supervisor s1.regs) r.code.toNat = true := by rw [a1.supervisor h1F]; exact hw
  obtain ⟨t2, e2, a2, _⟩ := step_update (v := BitVec.ofNat 32 16) (f := calcShl)
    (w := BitVec.ofNat 32 (v.toNat / 2 ^ 16 * 2 ^ 16)) (c := false) (o := false) rfl
    (by rintro ⟨r, h, _⟩; cases h) f2 hw1 hpc (by
      rw [a1.1]
      unfold calcShl
      simp only [BitVec.toNat_setWidth, BitVec.toNat_ushiftRight, Nat.shiftRight_eq_div_pow, BitVec.toNat_ofNat]
      rw [show v.toNat / 2 ^ 16 % 2 ^ 16 % 2 ^ 32 * 2 ^ (16 % 2 ^ 32 % 32) = v.toNat / 2 ^ 16 * 2 ^ 16 from by
        generalize v.toNat = k at hv ⊢
        show k / 2 ^ 16 % 2 ^ 16 % 2 ^ 32 * 2 ^ 16 = _
        rw [Nat.mod_eq_of_lt (a := k / 2 ^ 16) (by omega), Nat.mod_eq_of_lt (by omega)]]
      rfl)
  rw [n2] at e2; injection e2 with e2; subst e2
  have hw2 : mayWrite (supervisor s2.regs) r.code.toNat = true := by rw [a2.supervisor h1F]; exact hw1
  obtain ⟨t3, e3, a3, _⟩ := step_update (v := BitVec.ofNat 32 (v.setWidth 16 : U16).toNat) (f := calcAdd)
    (w := v) rfl (by rintro ⟨r, h, _⟩; cases h) f3 hw2 hpc (by
      rw [a2.1]
      unfold calcAdd
      congr 2
      apply BitVec.eq_of_toNat_eq
      simp only [BitVec.toNat_ofNat, BitVec.toNat_setWidth]
      omega)
  rw [n3] at e3; injection e3 with e3; subst e3
  exact (a1.trans a2).trans a3

/-- **C60**, SetReg: after its three words, the register contains the constant and only `pc` and `af` changed besides.
The register must be one the current mode may write, other than `pc` (assigning it moves the execution) and `smt`
(assigning it may leave supervisor mode half-way). -/
theorem C60_set_reg_partial {s s' : Machine D} {r : Reg} {v : Word}
    (h : RunsThrough pf s (ExtInstr.setReg r v).encodeWords s')
    (hw : mayWrite (supervisor s.regs) r.code.toNat = true) (hpc : r ≠ .pc) (hsmt : r ≠ .smt) :
    Assigned s s' r.code.toNat v 3 :=
  setWord_runs h hw hpc hsmt

/-! ### The memory half -/

theorem lea_word : Instr.encodeWord (.lea (.reg .avr) (.lit 0) (.lit 0)) = instrWord 0x15 true false false 0x15 0 0 := by
  decide +kernel

theorem wea_word : Instr.encodeWord (.wea (.reg .rr0) (.lit 0) (.lit 0)) = instrWord 0x17 true false false 0x0D 0 0 := by
  decide +kernel

/-- What a step to given registers means for the machine the processor reports. -/
theorem steps_next {s s' : Machine D} {r : Regs} {devs : List D} (h : Steps pf s r devs) (hn : next pf s = some s') :
    s'.regs = r ∧ s'.devs = devs := by
  obtain ⟨t, ht, h1, h2, _⟩ := h
  rw [hn] at ht; injection ht with ht; subst ht
  exact ⟨h1, h2⟩

theorem zero_scaled (a : Word) : a + 0 * 0 = a := by
  rw [show (0 * 0 : Word) = 0 from rfl]; exact BitVec.add_zero a

/-- The last instruction of ReadAddr. -/
theorem step_lea {s s' : Machine D} {devs devs' : List D} {w : Word}
    (hf : Fetches pf s (Instr.encodeWord (.lea (.reg .avr) (.lit 0) (.lit 0))) devs) (hn : next pf s = some s')
    (hl : Loads pf s devs s.regs.avr w devs') : Assigned s s' 0x15 w 1 ∧ s'.devs = devs' := by
  rw [lea_word] at hf
  have := steps_next (C29_lea (addr := s.regs.avr) (add := 0) (mul := 0) (w := w) (devs' := devs') hf
    ⟨rfl, rfl⟩ rfl rfl (by rw [zero_scaled]; exact hl)) hn
  refine ⟨⟨?_, ?_, ?_⟩, this.2⟩
  · rw [this.1]; rfl
  · rw [this.1]; rfl
  · intro n hlt h1 h2 h3
    rw [this.1, reg_advance _ _ hlt h2]
    revert n; cases32 <;> simp [reg]

/-- The last instruction of WriteAddr. -/
theorem step_wea {s s' : Machine D} {devs devs' : List D}
    (hf : Fetches pf s (Instr.encodeWord (.wea (.reg .rr0) (.lit 0) (.lit 0))) devs) (hn : next pf s = some s')
    (hl : Stores pf s devs s.regs.rr[0] s.regs.avr devs') : s'.regs = advance s.regs ∧ s'.devs = devs' := by
  rw [wea_word] at hf
  exact steps_next (C29_wea (addr := s.regs.rr[0]) (add := 0) (mul := 0) (devs' := devs') hf
    ⟨rfl, rfl⟩ rfl rfl (by rw [zero_scaled]; exact hl)) hn

/-- A copy from a register, as assembled: the processor copies `a0`. -/
theorem step_cpy_reg {s s' : Machine D} {devs : List D} {r x : Reg}
    (hf : Fetches pf s (Instr.encodeWord (.cpy r (.reg x))) devs) (hn : next pf s = some s')
    (hw : mayWrite (supervisor s.regs) r.code.toNat = true) (hpc : r ≠ .pc) :
    Assigned s s' r.code.toNat s.regs.a[0] 1 ∧ s'.devs = devs := by
  have hn' := (C52_lossy_execution (pf := pf) (.cpy r (.reg x)) hf).1 x rfl
  have hp : perform pf (.cpy r (.reg .a0)) (fetched s devs) = .ok () (assigned s devs s.regs.af r s.regs.a[0]) :=
    (act_bind_ok (getReg_ok (r := .a0) (s := fetched s devs) (by cases supervisor (fetched s devs).regs <;> rfl))).trans
      (putReg_ok (s := fetched s devs) hw hpc)
  obtain ⟨t, e, a, d⟩ := assigned_of hn' hpc hp
  rw [hn] at e; injection e with e; subst e
  exact ⟨a, d⟩

/-- Every general register may be written in any mode. -/
theorem mayWrite_avr (m : Bool) : mayWrite m (Reg.code .avr).toNat = true := by cases m <;> rfl

theorem mayWrite_rr0 (m : Bool) : mayWrite m (Reg.code .rr0).toNat = true := by cases m <;> rfl

/-- **C60**, ReadAddr: its first three words put the address in `avr`; if the word at that address can then be read,
it ends in `avr`, and no other register changes but `pc` and `af`. -/
theorem C60_read_addr {s s' : Machine D} {a : Word} (h : RunsThrough pf s (ExtInstr.readAddr a).encodeWords s') :
    ∃ t devs, Assigned s t 0x15 a 3 ∧ Fetches pf t (Instr.encodeWord (.lea (.reg .avr) (.lit 0) (.lit 0))) devs ∧
      next pf t = some s' ∧
      ∀ w devs', Loads pf t devs a w devs' → Assigned s s' 0x15 w 4 ∧ s'.devs = devs' := by
  obtain ⟨t, h1, h2⟩ := runsThrough_append (ws := setWordCode .avr a) h
  have ha := setWord_runs h1 (mayWrite_avr _) (by simp) (by simp)
  obtain ⟨devs, t', hf, hn, hd⟩ := runsThrough_cons h2
  cases hd
  refine ⟨t, devs, ha, hf, hn, ?_⟩
  intro w devs' hl
  have hv : t.regs.avr = a := ha.1
  have := step_lea hf hn (by rw [hv]; exact hl)
  exact ⟨ha.trans this.1, this.2⟩

/-- **C60**, ReadAddrTo, what is true of it: the word at the address ends in `avr` after the fourth word, as with
ReadAddr, but the last instruction copies `a0`, not `avr`, in the register. The full claim is false:
`C60_read_addr_to_refuted`. -/
theorem C60_read_addr_to_partial {s s' : Machine D} {a : Word} {r : Reg}
    (h : RunsThrough pf s (ExtInstr.readAddrTo r a).encodeWords s')
    (hw : mayWrite (supervisor s.regs) r.code.toNat = true) (hpc : r ≠ .pc) :
    ∃ t u, RunsThrough pf s (ExtInstr.readAddr a).encodeWords u ∧ Assigned s t 0x15 a 3 ∧
      ∃ devs, Fetches pf t (Instr.encodeWord (.lea (.reg .avr) (.lit 0) (.lit 0))) devs ∧
        ∀ w devs', Loads pf t devs a w devs' → Assigned s u 0x15 w 4 ∧ u.devs = devs' ∧
          Assigned u s' r.code.toNat s.regs.a[0] 1 := by
  obtain ⟨u, h1, h2⟩ := runsThrough_append (ws := (ExtInstr.readAddr a).encodeWords) (vs := [Instr.encodeWord (.cpy r (.reg .avr))]) h
  obtain ⟨t, devs, ha, hf, hn, hl⟩ := C60_read_addr h1
  refine ⟨t, u, h1, ha, devs, hf, ?_⟩
  intro w devs' hw'
  obtain ⟨h3, h4⟩ := hl w devs' hw'
  obtain ⟨d2, t', hf2, hn2, hd⟩ := runsThrough_cons h2
  cases hd
  refine ⟨h3, h4, ?_⟩
  have := (step_cpy_reg hf2 hn2 (by rw [h3.supervisor (by omega)]; exact hw) hpc).1
  rwa [show u.regs.a[0] = s.regs.a[0] from h3.2.2 0 (by omega) (by omega) (by omega) (by omega)] at this

/-- **C60**, WriteAddr, what is true of it: the address ends in `rr0`, the content of `a0` (whatever the register
named) in `avr`, and that content is written at the address. With `a0` as the register this is the documented effect.
The full claim is false: `C60_write_addr_refuted`. -/
theorem C60_write_addr_partial {s s' : Machine D} {a : Word} {r : Reg}
    (h : RunsThrough pf s (ExtInstr.writeAddr a r).encodeWords s') :
    ∃ t devs, Fetches pf t (Instr.encodeWord (.wea (.reg .rr0) (.lit 0) (.lit 0))) devs ∧ next pf t = some s' ∧
      t.regs.rr[0] = a ∧ t.regs.avr = s.regs.a[0] ∧
      (∀ n, n < 32 → n ≠ 0x0D → n ≠ 0x15 → n ≠ 0x16 → n ≠ 0x17 → reg t.regs n = reg s.regs n) ∧
      ∀ devs', Stores pf t devs a s.regs.a[0] devs' → s'.regs = advance t.regs ∧ s'.devs = devs' := by
  obtain ⟨u, h1, h2⟩ := runsThrough_append (ws := setWordCode .rr0 a) h
  have ha := setWord_runs h1 (mayWrite_rr0 _) (by simp) (by simp)
  obtain ⟨d1, t, hf1, hn1, h3⟩ := runsThrough_cons h2
  obtain ⟨d2, t', hf2, hn2, hd⟩ := runsThrough_cons h3
  cases hd
  obtain ⟨hb, _⟩ := step_cpy_reg hf1 hn1 (mayWrite_avr _) (by simp)
  have ha0 : u.regs.a[0] = s.regs.a[0] :=
    ha.2.2 0 (by omega) (by simp [Reg.code]) (by omega) (by omega)
  have hr : t.regs.rr[0] = a :=
    (hb.2.2 0x0D (by omega) (by simp [Reg.code]) (by omega) (by omega)).trans ha.1
  have hv : t.regs.avr = s.regs.a[0] := hb.1.trans ha0
  refine ⟨t, d2, hf2, hn2, hr, hv, ?_, ?_⟩
  · intro n hn h1 h2 h3 h4
    rw [hb.2.2 n hn h2 h3 h4, ha.2.2 n hn h1 h3 h4]
  · intro devs' hs
    exact step_wea hf2 hn2 (by rw [hr, hv]; exact hs)

/-- **C60**, WriteAddrLit: the address ends in `rr0`, the constant in `avr`, no other register changes but `pc` and
`af`, and the constant is written at the address. -/
theorem C60_write_addr_lit {s s' : Machine D} {a v : Word}
    (h : RunsThrough pf s (ExtInstr.writeAddrLit a v).encodeWords s') :
    ∃ t devs, Fetches pf t (Instr.encodeWord (.wea (.reg .rr0) (.lit 0) (.lit 0))) devs ∧ next pf t = some s' ∧
      t.regs.rr[0] = a ∧ t.regs.avr = v ∧
      (∀ n, n < 32 → n ≠ 0x0D → n ≠ 0x15 → n ≠ 0x16 → n ≠ 0x17 → reg t.regs n = reg s.regs n) ∧
      ∀ devs', Stores pf t devs a v devs' → s'.regs = advance t.regs ∧ s'.devs = devs' := by
  obtain ⟨u, h1, h2⟩ := runsThrough_append (ws := setWordCode .rr0 a)
    (vs := setWordCode .avr v ++ [Instr.encodeWord (.wea (.reg .rr0) (.lit 0) (.lit 0))]) h
  have ha := setWord_runs h1 (mayWrite_rr0 _) (by simp) (by simp)
  obtain ⟨t, h3, h4⟩ := runsThrough_append h2
  have hb := setWord_runs h3 (mayWrite_avr _) (by simp) (by simp)
  obtain ⟨d2, t', hf2, hn2, hd⟩ := runsThrough_cons h4
  cases hd
  have hr : t.regs.rr[0] = a :=
    (hb.2.2 0x0D (by omega) (by simp [Reg.code]) (by omega) (by omega)).trans ha.1
  have hv : t.regs.avr = v := hb.1
  refine ⟨t, d2, hf2, hn2, hr, hv, ?_, ?_⟩
  · intro n hn h1 h2 h3 h4
    rw [hb.2.2 n hn h2 h3 h4, ha.2.2 n hn h1 h3 h4]
  · intro devs' hs
    exact step_wea hf2 hn2 (by rw [hr, hv]; exact hs)

/-- A machine about to run the given words, with 5 in `a0` and 9 in `a2`. -/
def extMachine (ws : List Word) : Machine Demo.Dev :=
  { Demo.start ws with regs := setReg (setReg startup 0 5) 2 9 }

/-- The machine `n` cycles later. -/
def later : Nat → Machine Demo.Dev → Option (Machine Demo.Dev)
  | 0, s => some s
  | n + 1, s => (next .debug s).bind (later n)

/-- SetReg runs: the hypotheses of `C60_set_reg_partial` are met by a machine in supervisor mode. -/
example : ∃ s', RunsThrough .debug (extMachine (ExtInstr.setReg .rr3 0xDEADBEEF).encodeWords)
    (ExtInstr.setReg .rr3 0xDEADBEEF).encodeWords s' ∧ s'.regs.rr[3] = 0xDEADBEEF :=
  ⟨_, .step ⟨rfl, rfl⟩ rfl (.step ⟨rfl, rfl⟩ rfl (.step ⟨rfl, rfl⟩ rfl (.done _))), rfl⟩

/-- WriteAddrLit runs, and the write succeeds. -/
example : ∃ s', RunsThrough .debug (extMachine (ExtInstr.writeAddrLit 0x48 0xDEADBEEF).encodeWords)
    (ExtInstr.writeAddrLit 0x48 0xDEADBEEF).encodeWords s' ∧
    Loads .debug s' s'.devs 0x48 0xDEADBEEF s'.devs :=
  ⟨_, .step ⟨rfl, rfl⟩ rfl (.step ⟨rfl, rfl⟩ rfl (.step ⟨rfl, rfl⟩ rfl (.step ⟨rfl, rfl⟩ rfl (.step ⟨rfl, rfl⟩ rfl
    (.step ⟨rfl, rfl⟩ rfl (.step ⟨rfl, rfl⟩ rfl (.done _))))))), rfl⟩

/-- **C60**, refutation for `smt`: `SetReg(smt, 2)` in supervisor mode leaves supervisor mode with its first word and
raises an exception at the second; `smt` does not contain 2 three cycles later, and `pc` is back at the vector. -/
theorem C60_set_reg_refuted : ∃ (s s' : Machine Demo.Dev), supervisor s.regs = true ∧
    s = extMachine (ExtInstr.setReg .smt 2).encodeWords ∧ later 2 s = some s' ∧ s'.regs.smt ≠ 2 ∧
    s'.regs.et.toNat / 2 ^ 16 % 256 = 0x03 ∧ s'.regs.pc = s'.regs.ev :=
  ⟨_, _, rfl, rfl, rfl, by decide +kernel, by decide +kernel, rfl⟩

/-- **C60**, refutation: `ReadAddrTo(a1, 0x44)` on a machine where the word at `0x44` is 0 leaves 5, the content of
`a0`, in `a1`. -/
theorem C60_read_addr_to_refuted : ∃ (s s' : Machine Demo.Dev) (r : Reg) (a w : Word),
    RunsThrough .debug s (ExtInstr.readAddrTo r a).encodeWords s' ∧ Loads .debug s s.devs a w s.devs ∧
    Loads .debug s' s'.devs a w s'.devs ∧ reg s'.regs r.code.toNat ≠ w ∧
    mayWrite (supervisor s.regs) r.code.toNat = true :=
  ⟨extMachine (ExtInstr.readAddrTo .a1 0x44).encodeWords, _, .a1, 0x44, 0,
    .step ⟨rfl, rfl⟩ rfl (.step ⟨rfl, rfl⟩ rfl (.step ⟨rfl, rfl⟩ rfl (.step ⟨rfl, rfl⟩ rfl (.step ⟨rfl, rfl⟩ rfl
      (.done _))))), rfl, rfl, by decide +kernel, rfl⟩

/-- **C60**, refutation: `WriteAddr(0x44, a2)` with 9 in `a2` writes 5, the content of `a0`. -/
theorem C60_write_addr_refuted : ∃ (s s' : Machine Demo.Dev) (r : Reg) (a w : Word),
    RunsThrough .debug s (ExtInstr.writeAddr a r).encodeWords s' ∧ Loads .debug s' s'.devs a w s'.devs ∧
    w ≠ reg s.regs r.code.toNat ∧ w = s.regs.a[0] :=
  ⟨extMachine (ExtInstr.writeAddr 0x44 .a2).encodeWords, _, .a2, 0x44, 5,
    .step ⟨rfl, rfl⟩ rfl (.step ⟨rfl, rfl⟩ rfl (.step ⟨rfl, rfl⟩ rfl (.step ⟨rfl, rfl⟩ rfl (.step ⟨rfl, rfl⟩ rfl
      (.done _))))), rfl, by decide +kernel, rfl⟩

end Lrvm
