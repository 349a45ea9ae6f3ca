import Verif.Props.Tools.Reassembled

/-!
# Extended instructions assembled from their text: C132
-/

namespace Lrvm

open Spec

variable {D : Type} [Bus D] {pf : Profile}

/-- The bytes of the word encode the instruction. -/
def EncodesInstr (w : Word) (i : Instr) : Prop := ∃ b, IsBytesOf b w ∧ Instr.decode b = .ok i

/-- The words encode the instructions, one by one. -/
inductive CodeOf : List Word → List Instr → Prop
  | nil : CodeOf [] []
  | cons {w : Word} {i : Instr} {ws : List Word} {is : List Instr} : EncodesInstr w i → CodeOf ws is → CodeOf (w :: ws) (i :: is)

theorem words_of_groups : ∀ (l : List U8) (js : List Instr), l.length % 4 = 0 →
    (groups4 l).map ProgramWord.decode = js.map .instr → CodeOf (bytesToWords l) js := by
  intro l
  induction l using groups4.induct with
  | case1 a b c d rest ih =>
    intro js hl h
    simp only [List.length_cons] at hl
    cases js with
    | nil => cases h
    | cons j js =>
      simp only [groups4, List.map_cons, List.cons.injEq] at h
      rw [bytesToWords_cons4]
      refine .cons ⟨⟨a, b, c, d⟩, ?_, ?_⟩ (ih js (by omega) h.2)
      · show (join4 a b c d).toNat = a.toNat * 2 ^ 24 + b.toNat * 2 ^ 16 + c.toNat * 2 ^ 8 + d.toNat
        rw [join4_nat]; omega
      · have := h.1
        unfold ProgramWord.decode at this
        split at this
        · injection this with this; subst this; assumption
        · cases this
  | case2 l hn =>
    intro js hl h
    match l, hn with
    | [], _ =>
      cases js with
      | nil => exact .nil
      | cons j js => cases h
    | [_], _ => simp at hl
    | [_, _], _ => simp at hl
    | [_, _, _], _ => simp at hl
    | _ :: _ :: _ :: _ :: _, hn => exact absurd rfl (hn _ _ _ _ _)

theorem text_words {is js : List Instr} {t : List Char} {ws : List Word} (ht : (Program.fromInstr is).toLasm pf false = some t)
    (ha : assembleWords t = some ws)
    (hj : (Program.fromInstr is).mapM (reassembledWord pf) = some (js.map .instr)) : CodeOf ws js := by
  have hp := C81_table_partial pf _ t ht
  rw [hj] at hp
  unfold assembleWords at ha
  unfold assembleProg at hp
  cases hb : assemble t with
  | none => rw [hb] at ha; cases ha
  | some bytes =>
    rw [hb] at ha hp
    cases ha
    have hd : Program.decode bytes false = .ok (js.map .instr) := by injection hp
    have h4 : bytes.length % 4 = 0 := by
      refine Classical.byContradiction fun hn => ?_
      unfold Program.decode at hd
      rw [if_pos (by omega)] at hd
      cases hd
    rw [decode_program h4] at hd
    injection hd with hd
    exact words_of_groups _ _ h4 hd

/-- One word of a text. -/
theorem through_cons {s s'' : Machine D} {ws : List Word} {i : Instr} {is : List Instr} (hw : CodeOf ws (i :: is))
    (h : RunsThrough pf s ws s'') :
    ∃ w ws' devs s', ws = w :: ws' ∧ Fetches pf s w devs ∧ next pf s = some s' ∧ next pf s = runInstruction pf s devs i ∧
      CodeOf ws' is ∧ RunsThrough pf s' ws' s'' := by
  cases hw with
  | cons h1 h2 =>
    obtain ⟨devs, s', hf, hn, hr⟩ := runsThrough_cons h
    obtain ⟨b, hb, hd⟩ := h1
    exact ⟨_, _, devs, s', rfl, hf, hn, C51_step_is_decoded_instruction hf hb hd, h2, hr⟩

theorem text_zero_or_cpy {s s' : Machine D} {devs : List D} {r : Reg} {n : U16} (hs : next pf s = some s')
    (hn : next pf s = runInstruction pf s devs (if r ≠ .pc ∧ n = 0 then .xor r (.reg r) else .cpy r (.lit n)))
    (hw : mayWrite (supervisor s.regs) r.code.toNat = true) (hpc : r ≠ .pc) :
    Assigned s s' r.code.toNat (BitVec.ofNat 32 n.toNat) 1 := by
  split at hn
  · rename_i h
    obtain ⟨_, rfl⟩ := h
    have hg : (Spec.getReg r : Act D Word) (fetched s devs) = .ok (reg s.regs r.code.toNat) (fetched s devs) :=
      getReg_ok (s := fetched s devs) (mayRead_of_mayWrite hw)
    have hx0 : calcBits xor (reg s.regs r.code.toNat) (reg s.regs r.code.toNat) = .ok (0, false, false) := by
      unfold calcBits
      congr 2
      have : Nat.bitwise xor (reg s.regs r.code.toNat).toNat (reg s.regs r.code.toNat).toNat = 0 := Nat.xor_self _
      rw [this]
      rfl
    obtain ⟨t, e, a, _⟩ := assigned_of hn hpc (af := flagsFor 0 false false (zlfCode 0)) (w := 0) (by
      refine (act_bind_ok hg).trans ((act_bind_ok hg).trans ?_)
      refine (act_bind_ok (a := 0) (s' := { fetched s devs with regs := { s.regs with af := flagsFor 0 false false (zlfCode 0) } }) (by
        rw [hx0]; rfl)).trans ?_
      exact putReg_ok (s := { fetched s devs with regs := { s.regs with af := _ } }) hw hpc)
    rw [hs] at e; injection e with e; subst e
    exact a
  · obtain ⟨t, e, a, _⟩ := assigned_of hn hpc (af := s.regs.af) (w := BitVec.ofNat 32 n.toNat)
      (putReg_ok (s := fetched s devs) hw hpc)
    rw [hs] at e; injection e with e; subst e
    exact a

theorem text_update {s s' : Machine D} {devs : List D} {i : Instr} {r : Reg} {v : Word} {f : Word → Word → Calc}
    {w : Word} {c o : Bool} (hi : perform pf i = (Spec.update r (pure v) f : Act D Unit)) (hs : next pf s = some s')
    (hn : next pf s = runInstruction pf s devs i) (hw : mayWrite (supervisor s.regs) r.code.toNat = true) (hpc : r ≠ .pc)
    (hc : f (reg s.regs r.code.toNat) v = .ok (w, c, o)) : Assigned s s' r.code.toNat w 1 := by
  obtain ⟨t, e, a, _⟩ := assigned_of hn hpc (af := flagsFor w c o (zlfCode w)) (w := w) (by
    rw [hi]
    refine (act_bind_ok (m := Spec.getReg r) (getReg_ok (s := fetched s devs) (mayRead_of_mayWrite hw))).trans ?_
    refine (act_bind_ok (m := (Spec.settle (f (reg s.regs r.code.toNat) v) : Act D Word)) (a := w)
      (s' := { fetched s devs with regs := { s.regs with af := flagsFor w c o (zlfCode w) } }) (by rw [hc]; rfl)).trans ?_
    exact putReg_ok (s := { fetched s devs with regs := { s.regs with af := _ } }) hw hpc)
  rw [hs] at e; injection e with e; subst e
  exact a

/-- What the text of the three instructions that build a constant assembles to. -/
def setText (r : Reg) (v : Word) : List Instr :=
  [if r ≠ .pc ∧ (v >>> 16).setWidth 16 = (0 : U16) then .xor r (.reg r) else .cpy r (.lit ((v >>> 16).setWidth 16)),
    .shl r (.lit 16), .add r (.lit (v.setWidth 16))]

theorem setText_back (r : Reg) (v : Word) :
    (Program.fromInstr (setWord r v)).mapM (reassembledWord pf) = some ((setText r v).map .instr) := rfl

theorem setText_runs {s s' : Machine D} {r : Reg} {v : Word} {ws : List Word} {is : List Instr}
    (hws : CodeOf ws (setText r v ++ is)) (h : RunsThrough pf s ws s')
    (hw : mayWrite (supervisor s.regs) r.code.toNat = true) (hpc : r ≠ .pc) (hsmt : r ≠ .smt) :
    ∃ t ws', Assigned s t r.code.toNat v 3 ∧ CodeOf ws' is ∧ RunsThrough pf t ws' s' := by
  have hc := r.code_lt
  have h1F : r.code.toNat ≠ 0x1F := by revert hsmt; cases r <;> simp [Reg.code]
  have hv := v.isLt
  obtain ⟨_, ws1, d1, s1, rfl, f1, n1, e1, hws1, h1⟩ := through_cons hws h
  obtain ⟨_, ws2, d2, s2, rfl, f2, n2, e2, hws2, h2⟩ := through_cons hws1 h1
  obtain ⟨_, ws3, d3, s3, rfl, f3, n3, e3, hws3, h3⟩ := through_cons hws2 h2
  have a1 := text_zero_or_cpy n1 e1 hw hpc
  have hw1 : mayWrite (supervisor s1.regs) r.code.toNat = true := by rw [a1.supervisor h1F]; exact hw
  have a2 := text_update (v := BitVec.ofNat 32 16) (f := calcShl)
    (w := BitVec.ofNat 32 (v.toNat / 2 ^ 16 * 2 ^ 16)) (c := false) (o := false) rfl n2 e2 hw1 hpc (by
      rw [a1.1]
      unfold calcShl
      simp only [BitVec.toNat_setWidth, BitVec.toNat_ushiftRight, Nat.shiftRight_eq_div_pow, BitVec.toNat_ofNat]
      rw [show v.toNat / 2 ^ 16 % 2 ^ 16 % 2 ^ 32 * 2 ^ (16 % 2 ^ 32 % 32) = v.toNat / 2 ^ 16 * 2 ^ 16 from by
        generalize v.toNat = k at hv ⊢
        show k / 2 ^ 16 % 2 ^ 16 % 2 ^ 32 * 2 ^ 16 = _
        rw [Nat.mod_eq_of_lt (a := k / 2 ^ 16) (by omega), Nat.mod_eq_of_lt (by omega)]]
      rfl)
  have hw2 : mayWrite (supervisor s2.regs) r.code.toNat = true := by rw [a2.supervisor h1F]; exact hw1
  have a3 := text_update (v := BitVec.ofNat 32 (v.setWidth 16 : U16).toNat) (f := calcAdd)
    (w := v) rfl n3 e3 hw2 hpc (by
      rw [a2.1]
      unfold calcAdd
      congr 2
      apply BitVec.eq_of_toNat_eq
      simp only [BitVec.toNat_ofNat, BitVec.toNat_setWidth]
      omega)
  exact ⟨s3, ws3, (a1.trans a2).trans a3, hws3, h3⟩

theorem text_lea {s s' : Machine D} {devs devs' : List D} {w : Word} (hs : next pf s = some s')
    (hn : next pf s = runInstruction pf s devs (.lea (.reg .avr) (.lit 0) (.lit 0)))
    (hl : Loads pf s devs s.regs.avr w devs') : Assigned s s' 0x15 w 1 ∧ s'.devs = devs' := by
  have hp : perform pf (.lea (.reg .avr) (.lit 0) (.lit 0)) (fetched s devs) =
      .ok () { fetched s devs' with regs := { s.regs with avr := w } } := by
    refine (act_bind_ok (getReg_ok (r := .avr) (s := fetched s devs) (by cases supervisor (fetched s devs).regs <;> rfl))).trans ?_
    have hl' : (Spec.load pf (s.regs.avr + 0 * 0) : Act D Word) (fetched s devs) = .ok w (fetched s devs') := by
      rw [zero_scaled]
      unfold Spec.load Spec.port
      rw [show cpuRead pf s.regs.avr (fetched s devs) = .ok w (fetched s devs') from load_at (devs1 := devs) hl]
      rfl
    exact (act_bind_ok hl').trans rfl
  rw [hn] at hs
  unfold runInstruction at hs
  have hp' : perform pf (.lea (.reg .avr) (.lit 0) (.lit 0)) { s with cycles := s.cycles + 1, devs := devs, changedPc := false } = _ := hp
  rw [hp'] at hs
  cases hs
  refine ⟨⟨rfl, rfl, ?_⟩, rfl⟩
  intro n hlt h1 h2 h3
  show reg (advance { s.regs with avr := w }) n = _
  rw [reg_advance _ _ hlt h2]
  revert n; cases32 <;> simp [reg]

theorem text_wea {s s' : Machine D} {devs devs' : List D} (hs : next pf s = some s')
    (hn : next pf s = runInstruction pf s devs (.wea (.reg .rr0) (.lit 0) (.lit 0)))
    (hl : Stores pf s devs s.regs.rr[0] s.regs.avr devs') : s'.regs = advance s.regs ∧ s'.devs = devs' := by
  have hp : perform pf (.wea (.reg .rr0) (.lit 0) (.lit 0)) (fetched s devs) = .ok () (fetched s devs') := by
    refine (act_bind_ok (getReg_ok (r := .rr0) (s := fetched s devs) (by cases supervisor (fetched s devs).regs <;> rfl))).trans ?_
    show (Spec.store pf (s.regs.rr[0] + 0 * 0) s.regs.avr : Act D Unit) (fetched s devs) = .ok () (fetched s devs')
    rw [zero_scaled]
    unfold Spec.store Spec.port
    rw [show cpuWrite pf s.regs.rr[0] s.regs.avr (fetched s devs) = .ok () (fetched s devs') from store_at (devs1 := devs) hl]
    rfl
  rw [hn] at hs
  unfold runInstruction at hs
  have hp' : perform pf (.wea (.reg .rr0) (.lit 0) (.lit 0)) { s with cycles := s.cycles + 1, devs := devs, changedPc := false } = _ := hp
  rw [hp'] at hs
  cases hs
  exact ⟨rfl, rfl⟩

theorem text_cpy {s s' : Machine D} {devs : List D} {r x : Reg} (hs : next pf s = some s')
    (hn : next pf s = runInstruction pf s devs (.cpy r (.reg x))) (hx : mayRead (supervisor s.regs) x.code.toNat = true)
    (hw : mayWrite (supervisor s.regs) r.code.toNat = true) (hpc : r ≠ .pc) :
    Assigned s s' r.code.toNat (reg s.regs x.code.toNat) 1 ∧ s'.devs = devs := by
  obtain ⟨t, e, a, d⟩ := assigned_of hn hpc (af := s.regs.af) (w := reg s.regs x.code.toNat)
    ((act_bind_ok (getReg_ok (s := fetched s devs) hx)).trans (putReg_ok (s := fetched s devs) hw hpc))
  rw [hs] at e; injection e with e; subst e
  exact ⟨a, d⟩

/-! ### The claim -/

theorem has_text {is : List Instr} (h : ∀ i ∈ is, (i.toLasm pf).isSome = true) : ((Program.fromInstr is).toLasm pf false).isSome = true := by
  have : ∀ is : List Instr, (∀ i ∈ is, (i.toLasm pf).isSome = true) →
      ∃ ls, (Program.fromInstr is).mapM (ProgramWord.toLasm pf) = some ls := by
    intro is
    induction is with
    | nil => exact fun _ => ⟨[], rfl⟩
    | cons i is ih =>
      intro h
      obtain ⟨l, hl⟩ := Option.isSome_iff_exists.1 (h i List.mem_cons_self)
      obtain ⟨ls, hls⟩ := ih fun j hj => h j (List.mem_cons_of_mem _ hj)
      refine ⟨l :: ls, ?_⟩
      show (ProgramWord.instr i :: Program.fromInstr is).mapM _ = _
      rw [List.mapM_cons, hls]
      show (i.toLasm pf >>= _) = _
      rw [hl]; rfl
  obtain ⟨ls, hls⟩ := this is h
  unfold Program.toLasm Program.toLasmLines
  simp only [Bool.false_eq_true, if_false, hls]
  rfl

theorem cpy_has_text (r : Reg) (v : RegOrLit2) : ((Instr.cpy r v).toLasm pf).isSome = true := by
  simp only [Instr.toLasm]
  repeat' split
  all_goals rfl

/-- **C132**: every extended instruction has a text, which assembles. -/
theorem C132_assembles (pf : Profile) (e : ExtInstr) : ∃ t ws, e.toLasm pf = some t ∧ assembleWords t = some ws ∧
    ws.length = e.toInstr.length := by
  have key : ∀ is js : List Instr, ((Program.fromInstr is).toLasm pf false).isSome = true →
      (Program.fromInstr is).mapM (reassembledWord pf) = some (js.map .instr) → js.length = is.length →
      ∃ t ws, (Program.fromInstr is).toLasm pf false = some t ∧ assembleWords t = some ws ∧ ws.length = is.length := by
    intro is js h hj hl
    obtain ⟨t, ht⟩ := Option.isSome_iff_exists.1 h
    have hp := C81_table_partial pf _ t ht
    rw [hj] at hp
    cases hb : assemble t with
    | none => unfold assembleProg at hp; rw [hb] at hp; cases hp
    | some bytes =>
      have ha : assembleWords t = some (bytesToWords bytes) := by unfold assembleWords; rw [hb]; rfl
      refine ⟨t, _, ht, ha, ?_⟩
      have hc := text_words ht ha hj
      rw [← hl]
      clear ha hb hj hl hp ht h
      generalize bytesToWords bytes = ws at hc
      induction hc with
      | nil => rfl
      | cons _ _ ih => simp [ih]
  cases e with
  | setReg r v => exact key _ (setText r v) (has_text (by simp [ExtInstr.toInstr, setWord, cpy_has_text]; try trivial)) rfl rfl
  | readAddr a => exact key _ (setText .avr a ++ [.lea (.reg .avr) (.lit 0) (.lit 0)]) (has_text (by simp [ExtInstr.toInstr, setWord, cpy_has_text]; try trivial)) rfl rfl
  | readAddrTo r a => exact key _ (setText .avr a ++ [.lea (.reg .avr) (.lit 0) (.lit 0), .cpy r (.reg .avr)]) (has_text (by simp [ExtInstr.toInstr, setWord, cpy_has_text]; try trivial)) rfl rfl
  | writeAddr a r => exact key _ (setText .rr0 a ++ [.cpy .avr (.reg r), .wea (.reg .rr0) (.lit 0) (.lit 0)]) (has_text (by simp [ExtInstr.toInstr, setWord, cpy_has_text]; try trivial)) rfl rfl
  | writeAddrLit a v => exact key _ (setText .rr0 a ++ setText .avr v ++ [.wea (.reg .rr0) (.lit 0) (.lit 0)]) (has_text (by simp [ExtInstr.toInstr, setWord, cpy_has_text]; try trivial)) rfl rfl

/-- **C132**, SetReg: after the words its text assembles to, the register contains the constant and only `pc` and `af` changed besides.
The register must be one the current mode may write, other than `pc` and `smt` (as in `C60_set_reg_partial`, and for the same
reasons). -/
theorem C132_set_reg {s s' : Machine D} {r : Reg} {v : Word} {t : List Char} {ws : List Word}
    (ht : (ExtInstr.setReg r v).toLasm pf = some t) (ha : assembleWords t = some ws) (h : RunsThrough pf s ws s')
    (hw : mayWrite (supervisor s.regs) r.code.toNat = true) (hpc : r ≠ .pc) (hsmt : r ≠ .smt) :
    Assigned s s' r.code.toNat v 3 := by
  have hc : CodeOf ws (setText r v ++ []) := text_words ht ha rfl
  obtain ⟨u, ws', h1, h2, h3⟩ := setText_runs hc h hw hpc hsmt
  cases h2
  cases h3
  exact h1

/-- **C132**, ReadAddr: its first three words put the address in `avr`; if the word at that address can then be read, it ends in `avr`, and no
other register changes but `pc` and `af`. -/
theorem C132_read_addr {s s' : Machine D} {a : Word} {t : List Char} {ws : List Word}
    (ht : (ExtInstr.readAddr a).toLasm pf = some t) (ha : assembleWords t = some ws) (h : RunsThrough pf s ws s') :
    ∃ u x devs, Assigned s u 0x15 a 3 ∧ Fetches pf u x devs ∧ next pf u = some s' ∧
      ∀ w devs', Loads pf u devs a w devs' → Assigned s s' 0x15 w 4 ∧ s'.devs = devs' := by
  have hc : CodeOf ws (setText .avr a ++ [.lea (.reg .avr) (.lit 0) (.lit 0)]) := text_words ht ha rfl
  obtain ⟨u, ws', h1, h2, h3⟩ := setText_runs hc h (mayWrite_avr _) (by simp) (by simp)
  obtain ⟨x, ws'', devs, u', rfl, hf, hn, he, h4, h5⟩ := through_cons h2 h3
  cases h4
  cases h5
  refine ⟨u, x, devs, h1, hf, hn, fun w devs' hl => ?_⟩
  have hv : u.regs.avr = a := h1.1
  obtain ⟨g1, g2⟩ := text_lea hn he (by rw [hv]; exact hl)
  exact ⟨h1.trans g1, g2⟩

/-- **C132**, ReadAddrTo: the word at the address, if it can be read, ends in the register (which the current mode may write, other than `pc`) and
in `avr`; besides, only `pc` and `af` change. This is what fails when the instruction is encoded directly
(`C60_read_addr_to_refuted`). -/
theorem C132_read_addr_to {s s' : Machine D} {r : Reg} {a : Word} {t : List Char} {ws : List Word}
    (ht : (ExtInstr.readAddrTo r a).toLasm pf = some t) (ha : assembleWords t = some ws) (h : RunsThrough pf s ws s')
    (hw : mayWrite (supervisor s.regs) r.code.toNat = true) (hpc : r ≠ .pc) :
    ∃ u x devs, Assigned s u 0x15 a 3 ∧ Fetches pf u x devs ∧
      ∀ w devs', Loads pf u devs a w devs' → reg s'.regs r.code.toNat = w ∧ (r ≠ .avr → s'.regs.avr = w) ∧
        s'.regs.pc = s.regs.pc + 20 ∧
        ∀ n, n < 32 → n ≠ r.code.toNat → n ≠ 0x15 → n ≠ 0x16 → n ≠ 0x17 → reg s'.regs n = reg s.regs n := by
  have hc : CodeOf ws (setText .avr a ++ [.lea (.reg .avr) (.lit 0) (.lit 0), .cpy r (.reg .avr)]) := text_words ht ha rfl
  obtain ⟨u, ws', h1, h2, h3⟩ := setText_runs hc h (mayWrite_avr _) (by simp) (by simp)
  obtain ⟨x, ws'', devs, u', rfl, hf, hn, he, h4, h5⟩ := through_cons h2 h3
  obtain ⟨x', ws3, devs2, u'', rfl, hf', hn', he', h6, h7⟩ := through_cons h4 h5
  cases h6
  cases h7
  refine ⟨u, x, devs, h1, hf, fun w devs' hl => ?_⟩
  have hv : u.regs.avr = a := h1.1
  obtain ⟨g1, g2⟩ := text_lea hn he (by rw [hv]; exact hl)
  have g3 := h1.trans g1
  obtain ⟨g4, _⟩ := text_cpy hn' he' (by cases supervisor u'.regs <;> rfl)
    (by rw [g3.supervisor (by decide)]; exact hw) hpc
  have hv' : u'.regs.avr = w := g3.1
  refine ⟨?_, ?_, ?_, ?_⟩
  · rw [g4.1]; exact hv'
  · intro hr
    have hr' : (0x15 : Nat) ≠ r.code.toNat := by revert hr; cases r <;> simp [Reg.code]
    exact (g4.2.2 0x15 (by omega) hr' (by omega) (by omega)).trans hv'
  · rw [g4.2.1, g3.2.1, BitVec.add_assoc]; rfl
  · intro n hn h1 h2 h3 h4
    rw [g4.2.2 n hn h1 h3 h4, g3.2.2 n hn h2 h3 h4]

/-- WriteAddr as assembled from its text: the content, at the fourth word, of the register goes in `avr`, then at the address. -/
theorem write_addr_text {s s' : Machine D} {r : Reg} {a : Word} {t : List Char} {ws : List Word}
    (ht : (ExtInstr.writeAddr a r).toLasm pf = some t) (ha : assembleWords t = some ws) (h : RunsThrough pf s ws s')
    (hr : mayRead (supervisor s.regs) r.code.toNat = true) :
    ∃ v u x devs, Assigned s v 0x0D a 3 ∧ Fetches pf u x devs ∧ next pf u = some s' ∧ u.regs.rr[0] = a ∧
      u.regs.avr = reg v.regs r.code.toNat ∧
      (∀ n, n < 32 → n ≠ 0x0D → n ≠ 0x15 → n ≠ 0x16 → n ≠ 0x17 → reg u.regs n = reg s.regs n) ∧
      ∀ devs', Stores pf u devs a (reg v.regs r.code.toNat) devs' → s'.regs = advance u.regs ∧ s'.devs = devs' := by
  have hc : CodeOf ws (setText .rr0 a ++ [.cpy .avr (.reg r), .wea (.reg .rr0) (.lit 0) (.lit 0)]) := text_words ht ha rfl
  obtain ⟨v, ws', h1, h2, h3⟩ := setText_runs hc h (mayWrite_rr0 _) (by simp) (by simp)
  obtain ⟨_, ws'', devs, u, rfl, hf, hn, he, h4, h5⟩ := through_cons h2 h3
  obtain ⟨x', ws3, devs2, u'', rfl, hf', hn', he', h6, h7⟩ := through_cons h4 h5
  cases h6
  cases h7
  obtain ⟨g1, _⟩ := text_cpy hn he (by rw [h1.supervisor (by decide)]; exact hr) (mayWrite_avr _) (by simp)
  have hr0 : u.regs.rr[0] = a := (g1.2.2 0x0D (by omega) (by simp [Reg.code]) (by omega) (by omega)).trans h1.1
  have hv : u.regs.avr = reg v.regs r.code.toNat := g1.1
  refine ⟨v, u, x', devs2, h1, hf', hn', hr0, hv, ?_, ?_⟩
  · intro n hn h1' h2 h3 h4
    rw [g1.2.2 n hn h2 h3 h4, h1.2.2 n hn h1' h3 h4]
  · intro devs' hs
    exact text_wea hn' he' (by rw [hr0, hv]; exact hs)

/-- **C132**, WriteAddr: with a register that the current mode may read, other than `rr0`, `pc` and `af`, its content is written at the address (if this
can be); the address ends in `rr0`, the content in `avr`, and no other register changes but `pc` and `af`. This is what fails
when the instruction is encoded directly (`C60_write_addr_refuted`). -/
theorem C132_write_addr_partial {s s' : Machine D} {r : Reg} {a : Word} {t : List Char} {ws : List Word}
    (ht : (ExtInstr.writeAddr a r).toLasm pf = some t) (ha : assembleWords t = some ws) (h : RunsThrough pf s ws s')
    (hr : mayRead (supervisor s.regs) r.code.toNat = true) (h1 : r ≠ .rr0) (h2 : r ≠ .pc) (h3 : r ≠ .af) :
    ∃ u x devs, Fetches pf u x devs ∧ next pf u = some s' ∧ u.regs.rr[0] = a ∧ u.regs.avr = reg s.regs r.code.toNat ∧
      (∀ n, n < 32 → n ≠ 0x0D → n ≠ 0x15 → n ≠ 0x16 → n ≠ 0x17 → reg u.regs n = reg s.regs n) ∧
      ∀ devs', Stores pf u devs a (reg s.regs r.code.toNat) devs' → s'.regs = advance u.regs ∧ s'.devs = devs' := by
  obtain ⟨v, u, x, devs, g1, g2, g3, g4, g5, g6, g7⟩ := write_addr_text ht ha h hr
  have hv : reg v.regs r.code.toNat = reg s.regs r.code.toNat :=
    g1.2.2 _ r.code_lt (by revert h1; cases r <;> simp [Reg.code]) (by revert h2; cases r <;> simp [Reg.code])
      (by revert h3; cases r <;> simp [Reg.code])
  rw [hv] at g5 g7
  exact ⟨u, x, devs, g2, g3, g4, g5, g6, g7⟩

/-- **C132** is false of WriteAddr with `rr0`, from every state: `rr0` is used for the address, and what is written at the address is the
address itself; and of WriteAddr with `pc`, which writes the address of its fourth word. -/
theorem C132_write_addr_refuted {s s' : Machine D} {r : Reg} {a : Word} {t : List Char} {ws : List Word}
    (ht : (ExtInstr.writeAddr a r).toLasm pf = some t) (ha : assembleWords t = some ws) (h : RunsThrough pf s ws s')
    (hr : r = .rr0 ∨ r = .pc) :
    ∃ u x devs w, w = (if r = .rr0 then a else s.regs.pc + 12) ∧ Fetches pf u x devs ∧ next pf u = some s' ∧
      u.regs.rr[0] = a ∧ u.regs.avr = w ∧ ∀ devs', Stores pf u devs a w devs' → s'.regs = advance u.regs ∧ s'.devs = devs' := by
  obtain ⟨v, u, x, devs, g1, g2, g3, g4, g5, g6, g7⟩ := write_addr_text ht ha h (by
    rcases hr with rfl | rfl <;> cases supervisor s.regs <;> rfl)
  have hv : reg v.regs r.code.toNat = if r = .rr0 then a else s.regs.pc + 12 := by
    rcases hr with rfl | rfl
    · exact g1.1
    · exact g1.2.1
  rw [hv] at g5 g7
  exact ⟨u, x, devs, _, rfl, g2, g3, g4, g5, g7⟩

/-- **C132**, WriteAddrLit: the constant is written at the address (if this can be); the address ends in `rr0`, the constant in `avr`, and no other
register changes but `pc` and `af`. -/
theorem C132_write_addr_lit {s s' : Machine D} {a v : Word} {t : List Char} {ws : List Word}
    (ht : (ExtInstr.writeAddrLit a v).toLasm pf = some t) (ha : assembleWords t = some ws) (h : RunsThrough pf s ws s') :
    ∃ u x devs, Fetches pf u x devs ∧ next pf u = some s' ∧ u.regs.rr[0] = a ∧ u.regs.avr = v ∧
      (∀ n, n < 32 → n ≠ 0x0D → n ≠ 0x15 → n ≠ 0x16 → n ≠ 0x17 → reg u.regs n = reg s.regs n) ∧
      ∀ devs', Stores pf u devs a v devs' → s'.regs = advance u.regs ∧ s'.devs = devs' := by
  have hc : CodeOf ws (setText .rr0 a ++ (setText .avr v ++ [.wea (.reg .rr0) (.lit 0) (.lit 0)])) := text_words ht ha rfl
  obtain ⟨u1, ws', h1, h2, h3⟩ := setText_runs hc h (mayWrite_rr0 _) (by simp) (by simp)
  obtain ⟨u, ws2, g1, g2, g3⟩ := setText_runs h2 h3 (mayWrite_avr _) (by simp) (by simp)
  obtain ⟨x', ws3, devs2, u'', rfl, hf', hn', he', h6, h7⟩ := through_cons g2 g3
  cases h6
  cases h7
  have hr0 : u.regs.rr[0] = a := (g1.2.2 0x0D (by omega) (by simp [Reg.code]) (by omega) (by omega)).trans h1.1
  have hv : u.regs.avr = v := g1.1
  refine ⟨u, x', devs2, hf', hn', hr0, hv, ?_, ?_⟩
  · intro n hn h1' h2 h3 h4
    rw [g1.2.2 n hn h2 h3 h4, h1.2.2 n hn h1' h3 h4]
  · intro devs' hs
    exact text_wea hn' he' (by rw [hr0, hv]; exact hs)

/-- What direct encoding gets wrong (`C60_read_addr_to_refuted`, `C60_write_addr_refuted`) and the text gets right: `WriteAddr(0x48, a2)` with 9
in `a2`, and `ReadAddrTo(a1, 0)`, which reads its own first word; the hypotheses are met. -/
example : ∃ t ws, (ExtInstr.writeAddr 0x48 .a2).toLasm .debug = some t ∧ assembleWords t = some ws ∧
    ∃ s', RunsThrough .debug (extMachine ws) ws s' ∧ Loads .debug s' s'.devs 0x48 9 s'.devs := by
  obtain ⟨t, ht⟩ : ∃ t, (ExtInstr.writeAddr 0x48 .a2).toLasm .debug = some t := ⟨_, rfl⟩
  refine ⟨t, [0x560D0D00, 0x5C0D1000, 0x1C0D0048, 0x0E150200, 0xBC0D0000], ht, ?_, ?_⟩
  · have : t = ((ExtInstr.writeAddr 0x48 .a2).toLasm .debug).getD [] := by rw [ht]; rfl
    rw [this]; decide +kernel
  · exact ⟨_, .step ⟨rfl, rfl⟩ rfl (.step ⟨rfl, rfl⟩ rfl (.step ⟨rfl, rfl⟩ rfl (.step ⟨rfl, rfl⟩ rfl (.step ⟨rfl, rfl⟩ rfl
      (.done _))))), rfl⟩

example : ∃ t ws, (ExtInstr.readAddrTo .a1 0).toLasm .debug = some t ∧ assembleWords t = some ws ∧
    ∃ s', RunsThrough .debug (extMachine ws) ws s' ∧ s'.regs.a[1] = 0x56151500 := by
  obtain ⟨t, ht⟩ : ∃ t, (ExtInstr.readAddrTo .a1 0).toLasm .debug = some t := ⟨_, rfl⟩
  refine ⟨t, [0x56151500, 0x5C151000, 0x1C150000, 0xAC150000, 0x0E011500], ht, ?_, ?_⟩
  · have : t = ((ExtInstr.readAddrTo .a1 0).toLasm .debug).getD [] := by rw [ht]; rfl
    rw [this]; decide +kernel
  · exact ⟨_, .step ⟨rfl, rfl⟩ rfl (.step ⟨rfl, rfl⟩ rfl (.step ⟨rfl, rfl⟩ rfl (.step ⟨rfl, rfl⟩ rfl (.step ⟨rfl, rfl⟩ rfl
      (.done _))))), by decide +kernel⟩

end Lrvm
