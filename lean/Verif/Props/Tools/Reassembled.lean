import Verif.Props.Tools.Lasm
import Verif.Props.Tools.Extended

/-!
# What a disassembled and re-assembled program does: C103
-/

namespace Lrvm

open Spec

variable {D : Type} [Bus D] {pf : Profile}

namespace Spec

/-- The instructions whose text says something else than what they do: setting a register other than `pc` to 0 with CPY
(the text also changes the flags), XOR between two registers (the text sets the second one to 0), SRM (assembled as WEA),
and a division whose mode says that dividing by zero gives the maximum (the text says: the minimum). -/
def Altered : Instr → Prop
  | .cpy a (.lit n) => a ≠ .pc ∧ n = 0
  | .xor a (.reg b) => a ≠ b
  | .div _ _ (.lit m) | .mod _ _ (.lit m) => m.toNat % 32 = 0x0C
  | .srm _ _ _ => True
  | _ => False

end Spec

theorem update_zero (a : Reg) (f : Word → Word → Calc) (v : Act D Word) (y : Word)
    (hv : ∀ s, v s = .ok y s) (hf : ∀ x, f x y = .ok (0, false, false)) (s : Machine D) :
    (Spec.update a v f : Act D Unit) s = (Spec.update a (Spec.getReg a) (calcBits xor) : Act D Unit) s := by
  have hx : ∀ x : Word, calcBits xor x x = .ok (0, false, false) := by
    intro x
    unfold calcBits
    congr 2
    have : Nat.bitwise xor x.toNat x.toNat = 0 := Nat.xor_self _
    rw [this]
    rfl
  unfold Spec.update
  refine (act_bind_ok (hv s)).trans ?_
  have hg := getReg_eval a s
  by_cases hr : mayRead (supervisor s.regs) a.code.toNat = true
  · rw [if_pos hr] at hg
    refine (act_bind_ok hg).trans ?_
    refine Eq.trans ?_ ((act_bind_ok hg).trans (act_bind_ok hg)).symm
    rw [hf, hx]
  · rw [if_neg hr] at hg
    show EStateM.bind _ _ s = EStateM.bind _ _ s
    unfold EStateM.bind
    rw [hg]

theorem calcMul_zero (x : Word) : calcMul x (BitVec.ofNat 32 (0 : U16).toNat) = .ok (0, false, false) := by
  unfold calcMul
  have h0 : (BitVec.ofNat 32 (0 : U16).toNat).toNat = 0 := rfl
  have h1 : (BitVec.ofNat 32 (0 : U16).toNat).toInt = 0 := rfl
  rw [h0, h1, Nat.mul_zero, Int.mul_zero]
  rfl

theorem calcAnd_zero (x : Word) : calcBits and x (BitVec.ofNat 32 (0 : U16).toNat) = .ok (0, false, false) := by
  unfold calcBits
  congr 2
  have : Nat.bitwise and x.toNat (BitVec.ofNat 32 (0 : U16).toNat).toNat = 0 := Nat.and_zero _
  rw [this]
  rfl

theorem calcDiv_mode (rest : Bool) {m m' : U8} (h : divModeBack m = some m') (hm : m.toNat % 32 ≠ 0x0C) :
    calcDiv rest (BitVec.ofNat 32 m'.toNat) = calcDiv rest (BitVec.ofNat 32 m.toNat) := by
  have key : m'.toNat / 4 % 4 = m.toNat / 4 % 4 ∧ m'.toNat / 16 % 2 = m.toNat / 16 % 2 := by
    revert h hm
    have : ∀ k : Fin 256, divModeBack (BitVec.ofFin k : U8) = some m' → (BitVec.ofFin k : U8).toNat % 32 ≠ 0x0C →
        m'.toNat / 4 % 4 = (BitVec.ofFin k : U8).toNat / 4 % 4 ∧
          m'.toNat / 16 % 2 = (BitVec.ofFin k : U8).toNat / 16 % 2 := by
      intro k h hm
      have h' : ∀ k : Fin 256, (BitVec.ofFin k : U8).toNat % 32 ≠ 0x0C → (divModeBack (BitVec.ofFin k)).all
        (fun m' => m'.toNat / 4 % 4 == (BitVec.ofFin k : U8).toNat / 4 % 4 &&
          m'.toNat / 16 % 2 == (BitVec.ofFin k : U8).toNat / 16 % 2) = true := by decide +kernel
      have := h' k hm
      rw [h] at this
      simpa using this
    exact this m.toFin
  have hl : ∀ n : U8, (BitVec.ofNat 32 n.toNat).toNat = n.toNat := by
    intro n
    rw [BitVec.toNat_ofNat]
    have := n.isLt
    omega
  funext x y
  unfold calcDiv
  rw [hl, hl, key.1, key.2]

/-- What comes back does the same thing, unless the text is misleading. -/
theorem reassembled_effect {i j : Instr} (h : reassembled pf i = some j) (ha : ¬ Altered i) (s : Machine D) :
    perform pf j s = perform pf i s := by
  cases i with
  | cpy a b =>
    cases b with
    | reg b => cases h; rfl
    | lit n =>
      have hn : ¬ (a ≠ .pc ∧ n = 0) := ha
      simp only [reassembled, if_neg hn] at h
      cases h; rfl
  | mul a b =>
    cases b with
    | reg b => cases h; rfl
    | lit n =>
      by_cases hn : n = 0
      · subst hn
        cases h
        exact (update_zero a calcMul _ _ (fun _ => rfl) calcMul_zero s).symm
      · simp only [reassembled, if_neg hn] at h
        cases h; rfl
  | and a b =>
    cases b with
    | reg b => cases h; rfl
    | lit n =>
      by_cases hn : n = 0
      · subst hn
        cases h
        exact (update_zero a (calcBits and) _ _ (fun _ => rfl) calcAnd_zero s).symm
      · simp only [reassembled, if_neg hn] at h
        cases h; rfl
  | xor a b =>
    cases b with
    | reg b =>
      have : a = b := Classical.byContradiction ha
      subst this
      cases h; rfl
    | lit n => cases h; rfl
  | div a b m =>
    cases m with
    | reg c => cases h; rfl
    | lit m =>
      obtain ⟨m', hm, rfl⟩ := Option.map_eq_some_iff.1 h
      have := calcDiv_mode false hm ha
      show (do let y ← value1 b; let mode ← (pure (BitVec.ofNat 32 m'.toNat) : Act D Word)
               Spec.update a (pure y) (calcDiv false mode) : Act D Unit) s =
        (do let y ← value1 b; let mode ← (pure (BitVec.ofNat 32 m.toNat) : Act D Word)
            Spec.update a (pure y) (calcDiv false mode) : Act D Unit) s
      simp only [pure_bind, this]
  | mod a b m =>
    cases m with
    | reg c => cases h; rfl
    | lit m =>
      obtain ⟨m', hm, rfl⟩ := Option.map_eq_some_iff.1 h
      have := calcDiv_mode true hm ha
      show (do let y ← value1 b; let mode ← (pure (BitVec.ofNat 32 m'.toNat) : Act D Word)
               Spec.update a (pure y) (calcDiv true mode) : Act D Unit) s =
        (do let y ← value1 b; let mode ← (pure (BitVec.ofNat 32 m.toNat) : Act D Word)
            Spec.update a (pure y) (calcDiv true mode) : Act D Unit) s
      simp only [pure_bind, this]
  | jpr a =>
    cases a with
    | reg b => cases h; rfl
    | lit n =>
      simp only [reassembled] at h
      split at h
      · cases h
      · cases h; rfl
  | itr a => cases h
  | «if» a =>
    simp only [reassembled] at h
    split at h
    · cases h; rfl
    · cases h
  | ifN a =>
    simp only [reassembled] at h
    split at h
    · cases h; rfl
    · cases h
  | if2 a b c =>
    simp only [reassembled] at h
    split at h
    · cases h; rfl
    · cases h
  | srm a b c => exact absurd trivial ha
  | hwd a b c =>
    cases c with
    | reg c => cases h; rfl
    | lit n =>
      simp only [reassembled] at h
      split at h
      · cases h; rfl
      · cases h
  | _ => cases h; rfl

/-- **C103**, partial: when the disassembly of some code assembles, the result has the same length, its data that encode no
instruction are the same, and each of its instructions, in any machine that fetches it, does what the original one does,
unless that one is `Altered`. Missing: code whose disassembly does not assemble (C81), and the `Altered` instructions, of
which the claim is false (`C103_refuted`). -/
theorem C103_partial {code code' : List U8} {t : List Char} (h : disassemble pf code false = some (.ok t))
    (ha : assemble t = some code') :
    code'.length = code.length ∧
    ∀ (k : Nat) (b : Bytes4), (groups4 code)[k]? = some b → ∃ b', (groups4 code')[k]? = some b' ∧
      (∀ e, Instr.decode b = .error e → b' = b) ∧
      ∀ i, Instr.decode b = .ok i → ¬ Altered i →
        ∀ (w : Word) (s : Machine D) (devs : List D), IsBytesOf b' w → Fetches pf s w devs →
          next pf s = runInstruction pf s devs i := by
  have len : ∀ l : List U8, l.length % 4 = 0 → 4 * (groups4 l).length = l.length := by
    intro l
    induction l using groups4.induct with
    | case1 a b c d rest ih =>
      intro hl
      simp only [List.length_cons] at hl
      have := ih (by omega)
      simp only [groups4, List.length_cons]
      omega
    | case2 l hn =>
      intro hl
      match l, hn with
      | [], _ => rfl
      | [_], _ => simp at hl
      | [_, _], _ => simp at hl
      | [_, _, _], _ => simp at hl
      | _ :: _ :: _ :: _ :: _, hn => exact absurd rfl (hn _ _ _ _ _)
  have h4 : code.length % 4 = 0 := by
    refine Classical.byContradiction fun hn => ?_
    rw [(C80_lines_partial pf code).1 hn] at h
    cases h
  unfold disassemble at h
  rw [decode_program h4] at h
  obtain ⟨t', ht, hte⟩ := Option.bind_eq_some_iff.1 h
  cases hte
  have hp := C81_table_partial pf _ t ht
  have hq : assembleProg t = some (Program.decode code' false) := by
    unfold assembleProg
    rw [ha]
    rfl
  rw [hq] at hp
  obtain ⟨q, hq, hqe⟩ := Option.map_eq_some_iff.1 hp.symm
  have h4' : code'.length % 4 = 0 := by
    refine Classical.byContradiction fun hn => ?_
    unfold Program.decode at hqe
    rw [if_pos (by omega)] at hqe
    cases hqe
  rw [decode_program h4'] at hqe
  cases hqe
  obtain ⟨m1, m2⟩ := mapM_some_iff.1 hq
  simp only [List.length_map] at m1
  refine ⟨by have := len _ h4; have := len _ h4'; omega, fun k b hb => ?_⟩
  obtain ⟨w', hw', hr⟩ := m2 k (ProgramWord.decode b) (by rw [List.getElem?_map, hb]; rfl)
  rw [List.getElem?_map] at hw'
  obtain ⟨b', hb', rfl⟩ := Option.map_eq_some_iff.1 hw'
  refine ⟨b', hb', fun e he => ?_, fun i hi hal w s devs hbw hf => ?_⟩
  · have hd : ProgramWord.decode b = .raw b := by unfold ProgramWord.decode; rw [he]
    rw [hd] at hr
    simp only [reassembledWord, he] at hr
    injection hr with hr
    unfold ProgramWord.decode at hr
    split at hr
    · cases hr
    · injection hr with hr; exact hr.symm
  · have hd : ProgramWord.decode b = .instr i := by unfold ProgramWord.decode; rw [hi]
    rw [hd] at hr
    obtain ⟨j, hj, hr⟩ := Option.map_eq_some_iff.1 hr
    have hd' : Instr.decode b' = .ok j := by
      unfold ProgramWord.decode at hr
      split at hr
      · injection hr with hr; subst hr; assumption
      · cases hr
    rw [C51_step_is_decoded_instruction hf hbw hd']
    unfold runInstruction
    rw [reassembled_effect hj hal]

/-- **C103**, what the text of `cpy r, 0` does instead: the same, except for the flags (in a mode that may write `r`). -/
theorem C103_zero_partial (a : Reg) (hpc : a ≠ .pc) (s : Machine D) (devs : List D)
    (hw : mayWrite (supervisor s.regs) a.code.toNat = true) :
    (∃ t, Program.toLasm pf [.instr (.cpy a (.lit 0))] false = some t ∧
      assembleProg t = some (.ok [.instr (.xor a (.reg a))])) ∧
    ∃ t t', runInstruction pf s devs (.cpy a (.lit 0)) = some t ∧
      runInstruction pf s devs (.xor a (.reg a)) = some t' ∧
      t = { t' with regs := { t'.regs with af := t.regs.af } } := by
  refine ⟨comes_back (by simp [Program.toLasm, Program.toLasmLines, ProgramWord.toLasm, Instr.toLasm, hpc]) (by
    simp [reassembledWord, reassembled, hpc]), ?_⟩
  have hc : perform pf (.cpy a (.lit 0)) (fetched s devs) =
      .ok () { fetched s devs with regs := setReg s.regs a.code.toNat 0 } := putReg_ok (s := fetched s devs) hw hpc
  have hg : (Spec.getReg a : Act D Word) (fetched s devs) = .ok (reg s.regs a.code.toNat) (fetched s devs) :=
    getReg_ok (s := fetched s devs) (mayRead_of_mayWrite hw)
  have hx0 : calcBits xor (reg s.regs a.code.toNat) (reg s.regs a.code.toNat) = .ok (0, false, false) := by
    unfold calcBits
    congr 2
    have : Nat.bitwise xor (reg s.regs a.code.toNat).toNat (reg s.regs a.code.toNat).toNat = 0 := Nat.xor_self _
    rw [this]
    rfl
  let f := flagsFor 0 false false (zlfCode 0)
  have hx : perform pf (.xor a (.reg a)) (fetched s devs) =
      .ok () { fetched s devs with regs := setReg { s.regs with af := f } a.code.toNat 0 } := by
    refine (act_bind_ok hg).trans ((act_bind_ok hg).trans ?_)
    refine (act_bind_ok (a := 0) (s' := { fetched s devs with regs := { s.regs with af := f } }) (by
      rw [hx0]; rfl)).trans ?_
    exact putReg_ok (s := { fetched s devs with regs := { s.regs with af := f } }) hw hpc
  have hr : setReg s.regs a.code.toNat 0 =
      { setReg { s.regs with af := f } a.code.toNat 0 with af := (setReg s.regs a.code.toNat 0).af } := by
    cases a <;> rfl
  refine ⟨{ fetched s devs with regs := advance (setReg s.regs a.code.toNat 0) },
    { fetched s devs with regs := advance (setReg { s.regs with af := f } a.code.toNat 0) }, ?_, ?_, ?_⟩
  · unfold runInstruction
    show (match perform pf (.cpy a (.lit 0)) (fetched s devs) with | .ok _ t => _ | .error (.exception _ _) t => _ | .error .crash _ => _) = _
    rw [hc]; rfl
  · unfold runInstruction
    show (match perform pf (.xor a (.reg a)) (fetched s devs) with | .ok _ t => _ | .error (.exception _ _) t => _ | .error .crash _ => _) = _
    rw [hx]; rfl
  · show ({ fetched s devs with regs := advance (setReg s.regs a.code.toNat 0) } : Machine D) =
      { fetched s devs with regs := { advance (setReg { s.regs with af := f } a.code.toNat 0) with
          af := (setReg s.regs a.code.toNat 0).af } }
    exact congrArg (fun r : Regs => ({ fetched s devs with regs := advance r } : Machine D)) hr

/-- A machine in supervisor mode where `a0` contains 5, `a1` contains 3, and the flags are clear. -/
def alteredMachine : Machine Demo.Dev :=
  { Demo.start [] with regs := { setReg (setReg startup 0 5) 1 3 with af := 0 } }

/-- **C103** is false: the text of `cpy a0, 0` sets flags; the text of `xor a0, a1` leaves `a0` alone and sets `a1` to 0;
the text of a division by zero that should give the maximum gives the minimum; the text of `srm 0x40, 0, a0` does not load
anything. -/
theorem C103_refuted (pf : Profile) : ∀ e ∈ [((.cpy .a0 (.lit 0), .xor .a0 (.reg .a0)) : Instr × Instr),
      (.xor .a0 (.reg .a1), .xor .a1 (.reg .a1)), (.div .a0 (.lit 0) (.lit 0x0C), .div .a0 (.lit 0) (.lit 0x04)),
      (.srm (.lit 0x40) (.lit 0) .a0, .wea (.lit 0x40) (.lit 0) (.reg .a0))],
    (∃ t, Program.toLasm pf [.instr e.1] false = some t ∧ assembleProg t = some (.ok [.instr e.2])) ∧
    ∃ t t', runInstruction pf alteredMachine (Demo.devices []) e.1 = some t ∧
      runInstruction pf alteredMachine (Demo.devices []) e.2 = some t' ∧ t.regs ≠ t'.regs := by
  intro e he
  simp only [List.mem_cons, List.not_mem_nil, or_false] at he
  cases pf <;> rcases he with rfl | rfl | rfl | rfl <;> refine ⟨comes_back rfl rfl, _, _, rfl, rfl, ?_⟩
  all_goals
    intro h
    first
    | exact absurd (congrArg Regs.af h) (by decide +kernel)
    | exact absurd (congrArg (fun r => reg r 0) h) (by decide +kernel)

/-- Some code that disassembles to a text that assembles, with an instruction that is written differently (`mul a0, 0`) but
does the same. -/
example : ∃ t code', disassemble .debug [0x2C, 0, 0, 0, 0x0C, 0, 0, 7, 0x00, 0, 0, 9] false = some (.ok t) ∧
    String.ofList t = "zro a0\ncpy a0, 0x7\n#d32 0x00_00_00_09" ∧ assemble t = some code' ∧
    code' = [0x56, 0, 0, 0, 0x0C, 0, 0, 7, 0x00, 0, 0, 9] :=
  ⟨_, _, rfl, by decide +kernel, by decide +kernel, rfl⟩

end Lrvm
