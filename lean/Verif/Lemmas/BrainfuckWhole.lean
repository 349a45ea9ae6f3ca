import Verif.Lemmas.BrainfuckStep
import Verif.Lemmas.ProgramLoops
import Verif.Props.Tools.Prepare
import Verif.Props.Tools.Run
import Verif.Props.Devices.Memories
import Verif.Props.Devices.Displays

/-!
# The whole run of the example `brainfuck`
-/

namespace Lrvm.Brainfuck

open Spec Lasm Lrvm Prog Lang

variable {pf : Profile} {fx : Fixed} {ids : Nat → U64} {lines : Nat → List Char} {keys : Nat → Char} {g : G}
  {s : Machine Dev} {P : Machine Dev → Word → Prop} {a : Word} {st : St}

/-- What the components contain at the beginning. -/
def G.start : G := ⟨List.replicate 4096 0, List.replicate 1023 0, 0, Char.ofNat 0, 0, List.replicate 1023 0, [], [], []⟩

/-- The buffer of the line keyboard once the line is typed. -/
theorem line_typed (line : List Char) {i : Nat} (hi : i < 1023) :
    (lineLoop 0 0 0 (List.replicate 1023 (0 : Word)) (utf8 line))[i]? = some (wordAt (utf8 line) i) := by
  rw [lineLoop_get, List.getElem?_replicate, if_pos hi]
  split
  · rfl
  · next h =>
    have hz : ∀ j, (utf8 line).length ≤ j → paddedByte (utf8 line) j = 0 := by
      intro j hj
      unfold paddedByte
      rw [List.getElem?_eq_none hj]; rfl
    have hl : (utf8 line).length ≤ 4 * i := by omega
    unfold wordAt
    rw [hz _ (by omega), hz _ (by omega), hz _ (by omega), hz _ (by omega)]
    rfl

/-- From the beginning to the first character. -/
theorem start (hb : Board pf fx) (hP : Closed pf P) {R : Nat → Word} (h : Shows fx s R (comps ids (List.replicate 4096 0) (G.start.m ids lines keys)) 0)
    (hp : Plain R) (h22 : R 22 = 0) (hk : ∀ s' a', At fx ids lines keys St.start s' → P s' a') : P s a := by
  refine Go.cpy hP h (r0 := true) (r1 := false) (r2 := false) (p0 := 24) (p1 := 0x20) (p2 := 0)
    ⟨hp, by rw [h22]; rfl, rom_reads hb (i := 0) (by rw [h22]; rfl) rfl⟩ (by decide) (by decide) (by decide) ?_
  intro s1 q1
  have h1 : On fx ids (G.start.m ids lines keys) ⟨R 0, R 13, R 14, R 15, R 16, R 18, R 19, R 20, R 21, 4, [], 1024⟩ s1 := by
    refine ⟨_, _, _, q1, hp.put (by decide), ?_, rfl, ?_, List.length_replicate, (fun i w e => by cases e), Nat.le_refl _⟩
    · show R 22 + 4 = _; rw [h22]; rfl
    · intro n hn
      unfold tr at hn
      simp only [Bool.or_eq_true, decide_eq_true_eq] at hn
      rcases hn with (((((((rfl | rfl) | rfl) | rfl) | rfl) | rfl) | rfl) | rfl) | rfl <;> rfl
  refine On.run hb hP h1 1 rfl fun s2 a2 h2 => ?_
  refine printMsg hb hP h2 rfl (Nat.succ_pos _) 768 "\n=== Welcome to the BrainFuck interpreter! ===\n\nPlease type your BrainFuck program here:\n\n" rfl (by decide) rfl fun s3 a3 x3 y3 z3 h3 => ?_
  refine readLine hb hP h3 rfl (Nat.succ_pos _) fun s4 a4 h4 => ?_
  refine On.run hb hP h4 1 rfl fun s5 a5 h5 => ?_
  refine printMsg hb hP h5 rfl (Nat.succ_pos _) 864 "\n=> Now running your program...\n\n" rfl (by decide) rfl fun s6 a6 x6 y6 z6 h6 => ?_
  refine On.run hb hP h6 6 rfl fun s7 a7 h7 => hk s7 a7 ?_
  refine ⟨⟨List.replicate 4096 0, lineLoop 0 0 0 (List.replicate 1023 0) (utf8 (lines 0)), 1, Char.ofNat 0, 0, List.replicate 1023 0, begun, [], []⟩,
    R 0, 0#32 - 1#32, R 18, x6, y6, z6, 1021,
    ⟨List.length_replicate, ?_, fun i hi => line_typed _ hi, rfl, rfl, rfl, rfl, rfl⟩, Nat.zero_le _, (fun _ h => by cases h), rfl, ?_, h7⟩
  · intro i hi
    show (List.replicate 4096 (0 : Word))[i]? = some 0
    rw [List.getElem?_replicate, if_pos (by omega)]
  · rfl

/-! ## Programs that end -/

/-- The machine at the end of an interpretation: the run ends with exception register `x` at address `p`. -/
def Ended (ids : Nat → U64) (lines : Nat → List Char) (keys : Nat → Char) (st : St) (e : End) (s : Machine Dev) (p x : Word) : Prop :=
  (∃ stk g, s.devs = comps ids stk (g.m ids lines keys) ∧ Final st e g) ∧
    (e ≠ .misaligned → s.halted = true ∧ x = 0) ∧
    (e = .misaligned → p = BitVec.ofNat 32 (usedAt (charAt (typed (lines 0)) st.pos)) ∧ st.ptr.toNat % 4 ≠ 0 ∧
      x = BitVec.ofNat 32 (0x01050000 + st.ptr.toNat % 4))

/-- A character changes the position or the number of open loops, and an end changes neither the position nor the pointer. -/
def Moves (st : St) : Next → Prop
  | .go st' => st'.pos ≠ st.pos ∨ st'.loops.length ≠ st.loops.length
  | .stop st' _ => st'.pos = st.pos ∧ st'.ptr = st.ptr

theorem Moves.ite {st : St} {c : Prop} [Decidable c] {x y : Next} (hx : Moves st x) (hy : Moves st y) : Moves st (if c then x else y) := by
  split
  · exact hx
  · exact hy

theorem Moves.onCell {st : St} {f : Nat → Next} (h : ∀ k, Moves st (f k)) (n : Nat) : Moves st (St.onCell { st with asked := n } f) :=
  .ite ⟨rfl, rfl⟩ (.ite (h _) ⟨rfl, rfl⟩)

theorem Moves.onCell' {st : St} {f : Nat → Next} (h : ∀ k, Moves st (f k)) : Moves st (St.onCell st f) :=
  .ite ⟨rfl, rfl⟩ (.ite (h _) ⟨rfl, rfl⟩)

theorem step_moves (prog : List U8) (keys : Nat → Char) (st : St) : Moves st (step prog keys st) := by
  have up : st.pos + 1 ≠ st.pos := Nat.succ_ne_self _
  unfold step
  refine Moves.ite ?_ (Moves.ite (Or.inl up) (Moves.ite (Or.inl up) (Moves.ite ?_ (Moves.ite ?_ (Moves.ite ?_ (Moves.ite ?_
    (Moves.ite ?_ (Moves.ite ?_ ⟨rfl, rfl⟩))))))))
  rotate_left
  · refine Moves.onCell' fun k => ?_; exact Or.inl up
  · refine Moves.onCell' fun k => ?_; exact Or.inl up
  · refine Moves.onCell' fun k => ?_; exact Or.inl up
  · refine Moves.onCell (fun k => ?_) _; exact Or.inl up
  · refine Moves.onCell' fun k => ?_
    exact Moves.ite (Moves.ite (Or.inl (by show st.pos + 2 ≠ st.pos; omega)) ⟨rfl, rfl⟩) (Moves.ite ⟨rfl, rfl⟩ (Or.inl up))
  · cases hl : st.loops with
    | nil => exact ⟨rfl, rfl⟩
    | cons l ls =>
      refine Moves.onCell' fun k => ?_
      refine Moves.ite (Or.inl up) (Or.inr ?_)
      rw [hl]
      exact Nat.ne_of_lt (Nat.lt_succ_self _)
  · cases st.loops with
    | nil => exact ⟨rfl, rfl⟩
    | cons l ls => exact ⟨rfl, rfl⟩

theorem step_misaligned {prog : List U8} {st st' : St} {e : End} (h : step prog keys st = .stop st' e) : st'.pos = st.pos ∧ st'.ptr = st.ptr := by
  have := step_moves prog keys st
  rw [h] at this
  exact this

theorem finishes (hb : Board pf fx) {st' : St} {e : End} (hr : Runs (typed (lines 0)) keys st st' e) (h : At fx ids lines keys st s)
    (ho : e ≠ .outside) (hd : e ≠ .tooDeep) : Finishes pf (Ended ids lines keys st' e) s a := by
  induction hr generalizing s a with
  | @go s1 s2 s3 e h1 h2 ih =>
    refine advance hb Finishes.closed h (fun t ht s' a' h' => ?_) (fun t e hne ht => ?_) (fun t ht => ?_) (fun t e ht => ?_)
    · rw [h1] at ht; cases ht; exact ih h' ho hd
    · rw [h1] at ht; cases ht
    · rw [h1] at ht; cases ht
    · rw [h1] at ht; cases ht
  | @stop s1 s2 e h1 =>
    by_cases hm : e = .misaligned
    · subst hm
      refine advance hb Finishes.closed h (fun t ht s' a' h' => ?_) (fun t e hne ht => ?_) (fun t ht => ?_) (fun t e ht => ?_)
      · rw [h1] at ht; cases ht
      · rw [h1] at ht; cases ht
        exact absurd rfl hne
      · rw [h1] at ht; cases ht
        intro s' a' ht
        obtain ⟨g, v, hr, hon, hpc, hf, hrr, hal⟩ := ht
        obtain ⟨hp1, hp2⟩ := step_misaligned h1
        have hv : v.get 14 = 0x2000 + s2.ptr := hrr
        have fin : Final s2 .misaligned g := ⟨hr.cells, hr.asked, by rw [hr.texts]; exact (List.append_nil _).symm, by rw [hr.chars]; exact (List.append_nil _).symm, hr.nums⟩
        have q : ∀ (s'' : Machine Dev) (stk : List Word), s''.devs = comps ids stk (g.m ids lines keys) →
            Ended ids lines keys s2 .misaligned s'' (BitVec.ofNat 32 v.pc) (BitVec.ofNat 32 (0x01050000 + (v.get 14).toNat % 4)) := by
          intro s'' stk hd
          refine ⟨⟨stk, g, hd, fin⟩, fun h => absurd rfl h, fun _ => ⟨by rw [hpc, hp1], hal, ?_⟩⟩
          rw [hv, addr_aligned]
        rcases hf with hf | hf
        · exact On.leaTrap hb hon hf rfl (by rw [hv, addr_aligned]; exact hal) q
        · exact On.weaTrap hb hon hf rfl (by rw [hv, addr_aligned]; exact hal) q
      · rw [h1] at ht; cases ht; exact ⟨ho, hd⟩
    · refine advance hb Finishes.closed h (fun t ht s' a' h' => ?_) (fun t e hne ht => ?_) (fun t ht => ?_) (fun t e ht => ?_)
      · rw [h1] at ht; cases ht
      · rw [h1] at ht; cases ht
        intro s' stk g a' c1 c2 c3
        exact .halted c1 ⟨⟨stk, g, c2, c3⟩, fun _ => ⟨c1, rfl⟩, fun h => absurd h hm⟩
      · rw [h1] at ht; cases ht; exact absurd rfl hm
      · rw [h1] at ht; cases ht; exact ⟨ho, hd⟩

/-! ## Programs that do not end -/

theorem At.fixed {st st' : St} (h : At fx ids lines keys st s) (h' : At fx ids lines keys st' s) :
    st'.pos = st.pos ∧ st'.loops.length = st.loops.length := by
  obtain ⟨g, a0, r2, r5, r6, r7, av, room, hr, hpos, hloops, hroom, h2, R, sk, cyc, h, hh⟩ := h
  obtain ⟨g', a0', r2', r5', r6', r7', av', room', hr', hpos', hloops', hroom', h2', R', sk', cyc', h', hh'⟩ := h'
  have hR : ∀ n, n < 32 → R n = R' n := fun n hn => (h.regs n hn).symm.trans (h'.regs n hn)
  have e2 : r2 = r2' := ((hh.regs 15 rfl).symm.trans (hR 15 (by decide))).trans (hh'.regs 15 rfl)
  have e3 : BitVec.ofNat 32 st.loops.length = BitVec.ofNat 32 st'.loops.length :=
    ((hh.regs 16 rfl).symm.trans (hR 16 (by decide))).trans (hh'.regs 16 rfl)
  rw [← e2] at h2'
  exact ⟨(ofNat_inj (by omega) (by omega)).1 (h2'.symm.trans h2), ((ofNat_inj (by omega) (by omega)).1 e3).symm⟩

theorem after_succ {prog : List U8} {n : Nat} {st : St} : after prog keys (n + 1) st = (after prog keys n st).bind fun t =>
    match step prog keys t with
    | .go s' => some s'
    | .stop _ _ => none := by
  induction n generalizing st with
  | zero =>
    show (match step prog keys st with | .go s' => some s' | .stop _ _ => none) = _
    rfl
  | succ n ih =>
    rw [after]
    show _ = (after prog keys (n + 1) st).bind _
    rw [after]
    cases step prog keys st with
    | go s' => exact ih
    | stop _ _ => rfl

theorem goes (hb : Board pf fx) (h : At fx ids lines keys st s) {n : Nat} {st' : St} (ha : after (typed (lines 0)) keys n st = some st') :
    ∃ m t, n ≤ m ∧ Goes pf m s t ∧ At fx ids lines keys st' t := by
  induction n generalizing st' with
  | zero => cases ha; exact ⟨0, s, Nat.le_refl _, .stay, h⟩
  | succ n ih =>
    rw [after_succ] at ha
    cases hn : after (typed (lines 0)) keys n st with
    | none => rw [hn] at ha; cases ha
    | some t =>
      rw [hn] at ha
      obtain ⟨m, u, h1, h2, h3⟩ := ih hn
      cases hs : step (typed (lines 0)) keys t with
      | stop _ _ => rw [Option.bind, hs] at ha; cases ha
      | go t' =>
        rw [Option.bind, hs] at ha
        cases ha
        obtain ⟨k, w, h4, h5⟩ : Leads pf (At fx ids lines keys st') u 0 := by
          refine advance hb Leads.closed h3 (fun t ht s' a' h' => ?_) (fun t e hne ht => ?_) (fun t ht => ?_) (fun t e ht => ?_)
          · rw [hs] at ht; cases ht; exact ⟨0, s', .stay, h'⟩
          · rw [hs] at ht; cases ht
          · rw [hs] at ht; cases ht
          · rw [hs] at ht; cases ht
        refine ⟨m + k, w, ?_, h2.trans h4, h5⟩
        cases k with
        | succ k => omega
        | zero =>
          cases h4
          obtain ⟨e1, e2⟩ := h3.fixed h5
          have := step_moves (typed (lines 0)) keys t
          rw [hs] at this
          rcases this with c | c
          · exact absurd e1 c
          · exact absurd e2 c

end Lrvm.Brainfuck
