import Verif.Lemmas.BrainfuckSim

/-!
# One character of a program interpreted by the example `brainfuck`
-/

namespace Lrvm.Brainfuck

open Spec Lasm Lrvm Prog Lang

variable {pf : Profile} {fx : Fixed} {ids : Nat → U64} {lines : Nat → List Char} {keys : Nat → Char} {g : G}
  {s : Machine Dev} {P : Machine Dev → Word → Prop} {a : Word} {st : St}

/-! ## The ends -/

/-- What is wanted of a machine that has halted. -/
def Halts (P : Machine Dev → Word → Prop) (ids : Nat → U64) (lines : Nat → List Char) (keys : Nat → Char) (st : St) (e : End) : Prop :=
  ∀ s' stk g a', s'.halted = true → s'.devs = comps ids stk (g.m ids lines keys) → Final st e g → P s' a'

theorem doneEnd (hb : Board pf fx) (hP : Closed pf P) (hr : Rel lines st g) {a0 r0 r1 r2 r3 r5 r6 r7 av : Word} {room : Nat}
    (h : On fx ids (g.m ids lines keys) ⟨a0, r0, r1, r2, r3, r5, r6, r7, av, 232, [36#32], room + 2⟩ s)
    (hk : Halts P ids lines keys st .done) : P s a := by
  refine On.run hb hP h 2 rfl fun s1 a1 h1 => ?_
  refine printMsg hb hP h1 rfl (Nat.succ_pos _) 1132 "\n\n=== Goodbye! ===\n" rfl (by decide) hr.buf fun s2 a2 x y z h2 => ?_
  refine On.halt hb hP h2 rfl fun s3 stk h3 h4 => hk s3 stk _ _ h3 h4 ⟨hr.cells, hr.asked, ?_, ?_, hr.nums⟩
  · show g.texts ++ _ = _
    rw [hr.texts]; rfl
  · show g.chars = st.out ++ []
    rw [List.append_nil]; exact hr.chars

theorem unclosedEnd (hb : Board pf fx) (hP : Closed pf P) (hr : Rel lines st g) {a0 r0 r1 r5 r6 r7 av : Word} {room count pos last : Nat}
    {stk : List Word}
    (h : On fx ids (g.m ids lines keys) ⟨a0, r0, r1, BitVec.ofNat 32 pos, BitVec.ofNat 32 count, r5, r6, r7, av, 236,
      BitVec.ofNat 32 last :: stk, room + 2⟩ s)
    (hk : Halts P ids lines keys st (.unclosed count pos last)) : P s a := by
  refine On.run hb hP h 1 rfl fun s1 a1 h1 => ?_
  refine preError hb hP h1 rfl (Nat.le_add_left 2 room) 1040 "Program exited before closing all loops: " rfl (by decide) hr.buf fun s2 a2 x2 y2 z2 h2 => ?_
  refine On.run hb hP h2 1 rfl fun s3 a3 h3 => ?_
  refine printDec hb hP h3 rfl (Nat.succ_pos _) fun s4 a4 h4 => ?_
  refine On.run hb hP h4 1 rfl fun s5 a5 h5 => ?_
  refine printMsg hb hP h5 rfl (Nat.succ_pos _) 1088 " were not closed, last one at character " rfl (by decide) hr.buf fun s6 a6 x6 y6 z6 h6 => ?_
  refine On.run hb hP h6 2 rfl fun s7 a7 h7 => ?_
  refine printDec hb hP h7 rfl (Nat.succ_pos _) fun s8 a8 h8 => ?_
  refine postError hb hP h8 rfl (Nat.le_add_left 2 (room + 1)) hr.buf fun s9 a9 x9 y9 z9 h9 => ?_
  refine On.halt hb hP h9 rfl fun s10 stk' h10 h11 => hk s10 stk' _ _ h10 h11 ⟨hr.cells, hr.asked, ?_, ?_, ?_⟩
  · show ((g.texts ++ _) ++ _) ++ _ = _
    rw [hr.texts, List.append_assoc, List.append_assoc]; rfl
  · show g.chars = st.out ++ []
    rw [List.append_nil]; exact hr.chars
  · show ((g.nums ++ [(BitVec.ofNat 32 pos + 1#32, _)]) ++ _) ++ [(BitVec.ofNat 32 last + 1#32, _)] = _
    rw [hr.nums, ← BitVec.ofNat_add, ← BitVec.ofNat_add]; rfl

theorem noLoopEnd (hb : Board pf fx) (hP : Closed pf P) (hr : Rel lines st g) {a0 r0 r1 r3 r5 r6 r7 av : Word} {room : Nat}
    {stk : List Word}
    (h : On fx ids (g.m ids lines keys) ⟨a0, r0, r1, BitVec.ofNat 32 st.pos, r3, r5, r6, r7, av, 700, stk, room + 2⟩ s)
    (hk : Halts P ids lines keys st .noLoop) : P s a := by
  refine On.run hb hP h 1 rfl fun s1 a1 h1 => ?_
  refine preError hb hP h1 rfl (Nat.le_add_left 2 room) 1000 "No loop opened, cannot close one." rfl (by decide) hr.buf fun s2 a2 x2 y2 z2 h2 => ?_
  refine postError hb hP h2 rfl (Nat.le_add_left 2 room) hr.buf fun s9 a9 x9 y9 z9 h9 => ?_
  refine On.halt hb hP h9 rfl fun s10 stk' h10 h11 => hk s10 stk' _ _ h10 h11 ⟨hr.cells, hr.asked, ?_, ?_, ?_⟩
  · show (g.texts ++ _) ++ _ = _
    rw [hr.texts, List.append_assoc]; rfl
  · show g.chars = st.out ++ []
    rw [List.append_nil]; exact hr.chars
  · show (g.nums ++ [(BitVec.ofNat 32 st.pos + 1#32, _)]) = _
    rw [hr.nums, ← BitVec.ofNat_add]; rfl

theorem charOrWord_byte (c : Fin 256) : charOrWord (BitVec.ofNat 32 c.val) = .ok (Char.ofNat c.val) := by
  have : ∀ c : Fin 256, charFromU32 (BitVec.ofNat 32 c.val) = some (Char.ofNat c.val) := by decide +kernel
  unfold charOrWord
  rw [this c]

theorem unknownEnd (hb : Board pf fx) (hP : Closed pf P) (hr : Rel lines st g) {r0 r1 r3 r5 r6 r7 av : Word} {room c : Nat}
    {stk : List Word} (hc : c < 256)
    (h : On fx ids (g.m ids lines keys) ⟨BitVec.ofNat 32 c, r0, r1, BitVec.ofNat 32 st.pos, r3, r5, r6, r7, av, 428, stk, room + 2⟩ s)
    (hk : Halts P ids lines keys st (.unknown c)) : P s a := by
  refine On.run hb hP h 1 rfl fun s1 a1 h1 => ?_
  refine preError hb hP h1 rfl (Nat.le_add_left 2 room) 980 "Unknown symbol " rfl (by decide) hr.buf fun s2 a2 x2 y2 z2 h2 => ?_
  refine On.run hb hP h2 1 rfl fun s3 a3 h3 => ?_
  refine printChar hb hP h3 rfl (Nat.succ_pos _) fun s4 a4 h4 => ?_
  refine On.run hb hP h4 1 rfl fun s3 a3 h3 => ?_
  refine printChar hb hP h3 rfl (Nat.succ_pos _) fun s4 a4 h4 => ?_
  refine On.run hb hP h4 1 rfl fun s3 a3 h3 => ?_
  refine printChar hb hP h3 rfl (Nat.succ_pos _) fun s4 a4 h4 => ?_
  refine On.run hb hP h4 1 rfl fun s3 a3 h3 => ?_
  refine printChar hb hP h3 rfl (Nat.succ_pos _) fun s4 a4 h4 => ?_
  refine On.run hb hP h4 1 rfl fun s3 a3 h3 => ?_
  refine printChar hb hP h3 rfl (Nat.succ_pos _) fun s4 a4 h4 => ?_
  refine On.run hb hP h4 1 rfl fun s3 a3 h3 => ?_
  refine printHex hb hP h3 rfl (Nat.succ_pos _) fun s4 a4 h4 => ?_
  refine On.run hb hP h4 1 rfl fun s3 a3 h3 => ?_
  refine printChar hb hP h3 rfl (Nat.succ_pos _) fun s4 a4 h4 => ?_
  refine postError hb hP h4 rfl (Nat.le_add_left 2 room) hr.buf fun s9 a9 x9 y9 z9 h9 => ?_
  refine On.halt hb hP h9 rfl fun s10 stk' h10 h11 => hk s10 stk' _ _ h10 h11 ⟨hr.cells, hr.asked, ?_, ?_, ?_⟩
  · show (g.texts ++ _) ++ _ = _
    rw [hr.texts, List.append_assoc]; rfl
  · show (((((g.chars ++ [charOrWord 39#32]) ++ [charOrWord (BitVec.ofNat 32 c)]) ++ [charOrWord 39#32]) ++ [charOrWord 32#32]) ++
      [charOrWord 40#32]) ++ [charOrWord 41#32] = _
    have hx (n : Nat) (hn : n < 256) : charOrWord (BitVec.ofNat 32 n) = .ok (Char.ofNat n) := charOrWord_byte ⟨n, hn⟩
    rw [hr.chars, hx 39 (by decide), hx c hc, hx 32 (by decide), hx 40 (by decide), hx 41 (by decide)]
    simp only [List.append_assoc]; rfl
  · show (g.nums ++ [(BitVec.ofNat 32 st.pos + 1#32, _)]) ++ _ = _
    rw [hr.nums, ← BitVec.ofNat_add]; rfl

/-! ## One character -/

/-- LEA of the pointer. -/
theorem leaCell (hb : Board pf fx) (hP : Closed pf P) (hr : Rel lines st g) {a0 r0 r2 r3 r5 r6 r7 av : Word} {pc room : Nat} {stk : List Word}
    (h : On fx ids (g.m ids lines keys) ⟨a0, r0, 0x2000 + st.ptr, r2, r3, r5, r6, r7, av, pc, stk, room⟩ s)
    (hf : fetchAt pc = some (.lea 14)) (hal : st.ptr.toNat % 4 = 0) (hin : st.ptr.toNat < 4096)
    (hk : ∀ s' a', On fx ids (g.m ids lines keys)
      ⟨a0, r0, 0x2000 + st.ptr, r2, r3, r5, r6, r7, st.cells (st.ptr.toNat / 4), pc + 4, stk, room⟩ s' → P s' a') : P s a := by
  refine On.lea hb hP h (r := 14) (x := 0x2000 + st.ptr) (w := st.cells (st.ptr.toNat / 4)) hf rfl rfl (by rw [addr_aligned]; exact hal)
    (cells_read hb (i := st.ptr.toNat / 4) (by rw [addr_inside hin]; omega) (by omega) (hr.cells _ (by omega))) hk

/-- WEA of the pointer. -/
theorem weaCell (hb : Board pf fx) (hP : Closed pf P) (hr : Rel lines st g) {a0 r0 r2 r3 r5 r6 r7 av : Word} {pc room : Nat} {stk : List Word}
    (h : On fx ids (g.m ids lines keys) ⟨a0, r0, 0x2000 + st.ptr, r2, r3, r5, r6, r7, av, pc, stk, room⟩ s)
    (hf : fetchAt pc = some (.wea 14)) (hal : st.ptr.toNat % 4 = 0) (hin : st.ptr.toNat < 4096)
    (hk : ∀ s' a' g', Rel lines { st with cells := fun i => if i = st.ptr.toNat / 4 then av else st.cells i } g' → On fx ids (g'.m ids lines keys)
      ⟨a0, r0, 0x2000 + st.ptr, r2, r3, r5, r6, r7, av, pc + 4, stk, room⟩ s' → P s' a') : P s a := by
  refine On.wea hb hP h (r := 14) (x := 0x2000 + st.ptr) (y := av) hf rfl rfl rfl (by rw [addr_aligned]; exact hal)
    (cells_write hb (i := st.ptr.toNat / 4) (by rw [addr_inside hin]; omega) (by omega) hr.cellsLen) fun s' a' h' => hk s' a' _ ?_ h'
  refine ⟨by rw [List.length_set]; exact hr.cellsLen, ?_, hr.line, hr.asked, hr.buf, hr.texts, hr.chars, hr.nums⟩
  intro i hi
  show (g.cells.set _ _)[i]? = some (if _ then _ else _)
  split
  · next he => subst he; rw [List.getElem?_set_self (by rw [hr.cellsLen]; omega)]
  · next he => rw [List.getElem?_set_ne (Ne.symm he)]; exact hr.cells i hi

/-- The machine is about to raise exception 5. -/
def Traps (fx : Fixed) (ids : Nat → U64) (lines : Nat → List Char) (keys : Nat → Char) (st : St) (pc : Nat) (s : Machine Dev) : Prop :=
  ∃ g v, Rel lines st g ∧ On fx ids (g.m ids lines keys) v s ∧ v.pc = pc ∧ (v.fetch = some (.lea 14) ∨ v.fetch = some (.wea 14)) ∧
    v.rr1 = 0x2000 + st.ptr ∧ st.ptr.toNat % 4 ≠ 0

/-- Where the cell is used for a character. -/
def usedAt : Nat → Nat
  | 43 => 516
  | 45 => 532
  | 46 => 548
  | 44 => 564
  | 91 => 576
  | 93 => 664
  | _ => 0

theorem onCell_stop {f : Nat → Next} (h : st.ptr.toNat % 4 ≠ 0) : st.onCell f = .stop st .misaligned := by
  unfold St.onCell; rw [if_pos h]

theorem onCell_in {f : Nat → Next} (h : st.ptr.toNat % 4 = 0) (hin : st.ptr.toNat < 4096) : st.onCell f = f (st.ptr.toNat / 4) := by
  unfold St.onCell; rw [if_neg (by omega), if_pos hin]

theorem onCell_out {f : Nat → Next} (h : st.ptr.toNat % 4 = 0) (hin : ¬ st.ptr.toNat < 4096) : st.onCell f = .stop st .outside := by
  unfold St.onCell; rw [if_neg (by omega), if_neg hin]

theorem next_pos (n : Nat) : BitVec.ofNat 32 n + 1#32 = BitVec.ofNat 32 (n + 1) := (BitVec.ofNat_add n 1).symm

theorem not_end {line : List Char} {pos : Nat} (h : charAt (typed line) pos ≠ 0) : pos < 4092 := by
  rcases Nat.lt_or_ge pos 4092 with h' | h'
  · exact h'
  · exact absurd (charAt_end h') h

/-- One character. -/
theorem advance (hb : Board pf fx) (hP : Closed pf P) (h : At fx ids lines keys st s)
    (go : ∀ st', step (typed (lines 0)) keys st = .go st' → ∀ s' a', At fx ids lines keys st' s' → P s' a')
    (halt : ∀ st' e, e ≠ .misaligned → step (typed (lines 0)) keys st = .stop st' e → Halts P ids lines keys st' e)
    (trap : ∀ st', step (typed (lines 0)) keys st = .stop st' .misaligned → ∀ s' a',
      Traps fx ids lines keys st' (usedAt (charAt (typed (lines 0)) st.pos)) s' → P s' a')
    (ok : ∀ st' e, step (typed (lines 0)) keys st = .stop st' e → e ≠ .outside ∧ e ≠ .tooDeep) : P s a := by
  obtain ⟨g, a0, r2, r5, r6, r7, av, room, hr, hpos, hloops, hroom, h2, h⟩ := h
  have hc := charAt_lt (typed (lines 0)) st.pos
  refine nextChar hb hP h rfl (Nat.succ_pos _) rfl h2 hpos hr.line fun s1 a1 y z h1 => ?_
  generalize hcc : charAt (typed (lines 0)) st.pos = c at hc trap
  change On fx ids (g.m ids lines keys) ⟨BitVec.ofNat 32 (charAt (typed (lines 0)) st.pos), 0x4000, 0x2000 + st.ptr, BitVec.ofNat 32 st.pos,
    BitVec.ofNat 32 st.loops.length, r5, r6, y, z, 184, stackOf st, room + 2⟩ s1 at h1
  rw [hcc] at h1
  refine dispatch hb hP h1 hc ?_ ?_ ?_
  · -- the end
    intro he s2 a2 h2
    have hst : ∀ e, (match st.loops with | [] => Next.stop st .done | l :: _ => .stop st (.unclosed st.loops.length st.pos l)) = e →
        step (typed (lines 0)) keys st = e := by
      intro e h
      unfold step
      rw [hcc]
      rw [if_pos he]
      exact h
    cases hl : st.loops with
    | nil =>
      refine On.ifeq hb hP h2 (r := 16) (n := 0) (x := BitVec.ofNat 32 st.loops.length) rfl rfl rfl rfl (fun _ s3 a3 h3 => ?_) (fun e => absurd (by rw [hl]; rfl) e)
      have hsk : stackOf st = [36#32] := by unfold stackOf; rw [hl]; rfl
      rw [hsk] at h3
      exact doneEnd hb hP hr h3 (halt st .done nofun (hst _ (by rw [hl])))
    | cons l ls =>
      refine On.ifeq hb hP h2 (r := 16) (n := 0) (x := BitVec.ofNat 32 st.loops.length) rfl rfl rfl rfl (fun e => ?_) (fun _ s3 a3 h3 => ?_)
      · rw [hl, ofNat_inj (by rw [hl] at hroom; omega) (by decide)] at e
        cases e
      · have hsk : stackOf st = BitVec.ofNat 32 l :: (ls.map (BitVec.ofNat 32) ++ [36#32]) := by unfold stackOf; rw [hl]; rfl
        rw [hsk] at h3
        exact unclosedEnd hb hP hr h3 (halt st _ nofun (hst _ (by rw [hl])))
  · intro t ht s2 a2 h2
    simp only [actions, List.mem_cons, List.not_mem_nil, or_false, Prod.mk.injEq] at ht
    have hstep : step (typed (lines 0)) keys st = step (typed (lines 0)) keys st := rfl
    conv at hstep => rhs; unfold step
    rw [hcc] at hstep
    rcases ht with ⟨e, rfl⟩ | ⟨e, rfl⟩ | ⟨e, rfl⟩ | ⟨e, rfl⟩ | ⟨e, rfl⟩ | ⟨e, rfl⟩ | ⟨e, rfl⟩ | ⟨e, rfl⟩
    all_goals
      have hlt : st.pos < 4092 := not_end (line := lines 0) (by rw [hcc, e]; decide)
      subst e
    · -- >
      refine On.run hb hP h2 2 rfl fun s3 a3 h3 => go _ hstep s3 a3 ?_
      refine ⟨g, BitVec.ofNat 32 62, BitVec.ofNat 32 st.pos, r5, r6, y, z, room, ⟨hr.cellsLen, hr.cells, hr.line, hr.asked, hr.buf, hr.texts, hr.chars, hr.nums⟩, hlt, hloops, hroom, next_pos _, ?_⟩
      dsimp only
      rw [← BitVec.add_assoc]
      exact h3
    · -- <
      refine On.run hb hP h2 2 rfl fun s3 a3 h3 => go _ hstep s3 a3 ?_
      refine ⟨g, BitVec.ofNat 32 60, BitVec.ofNat 32 st.pos, r5, r6, y, z, room, ⟨hr.cellsLen, hr.cells, hr.line, hr.asked, hr.buf, hr.texts, hr.chars, hr.nums⟩, hlt, hloops, hroom, next_pos _, ?_⟩
      dsimp only
      rw [show (0x2000 + (st.ptr - 1) : Word) = 0x2000 + st.ptr - 1 by rw [BitVec.sub_eq_add_neg, BitVec.sub_eq_add_neg, BitVec.add_assoc]]
      exact h3
    · -- +
      replace hstep : step (typed (lines 0)) keys st = st.onCell fun k => st.store k (st.cells k + 1) := hstep
      by_cases hal : st.ptr.toNat % 4 = 0
      · by_cases hin : st.ptr.toNat < 4096
        · rw [onCell_in hal hin] at hstep
          refine leaCell hb hP hr h2 rfl hal hin fun s3 a3 h3 => ?_
          refine On.run hb hP h3 1 rfl fun s4 a4 h4 => ?_
          refine weaCell hb hP hr h4 rfl hal hin fun s5 a5 g' hr' h5 => ?_
          refine On.run hb hP h5 1 rfl fun s6 a6 h6 => go _ hstep s6 a6 ?_
          exact ⟨g', BitVec.ofNat 32 43, BitVec.ofNat 32 st.pos, r5, r6, y, _, room, ⟨hr'.cellsLen, hr'.cells, hr'.line, hr'.asked, hr'.buf, hr'.texts, hr'.chars, hr'.nums⟩, hlt, hloops, hroom, next_pos _, h6⟩
        · rw [onCell_out hal hin] at hstep
          exact absurd rfl (ok _ _ hstep).1
      · rw [onCell_stop hal] at hstep
        exact trap _ hstep s2 a2 ⟨g, _, hr, h2, rfl, .inl rfl, rfl, hal⟩
    · -- -
      replace hstep : step (typed (lines 0)) keys st = st.onCell fun k => st.store k (st.cells k - 1) := hstep
      by_cases hal : st.ptr.toNat % 4 = 0
      · by_cases hin : st.ptr.toNat < 4096
        · rw [onCell_in hal hin] at hstep
          refine leaCell hb hP hr h2 rfl hal hin fun s3 a3 h3 => ?_
          refine On.run hb hP h3 1 rfl fun s4 a4 h4 => ?_
          refine weaCell hb hP hr h4 rfl hal hin fun s5 a5 g' hr' h5 => ?_
          refine On.run hb hP h5 1 rfl fun s6 a6 h6 => go _ hstep s6 a6 ?_
          exact ⟨g', BitVec.ofNat 32 45, BitVec.ofNat 32 st.pos, r5, r6, y, _, room, ⟨hr'.cellsLen, hr'.cells, hr'.line, hr'.asked, hr'.buf, hr'.texts, hr'.chars, hr'.nums⟩, hlt, hloops, hroom, next_pos _, h6⟩
        · rw [onCell_out hal hin] at hstep
          exact absurd rfl (ok _ _ hstep).1
      · rw [onCell_stop hal] at hstep
        exact trap _ hstep s2 a2 ⟨g, _, hr, h2, rfl, .inl rfl, rfl, hal⟩
    · -- .
      replace hstep : step (typed (lines 0)) keys st = st.onCell fun k => .go { st with pos := st.pos + 1, out := st.out ++ [charOrWord (st.cells k)] } := hstep
      by_cases hal : st.ptr.toNat % 4 = 0
      · by_cases hin : st.ptr.toNat < 4096
        · rw [onCell_in hal hin] at hstep
          refine leaCell hb hP hr h2 rfl hal hin fun s3 a3 h3 => ?_
          refine printChar hb hP h3 rfl (Nat.succ_pos _) fun s4 a4 h4 => ?_
          refine On.run hb hP h4 1 rfl fun s6 a6 h6 => go _ hstep s6 a6 ?_
          exact ⟨{ g with chars := g.chars ++ [charOrWord (st.cells (st.ptr.toNat / 4))] }, BitVec.ofNat 32 46, BitVec.ofNat 32 st.pos, r5, r6, _, _, room, ⟨hr.cellsLen, hr.cells, hr.line, hr.asked, hr.buf, hr.texts, congrArg (· ++ [charOrWord (st.cells (st.ptr.toNat / 4))]) hr.chars, hr.nums⟩, hlt, hloops, hroom, next_pos _, h6⟩
        · rw [onCell_out hal hin] at hstep
          exact absurd rfl (ok _ _ hstep).1
      · rw [onCell_stop hal] at hstep
        exact trap _ hstep s2 a2 ⟨g, _, hr, h2, rfl, .inl rfl, rfl, hal⟩
    · -- ,
      replace hstep : step (typed (lines 0)) keys st = St.onCell { st with asked := st.asked + 1 } fun k =>
          St.store { st with asked := st.asked + 1 } k (BitVec.ofNat 32 (keys st.asked).toNat) := hstep
      refine readChar hb hP h2 rfl (Nat.succ_pos _) fun s3 a3 h3 => ?_
      rw [hr.asked] at h3
      have hr' : Rel lines { st with asked := st.asked + 1 } { g with key := keys st.asked, keysAsked := st.asked + 1 } :=
        ⟨hr.cellsLen, hr.cells, hr.line, rfl, hr.buf, hr.texts, hr.chars, hr.nums⟩
      by_cases hal : st.ptr.toNat % 4 = 0
      · by_cases hin : st.ptr.toNat < 4096
        · rw [onCell_in (st := { st with asked := st.asked + 1 }) hal hin] at hstep
          refine weaCell hb hP hr' h3 rfl hal hin fun s5 a5 g' hr' h5 => ?_
          refine On.run hb hP h5 1 rfl fun s6 a6 h6 => go _ hstep s6 a6 ?_
          exact ⟨g', BitVec.ofNat 32 44, BitVec.ofNat 32 st.pos, r5, r6, _, _, room, ⟨hr'.cellsLen, hr'.cells, hr'.line, hr'.asked, hr'.buf, hr'.texts, hr'.chars, hr'.nums⟩, hlt, hloops, hroom, next_pos _, h6⟩
        · rw [onCell_out (st := { st with asked := st.asked + 1 }) hal hin] at hstep
          exact absurd rfl (ok _ _ hstep).1
      · rw [onCell_stop (st := { st with asked := st.asked + 1 }) hal] at hstep
        exact trap _ hstep s3 a3 ⟨_, _, hr', h3, rfl, .inr rfl, rfl, hal⟩
    · -- [
      replace hstep : step (typed (lines 0)) keys st = st.onCell fun k =>
          if st.cells k = 0 then
            if charAt (typed (lines 0)) (st.pos + 1) = 93 then .go { st with pos := st.pos + 2 }
            else .stop st (.unclosed (st.loops.length + 1) (st.pos + 1) (st.loops.headD 36))
          else if 1021 ≤ st.loops.length then .stop st .tooDeep
          else .go { st with pos := st.pos + 1, loops := st.pos :: st.loops } := hstep
      refine On.run hb hP h2 1 rfl fun s3 a3 h3 => ?_
      by_cases hal : st.ptr.toNat % 4 = 0
      · by_cases hin : st.ptr.toNat < 4096
        · rw [onCell_in hal hin] at hstep
          refine leaCell hb hP hr h3 rfl hal hin fun s4 a4 h4 => ?_
          refine On.ifeq hb hP h4 (r := 21) (n := 0) (x := st.cells (st.ptr.toNat / 4)) rfl rfl rfl rfl (fun hz s5 a5 h5 => ?_) (fun hz s5 a5 h5 => ?_)
          · replace hz : st.cells (st.ptr.toNat / 4) = 0 := hz
            simp only [if_pos hz] at hstep
            refine On.run hb hP h5 1 rfl fun s6 a6 h6 => ?_
            refine nextChar hb hP h6 rfl (Nat.succ_pos _) rfl (next_pos _) hlt hr.line fun s7 a7 y' z' h7 => ?_
            have hc' := charAt_lt (typed (lines 0)) (st.pos + 1)
            refine On.ifnq hb hP h7 (r := 0) (n := 93) (x := BitVec.ofNat 32 (charAt (typed (lines 0)) (st.pos + 1))) rfl rfl rfl rfl (fun hne s8 a8 h8 => ?_) (fun heq s8 a8 h8 => ?_)
            · rw [ne_eq, ofNat_inj (by omega) (by decide)] at hne
              rw [if_neg hne] at hstep
              refine On.run hb hP h8 1 rfl fun s9 a9 h9 => ?_
              refine On.run hb hP h9 2 rfl fun s10 a10 h10 => ?_
              refine On.ifeq hb hP h10 (r := 16) (n := 0) (x := BitVec.ofNat 32 st.loops.length + 1#32) rfl rfl rfl rfl (fun e => ?_) (fun _ s11 a11 h11 => ?_)
              · rw [next_pos, ofNat_inj (by omega) (by decide)] at e
                cases e
              · have hsk : ∃ stk, stackOf st = BitVec.ofNat 32 (st.loops.headD 36) :: stk := by
                  unfold stackOf
                  cases st.loops with
                  | nil => exact ⟨[], rfl⟩
                  | cons l ls => exact ⟨_, rfl⟩
                obtain ⟨stk, hsk⟩ := hsk
                have h12 : On fx ids (g.m ids lines keys) ⟨BitVec.ofNat 32 (charAt (typed (lines 0)) (st.pos + 1)), 0x4000, 0x2000 + st.ptr,
                  BitVec.ofNat 32 (st.pos + 1), BitVec.ofNat 32 st.loops.length + 1#32, r5, r6, y', z', 236, stackOf st, room + 2⟩ s11 := h11
                rw [next_pos, hsk] at h12
                exact unclosedEnd hb hP hr h12 (halt _ _ nofun hstep)
            · rw [ofNat_inj (by omega) (by decide)] at heq
              rw [if_pos heq] at hstep
              refine On.run hb hP h8 2 rfl fun s9 a9 h9 => go _ hstep s9 a9 ?_
              have hlt' : st.pos + 1 < 4092 := not_end (line := lines 0) (by rw [heq]; decide)
              refine ⟨g, BitVec.ofNat 32 (charAt (typed (lines 0)) (st.pos + 1)), BitVec.ofNat 32 (st.pos + 1), r5, r6, y', z', room, ⟨hr.cellsLen, hr.cells, hr.line, hr.asked, hr.buf, hr.texts, hr.chars, hr.nums⟩, hlt', hloops, hroom, next_pos _, ?_⟩
              have h10 : On fx ids (g.m ids lines keys) ⟨BitVec.ofNat 32 (charAt (typed (lines 0)) (st.pos + 1)), 0x4000, 0x2000 + st.ptr,
                  BitVec.ofNat 32 (st.pos + 1), BitVec.ofNat 32 st.loops.length + 1#32 - 1#32, r5, r6, y', z', 180, stackOf st, room + 2⟩ s9 := h9
              rw [BitVec.add_sub_cancel] at h10
              exact h10
          · replace hz : st.cells (st.ptr.toNat / 4) ≠ 0 := hz
            simp only [if_neg hz] at hstep
            by_cases hd : 1021 ≤ st.loops.length
            · rw [if_pos hd] at hstep
              exact absurd rfl (ok _ _ hstep).2
            · rw [if_neg hd] at hstep
              obtain ⟨room, rfl⟩ : ∃ r, room = r + 1 := ⟨room - 1, by omega⟩
              refine On.run hb hP h5 2 rfl fun s6 a6 h6 => go _ hstep s6 a6 ?_
              refine ⟨g, BitVec.ofNat 32 91, BitVec.ofNat 32 st.pos, r5, r6, y, st.cells (st.ptr.toNat / 4), room, ⟨hr.cellsLen, hr.cells, hr.line, hr.asked, hr.buf, hr.texts, hr.chars, hr.nums⟩, hlt, ?_, ?_, next_pos _, ?_⟩
              · intro p hp
                rcases List.mem_cons.1 hp with rfl | hp
                · exact Nat.le_of_lt hlt
                · exact hloops p hp
              · show room + 2 + (st.loops.length + 1) = 1023
                omega
              · have h10 : On fx ids (g.m ids lines keys) ⟨BitVec.ofNat 32 91, 0x4000, 0x2000 + st.ptr, BitVec.ofNat 32 st.pos,
                  BitVec.ofNat 32 st.loops.length + 1#32, r5, r6, y, st.cells (st.ptr.toNat / 4), 180, BitVec.ofNat 32 st.pos :: stackOf st,
                  room + 2⟩ s6 := h6
                rw [next_pos] at h10
                exact h10
        · rw [onCell_out hal hin] at hstep
          exact absurd rfl (ok _ _ hstep).1
      · rw [onCell_stop hal] at hstep
        exact trap _ hstep s3 a3 ⟨g, _, hr, h3, rfl, .inl rfl, rfl, hal⟩
    · -- ]
      replace hstep : step (typed (lines 0)) keys st = (match st.loops with
        | [] => Next.stop st .noLoop
        | l :: ls => st.onCell fun k =>
          if st.cells k = 0 then .go { st with pos := st.pos + 1, loops := ls } else .go { st with pos := l, loops := ls }) := hstep
      cases hl : st.loops with
      | nil =>
        rw [hl] at hstep
        refine On.ifeq hb hP h2 (r := 16) (n := 0) (x := BitVec.ofNat 32 st.loops.length) rfl rfl rfl rfl (fun _ s3 a3 h3 => ?_) (fun e => absurd (by rw [hl]; rfl) e)
        refine On.run hb hP h3 1 rfl fun s4 a4 h4 => ?_
        exact noLoopEnd hb hP hr h4 (halt _ _ nofun hstep)
      | cons l ls =>
        rw [hl] at hstep
        replace hstep : step (typed (lines 0)) keys st = st.onCell fun k =>
          if st.cells k = 0 then .go { st with pos := st.pos + 1, loops := ls } else .go { st with pos := l, loops := ls } := hstep
        refine On.ifeq hb hP h2 (r := 16) (n := 0) (x := BitVec.ofNat 32 st.loops.length) rfl rfl rfl rfl (fun e => ?_) (fun _ s3 a3 h3 => ?_)
        · rw [hl, ofNat_inj (by rw [hl] at hroom; omega) (by decide)] at e
          cases e
        refine On.run hb hP h3 1 rfl fun s4 a4 h4 => ?_
        by_cases hal : st.ptr.toNat % 4 = 0
        · by_cases hin : st.ptr.toNat < 4096
          · rw [onCell_in hal hin] at hstep
            refine leaCell hb hP hr h4 rfl hal hin fun s5 a5 h5 => ?_
            have hsk : stackOf st = BitVec.ofNat 32 l :: (ls.map (BitVec.ofNat 32) ++ [36#32]) := by unfold stackOf; rw [hl]; rfl
            have hlen : (BitVec.ofNat 32 st.loops.length - 1#32 : Word) = BitVec.ofNat 32 ls.length := by
              rw [hl]
              show (BitVec.ofNat 32 (ls.length + 1) - 1#32 : Word) = _
              rw [← next_pos]; exact BitVec.add_sub_cancel _ _
            have h6 : On fx ids (g.m ids lines keys) ⟨BitVec.ofNat 32 93, 0x4000, 0x2000 + st.ptr, BitVec.ofNat 32 st.pos,
              BitVec.ofNat 32 st.loops.length - 1#32, r5, r6, y, st.cells (st.ptr.toNat / 4), 668, stackOf st, room + 2⟩ s5 := h5
            rw [hlen, hsk] at h6
            have hl4 : l ≤ 4092 := hloops l (by rw [hl]; exact List.mem_cons_self)
            have hls : ∀ p ∈ ls, p ≤ 4092 := fun p hp => hloops p (by rw [hl]; exact List.mem_cons_of_mem _ hp)
            have hrm : room + 1 + 2 + ls.length = 1023 := by
              rw [hl] at hroom
              have : (l :: ls).length = ls.length + 1 := rfl
              omega
            refine On.ifnq hb hP h6 (r := 21) (n := 0) (x := st.cells (st.ptr.toNat / 4)) rfl rfl rfl rfl (fun hz s7 a7 h7 => ?_) (fun hz s7 a7 h7 => ?_)
            · replace hz : st.cells (st.ptr.toNat / 4) ≠ 0 := hz
              simp only [if_neg hz] at hstep
              refine On.run hb hP h7 4 rfl fun s8 a8 h8 => go _ hstep s8 a8 ?_
              exact ⟨g, BitVec.ofNat 32 93, BitVec.ofNat 32 l - 1#32, r5, r6, y, _, room + 1, ⟨hr.cellsLen, hr.cells, hr.line, hr.asked, hr.buf, hr.texts, hr.chars, hr.nums⟩, hl4, hls, hrm, BitVec.sub_add_cancel _ _, h8⟩
            · replace hz : st.cells (st.ptr.toNat / 4) = 0 := hz
              simp only [if_pos hz] at hstep
              refine On.run hb hP h7 2 rfl fun s8 a8 h8 => go _ hstep s8 a8 ?_
              exact ⟨g, BitVec.ofNat 32 93, BitVec.ofNat 32 st.pos, r5, r6, y, _, room + 1, ⟨hr.cellsLen, hr.cells, hr.line, hr.asked, hr.buf, hr.texts, hr.chars, hr.nums⟩, hlt, hls, hrm, next_pos _, h8⟩
          · rw [onCell_out hal hin] at hstep
            exact absurd rfl (ok _ _ hstep).1
        · rw [onCell_stop hal] at hstep
          exact trap _ hstep s4 a4 ⟨g, _, hr, h4, rfl, .inl rfl, rfl, hal⟩
  · intro n0 n1 n2 n3 n4 n5 n6 n7 n8 s2 a2 h2
    refine unknownEnd hb hP hr hc h2 (halt st (.unknown c) nofun ?_)
    unfold step
    rw [hcc]
    exact (if_neg n0).trans <| (if_neg n1).trans <| (if_neg n2).trans <| (if_neg n3).trans <| (if_neg n4).trans <| (if_neg n5).trans <|
      (if_neg n6).trans <| (if_neg n7).trans (if_neg n8)

end Lrvm.Brainfuck
