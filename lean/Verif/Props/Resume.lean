import Verif.Props.Stack
import Verif.Props.Modes

/-!
# Resuming an interrupted program: C111

The claim is that a handler can give control back to the program it interrupted, at the instruction that follows the one that
raised the interruption. It is false of the code: nothing in the machine tells the handler where the program was
(`C111_place_lost_partial`, `C111_no_handler_partial`, `C111_refuted`). Proved instead: a convention that works
(`C111_stub_partial`), where the program calls a stub made of an interruption and a return.
-/

namespace Lrvm

open Spec

variable {D : Type} [Bus D] {pf : Profile}

/-- The machine `s` with its program counter at `p`. -/
def Spec.atAddr (s : Machine D) (p : Word) : Machine D := { s with regs := { s.regs with pc := p } }

/-- From `s`, the processor comes back to userland for the first time after `n` cycles (at least one), at address `a`. -/
def Spec.ReturnsTo (pf : Profile) (s : Machine D) (n : Nat) (a : Word) : Prop :=
  0 < n ∧ (∃ t, nextN pf n s = some t ∧ supervisor t.regs = false ∧ t.regs.pc = a) ∧
    ∀ k t, 0 < k → k < n → nextN pf k s = some t → supervisor t.regs = true

/-- **C111**, what is lost. Two machines that differ only by the place of the program, and run the same interruption there,
are the same machine afterwards: the same registers (`et` and `era` included), memory, components and cycles. -/
theorem C111_place_lost_partial {s : Machine D} {p q : Word} {devs : List D} {r1 r2 : Bool} {p0 p1 p2 : U8}
    (hp : Fetches pf (atAddr s p) (instrWord 0x10 false r1 r2 p0 p1 p2) devs)
    (hq : Fetches pf (atAddr s q) (instrWord 0x10 false r1 r2 p0 p1 p2) devs) :
    ∃ t, next pf (atAddr s p) = some t ∧ next pf (atAddr s q) = some t := by
  have key : ∀ a : Word, Fetches pf (atAddr s a) (instrWord 0x10 false r1 r2 p0 p1 p2) devs →
      next pf (atAddr s a) = some ((atExec (atAddr s 0) devs).exception 0xF0 (BitVec.ofNat 32 p0.toNat |>.setWidth 16)) := by
    intro a hf
    have he : runInstr pf ⟨(0x10 : BitVec 5).setWidth 8, false, r1, r2, p0, p1, p2⟩ (atExec (atAddr s a) devs) =
        .ok () ((atExec (atAddr s a) devs).exception 0xF0 (BitVec.ofNat 32 p0.toNat |>.setWidth 16)) := by
      show execItr _ _ = _
      unfold execItr
      rw [M.bind_ok (regOrLit1_val (s := atExec (atAddr s a) devs) (b := false) (p := p0) (v := BitVec.ofNat 32 p0.toNat)
        (by unfold Val1; rfl))]
      rfl
    rw [next_of_fetch hf, execWord_instr, he]
    rfl
  exact ⟨_, key p hp, key q hq⟩

/-- **C111**, no handler. Whatever the handler is (it is in the memory of `s`), it cannot give control back after an
interruption at `p` when the program was at `p`, and after the same one at `q` when the program was at `q`. -/
theorem C111_no_handler_partial {s : Machine D} {p q : Word} {devs : List D} {r1 r2 : Bool} {p0 p1 p2 : U8} (hne : p ≠ q)
    (hp : Fetches pf (atAddr s p) (instrWord 0x10 false r1 r2 p0 p1 p2) devs)
    (hq : Fetches pf (atAddr s q) (instrWord 0x10 false r1 r2 p0 p1 p2) devs) (m n : Nat) :
    ¬ (ReturnsTo pf (atAddr s p) m (p + 4) ∧ ReturnsTo pf (atAddr s q) n (q + 4)) := by
  rintro ⟨⟨hm, ⟨t, ht, hut, hpt⟩, hbt⟩, hn, ⟨u, hu, huu, hpu⟩, hbu⟩
  obtain ⟨x, hx, hy⟩ := C111_place_lost_partial hp hq
  have same : ∀ k, 0 < k → nextN pf k (atAddr s p) = nextN pf k (atAddr s q) := by
    intro k hk
    cases k with
    | zero => omega
    | succ k => unfold nextN; rw [hx, hy]
  have hmn : m = n := by
    rcases Nat.lt_trichotomy m n with h | h | h
    · have := hbu m t hm h (by rw [← same m hm]; exact ht)
      rw [hut] at this; cases this
    · exact h
    · have := hbt n u hn h (by rw [same n hn]; exact hu)
      rw [huu] at this; cases this
  subst hmn
  rw [same m hm, hu] at ht
  injection ht with ht
  subst ht
  rw [hpu] at hpt
  exact hne (by simpa using hpt.symm)

namespace Demo

/-- An interruption at 0 and at 8 (each followed by a HALT), a handler at 12 that goes back to userland at 4. -/
def twoCalls : List Word :=
  [instrWord 0x10 false false false 7 0 0, instrWord 0x1E false false false 0 0 0, instrWord 0x10 false false false 7 0 0,
    instrWord 0x0F false false false 0 0 0]

/-- The machine that runs it, in userland. -/
def twoCallsUser : Machine Dev :=
  { start twoCalls with regs := { startup with smt := 0, ev := 12 } }

end Demo

/-- The hypotheses hold of a machine with the same interruption at two addresses; the handler there does give control back, but
always after the first one. -/
example : Fetches .debug (atAddr Demo.twoCallsUser 0) (instrWord 0x10 false false false 7 0 0) (Demo.devices Demo.twoCalls) ∧
    Fetches .debug (atAddr Demo.twoCallsUser 8) (instrWord 0x10 false false false 7 0 0) (Demo.devices Demo.twoCalls) ∧
    ReturnsTo .debug (atAddr Demo.twoCallsUser 0) 2 4 ∧ ReturnsTo .debug (atAddr Demo.twoCallsUser 8) 2 4 := by
  have one : ∀ a, a = 0 ∨ a = 8 → ReturnsTo .debug (atAddr Demo.twoCallsUser a) 2 4 := by
    intro a ha
    refine ⟨by decide, ?_, ?_⟩
    · rcases ha with rfl | rfl <;> exact ⟨_, rfl, rfl, rfl⟩
    · intro k t h1 h2 h3
      have : k = 1 := by omega
      subst this
      rcases ha with rfl | rfl <;> (injection h3 with h3; rw [← h3]; rfl)
  exact ⟨⟨rfl, rfl⟩, ⟨rfl, rfl⟩, one 0 (.inl rfl), one 8 (.inr rfl)⟩

/-- The claim is false: on a machine whose handler gives control back, a program interrupted at `p` is never resumed at
`p + 4`. -/
theorem C111_refuted : ∃ (s : Machine Demo.Dev) (p : Word), Fetches .debug (atAddr s p)
      (instrWord 0x10 false false false 7 0 0) s.devs ∧ supervisor s.regs = false ∧ s.regs.ev ≠ 0 ∧
    (∃ n a, ReturnsTo .debug (atAddr s p) n a) ∧ ¬ ∃ n, ReturnsTo .debug (atAddr s p) n (p + 4) := by
  have h2 : ReturnsTo .debug (atAddr Demo.twoCallsUser 8) 2 4 := by
    refine ⟨by decide, ⟨_, rfl, rfl, rfl⟩, ?_⟩
    intro k t h1 h2 h3
    have : k = 1 := by omega
    subst this
    injection h3 with h3; rw [← h3]; rfl
  have h0 : ReturnsTo .debug (atAddr Demo.twoCallsUser 0) 2 (0 + 4) := by
    refine ⟨by decide, ⟨_, rfl, rfl, rfl⟩, ?_⟩
    intro k t h1 h2 h3
    have : k = 1 := by omega
    subst this
    injection h3 with h3; rw [← h3]; rfl
  refine ⟨Demo.twoCallsUser, 8, ⟨rfl, rfl⟩, rfl, by decide, ⟨2, 4, h2⟩, ?_⟩
  rintro ⟨n, hn⟩
  exact C111_no_handler_partial (p := 0) (q := 8) (by decide) ⟨rfl, rfl⟩ ⟨rfl, rfl⟩ 2 n ⟨h0, hn⟩

/-- **C111**, a convention that works. The program, in userland at `s0`, calls a stub at `a`: an interruption, then a return
(`pop pc`). The handler at `ev` runs for `k` cycles in any way that ends in supervisor mode with `usp` as it was, and then does
`lsm a`, which goes to the return. If the return address is still on the program's stack, then the handler began with all
the registers of the program and the code of the interruption in `et`, and the program goes on after its call, in userland,
with its stack pointer as it was and all its other registers as the handler left them. -/
theorem C111_stub_partial {s0 s1 s2 s3 s4 s5 : Machine D} {devs0 devs1 devs2 devs3 devs4 devs5 : List D} {a : Word} {k : Nat}
    {b1 b2 l1 l2 d1 d2 d3 : Bool} {r0 r1 r2 : Bool} {m0 m1 m2 n n1 n2 t0 t1 t2 e1 e2 : U8} {q0 : Bool}
    (hu : supervisor s0.regs = false) (hov : pf = .debug → s0.regs.pc.toNat + 4 < 2 ^ 32)
    -- the call of the stub
    (hcall : Fetches pf s0 (instrWord 0x1B r0 r1 r2 m0 m1 m2) devs0) (hva : Val2 s0.regs r0 m0 m1 a)
    (hpush : Stores pf s0 devs0 (s0.regs.usp - 4) (s0.regs.pc + 4) devs1) (h1 : next pf s0 = some s1)
    -- the interruption at `a`
    (hitr : Fetches pf s1 (instrWord 0x10 false b1 b2 n n1 n2) devs2) (h2 : next pf s1 = some s2)
    -- the handler
    (hrun : nextN pf k s2 = some s3) (hs3 : supervisor s3.regs = true) (husp : s3.regs.usp = s2.regs.usp)
    (hlsm : Fetches pf s3 (instrWord 0x0F q0 l1 l2 t0 t1 t2) devs3) (hvl : Val2 s3.regs q0 t0 t1 a)
    (h4 : next pf s3 = some s4)
    -- the return at `a + 4`
    (hret : Fetches pf s4 (instrWord 0x1A d1 d2 d3 0x16 e1 e2) devs4)
    (hpop : Loads pf s4 devs4 (s0.regs.usp - 4) (s0.regs.pc + 4) devs5) (h5 : next pf s4 = some s5) :
    s2.regs = { s0.regs with pc := s0.regs.ev, smt := 1, usp := s0.regs.usp - 4, et := BitVec.ofNat 32 (0xF00000 + n.toNat) } ∧
    nextN pf (k + 4) s0 = some s5 ∧
    s5.regs = { s3.regs with pc := s0.regs.pc + 4, smt := 0, usp := s0.regs.usp } := by
  have hsp0 : stackPtr s0.regs = s0.regs.usp := by unfold stackPtr; rw [hu]; rfl
  obtain ⟨x, hx, hr1, _⟩ := C33_call hcall hva hov (by rw [hsp0]; exact hpush)
  rw [h1] at hx; injection hx with hx; subst hx
  have hr1' : s1.regs = { s0.regs with pc := a, usp := s0.regs.usp - 4 } := by
    rw [hr1, hsp0]; unfold withStackPtr; rw [hu]; rfl
  obtain ⟨x, hx, hr2, _⟩ := C06_itr hitr (v := BitVec.ofNat 32 n.toNat) (by unfold Val1; rfl)
  rw [h2] at hx; injection hx with hx; subst hx
  have hu1 : supervisor s1.regs = false := by rw [hr1']; exact hu
  have hr2' : s2.regs = { s0.regs with
      pc := s0.regs.ev, smt := 1, usp := s0.regs.usp - 4, et := BitVec.ofNat 32 (0xF00000 + n.toNat) } := by
    rw [hr2]; unfold trap; rw [hu1, hr1']
    have hn := n.isLt
    have : (BitVec.ofNat 32 n.toNat).toNat % 65536 = n.toNat := by rw [BitVec.toNat_ofNat]; omega
    rw [this]; simp
  obtain ⟨x, hx, hr4, _⟩ := C15_lsm_partial hlsm hs3 hvl
  rw [h4] at hx; injection hx with hx; subst hx
  have hu4 : supervisor s4.regs = false := by rw [hr4]; rfl
  have hu4' : s4.regs.usp = s0.regs.usp - 4 := by rw [hr4]; show s3.regs.usp = _; rw [husp, hr2']
  have hsp4 : stackPtr s4.regs = s0.regs.usp - 4 := by unfold stackPtr; rw [hu4]; exact hu4'
  obtain ⟨x, hx, hr5, _⟩ := C33_pop hret (by rw [hu4]; decide) (by rw [hsp4]; exact hpop)
  rw [h5] at hx; injection hx with hx; subst hx
  refine ⟨hr2', ?_, ?_⟩
  · have hadd : ∀ (m : Nat) (x y z : Machine D), nextN pf m x = some y → nextN pf 2 y = some z → nextN pf (m + 2) x = some z := by
      intro m
      induction m with
      | zero => intro x y z hxy hyz; injection hxy with hxy; subst hxy; exact hyz
      | succ m ih =>
        intro x y z hxy hyz
        rw [show m + 1 + 2 = (m + 2) + 1 by omega]
        unfold nextN at hxy ⊢
        cases hw : next pf x with
        | none => rw [hw] at hxy; cases hxy
        | some w => rw [hw] at hxy; exact ih w y z hxy hyz
    have h35 : nextN pf 2 s3 = some s5 := by
      unfold nextN; rw [h4]; show nextN pf 1 s4 = _; unfold nextN; rw [h5]; rfl
    have h25 := hadd k s2 s3 s5 hrun h35
    show nextN pf ((k + 2) + 1 + 1) s0 = _
    unfold nextN; rw [h1]; show nextN pf ((k + 2) + 1) s1 = _
    unfold nextN; rw [h2]; exact h25
  · rw [hr5]
    show assign _ 0x16 _ = _
    unfold assign
    rw [if_pos rfl, hsp4]
    unfold withStackPtr
    rw [hu4, hr4, BitVec.sub_add_cancel]
    rfl

namespace Demo

/-- `call 8`, `halt`, then the stub `itr 7`, `pop pc`, then the handler: `cpy rr0, 5` (its answer), `lsm 8`. -/
def stub : List Word :=
  [instrWord 0x1B false false false 0 8 0, instrWord 0x1E false false false 0 0 0, instrWord 0x10 false false false 7 0 0,
    instrWord 0x1A true false false 0x16 0 0, instrWord 0x01 true false false 13 0 5, instrWord 0x0F false false false 0 8 0]

/-- The machine that runs it, in userland, with its stack at the end of the RAM. -/
def stubUser : Machine Dev := { start stub with regs := { startup with smt := 0, ev := 16, usp := 0x80 } }

/-- Its components once the return address is on the stack, in word 15 of the RAM. -/
def stubDevs : List Dev :=
  match devices stub with
  | [a, .inr r] => [a, .inr { r with storage := r.storage.set 15 4 }]
  | l => l

/-- The machine at some point of this run, after the call. -/
def stubAt (pc : Word) (smt usp et : Word) (answer : Word) (cycles : U128) (changedPc : Bool) : Machine Dev :=
  { start stub with
    regs := setReg { startup with smt := smt, ev := 16, usp := usp, pc := pc, et := et } 13 answer
    devs := stubDevs, cycles := cycles, changedPc := changedPc }

end Demo

/-- The hypotheses hold on a machine with a boot ROM and a RAM: the program goes on at 4 with the handler's answer. -/
example : ∃ s5, nextN .debug 5 Demo.stubUser = some s5 ∧ s5.regs.pc = 4 ∧ s5.regs.usp = 0x80 ∧ s5.regs.smt = 0 ∧
    reg s5.regs 13 = 5 := by
  obtain ⟨_, h, h'⟩ := C111_stub_partial (pf := .debug) (s0 := Demo.stubUser) (a := 8) (k := 1) (r0 := false) (r1 := false)
    (r2 := false) (m0 := 0) (m1 := 8) (m2 := 0) (b1 := false) (b2 := false) (n := 7) (n1 := 0) (n2 := 0) (q0 := false)
    (l1 := false) (l2 := false) (t0 := 0) (t1 := 8) (t2 := 0) (d1 := true) (d2 := false) (d3 := false) (e1 := 0) (e2 := 0)
    (devs0 := Demo.devices Demo.stub) (devs1 := Demo.stubDevs) (devs2 := Demo.stubDevs) (devs3 := Demo.stubDevs)
    (devs4 := Demo.stubDevs) (devs5 := Demo.stubDevs)
    (s1 := Demo.stubAt 8 0 0x7C 0 0 1 true) (s2 := Demo.stubAt 16 1 0x7C 0xF00007 0 2 true)
    (s3 := Demo.stubAt 20 1 0x7C 0xF00007 5 3 false) (s4 := Demo.stubAt 12 0 0x7C 0xF00007 5 4 false)
    (s5 := Demo.stubAt 4 0 0x80 0xF00007 5 5 true)
    (by rfl) (fun _ => by decide) ⟨by rfl, by rfl⟩ (by rfl) (by rfl) (by rfl) ⟨by rfl, by rfl⟩ (by rfl) (by rfl) (by rfl)
    (by rfl) ⟨by rfl, by rfl⟩ (by rfl) (by rfl) ⟨by rfl, by rfl⟩ (by rfl) (by rfl)
  exact ⟨_, h, by rw [h']; rfl, by rw [h']; rfl, by rw [h'], by rw [h']; rfl⟩

end Lrvm
