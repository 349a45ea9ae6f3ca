import Verif.Props.Control

/-!
# Loads, stores, swaps and the stack instructions: C23, C29, C30, C31, C33, C35
-/

namespace Lrvm

open Spec

variable {D : Type} [Bus D] {pf : Profile}

/-! ### Memory accesses of an instruction -/

theorem load_at {s : Machine D} {devs devs1 devs' : List D} {v w : Word} (h : Loads pf s devs v w devs') :
    cpuRead pf v { atExec s devs1 with devs := devs } = .ok w { atExec s devs1 with devs := devs' } :=
  h.at (r := s.regs) (c := s.cycles + 1) (cp := false)

theorem store_at {s : Machine D} {devs devs1 devs' : List D} {v w : Word} (h : Stores pf s devs v w devs') :
    cpuWrite pf v w { atExec s devs1 with devs := devs } = .ok () { atExec s devs1 with devs := devs' } :=
  h.at (r := s.regs) (c := s.cycles + 1) (cp := false)

theorem toOut_ex {s t : Machine D} {x : Acc D α} (h : x.toOut s = .ex t) :
    ∃ c d devs, x = .fault c d devs ∧ t = { s with devs := devs }.exception c d := by
  cases x with
  | done b devs => cases h
  | fault c d devs => injection h with h; exact ⟨c, d, devs, rfl, h.symm⟩
  | panic => cases h

theorem loadFault_at {s : Machine D} {devs devs1 devs' : List D} {v : Word} {c d : Nat}
    (h : LoadFaults pf s devs v c d devs') :
    ∃ c' d', cpuRead pf v { atExec s devs1 with devs := devs } =
      .ex ({ atExec s devs1 with devs := devs' }.exception c' d') ∧
      trap s.regs c'.toNat d'.toNat = trap s.regs c d := by
  obtain ⟨t, h, hr, rfl⟩ := h
  rw [cpuRead_eq] at h
  obtain ⟨c', d', devs2, hx, rfl⟩ := toOut_ex h
  rw [exception_regs] at hr
  refine ⟨c', d', ?_, hr⟩
  rw [cpuRead_eq]
  show (accRead pf s.regs s.mappings devs v).toOut _ = _
  rw [show accRead pf s.regs s.mappings devs v = _ from hx]; rfl

theorem storeFault_at {s : Machine D} {devs devs1 devs' : List D} {v w : Word} {c d : Nat}
    (h : StoreFaults pf s devs v w c d devs') :
    ∃ c' d', cpuWrite pf v w { atExec s devs1 with devs := devs } =
      .ex ({ atExec s devs1 with devs := devs' }.exception c' d') ∧
      trap s.regs c'.toNat d'.toNat = trap s.regs c d := by
  obtain ⟨t, h, hr, rfl⟩ := h
  rw [cpuWrite_eq] at h
  obtain ⟨c', d', devs2, hx, rfl⟩ := toOut_ex h
  rw [exception_regs] at hr
  refine ⟨c', d', ?_, hr⟩
  rw [cpuWrite_eq]
  show (accWrite pf s.regs s.mappings devs v w).toOut _ = _
  rw [show accWrite pf s.regs s.mappings devs v w = _ from hx]; rfl

/-! ## C29 -/

/-- **C29**, LSA: the destination receives the word at `addr + add` (modulo `2 ^ 32`); nothing else changes but
`pc`. -/
theorem C29_lsa {s : Machine D} {devs devs' : List D} {r0 r1 r2 : Bool} {p0 p1 p2 : U8} {addr add w : Word}
    (hf : Fetches pf s (instrWord 0x14 r0 r1 r2 p0 p1 p2) devs)
    (ha : Val1 s.regs r1 p1 addr) (hb : Val1 s.regs r2 p2 add)
    (hw : mayWrite (supervisor s.regs) p0.toNat = true)
    (hl : Loads pf s devs (addr + add) w devs') :
    Steps pf s (assign s.regs p0.toNat w) devs' := by
  have := steps_ok (cp := if p0 = 0x16#8 then true else false) (devs' := devs')
    (r := setReg s.regs p0.toNat w) hf (by
      show execLsa pf _ _ = _
      unfold execLsa
      rw [M.bind_ok (regOrLit1_val (s := atExec s devs) ha),
        M.bind_ok (regOrLit1_val (s := atExec s devs) hb)]
      refine (M.bind_ok (load_at (devs1 := devs) hl)).trans ?_
      exact writeReg_val (s := { atExec s devs with devs := devs' }) w hw)
  rwa [assign_eq] at this

/-- **C29**, LEA: `avr` receives the word at `addr + add * mul` (modulo `2 ^ 32`). -/
theorem C29_lea {s : Machine D} {devs devs' : List D} {r0 r1 r2 : Bool} {p0 p1 p2 : U8}
    {addr add mul w : Word}
    (hf : Fetches pf s (instrWord 0x15 r0 r1 r2 p0 p1 p2) devs)
    (ha : Val1 s.regs r0 p0 addr) (hb : Val1 s.regs r1 p1 add) (hc : Val1 s.regs r2 p2 mul)
    (hl : Loads pf s devs (addr + add * mul) w devs') :
    Steps pf s (advance { s.regs with avr := w }) devs' := by
  refine steps_ok (cp := false) (devs' := devs') (r := { s.regs with avr := w }) hf ?_
  show execLea pf _ _ = _
  unfold execLea
  rw [M.bind_ok (regOrLit1_val (s := atExec s devs) ha),
    M.bind_ok (regOrLit1_val (s := atExec s devs) hb), M.bind_ok (regOrLit1_val (s := atExec s devs) hc)]
  exact (M.bind_ok (load_at (devs1 := devs) hl)).trans rfl

/-- Non-vacuity: `LEA 0x44, 2, 4` reads the RAM of the example machine at `0x4C`. -/
example : Fetches .debug (Demo.run1 startup (instrWord 0x15 false false false 0x44 2 4)) (instrWord 0x15
    false false false 0x44 2 4) (Demo.devices [instrWord 0x15 false false false 0x44 2 4]) ∧
    (Val1 startup false 0x44 0x44 ∧ Val1 startup false 2 2 ∧ Val1 startup false 4 4) ∧
    Loads .debug (Demo.run1 startup (instrWord 0x15 false false false 0x44 2 4)) (Demo.devices [instrWord
      0x15 false false false 0x44 2 4]) (0x44 + 2 * 4) 0 (Demo.devices [instrWord 0x15 false false false
      0x44 2 4]) :=
  ⟨Demo.run1_fetches _ _ rfl rfl, ⟨rfl, rfl, rfl⟩, rfl⟩

/-- **C29**, WSA: the value is written at `addr + add` (modulo `2 ^ 32`); no register changes but `pc`. -/
theorem C29_wsa {s : Machine D} {devs devs' : List D} {r0 r1 r2 : Bool} {p0 p1 p2 : U8}
    {addr add val : Word}
    (hf : Fetches pf s (instrWord 0x16 r0 r1 r2 p0 p1 p2) devs)
    (ha : Val1 s.regs r0 p0 addr) (hb : Val1 s.regs r1 p1 add) (hc : Val1 s.regs r2 p2 val)
    (hl : Stores pf s devs (addr + add) val devs') :
    Steps pf s (advance s.regs) devs' := by
  refine steps_ok (cp := false) (devs' := devs') (r := s.regs) hf ?_
  show execWsa pf _ _ = _
  unfold execWsa
  rw [M.bind_ok (regOrLit1_val (s := atExec s devs) ha),
    M.bind_ok (regOrLit1_val (s := atExec s devs) hb), M.bind_ok (regOrLit1_val (s := atExec s devs) hc)]
  exact store_at (devs1 := devs) hl

/-- Non-vacuity: `WSA 0x44, 0, 7`. -/
example : ∃ devs', Fetches .debug (Demo.run1 startup (instrWord 0x16 false false false 0x44 0 7))
    (instrWord 0x16 false false false 0x44 0 7) (Demo.devices [instrWord 0x16 false false false 0x44 0 7])
    ∧
    Val1 startup false 7 7 ∧
    Stores .debug (Demo.run1 startup (instrWord 0x16 false false false 0x44 0 7)) (Demo.devices [instrWord
      0x16 false false false 0x44 0 7]) (0x44 + 0) 7 devs' :=
  ⟨_, Demo.run1_fetches _ _ rfl rfl, rfl, rfl⟩

/-- **C29**, WEA: `avr` is written at `addr + add * mul` (modulo `2 ^ 32`). -/
theorem C29_wea {s : Machine D} {devs devs' : List D} {r0 r1 r2 : Bool} {p0 p1 p2 : U8}
    {addr add mul : Word}
    (hf : Fetches pf s (instrWord 0x17 r0 r1 r2 p0 p1 p2) devs)
    (ha : Val1 s.regs r0 p0 addr) (hb : Val1 s.regs r1 p1 add) (hc : Val1 s.regs r2 p2 mul)
    (hl : Stores pf s devs (addr + add * mul) s.regs.avr devs') :
    Steps pf s (advance s.regs) devs' := by
  refine steps_ok (cp := false) (devs' := devs') (r := s.regs) hf ?_
  show execWea pf _ _ = _
  unfold execWea
  rw [M.bind_ok (regOrLit1_val (s := atExec s devs) ha),
    M.bind_ok (regOrLit1_val (s := atExec s devs) hb), M.bind_ok (regOrLit1_val (s := atExec s devs) hc)]
  exact store_at (devs1 := devs) hl

/-- Non-vacuity: `WEA 0x44, 2, 4` with `avr = 9`. -/
example : ∃ devs', Fetches .debug (Demo.run1 { startup with avr := 9 } (instrWord 0x17 false false false
    0x44 2 4)) (instrWord 0x17 false false false 0x44 2 4) (Demo.devices [instrWord 0x17 false false false
    0x44 2 4]) ∧
    Stores .debug (Demo.run1 { startup with avr := 9 } (instrWord 0x17 false false false 0x44 2 4))
      (Demo.devices [instrWord 0x17 false false false 0x44 2 4]) (0x44 + 2 * 4) 9 devs' :=
  ⟨_, Demo.run1_fetches _ _ rfl rfl, rfl⟩

/-- **C29**, a load whose access faults only raises that exception. -/
theorem C29_load_fault {s : Machine D} {devs devs' : List D} {r0 r1 r2 : Bool} {p0 p1 p2 : U8}
    {addr add : Word} {c d : Nat}
    (hf : Fetches pf s (instrWord 0x14 r0 r1 r2 p0 p1 p2) devs)
    (ha : Val1 s.regs r1 p1 addr) (hb : Val1 s.regs r2 p2 add)
    (hl : LoadFaults pf s devs (addr + add) c d devs') :
    Steps pf s (trap s.regs c d) devs' := by
  obtain ⟨c', d', hx, ht⟩ := loadFault_at (devs1 := devs) hl
  rw [← ht]
  refine steps_ex (cp := false) (devs' := devs') (r := s.regs) hf ?_
  show execLsa pf _ _ = _
  unfold execLsa
  rw [M.bind_ok (regOrLit1_val (s := atExec s devs) ha),
    M.bind_ok (regOrLit1_val (s := atExec s devs) hb)]
  exact M.bind_ex hx

/-- Non-vacuity: `LSA a0, 0x42, 0` is not aligned. -/
example : Fetches .debug (Demo.run1 startup (instrWord 0x14 false false false 0 0x42 0)) (instrWord 0x14
    false false false 0 0x42 0) (Demo.devices [instrWord 0x14 false false false 0 0x42 0]) ∧
    (Val1 startup false 0x42 0x42 ∧ Val1 startup false 0 0) ∧
    LoadFaults .debug (Demo.run1 startup (instrWord 0x14 false false false 0 0x42 0)) (Demo.devices
      [instrWord 0x14 false false false 0 0x42 0]) (0x42 + 0) 0x05 2 (Demo.devices [instrWord 0x14 false
      false false 0 0x42 0]) :=
  ⟨Demo.run1_fetches _ _ rfl rfl, ⟨rfl, rfl⟩, _, rfl, by decide +kernel, rfl⟩

/-- **C29**, a store whose access faults only raises that exception. -/
theorem C29_store_fault {s : Machine D} {devs devs' : List D} {r0 r1 r2 : Bool} {p0 p1 p2 : U8}
    {addr add val : Word} {c d : Nat}
    (hf : Fetches pf s (instrWord 0x16 r0 r1 r2 p0 p1 p2) devs)
    (ha : Val1 s.regs r0 p0 addr) (hb : Val1 s.regs r1 p1 add) (hc : Val1 s.regs r2 p2 val)
    (hl : StoreFaults pf s devs (addr + add) val c d devs') :
    Steps pf s (trap s.regs c d) devs' := by
  obtain ⟨c', d', hx, ht⟩ := storeFault_at (devs1 := devs) hl
  rw [← ht]
  refine steps_ex (cp := false) (devs' := devs') (r := s.regs) hf ?_
  show execWsa pf _ _ = _
  unfold execWsa
  rw [M.bind_ok (regOrLit1_val (s := atExec s devs) ha),
    M.bind_ok (regOrLit1_val (s := atExec s devs) hb), M.bind_ok (regOrLit1_val (s := atExec s devs) hc)]
  exact hx

/-- **C29**, LEA whose access faults only raises that exception; in particular `avr` is kept. -/
theorem C29_lea_fault {s : Machine D} {devs devs' : List D} {r0 r1 r2 : Bool} {p0 p1 p2 : U8}
    {addr add mul : Word} {c d : Nat}
    (hf : Fetches pf s (instrWord 0x15 r0 r1 r2 p0 p1 p2) devs)
    (ha : Val1 s.regs r0 p0 addr) (hb : Val1 s.regs r1 p1 add) (hc : Val1 s.regs r2 p2 mul)
    (hl : LoadFaults pf s devs (addr + add * mul) c d devs') :
    Steps pf s (trap s.regs c d) devs' := by
  obtain ⟨c', d', hx, ht⟩ := loadFault_at (devs1 := devs) hl
  rw [← ht]
  refine steps_ex (cp := false) (devs' := devs') (r := s.regs) hf ?_
  show execLea pf _ _ = _
  unfold execLea
  rw [M.bind_ok (regOrLit1_val (s := atExec s devs) ha),
    M.bind_ok (regOrLit1_val (s := atExec s devs) hb), M.bind_ok (regOrLit1_val (s := atExec s devs) hc)]
  exact M.bind_ex hx

/-- **C29**, WEA whose access faults only raises that exception. -/
theorem C29_wea_fault {s : Machine D} {devs devs' : List D} {r0 r1 r2 : Bool} {p0 p1 p2 : U8}
    {addr add mul : Word} {c d : Nat}
    (hf : Fetches pf s (instrWord 0x17 r0 r1 r2 p0 p1 p2) devs)
    (ha : Val1 s.regs r0 p0 addr) (hb : Val1 s.regs r1 p1 add) (hc : Val1 s.regs r2 p2 mul)
    (hl : StoreFaults pf s devs (addr + add * mul) s.regs.avr c d devs') :
    Steps pf s (trap s.regs c d) devs' := by
  obtain ⟨c', d', hx, ht⟩ := storeFault_at (devs1 := devs) hl
  rw [← ht]
  refine steps_ex (cp := false) (devs' := devs') (r := s.regs) hf ?_
  show execWea pf _ _ = _
  unfold execWea
  rw [M.bind_ok (regOrLit1_val (s := atExec s devs) ha),
    M.bind_ok (regOrLit1_val (s := atExec s devs) hb), M.bind_ok (regOrLit1_val (s := atExec s devs) hc)]
  exact hx

/-- `LSA a0, 0x44, 4` on the RAM of the example machine. -/
example : Fetches .debug (Demo.run1 startup (instrWord 0x14 false false false 0 0x44 4))
      (instrWord 0x14 false false false 0 0x44 4) (Demo.devices [instrWord 0x14 false false false 0 0x44 4]) ∧
    Val1 startup false 0x44 0x44 ∧ Val1 startup false 4 4 ∧
    Loads .debug (Demo.run1 startup (instrWord 0x14 false false false 0 0x44 4))
      (Demo.devices [instrWord 0x14 false false false 0 0x44 4]) (0x44 + 4) 0
      (Demo.devices [instrWord 0x14 false false false 0 0x44 4]) :=
  ⟨Demo.run1_fetches _ _ rfl rfl, rfl, rfl, rfl⟩

/-- `WSA 0x42, 0, 7`: unaligned. -/
example : StoreFaults .debug (Demo.run1 startup (instrWord 0x16 false false false 0x42 0 7))
      (Demo.devices [instrWord 0x16 false false false 0x42 0 7]) (0x42 + 0) 7 0x05 2
      (Demo.devices [instrWord 0x16 false false false 0x42 0 7]) := ⟨_, rfl, by decide +kernel, rfl⟩

/-! ## C30 -/

/-- **C30**, partial. When the address sum does not overflow (or in a release build, where it wraps), both
accesses succeed and the register may be written, SRM leaves the old word in the register and writes the old
register value in memory, and changes nothing else but `pc`. Missing: the register write is checked after the
memory write (`C30_half_swap_refuted`). -/
theorem C30_srm_partial {s : Machine D} {devs devs1 devs' : List D} {r0 r1 r2 : Bool} {p0 p1 p2 : U8}
    {addr add w : Word}
    (hf : Fetches pf s (instrWord 0x18 r0 r1 r2 p0 p1 p2) devs)
    (ha : Val1 s.regs r0 p0 addr) (hb : Val1 s.regs r1 p1 add)
    (hov : pf = .debug → addr.toNat + add.toNat < 2 ^ 32)
    (hl : Loads pf s devs (addr + add) w devs1)
    (hs : Stores pf s devs1 (addr + add) (reg s.regs p2.toNat) devs')
    (hw : mayWrite (supervisor s.regs) p2.toNat = true) :
    Steps pf s (assign s.regs p2.toNat w) devs' := by
  have hadd : pf.add addr add = some (addr + add) := by
    cases pf with
    | release => rfl
    | debug => exact if_pos (hov rfl)
  have := steps_ok (cp := if p2 = 0x16#8 then true else false) (devs' := devs')
    (r := setReg s.regs p2.toNat w) hf (by
      show execSrm pf _ _ = _
      unfold execSrm
      rw [M.bind_ok (regOrLit1_val (s := atExec s devs) ha),
        M.bind_ok (regOrLit1_val (s := atExec s devs) hb)]
      simp only [hadd]
      rw [liftRes_some_bind]
      refine (M.bind_ok (load_at (devs1 := devs) hl)).trans ?_
      refine (M.bind_ok (readReg_val (s := { atExec s devs with devs := devs1 })
        (mayRead_of_mayWrite hw))).trans ?_
      rw [liftRes_some_bind]
      refine (M.bind_ok (store_at (devs1 := devs) hs)).trans ?_
      exact writeReg_val (s := { atExec s devs with devs := devs' }) w hw)
  rwa [assign_eq] at this

/-- The full claim is false of the code: `SRM 0x44, 0, af` raises an exception because `af` may not be written,
but has already overwritten the memory word with `af`. -/
theorem C30_half_swap_refuted : ∃ s s' : Machine Demo.Dev,
    Fetches .debug s (instrWord 0x18 false false false 0x44 0 0x17) s.devs ∧ next .debug s = some s' ∧
    s'.regs = trap s.regs 0x04 0x17 ∧
    Loads .debug s s.devs 0x44 0 s.devs ∧ Loads .debug s' s'.devs 0x44 0xC0 s'.devs :=
  ⟨Demo.run1 { startup with af := 0xC0 } (instrWord 0x18 false false false 0x44 0 0x17), _,
    Demo.run1_fetches _ _ rfl rfl, rfl, rfl, rfl, rfl⟩

/-- `SRM 0x44, 0, a1`. -/
example : ∃ devs', Fetches .debug (Demo.run1 (setReg startup 1 7) (instrWord 0x18 false false false 0x44 0 1))
      (instrWord 0x18 false false false 0x44 0 1) (Demo.devices [instrWord 0x18 false false false 0x44 0 1]) ∧
    Loads .debug (Demo.run1 (setReg startup 1 7) (instrWord 0x18 false false false 0x44 0 1))
      (Demo.devices [instrWord 0x18 false false false 0x44 0 1]) (0x44 + 0) 0
      (Demo.devices [instrWord 0x18 false false false 0x44 0 1]) ∧
    Stores .debug (Demo.run1 (setReg startup 1 7) (instrWord 0x18 false false false 0x44 0 1))
      (Demo.devices [instrWord 0x18 false false false 0x44 0 1]) (0x44 + 0) 7 devs' :=
  ⟨_, Demo.run1_fetches _ _ rfl rfl, rfl, rfl⟩

/-! ## C31 -/

/-- **C31**, partial. When both registers may be written (the second one in the mode in effect after the first
write: exchanging `smt` may change the mode), EX exchanges them and changes nothing else but `pc`, which
advances unless it is one of the two. Missing: all-or-nothing (`C31_half_exchange_refuted`). -/
theorem C31_ex_partial {s : Machine D} {devs : List D} {r0 r1 r2 : Bool} {p0 p1 p2 : U8}
    (hf : Fetches pf s (instrWord 0x02 r0 r1 r2 p0 p1 p2) devs)
    (ha : mayWrite (supervisor s.regs) p0.toNat = true)
    (hb : mayRead (supervisor s.regs) p1.toNat = true)
    (hb' : mayWrite (supervisor (setReg s.regs p0.toNat (reg s.regs p1.toNat))) p1.toNat = true) :
    let r := setReg (setReg s.regs p0.toNat (reg s.regs p1.toNat)) p1.toNat (reg s.regs p0.toNat)
    reg r p0.toNat = reg s.regs p1.toNat ∧ reg r p1.toNat = reg s.regs p0.toNat ∧
    (∀ n, n < 32 → n ≠ p0.toNat → n ≠ p1.toNat → reg r n = reg s.regs n) ∧
    Steps pf s (if p0.toNat = 0x16 ∨ p1.toNat = 0x16 then r else advance r) devs := by
  intro r
  have h0 := mayWrite_lt ha
  have h1 := mayWrite_lt hb'
  refine ⟨?_, reg_setReg_same _ _ _ h1, ?_, ?_⟩
  · by_cases he : p1.toNat = p0.toNat
    · simp only [r, he]; exact reg_setReg_same _ _ _ h0
    · simp only [r]
      rw [reg_setReg_ne _ _ _ _ h1 h0 he, reg_setReg_same _ _ _ h0]
  · intro n hn hn0 hn1
    simp only [r]
    rw [reg_setReg_ne _ _ _ _ h1 hn (fun e => hn1 e.symm), reg_setReg_ne _ _ _ _ h0 hn (fun e => hn0 e.symm)]
  · have e0 : p0 = 0x16#8 ↔ p0.toNat = 0x16 := BitVec.toNat_eq
    have e1 : p1 = 0x16#8 ↔ p1.toNat = 0x16 := BitVec.toNat_eq
    have hst := steps_ok (cp := if p1 = 0x16#8 then true else if p0 = 0x16#8 then true else false)
      (devs' := devs) (r := r) hf (by
        show execEx _ _ = _
        unfold execEx
        rw [M.bind_ok (readReg_val (s := atExec s devs) (mayRead_of_mayWrite ha)),
          M.bind_ok (readReg_val (s := atExec s devs) hb)]
        refine (M.bind_ok (writeReg_val (s := atExec s devs) _ ha)).trans ?_
        exact writeReg_val (s := { atExec s devs with
          regs := setReg s.regs p0.toNat (reg s.regs p1.toNat),
          changedPc := if p0 = 0x16#8 then true else false }) _ hb')
    simp only [e0, e1] at hst
    by_cases hp0 : p0.toNat = 0x16 <;> by_cases hp1 : p1.toNat = 0x16 <;> simpa [hp0, hp1] using hst

/-- The full claim is false of the code: `EX a0, af` raises an exception, having already changed `a0`. -/
theorem C31_half_exchange_refuted : ∃ s s' : Machine Demo.Dev,
    Fetches .debug s (instrWord 0x02 false false false 0 0x17 0) s.devs ∧ next .debug s = some s' ∧
    reg s.regs 0 = 5 ∧ s'.regs = trap (setReg s.regs 0 0xC0) 0x04 0x17 :=
  ⟨Demo.run1 { setReg startup 0 5 with af := 0xC0 } (instrWord 0x02 false false false 0 0x17 0), _,
    Demo.run1_fetches _ _ rfl rfl, rfl, rfl, rfl⟩

example : Fetches .debug (Demo.run1 (setReg startup 0 5) (instrWord 0x02 false false false 0 9 0))
      (instrWord 0x02 false false false 0 9 0) (Demo.devices [instrWord 0x02 false false false 0 9 0]) ∧
    mayWrite true 0 = true ∧ mayWrite true 9 = true := ⟨Demo.run1_fetches _ _ rfl rfl, rfl, rfl⟩

/-! ## PUSH, POP, CALL -/

theorem setSp_apply (s : Machine D) (v : Word) :
    setSp v s = .ok () { s with regs := withStackPtr s.regs v } := by
  unfold setSp withStackPtr
  rw [modifyM_apply, svMode_eq]
  cases supervisor s.regs <;> rfl

theorem sp_eq (s : Machine D) : s.sp = stackPtr s.regs := rfl

/-- **C33** (with C32, C34, C35), PUSH: the word is written 4 below the current mode's stack pointer, which then
points to it; nothing else changes but `pc`. -/
theorem C33_push {s : Machine D} {devs devs' : List D} {r0 r1 r2 : Bool} {p0 p1 p2 : U8} {w : Word}
    (hf : Fetches pf s (instrWord 0x19 r0 r1 r2 p0 p1 p2) devs) (hv : Val2 s.regs r0 p0 p1 w)
    (hs : Stores pf s devs (stackPtr s.regs - 4) w devs') :
    Steps pf s (advance (withStackPtr s.regs (stackPtr s.regs - 4))) devs' := by
  refine steps_ok (cp := false) (devs' := devs') (r := withStackPtr s.regs (stackPtr s.regs - 4)) hf ?_
  show execPush pf _ _ = _
  unfold execPush
  rw [M.bind_ok (regOrLit2_val (s := atExec s devs) hv), getsM_bind]
  refine (M.bind_ok (store_at (devs1 := devs) hs)).trans ?_
  exact setSp_apply ..

/-- **C33**, PUSH whose memory access fails: only the exception; in particular the stack pointers are
unchanged. -/
theorem C33_push_fault {s : Machine D} {devs devs' : List D} {r0 r1 r2 : Bool} {p0 p1 p2 : U8} {w : Word}
    {c d : Nat}
    (hf : Fetches pf s (instrWord 0x19 r0 r1 r2 p0 p1 p2) devs) (hv : Val2 s.regs r0 p0 p1 w)
    (hs : StoreFaults pf s devs (stackPtr s.regs - 4) w c d devs') :
    Steps pf s (trap s.regs c d) devs' := by
  obtain ⟨c', d', hx, ht⟩ := storeFault_at (devs1 := devs) hs
  rw [← ht]
  refine steps_ex (cp := false) (devs' := devs') (r := s.regs) hf ?_
  show execPush pf _ _ = _
  unfold execPush
  rw [M.bind_ok (regOrLit2_val (s := atExec s devs) hv), getsM_bind]
  exact M.bind_ex hx

theorem pop_eval {s : Machine D} {devs devs' : List D} {f : Fields} {w : Word}
    (hl : Loads pf s devs (stackPtr s.regs) w devs') :
    execPop pf f (atExec s devs) = writeReg f.p0 w
      { atExec s devs with devs := devs', regs := withStackPtr s.regs (stackPtr s.regs + 4) } := by
  unfold execPop
  rw [getsM_bind]
  unfold stackPtr withStackPtr at *
  rw [svMode_eq, show (atExec s devs).regs = s.regs from rfl]
  cases hsv : supervisor s.regs with
  | true =>
    rw [hsv] at hl
    simp only [if_true] at hl ⊢
    refine M.bind_ok (a := w) ?_
    rw [getsM_bind]
    exact (M.bind_ok (load_at (devs1 := devs) hl)).trans rfl
  | false =>
    rw [hsv] at hl
    simp only [Bool.false_eq_true, if_false] at hl ⊢
    refine M.bind_ok (a := w) ?_
    rw [getsM_bind]
    exact (M.bind_ok (load_at (devs1 := devs) hl)).trans rfl

theorem supervisor_withStackPtr (r : Regs) (v : Word) : supervisor (withStackPtr r v) = supervisor r := by
  unfold withStackPtr; split <;> rfl

/-- **C33** (with C32, C34, C35), POP: the stack pointer moves up by 4 and the destination receives the word it
pointed to. -/
theorem C33_pop {s : Machine D} {devs devs' : List D} {r0 r1 r2 : Bool} {p0 p1 p2 : U8} {w : Word}
    (hf : Fetches pf s (instrWord 0x1A r0 r1 r2 p0 p1 p2) devs)
    (hw : mayWrite (supervisor s.regs) p0.toNat = true)
    (hl : Loads pf s devs (stackPtr s.regs) w devs') :
    Steps pf s (assign (withStackPtr s.regs (stackPtr s.regs + 4)) p0.toNat w) devs' := by
  have := steps_ok (cp := if p0 = 0x16#8 then true else false) (devs' := devs')
    (r := setReg (withStackPtr s.regs (stackPtr s.regs + 4)) p0.toNat w) hf (by
      show execPop pf _ _ = _
      rw [pop_eval hl]
      exact writeReg_val (s := { atExec s devs with devs := devs', regs := _ }) w
        (by rw [supervisor_withStackPtr]; exact hw))
  rwa [assign_eq] at this

/-- Non-vacuity: `POP a3` with the stack pointer in RAM. -/
example : Fetches .debug (Demo.run1 { startup with ssp := 0x48 } (instrWord 0x1A false false false 3 0 0))
    (instrWord 0x1A false false false 3 0 0) (Demo.devices [instrWord 0x1A false false false 3 0 0]) ∧
    mayWrite (supervisor { startup with ssp := 0x48 }) 3 = true ∧
    Loads .debug (Demo.run1 { startup with ssp := 0x48 } (instrWord 0x1A false false false 3 0 0))
      (Demo.devices [instrWord 0x1A false false false 3 0 0]) (stackPtr { startup with ssp := 0x48 }) 0
      (Demo.devices [instrWord 0x1A false false false 3 0 0]) :=
  ⟨Demo.run1_fetches _ _ rfl rfl, rfl, rfl⟩

/-- **C33**, POP whose memory access fails. -/
theorem C33_pop_fault {s : Machine D} {devs devs' : List D} {r0 r1 r2 : Bool} {p0 p1 p2 : U8} {c d : Nat}
    (hf : Fetches pf s (instrWord 0x1A r0 r1 r2 p0 p1 p2) devs)
    (hl : LoadFaults pf s devs (stackPtr s.regs) c d devs') :
    Steps pf s (trap s.regs c d) devs' := by
  obtain ⟨c', d', hx, ht⟩ := loadFault_at (devs1 := devs) hl
  rw [← ht]
  refine steps_ex (cp := false) (devs' := devs') (r := s.regs) hf ?_
  show execPop pf _ _ = _
  unfold execPop
  rw [getsM_bind]
  unfold stackPtr at hx
  rw [svMode_eq, show (atExec s devs).regs = s.regs from rfl]
  cases hsv : supervisor s.regs with
  | true =>
    rw [hsv] at hx
    simp only [if_true] at hx ⊢
    refine M.bind_ex ?_
    rw [getsM_bind]
    exact M.bind_ex hx
  | false =>
    rw [hsv] at hx
    simp only [Bool.false_eq_true, if_false] at hx ⊢
    refine M.bind_ex ?_
    rw [getsM_bind]
    exact M.bind_ex hx

/-- Non-vacuity: `POP a3` with an unaligned stack pointer. -/
example : Fetches .debug (Demo.run1 { startup with ssp := 0x42 } (instrWord 0x1A false false false 3 0 0))
    (instrWord 0x1A false false false 3 0 0) (Demo.devices [instrWord 0x1A false false false 3 0 0]) ∧
    LoadFaults .debug (Demo.run1 { startup with ssp := 0x42 } (instrWord 0x1A false false false 3 0 0))
      (Demo.devices [instrWord 0x1A false false false 3 0 0]) (stackPtr { startup with ssp := 0x42 }) 0x05
      2 (Demo.devices [instrWord 0x1A false false false 3 0 0]) :=
  ⟨Demo.run1_fetches _ _ rfl rfl, _, rfl, by decide +kernel, rfl⟩

theorem retAddr (hov : pf = .debug → pc.toNat + 4 < 2 ^ 32) : pf.add pc 4 = some (pc + 4 : Word) := by
  cases pf with
  | release => rfl
  | debug => exact if_pos (hov rfl)

/-- **C33** (with C34, C35), CALL: the address of the following instruction is pushed and the CPU continues at
the target. In a debug build `pc + 4` must not overflow (C42). -/
theorem C33_call {s : Machine D} {devs devs' : List D} {r0 r1 r2 : Bool} {p0 p1 p2 : U8} {target : Word}
    (hf : Fetches pf s (instrWord 0x1B r0 r1 r2 p0 p1 p2) devs) (hv : Val2 s.regs r0 p0 p1 target)
    (hov : pf = .debug → s.regs.pc.toNat + 4 < 2 ^ 32)
    (hs : Stores pf s devs (stackPtr s.regs - 4) (s.regs.pc + 4) devs') :
    Steps pf s { withStackPtr s.regs (stackPtr s.regs - 4) with pc := target } devs' := by
  refine steps_ok (cp := true) (devs' := devs')
    (r := { withStackPtr s.regs (stackPtr s.regs - 4) with pc := target }) hf ?_
  show execCall pf _ _ = _
  unfold execCall
  rw [M.bind_ok (regOrLit2_val (s := atExec s devs) hv), getsM_bind, getsM_bind,
    show (atExec s devs).regs.pc = s.regs.pc from rfl, retAddr hov, liftRes_some_bind]
  refine (M.bind_ok (store_at (devs1 := devs) hs)).trans ?_
  refine (M.bind_ok (setSp_apply ..)).trans ?_
  rfl

/-- Non-vacuity: `CALL 0x20` with the stack in RAM. -/
example : ∃ devs', Fetches .debug (Demo.run1 { startup with ssp := 0x48 } (instrWord 0x1B false false
    false 0 0x20 0)) (instrWord 0x1B false false false 0 0x20 0) (Demo.devices [instrWord 0x1B false false
    false 0 0x20 0]) ∧
    (Val2 { startup with ssp := 0x48 } false 0 0x20 0x20 ∧ ({ startup with ssp := 0x48 } : Regs).pc.toNat
      + 4 < 2 ^ 32) ∧
    Stores .debug (Demo.run1 { startup with ssp := 0x48 } (instrWord 0x1B false false false 0 0x20 0))
      (Demo.devices [instrWord 0x1B false false false 0 0x20 0]) (stackPtr { startup with ssp := 0x48 } -
      4) (({ startup with ssp := 0x48 } : Regs).pc + 4) devs' :=
  ⟨_, Demo.run1_fetches _ _ rfl rfl, ⟨rfl, by decide⟩, rfl⟩

/-- **C33**, CALL whose memory access fails. -/
theorem C33_call_fault {s : Machine D} {devs devs' : List D} {r0 r1 r2 : Bool} {p0 p1 p2 : U8}
    {target : Word} {c d : Nat}
    (hf : Fetches pf s (instrWord 0x1B r0 r1 r2 p0 p1 p2) devs) (hv : Val2 s.regs r0 p0 p1 target)
    (hov : pf = .debug → s.regs.pc.toNat + 4 < 2 ^ 32)
    (hs : StoreFaults pf s devs (stackPtr s.regs - 4) (s.regs.pc + 4) c d devs') :
    Steps pf s (trap s.regs c d) devs' := by
  obtain ⟨c', d', hx, ht⟩ := storeFault_at (devs1 := devs) hs
  rw [← ht]
  refine steps_ex (cp := false) (devs' := devs') (r := s.regs) hf ?_
  show execCall pf _ _ = _
  unfold execCall
  rw [M.bind_ok (regOrLit2_val (s := atExec s devs) hv), getsM_bind, getsM_bind,
    show (atExec s devs).regs.pc = s.regs.pc from rfl, retAddr hov, liftRes_some_bind]
  exact M.bind_ex hx

/-- Non-vacuity: `CALL 0x20` with an unaligned stack pointer. -/
example : Fetches .debug (Demo.run1 { startup with ssp := 0x42 } (instrWord 0x1B false false false 0 0x20
    0)) (instrWord 0x1B false false false 0 0x20 0) (Demo.devices [instrWord 0x1B false false false 0 0x20
    0]) ∧
    StoreFaults .debug (Demo.run1 { startup with ssp := 0x42 } (instrWord 0x1B false false false 0 0x20
      0)) (Demo.devices [instrWord 0x1B false false false 0 0x20 0]) (stackPtr { startup with ssp := 0x42
      } - 4) (({ startup with ssp := 0x42 } : Regs).pc + 4) 0x05 2 (Demo.devices [instrWord 0x1B false
      false false 0 0x20 0]) :=
  ⟨Demo.run1_fetches _ _ rfl rfl, _, rfl, by decide +kernel, rfl⟩

/-- **C23**, RET (`POP pc`): the CPU continues at the address on top of the stack, which is removed. -/
theorem C23_ret {s : Machine D} {devs devs' : List D} {r0 r1 r2 : Bool} {p1 p2 : U8} {w : Word}
    (hf : Fetches pf s (instrWord 0x1A r0 r1 r2 0x16 p1 p2) devs)
    (hl : Loads pf s devs (stackPtr s.regs) w devs') :
    Steps pf s { withStackPtr s.regs (stackPtr s.regs + 4) with pc := w } devs' :=
  C33_pop (p0 := 0x16) hf (by
    show mayWrite (supervisor s.regs) 22 = true
    cases supervisor s.regs <;> rfl) hl

/-- Non-vacuity: `RET` with the stack pointer in RAM. -/
example : Fetches .debug (Demo.run1 { startup with ssp := 0x48 } (instrWord 0x1A false false false 0x16 0
    0)) (instrWord 0x1A false false false 0x16 0 0) (Demo.devices [instrWord 0x1A false false false 0x16 0
    0]) ∧
    Loads .debug (Demo.run1 { startup with ssp := 0x48 } (instrWord 0x1A false false false 0x16 0 0))
      (Demo.devices [instrWord 0x1A false false false 0x16 0 0]) (stackPtr { startup with ssp := 0x48 }) 0
      (Demo.devices [instrWord 0x1A false false false 0x16 0 0]) :=
  ⟨Demo.run1_fetches _ _ rfl rfl, rfl⟩

/-- `PUSH 0x1234` in userland. -/
example : ∃ devs', Fetches .debug (Demo.user [instrWord 0x19 false false false 0x12 0x34 0])
      (instrWord 0x19 false false false 0x12 0x34 0)
      (Demo.devices [instrWord 0x19 false false false 0x12 0x34 0]) ∧
    Stores .debug (Demo.user [instrWord 0x19 false false false 0x12 0x34 0])
      (Demo.devices [instrWord 0x19 false false false 0x12 0x34 0])
      (stackPtr (Demo.user [instrWord 0x19 false false false 0x12 0x34 0]).regs - 4) 0x1234 devs' :=
  ⟨_, ⟨rfl, rfl⟩, rfl⟩

/-- PUSH with the stack pointer in the boot ROM: the store is refused by the component. -/
example : ∃ c d devs', StoreFaults .debug (Demo.run1 { startup with ssp := 0x10 } 0)
      (Demo.devices [0]) (stackPtr { startup with ssp := 0x10 } - 4) 0x1234 c d devs' ∧ c = 0xA0 :=
  ⟨0xA0, 0x3100, _, ⟨_, rfl, by decide +kernel, rfl⟩, rfl⟩

end Lrvm
