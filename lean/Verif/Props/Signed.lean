import Verif.Props.Data

/-!
# Signed offsets and factors: C83

`docs/Architecture.md:509,515,522,527,532` says that the offset of LSA, LEA, WSA, WEA and SRM, and the factor of LEA and
WEA, are signed.
-/

namespace Lrvm

open Spec

namespace Spec

/-- The signed value of a parameter "register or constant on 1 byte": a constant counts from -128 to 127, a register is
a word (whose sum with an address is the same modulo `2 ^ 32`, signed or not). -/
def SignedVal1 (r : Regs) (isReg : Bool) (p : U8) (v : Int) : Prop :=
  if isReg then mayRead (supervisor r) p.toNat = true ∧ v = (reg r p.toNat).toInt
  else v = if p.toNat < 128 then (p.toNat : Int) else p.toNat - 256

/-- A parameter that is a register, or a constant that is not negative. -/
def NonNegative (isReg : Bool) (p : U8) : Prop := isReg = true ∨ p.toNat < 128

/-- A word plus an offset. -/
def offset (a : Word) (v : Int) : Word := BitVec.ofInt 32 (a.toNat + v)

end Spec

variable {D : Type} [Bus D] {pf : Profile}

theorem val1_signed {r : Regs} {isReg : Bool} {p : U8} {v : Int} (h : SignedVal1 r isReg p v) (hn : NonNegative isReg p) :
    Val1 r isReg p (BitVec.ofInt 32 v) := by
  unfold SignedVal1 at h
  unfold Val1
  cases isReg with
  | true =>
    rw [if_pos rfl] at h
    rw [if_pos rfl, h.2]
    exact ⟨h.1, by simp⟩
  | false =>
    have hp : p.toNat < 128 := by
      rcases hn with hn | hn
      · cases hn
      · exact hn
    rw [if_neg (by decide), if_pos hp] at h
    rw [if_neg (by decide), h]
    rfl

theorem offset_eq (a : Word) (v : Int) : offset a v = a + BitVec.ofInt 32 v := by
  unfold offset
  rw [BitVec.ofInt_add]
  congr 1
  apply BitVec.eq_of_toNat_eq
  simp

theorem ofInt_mul32 (v w : Int) : BitVec.ofInt 32 (v * w) = BitVec.ofInt 32 v * BitVec.ofInt 32 w := BitVec.ofInt_mul ..

/-- **C83**, LSA, partial: the word is read at the address plus the signed offset, unless the offset is a constant of 128
or more, that is a negative one (`C83_refuted`). -/
theorem C83_lsa_partial {s : Machine D} {devs devs' : List D} {r0 r1 r2 : Bool} {p0 p1 p2 : U8} {addr w : Word} {add : Int}
    (hf : Fetches pf s (instrWord 0x14 r0 r1 r2 p0 p1 p2) devs)
    (ha : Val1 s.regs r1 p1 addr) (hb : SignedVal1 s.regs r2 p2 add) (hn : NonNegative r2 p2)
    (hw : mayWrite (supervisor s.regs) p0.toNat = true)
    (hl : Loads pf s devs (offset addr add) w devs') :
    Steps pf s (assign s.regs p0.toNat w) devs' :=
  C29_lsa hf ha (val1_signed hb hn) hw (by rwa [offset_eq] at hl)

/-- **C83**, LEA, partial. -/
theorem C83_lea_partial {s : Machine D} {devs devs' : List D} {r0 r1 r2 : Bool} {p0 p1 p2 : U8} {addr w : Word}
    {add mul : Int} (hf : Fetches pf s (instrWord 0x15 r0 r1 r2 p0 p1 p2) devs)
    (ha : Val1 s.regs r0 p0 addr) (hb : SignedVal1 s.regs r1 p1 add) (hc : SignedVal1 s.regs r2 p2 mul)
    (hn : NonNegative r1 p1) (hm : NonNegative r2 p2)
    (hl : Loads pf s devs (offset addr (add * mul)) w devs') :
    Steps pf s (advance { s.regs with avr := w }) devs' :=
  C29_lea hf ha (val1_signed hb hn) (val1_signed hc hm) (by rwa [offset_eq, ofInt_mul32] at hl)

/-- Non-vacuity: `LEA a1, a2, 1` with `a2 = -4`. -/
example : Fetches .debug (Demo.run1 { setReg (setReg startup 1 0x50) 2 0xFFFFFFFC with avr := 9 }
    (instrWord 0x15 true true false 1 2 1)) (instrWord 0x15 true true false 1 2 1) (Demo.devices
    [instrWord 0x15 true true false 1 2 1]) ∧
    Val1 { setReg (setReg startup 1 0x50) 2 0xFFFFFFFC with avr := 9 } true 1 0x50 ∧
    (SignedVal1 { setReg (setReg startup 1 0x50) 2 0xFFFFFFFC with avr := 9 } true 2 (-4) ∧ NonNegative
      true 2) ∧
    (SignedVal1 { setReg (setReg startup 1 0x50) 2 0xFFFFFFFC with avr := 9 } false 1 1 ∧ NonNegative false 1) ∧
    Loads .debug (Demo.run1 { setReg (setReg startup 1 0x50) 2 0xFFFFFFFC with avr := 9 } (instrWord 0x15
      true true false 1 2 1)) (Demo.devices [instrWord 0x15 true true false 1 2 1]) (offset 0x50 (-4 * 1))
      0 (Demo.devices [instrWord 0x15 true true false 1 2 1]) :=
  ⟨Demo.run1_fetches _ _ rfl rfl, ⟨rfl, rfl⟩, ⟨⟨rfl, rfl⟩, .inl rfl⟩, ⟨rfl, .inr (by decide)⟩, rfl⟩

/-- **C83**, WSA, partial. -/
theorem C83_wsa_partial {s : Machine D} {devs devs' : List D} {r0 r1 r2 : Bool} {p0 p1 p2 : U8} {addr val : Word} {add : Int}
    (hf : Fetches pf s (instrWord 0x16 r0 r1 r2 p0 p1 p2) devs)
    (ha : Val1 s.regs r0 p0 addr) (hb : SignedVal1 s.regs r1 p1 add) (hn : NonNegative r1 p1)
    (hc : Val1 s.regs r2 p2 val) (hl : Stores pf s devs (offset addr add) val devs') :
    Steps pf s (advance s.regs) devs' :=
  C29_wsa hf ha (val1_signed hb hn) hc (by rwa [offset_eq] at hl)

/-- Non-vacuity: `WSA a1, a2, 7` with `a2 = -4` writes at `0x4C`. -/
example : ∃ devs', Fetches .debug (Demo.run1 { setReg (setReg startup 1 0x50) 2 0xFFFFFFFC with avr := 9 }
    (instrWord 0x16 true true false 1 2 7)) (instrWord 0x16 true true false 1 2 7) (Demo.devices
    [instrWord 0x16 true true false 1 2 7]) ∧
    Val1 { setReg (setReg startup 1 0x50) 2 0xFFFFFFFC with avr := 9 } true 1 0x50 ∧
    (SignedVal1 { setReg (setReg startup 1 0x50) 2 0xFFFFFFFC with avr := 9 } true 2 (-4) ∧ NonNegative
      true 2) ∧
    Val1 { setReg (setReg startup 1 0x50) 2 0xFFFFFFFC with avr := 9 } false 7 7 ∧
    Stores .debug (Demo.run1 { setReg (setReg startup 1 0x50) 2 0xFFFFFFFC with avr := 9 } (instrWord 0x16
      true true false 1 2 7)) (Demo.devices [instrWord 0x16 true true false 1 2 7]) (offset 0x50 (-4)) 7
      devs' :=
  ⟨_, Demo.run1_fetches _ _ rfl rfl, ⟨rfl, rfl⟩, ⟨⟨rfl, rfl⟩, .inl rfl⟩, rfl, rfl⟩

/-- **C83**, WEA, partial. -/
theorem C83_wea_partial {s : Machine D} {devs devs' : List D} {r0 r1 r2 : Bool} {p0 p1 p2 : U8} {addr : Word}
    {add mul : Int} (hf : Fetches pf s (instrWord 0x17 r0 r1 r2 p0 p1 p2) devs)
    (ha : Val1 s.regs r0 p0 addr) (hb : SignedVal1 s.regs r1 p1 add) (hc : SignedVal1 s.regs r2 p2 mul)
    (hn : NonNegative r1 p1) (hm : NonNegative r2 p2)
    (hl : Stores pf s devs (offset addr (add * mul)) s.regs.avr devs') :
    Steps pf s (advance s.regs) devs' :=
  C29_wea hf ha (val1_signed hb hn) (val1_signed hc hm) (by rwa [offset_eq, ofInt_mul32] at hl)

/-- Non-vacuity: `WEA a1, a2, 1` with `a2 = -4` and `avr = 9`. -/
example : ∃ devs', Fetches .debug (Demo.run1 { setReg (setReg startup 1 0x50) 2 0xFFFFFFFC with avr := 9 }
    (instrWord 0x17 true true false 1 2 1)) (instrWord 0x17 true true false 1 2 1) (Demo.devices
    [instrWord 0x17 true true false 1 2 1]) ∧
    (SignedVal1 { setReg (setReg startup 1 0x50) 2 0xFFFFFFFC with avr := 9 } true 2 (-4) ∧ NonNegative
      true 2) ∧
    Stores .debug (Demo.run1 { setReg (setReg startup 1 0x50) 2 0xFFFFFFFC with avr := 9 } (instrWord 0x17
      true true false 1 2 1)) (Demo.devices [instrWord 0x17 true true false 1 2 1]) (offset 0x50 (-4 * 1))
      9 devs' :=
  ⟨_, Demo.run1_fetches _ _ rfl rfl, ⟨⟨rfl, rfl⟩, .inl rfl⟩, rfl⟩

/-- **C83**, SRM, partial: in a build with overflow checks a negative register is also excluded, as it makes the sum exceed
a word. -/
theorem C83_srm_partial {s : Machine D} {devs devs1 devs' : List D} {r0 r1 r2 : Bool} {p0 p1 p2 : U8} {addr w : Word}
    {add : Int} (hf : Fetches pf s (instrWord 0x18 r0 r1 r2 p0 p1 p2) devs)
    (ha : Val1 s.regs r0 p0 addr) (hb : SignedVal1 s.regs r1 p1 add) (hn : NonNegative r1 p1)
    (hov : pf = .debug → 0 ≤ add ∧ addr.toNat + add < 2 ^ 32)
    (hl : Loads pf s devs (offset addr add) w devs1)
    (hs : Stores pf s devs1 (offset addr add) (reg s.regs p2.toNat) devs')
    (hw : mayWrite (supervisor s.regs) p2.toNat = true) :
    Steps pf s (assign s.regs p2.toNat w) devs' := by
  refine C30_srm_partial hf ha (val1_signed hb hn) (fun hd => ?_) (by rwa [offset_eq] at hl) (by rwa [offset_eq] at hs) hw
  obtain ⟨h0, h1⟩ := hov hd
  rw [BitVec.toNat_ofInt]
  omega

/-- **C83** for negative constants: 256 is added to the offset of LSA, whatever the machine. -/
theorem C83_lsa_negative_refuted {s : Machine D} {devs devs' : List D} {r0 r1 : Bool} {p0 p1 p2 : U8} {addr w : Word} {add : Int}
    (hf : Fetches pf s (instrWord 0x14 r0 r1 false p0 p1 p2) devs)
    (ha : Val1 s.regs r1 p1 addr) (hb : SignedVal1 s.regs false p2 add) (hn : add < 0)
    (hw : mayWrite (supervisor s.regs) p0.toNat = true)
    (hl : Loads pf s devs (offset addr (add + 256)) w devs') :
    Steps pf s (assign s.regs p0.toNat w) devs' := by
  refine C29_lsa (add := BitVec.ofInt 32 (add + 256)) hf ha ?_ hw (by rwa [offset_eq] at hl)
  unfold SignedVal1 at hb
  rw [if_neg (by decide)] at hb
  unfold Val1
  rw [if_neg (by decide)]
  split at hb
  · omega
  · rw [hb, show (p2.toNat : Int) - 256 + 256 = (p2.toNat : Int) by omega]
    rfl

/-- **C83** is false: `wsa 0x50, -4, 7` (the offset is the byte 0xFC) does not write at 0x4C,
nor anywhere (its target is 0x14C, which is not mapped); with `a1` holding -4, `srm 0x50, a1, a0` crashes a build with overflow checks. -/
theorem C83_refuted :
    (∃ s s' : Machine Demo.Dev, ∃ devs,
      Fetches .debug s (instrWord 0x16 false false false 0x50 0xFC 7) devs ∧ SignedVal1 s.regs false 0xFC (-4) ∧
      (∃ devs', Stores .debug s devs (offset 0x50 (-4)) 7 devs' ∧ devs' ≠ devs) ∧
      next .debug s = some s' ∧ s'.devs = devs) ∧
    (∃ s : Machine Demo.Dev, ∃ devs, Fetches .debug s (instrWord 0x18 false true false 0x50 1 0) devs ∧
      SignedVal1 s.regs true 1 (-4) ∧ (∃ w devs', Loads .debug s devs (offset 0x50 (-4)) w devs') ∧
      next .debug s = none) :=
  ⟨⟨Demo.run1 startup (instrWord 0x16 false false false 0x50 0xFC 7), _, _, Demo.run1_fetches _ _ rfl rfl, rfl,
    ⟨_, rfl, by decide⟩, rfl, rfl⟩,
    ⟨Demo.run1 (setReg startup 1 0xFFFFFFFC) (instrWord 0x18 false true false 0x50 1 0), _,
      Demo.run1_fetches _ _ rfl rfl, ⟨rfl, rfl⟩, ⟨_, _, rfl⟩, rfl⟩⟩

/-- `LSA a0, a1, a2` with -4 in `a2` and 0x50 in `a1` reads at 0x4C. -/
example : Fetches .debug (Demo.run1 (setReg (setReg startup 1 0x50) 2 0xFFFFFFFC) (instrWord 0x14 true true true 0 1 2))
      (instrWord 0x14 true true true 0 1 2) (Demo.devices [instrWord 0x14 true true true 0 1 2]) ∧
    SignedVal1 (setReg (setReg startup 1 0x50) 2 0xFFFFFFFC) true 2 (-4) ∧ NonNegative true 2 ∧
    Loads .debug (Demo.run1 (setReg (setReg startup 1 0x50) 2 0xFFFFFFFC) (instrWord 0x14 true true true 0 1 2))
      (Demo.devices [instrWord 0x14 true true true 0 1 2]) (offset 0x50 (-4)) 0
      (Demo.devices [instrWord 0x14 true true true 0 1 2]) :=
  ⟨Demo.run1_fetches _ _ rfl rfl, ⟨rfl, rfl⟩, .inl rfl, rfl⟩

end Lrvm
