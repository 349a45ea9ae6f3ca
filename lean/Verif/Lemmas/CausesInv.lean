import Verif.Lemmas.Causes
import Verif.Lemmas.Reset
import Verif.Props.Arith
import Verif.Props.Data

/-!
# From exceptions to their causes
-/

namespace Lrvm

open Spec

variable {D : Type} [Bus D] {pf : Profile} {α β : Type}

/-- The machine is in the exception that a cause deserves. -/
def InException (pf : Profile) (s : Machine D) (devs : List D) (i : Parts) (u : Machine D) : Prop :=
  ∃ r c d devs' af, Cause pf s devs i r c d devs' ∧ (af = r.af ∨ i.computed s.regs c) ∧
    u.regs = trap { r with af := af } c d ∧ u.devs = devs'

theorem InException.of {s u : Machine D} {devs devs' : List D} {i : Parts} {r : Regs} {c d : Nat}
    (h : Cause pf s devs i r c d devs') (hr : u.regs = trap r c d) (hd : u.devs = devs') : InException pf s devs i u :=
  ⟨r, c, d, devs', r.af, h, .inl rfl, hr, hd⟩

theorem InException.exc {s t : Machine D} {devs : List D} {i : Parts} {c : U8} {d : U16} {n m : Nat}
    (hc : c.toNat = n) (hd : d.toNat = m) (h : Cause pf s devs i t.regs n m t.devs) : InException pf s devs i (t.exception c d) := by
  subst hc hd
  exact .of h (exception_regs ..) rfl

theorem noRead_eq (r : Regs) : (readFault (supervisor r)).toNat = noRead r := by
  unfold readFault noRead
  cases supervisor r <;> rfl

theorem noWrite_eq (r : Regs) (n : Nat) : (writeFault (supervisor r) n).toNat = noWrite r n := by
  unfold writeFault noWrite
  by_cases h : supervisor r = true ∧ 0x20 ≤ n
  · rw [if_pos h, if_pos h]; rfl
  · rw [if_neg h, if_neg h]; rfl

theorem u8_data (p : U8) : (p.setWidth 16 : U16).toNat = p.toNat := by
  have := p.isLt
  rw [BitVec.toNat_setWidth, Nat.mod_eq_of_lt (by omega)]

theorem u8_code (w : Word) : ((w.setWidth 8 : U8).setWidth 16 : U16).toNat = w.toNat % 256 := by
  rw [BitVec.toNat_setWidth, BitVec.toNat_setWidth]
  omega

theorem u16_data (w : Word) : (w.setWidth 16 : U16).toNat = w.toNat % 2 ^ 16 := BitVec.toNat_setWidth ..

theorem writeReg_ex_inv {p : U8} {w : Word} {t u : Machine D} (h : writeReg p w t = .ex u) :
    mayWrite (supervisor t.regs) p.toNat = false ∧ u.regs = trap t.regs (noWrite t.regs p.toNat) p.toNat ∧ u.devs = t.devs := by
  cases hm : mayWrite (supervisor t.regs) p.toNat with
  | true => rw [writeReg_val w hm] at h; cases h
  | false =>
    rw [writeReg_fault w hm] at h
    injection h with h
    subst h
    refine ⟨rfl, ?_, rfl⟩
    rw [exception_regs, noWrite_eq, u8_data]

theorem load_ex_inv {s u : Machine D} {devs devs1 : List D} {v : Word}
    (h : cpuRead pf v { atExec s devs1 with devs := devs } = .ex u) :
    ∃ c d, LoadFaults pf s devs v c d u.devs ∧ u.regs = trap s.regs c d := by
  rw [cpuRead_eq] at h
  obtain ⟨c, d, devs', hx, rfl⟩ := toOut_ex h
  refine ⟨c.toNat, d.toNat, ⟨{ s with devs := devs' }.exception c d, ?_, exception_regs .., rfl⟩, exception_regs ..⟩
  rw [cpuRead_eq]
  show (accRead pf s.regs s.mappings devs v).toOut _ = _
  rw [show accRead pf s.regs s.mappings devs v = _ from hx]; rfl

theorem store_ex_inv {s u : Machine D} {devs devs1 : List D} {v w : Word}
    (h : cpuWrite pf v w { atExec s devs1 with devs := devs } = .ex u) :
    ∃ c d, StoreFaults pf s devs v w c d u.devs ∧ u.regs = trap s.regs c d := by
  rw [cpuWrite_eq] at h
  obtain ⟨c, d, devs', hx, rfl⟩ := toOut_ex h
  refine ⟨c.toNat, d.toNat, ⟨{ s with devs := devs' }.exception c d, ?_, exception_regs .., rfl⟩, exception_regs ..⟩
  rw [cpuWrite_eq]
  show (accWrite pf s.regs s.mappings devs v w).toOut _ = _
  rw [show accWrite pf s.regs s.mappings devs v w = _ from hx]; rfl

theorem toOut_ok_inv {s t : Machine D} {x : Acc D α} {a : α} (h : x.toOut s = .ok a t) :
    ∃ devs, x = .done a devs ∧ t = { s with devs := devs } := by
  cases x with
  | done b devs => injection h with h1 h2; subst h1; exact ⟨devs, rfl, h2.symm⟩
  | fault c d devs => cases h
  | panic => cases h

theorem load_ok_inv {s u : Machine D} {devs devs1 : List D} {v w : Word}
    (h : cpuRead pf v { atExec s devs1 with devs := devs } = .ok w u) :
    ∃ devs', Loads pf s devs v w devs' ∧ u = { atExec s devs1 with devs := devs' } := by
  rw [cpuRead_eq] at h
  obtain ⟨devs', hx, rfl⟩ := toOut_ok_inv h
  exact ⟨devs', loads_iff.2 hx, rfl⟩

theorem store_ok_inv {s u : Machine D} {devs devs1 : List D} {v w : Word}
    (h : cpuWrite pf v w { atExec s devs1 with devs := devs } = .ok () u) :
    ∃ devs', Stores pf s devs v w devs' ∧ u = { atExec s devs1 with devs := devs' } := by
  rw [cpuWrite_eq] at h
  obtain ⟨devs', hx, rfl⟩ := toOut_ok_inv h
  exact ⟨devs', stores_iff.2 hx, rfl⟩

theorem compute_ex_inv {x y : Word} {op : Op} {t u : Machine D} (h : compute x y op t = .ex u) :
    ∃ c, computeCore x y op = .error c ∧ u = t.exception c 0 := by
  cases hc : computeCore x y op with
  | error c => rw [compute_error hc] at h; injection h with h; exact ⟨c, rfl, h.symm⟩
  | ok p => obtain ⟨r, cf, of⟩ := p; rw [compute_ok hc] at h; cases h

theorem aluOp_ok (x y : Word) (n : Nat) : ∃ p, computeCore x y (aluOp n) = .ok p := by
  unfold aluOp
  split <;> exact ⟨_, rfl⟩

/-! ### Common forms -/

section
variable {s u : Machine D} {devs : List D} {i : Parts}

theorem raised_source {n : Nat} (hl : i.op = 0x0F → supervisor s.regs = true) (h : i.refused s.regs = some n)
    (hn : n < 256) : InException pf s devs i (refusal (atExec s devs) n) := by
  refine .exc (t := atExec s devs) (noRead_eq _) ?_ (.source hl h)
  rw [BitVec.toNat_ofNat, Nat.mod_eq_of_lt (by omega)]

theorem mem_ifReg {b : Bool} {p : U8} {n : Nat} (h : n ∈ ifReg b p) : n < 256 := by
  unfold ifReg at h
  split at h
  · rw [List.mem_singleton] at h; subst h; exact p.isLt
  · cases h

theorem refused_lt {n : Nat} {r : Regs} (h : i.refused r = some n) : n < 256 := by
  have hm := List.mem_of_find?_eq_some h
  unfold Parts.sources at hm
  have hp := fun p : U8 => p.isLt
  split at hm <;> try simp only [List.mem_append, List.mem_cons, List.not_mem_nil, or_false] at hm
  all_goals
    first
    | exact mem_ifReg hm
    | (rcases hm with rfl | rfl <;> exact hp _)
    | (rcases hm with (hm | hm) | rfl <;> first | exact mem_ifReg hm | exact hp _)
    | (rcases hm with (hm | hm) | hm <;> exact mem_ifReg hm)
    | (rcases hm with hm | rfl <;> first | exact mem_ifReg hm | exact hp _)
    | (rcases hm with hm | hm <;> exact mem_ifReg hm)

/-- An instruction that reads its operands first. -/
theorem raised_split {o : Out (Machine D) Unit} (hl : i.op = 0x0F → supervisor s.regs = true)
    (h : (match i.refused s.regs with | some n => Out.ex (refusal (atExec s devs) n) | none => o) = .ex u)
    (hk : i.refused s.regs = none → o = .ex u → InException pf s devs i u) : InException pf s devs i u := by
  cases hr : i.refused s.regs with
  | none => rw [hr] at h; exact hk hr h
  | some n =>
    rw [hr] at h
    injection h with h
    subst h
    exact raised_source hl hr (refused_lt hr)

/-! ### Instruction by instruction -/

theorem raised_write {w : Word} (h : writeReg i.p0 w (atExec s devs) = .ex u)
    (hk : mayWrite (supervisor s.regs) i.p0.toNat = false →
      Cause pf s devs i s.regs (noWrite s.regs i.p0.toNat) i.p0.toNat devs) : InException pf s devs i u := by
  obtain ⟨h1, h2, h3⟩ := writeReg_ex_inv h
  exact .of (hk h1) h2 h3

theorem noWrite_codes (r : Regs) (n : Nat) : noWrite r n = 0x02 ∨ noWrite r n = 0x04 := by
  unfold noWrite; split
  · exact .inl rfl
  · exact .inr rfl

theorem raised_computed {w : Word} {af : Word} (h3 : 0x03 ≤ i.op.toNat ∧ i.op.toNat ≤ 0x0C) (hr : i.refused s.regs = none)
    (h : writeReg i.p0 w { atExec s devs with regs := { s.regs with af := af } } = .ex u)
    (hk : mayWrite (supervisor s.regs) i.p0.toNat = false →
      Cause pf s devs i s.regs (noWrite s.regs i.p0.toNat) i.p0.toNat devs) : InException pf s devs i u := by
  obtain ⟨h1, h2, h4⟩ := writeReg_ex_inv h
  exact ⟨s.regs, _, _, devs, af, hk h1, .inr ⟨h3, hr, noWrite_codes _ _⟩, h2, h4⟩

theorem divCore_split (b : Bool) (m x y : Word) :
    (y = 0 ∧ m.toNat / 4 % 4 = 0 ∧ divCore b (m.setWidth 8) x y = .error 0x0A) ∨
    ((y.toInt = -1 ∧ x.toInt = -2 ^ 31 ∧ m.toNat / 16 % 2 = 1) ∧ divCore b (m.setWidth 8) x y = .error 0x0B) ∨
    (¬ (y = 0 ∧ m.toNat / 4 % 4 = 0) ∧ ¬ (y.toInt = -1 ∧ x.toInt = -2 ^ 31 ∧ m.toNat / 16 % 2 = 1) ∧
      ∃ p, divCore b (m.setWidth 8) x y = .ok p) := by
  have hx : x.toInt = -2 ^ 31 ↔ x = 0x80000000#32 :=
    ⟨fun h => BitVec.eq_of_toInt_eq (by rw [h]; decide), fun h => by rw [h]; decide⟩
  have hy : y.toInt = -1 ↔ y = 0xFFFFFFFF#32 :=
    ⟨fun h => BitVec.eq_of_toInt_eq (by rw [h]; decide), fun h => by rw [h]; decide⟩
  by_cases h0 : y = 0
  · have hn : ¬ (y.toInt = -1 ∧ x.toInt = -2 ^ 31 ∧ m.toNat / 16 % 2 = 1) := by
      rw [hy, h0]; exact fun h => absurd h.1 (by decide)
    by_cases hz : m.toNat / 4 % 4 = 0
    · refine .inl ⟨h0, hz, ?_⟩
      unfold divCore
      rw [if_pos h0, mode_zero, hz]
      rfl
    · refine .inr (.inr ⟨fun h => hz h.2, hn, ?_⟩)
      unfold divCore
      rw [if_pos h0, mode_zero]
      have hl : m.toNat / 4 % 4 < 4 := Nat.mod_lt _ (by omega)
      generalize m.toNat / 4 % 4 = k at hz hl
      match k with
      | 0 => exact absurd rfl hz
      | 1 => exact ⟨_, rfl⟩
      | 2 => exact ⟨_, rfl⟩
      | 3 => exact ⟨_, rfl⟩
      | k + 4 => omega
  · have hd : ¬ (y = 0 ∧ m.toNat / 4 % 4 = 0) := fun h => h0 h.1
    by_cases ho : (m.setWidth 8 &&& 0b00010000#8 ≠ 0) ∧ x = 0x80000000#32 ∧ y = 0xFFFFFFFF#32
    · refine .inr (.inl ⟨⟨hy.2 ho.2.2, hx.2 ho.2.1, (mode_signed m).1 ho.1⟩, ?_⟩)
      unfold divCore
      rw [if_neg h0]
      rw [if_pos ho, mode_ofw]
      rfl
    · refine .inr (.inr ⟨hd, fun h => ho ⟨(mode_signed m).2 h.2.2, hx.1 h.2.1, hy.1 h.1⟩, ?_⟩)
      unfold divCore
      rw [if_neg h0]
      rw [if_neg ho]
      split <;> split <;> exact ⟨_, rfl⟩

theorem raised_div {o : Op} (b : Bool) (hop : i.op = 0x06 ∨ i.op = 0x07) (hr : i.refused s.regs = none)
    (ho : ∀ x y, computeCore x y o = divCore b ((operand1 s.regs i.r2 i.p2).setWidth 8) x y)
    (h : (compute (reg s.regs i.p0.toNat) (operand1 s.regs i.r1 i.p1) o >>= writeReg i.p0) (atExec s devs) = .ex u) :
    InException pf s devs i u := by
  have h3 : 0x03 ≤ i.op.toNat ∧ i.op.toNat ≤ 0x0C := by rcases hop with h | h <;> rw [h] <;> decide
  rcases divCore_split b (operand1 s.regs i.r2 i.p2) (reg s.regs i.p0.toNat) (operand1 s.regs i.r1 i.p1) with
    ⟨h0, hz, he⟩ | ⟨hv, he⟩ | ⟨h0, hv, ⟨res, cf, of⟩, he⟩
  · rw [M.bind_ex (compute_error ((ho _ _).trans he))] at h
    injection h with h; subst h
    exact .exc rfl rfl (.divByZero hop hr ⟨h0, hz⟩)
  · rw [M.bind_ex (compute_error ((ho _ _).trans he))] at h
    injection h with h; subst h
    exact .exc rfl rfl (.divOverflow hop hr hv)
  · rw [M.bind_ok (compute_ok ((ho _ _).trans he))] at h
    exact raised_computed h3 hr h (.divDest hop hr h0 hv)

theorem adds_some (hp : i.op = 0x18) {a : Word} (h : pf.add (operand1 s.regs i.r0 i.p0) (operand1 s.regs i.r1 i.p1) = some a) :
    i.adds pf s.regs ∧ a = operand1 s.regs i.r0 i.p0 + operand1 s.regs i.r1 i.p1 := by
  cases pf with
  | release => exact ⟨(fun h => by cases h), (Option.some.inj h).symm⟩
  | debug =>
    change (if _ then _ else _) = _ at h
    split at h
    · next hl =>
        refine ⟨fun _ => ⟨fun _ => hl, fun h => ?_⟩, (Option.some.inj h).symm⟩
        rw [hp] at h; exact absurd h (by decide)
    · cases h

theorem adds_call (hp : i.op = 0x1B) {a : Word} (h : pf.add s.regs.pc 4 = some a) :
    i.adds pf s.regs ∧ a = s.regs.pc + 4 := by
  cases pf with
  | release => exact ⟨(fun h => by cases h), (Option.some.inj h).symm⟩
  | debug =>
    change (if _ then _ else _) = _ at h
    split at h
    · next hl =>
        refine ⟨fun _ => ⟨fun h => ?_, fun _ => hl⟩, (Option.some.inj h).symm⟩
        rw [hp] at h; exact absurd h (by decide)
    · cases h

theorem adds_triv (h1 : i.op ≠ 0x18) (h2 : i.op ≠ 0x1B) : i.adds pf s.regs :=
  fun _ => ⟨fun h => absurd h h1, fun h => absurd h h2⟩

theorem flagTest_some {af f : Word} {b : Bool} (h : flagTest pf af f = some b) : pf = .debug → f.toNat ≤ 7 := by
  rintro rfl
  unfold flagTest at h
  obtain ⟨k, hk, _⟩ := Option.bind_eq_some_iff.1 h
  change (if _ then _ else _) = _ at hk
  split at hk
  · next h => exact h
  · cases hk

theorem flagTest_ok {af f : Word} (h : pf = .debug → f.toNat ≤ 7) : ∃ b, flagTest pf af f = some b := by
  cases pf with
  | release => exact ⟨_, rfl⟩
  | debug =>
    have h7 := h rfl
    unfold flagTest
    have h1 : Profile.sub .debug (7 : Word) f = some (7 - f) := if_pos h7
    have h2 : Profile.oneShl .debug (7 - f) = some (1#32 <<< (7 - f).toNat) := by
      refine if_pos ?_
      rw [BitVec.toNat_sub_of_le (BitVec.le_def.2 h7)]
      show 7 - _ < 32
      omega
    refine ⟨af &&& (1#32 <<< (7 - f).toNat) != 0, ?_⟩
    rw [h1]
    show (Profile.oneShl .debug (7 - f)).bind _ = _
    rw [h2]
    rfl

theorem if2Cond_none {c : Word} {a b : Bool} : if2Cond c a b = none ↔ ¬ (1 ≤ c.toNat ∧ c.toNat ≤ 7) := by
  unfold if2Cond
  constructor
  · rintro h ⟨h1, h7⟩
    have : c.toNat = 1 ∨ c.toNat = 2 ∨ c.toNat = 3 ∨ c.toNat = 4 ∨ c.toNat = 5 ∨ c.toNat = 6 ∨ c.toNat = 7 := by omega
    rcases this with e | e | e | e | e | e | e <;> rw [e] at h <;> cases h
  · intro h
    split
    all_goals first | rfl | omega

/-- What HWD's table answers. -/
theorem getHwInfo_split (info : Word) (id : Nat) (t : Machine D) (hid : (operand1 s.regs i.r1 i.p1).toNat = id)
    (hinfo : operand1 s.regs i.r2 i.p2 = info) (hc : t.hwbCache = s.hwbCache) (hm : t.mappings = s.mappings) :
    (∃ c d, HwRefusal s i c.toNat d.toNat ∧ getHwInfo pf info id t = .ex (t.exception c d)) ∨
    ((∀ c d, ¬ HwRefusal s i c d) ∧ ((∃ w, getHwInfo pf info id t = .ok w t ∧
        (i.hwInfo s.regs = 0xA2 → ∀ m, rangeOf s.mappings (i.hwId s.regs) = some m → endFits pf m)) ∨
      (getHwInfo pf info id t = .panic ∧ i.hwInfo s.regs = 0xA2 ∧
        ∃ m, rangeOf s.mappings (i.hwId s.regs) = some m ∧ ¬ endFits pf m))) := by
  have hI : i.hwId s.regs = id := hid
  have hF : i.hwInfo s.regs = info.toNat := congrArg BitVec.toNat hinfo
  have hg : t.getMapping id = rangeOf s.mappings id := by
    unfold Machine.getMapping rangeOf; rw [hm]
  unfold getHwInfo
  rw [hc, hg]
  cases hx : s.hwbCache[id]? with
  | none =>
    have hl : s.hwbCache.length ≤ id := List.getElem?_eq_none_iff.1 hx
    refine .inl ⟨0x10, BitVec.ofNat 16 id, ?_, rfl⟩
    rw [BitVec.toNat_ofNat, ← hI]
    exact .unknown (by rw [hI]; exact hl)
  | some cache =>
    have hl : id < s.hwbCache.length := (List.getElem?_eq_some_iff.1 hx).1
    have hno : info.toNat ∈ hwInfos → (info.toNat = 0xA1 ∨ info.toNat = 0xA2 → rangeOf s.mappings id ≠ none) →
        ∀ c d, ¬ HwRefusal s i c d := by
      intro h1 h2 c d h
      cases h with
      | unknown h => omega
      | info _ h => exact h (by rw [hF]; exact h1)
      | unmapped _ h h' => exact h2 (by rw [hF] at h; exact h) (by rw [hI] at h'; exact h')
    have hok : info.toNat ∈ hwInfos → info.toNat ≠ 0xA1 → info.toNat ≠ 0xA2 → ∀ w,
        (∀ c d, ¬ HwRefusal s i c d) ∧ ((∃ v, (Out.ok w t : Out (Machine D) Word) = .ok v t ∧
          (i.hwInfo s.regs = 0xA2 → ∀ m, rangeOf s.mappings (i.hwId s.regs) = some m → endFits pf m)) ∨
        ((Out.ok w t : Out (Machine D) Word) = .panic ∧ i.hwInfo s.regs = 0xA2 ∧
          ∃ m, rangeOf s.mappings (i.hwId s.regs) = some m ∧ ¬ endFits pf m)) := by
      intro h1 h2 h3 w
      refine ⟨hno h1 (fun h => by rcases h with h | h; exact absurd h h2; exact absurd h h3), .inl ⟨w, rfl, ?_⟩⟩
      intro h
      exact absurd (hF.symm.trans h) h3
    dsimp only
    split
    iterate 10
      · next h => exact .inr (hok (by rw [h]; decide) (by rw [h]; decide) (by rw [h]; decide) _)
    · next h =>
      cases hr : rangeOf s.mappings id with
      | none =>
        refine .inl ⟨0x12, BitVec.ofNat 16 id, ?_, rfl⟩
        rw [BitVec.toNat_ofNat, ← hI]
        exact .unmapped (by rw [hI]; exact hl) (.inl (hF.trans h)) (by rw [hI]; exact hr)
      | some m =>
        refine .inr ⟨hno (by rw [h]; decide) (fun _ => by rw [hr]; exact fun h => by cases h), .inl ⟨_, rfl, ?_⟩⟩
        intro h'
        rw [hF, h] at h'
        cases h'
    · next h =>
      cases hr : rangeOf s.mappings id with
      | none =>
        refine .inl ⟨0x12, BitVec.ofNat 16 id, ?_, rfl⟩
        rw [BitVec.toNat_ofNat, ← hI]
        exact .unmapped (by rw [hI]; exact hl) (.inr (hF.trans h)) (by rw [hI]; exact hr)
      | some m =>
        refine .inr ⟨hno (by rw [h]; decide) (fun _ => by rw [hr]; exact fun h => by cases h), ?_⟩
        dsimp only
        by_cases he : endFits pf m
        · left
          have : ∃ w, m.endAddr pf = some w := by
            cases pf with
            | release => exact ⟨_, rfl⟩
            | debug =>
              obtain ⟨h1, h2⟩ := he rfl
              refine ⟨m.addr + m.size - 1, ?_⟩
              unfold Mapping.endAddr
              rw [show Profile.add .debug m.addr m.size = some (m.addr + m.size) from if_pos h1]
              show Profile.sub .debug (m.addr + m.size) 1 = _
              refine if_pos ?_
              rw [BitVec.toNat_add, Nat.mod_eq_of_lt h1]
              exact h2
          obtain ⟨w, hw⟩ := this
          refine ⟨w, by rw [hw]; rfl, ?_⟩
          rintro _ m' hm'
          rw [hI, hr] at hm'
          cases hm'
          exact he
        · right
          have : m.endAddr pf = none := by
            cases pf with
            | release => exact absurd (fun h => by cases h) he
            | debug =>
              unfold Mapping.endAddr
              by_cases h1 : m.addr.toNat + m.size.toNat < 2 ^ 32
              · rw [show Profile.add .debug m.addr m.size = some (m.addr + m.size) from if_pos h1]
                show Profile.sub .debug (m.addr + m.size) 1 = _
                refine if_neg ?_
                rw [BitVec.toNat_add, Nat.mod_eq_of_lt h1]
                exact fun h => he fun _ => ⟨h1, h⟩
              · rw [show Profile.add .debug m.addr m.size = none from if_neg h1]
                rfl
          refine ⟨by rw [this]; rfl, hF.trans h, m, by rw [hI]; exact hr, he⟩
    · next n h1 h2 h3 h4 h5 h6 h7 h8 h9 h10 h11 h12 =>
      by_cases hn : 0x11 ≤ info.toNat ∧ info.toNat ≤ 0x18
      · rw [if_pos hn]
        refine .inr (hok ?_ (by omega) (by omega) _)
        have : ∀ k : Fin 0x19, 0x11 ≤ k.val → k.val ∈ hwInfos := by decide
        exact this ⟨info.toNat, by omega⟩ hn.1
      · rw [if_neg hn]
        refine .inl ⟨0x11, info.setWidth 16, ?_, rfl⟩
        rw [u16_data, ← hF]
        refine .info (by rw [hI]; exact hl) ?_
        rw [hF]
        unfold hwInfos
        simp only [List.mem_cons, List.not_mem_nil, or_false, not_or]
        refine ⟨h1, h2, h3, ?_, ?_, ?_, ?_, ?_, ?_, ?_, ?_, h4, h5, h6, h7, h8, h9, h10, h11, h12⟩ <;> omega

end

end Lrvm
