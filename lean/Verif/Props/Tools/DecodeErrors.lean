import Verif.Props.Tools.Assembler
import Verif.Spec.Decoding

/-!
# Decoding errors: C93
-/

namespace Lrvm

open Spec Spec.Decoding

/-- The bytes of a word as numbers. -/
def Bytes4.nats (b : Bytes4) (i : Nat) : Nat := (b.get i).toNat

/-- The error for operand number `k` (from 0), if it is not acceptable. -/
def operandError (b : Bytes4) (k : Nat) (kind : Kind) : Option InstrDecodingError :=
  if (kind = .reg ∨ (b.b0.toNat / 2 ^ (2 - k) % 2 = 1)) ∧ 32 ≤ (b.nats (k + 1)) then some (.unknownRegister k (b.get (k + 1))) else none

theorem operandError_some {b : Bytes4} {k : Nat} {kind : Kind} {e : InstrDecodingError} :
    operandError b k kind = some e ↔ Bad (b.nats 0) k kind (b.nats (k + 1)) ∧ e = .unknownRegister k (b.get (k + 1)) := by
  unfold operandError
  split
  · next h => exact ⟨fun h' => ⟨h, by cases h'; rfl⟩, fun h' => by rw [h'.2]⟩
  · next h => exact ⟨nofun, fun h' => absurd h'.1 h⟩

theorem operandError_none {b : Bytes4} {k : Nat} {kind : Kind} :
    operandError b k kind = none ↔ ¬ Bad (b.nats 0) k kind (b.nats (k + 1)) := by
  unfold operandError
  split
  · next h => exact ⟨nofun, fun h' => absurd h h'⟩
  · next h => exact ⟨fun _ => h, fun _ => rfl⟩

/-- The error of the first operand that is not acceptable, from operand `k` on. -/
def firstError (b : Bytes4) : Nat → List Kind → Option InstrDecodingError
  | _, [] => none
  | k, kind :: ks => (operandError b k kind).or (firstError b (k + 1) ks)

theorem firstError_some {b : Bytes4} {e : InstrDecodingError} : ∀ {ks : List Kind} {k : Nat}, firstError b k ks = some e ↔
    ∃ i, (∃ kind, ks[i]? = some kind ∧ Bad (b.nats 0) (k + i) kind (b.nats (k + i + 1))) ∧
      (∀ j kind, j < i → ks[j]? = some kind → ¬ Bad (b.nats 0) (k + j) kind (b.nats (k + j + 1))) ∧
      e = .unknownRegister (k + i) (b.get (k + i + 1))
  | [], k => ⟨nofun, fun ⟨i, ⟨_, h, _⟩, _⟩ => by cases h⟩
  | kind :: ks, k => by
    unfold firstError
    cases h : operandError b k kind with
    | some e' =>
      obtain ⟨h1, rfl⟩ := operandError_some.1 h
      constructor
      · intro he
        cases he
        exact ⟨0, ⟨kind, rfl, h1⟩, fun _ _ h => (Nat.not_lt_zero _ h).elim, rfl⟩
      · rintro ⟨i, _, h3, rfl⟩
        cases i with
        | zero => rfl
        | succ i => exact absurd h1 (h3 0 kind (Nat.succ_pos _) rfl)
    | none =>
      have h1 := operandError_none.1 h
      show firstError b (k + 1) ks = some e ↔ _
      rw [firstError_some]
      constructor
      · rintro ⟨i, ⟨kd, h2, h3⟩, h4, rfl⟩
        have ha : k + 1 + i = k + (i + 1) := by omega
        rw [ha] at h3
        refine ⟨i + 1, ⟨kd, h2, h3⟩, ?_, by rw [ha]⟩
        intro j kd hj hk
        cases j with
        | zero => cases hk; exact h1
        | succ j =>
          have := h4 j kd (Nat.lt_of_succ_lt_succ hj) hk
          rw [show k + 1 + j = k + (j + 1) by omega] at this
          exact this
      · rintro ⟨i, ⟨kd, h2, h3⟩, h4, rfl⟩
        cases i with
        | zero => cases h2; exact absurd h3 h1
        | succ i =>
          have ha : k + (i + 1) = k + 1 + i := by omega
          rw [ha] at h3
          refine ⟨i, ⟨kd, h2, h3⟩, ?_, by rw [ha]⟩
          intro j kd hj hk
          have := h4 (j + 1) kd (Nat.succ_lt_succ hj) hk
          rw [show k + (j + 1) = k + 1 + j by omega] at this
          exact this

/-- The outcome "error or not" of a decoder. -/
def errOf {α : Type} : Except InstrDecodingError α → Option InstrDecodingError
  | .ok _ => none
  | .error e => some e

theorem errOf_bind {α β : Type} {x : Except InstrDecodingError α} {k : α → Except InstrDecodingError β} {o : Option InstrDecodingError}
    (h : ∀ a, errOf (k a) = o) : errOf (x >>= k) = (errOf x).or o := by
  cases x with
  | ok a => exact h a
  | error e => rfl

theorem fromCode_exists {c : U8} (h : c.toNat < 32) : ∃ r, Reg.fromCode c = some r := by
  have : ∀ n : Fin 32, (Reg.fromCode (BitVec.ofNat 8 n)).isSome := by decide
  have := this ⟨c.toNat, h⟩
  rw [show BitVec.ofNat 8 (⟨c.toNat, h⟩ : Fin 32).val = c from BitVec.eq_of_toNat_eq (by simp)] at this
  exact Option.isSome_iff_exists.1 this

theorem errOf_argReg (b : Bytes4) (k : Nat) : errOf (argReg b (k + 1)) = operandError b k .reg := by
  unfold argReg operandError Bytes4.nats
  by_cases h : 32 ≤ (b.get (k + 1)).toNat
  · rw [if_pos ⟨.inl rfl, h⟩]
    have : Reg.fromCode (b.get (k + 1)) = none := by
      cases hc : Reg.fromCode (b.get (k + 1)) with
      | none => rfl
      | some r =>
        have h2 : ∀ n : Fin 256, 32 ≤ n.val → Reg.fromCode (BitVec.ofNat 8 n) = none := by decide +kernel
        have := h2 ⟨(b.get (k + 1)).toNat, (b.get (k + 1)).isLt⟩ h
        rw [show BitVec.ofNat 8 (⟨(b.get (k + 1)).toNat, (b.get (k + 1)).isLt⟩ : Fin 256).val = b.get (k + 1) from
          BitVec.eq_of_toNat_eq (by simp)] at this
        rw [this] at hc; cases hc
    rw [this]; rfl
  · rw [if_neg (fun h' => h h'.2)]
    obtain ⟨r, hr⟩ := fromCode_exists (Nat.lt_of_not_le h)
    rw [hr]; rfl

theorem argIsLit_iff (b : Bytes4) {k : Nat} (hk : k < 3) : argIsLit b (k + 1) = true ↔ ¬ b.b0.toNat / 2 ^ (2 - k) % 2 = 1 := by
  have h : ∀ n : Fin 256, ∀ k : Fin 3, ((BitVec.ofNat 8 n &&& (1#8 <<< (3 - (k.val + 1))) == 0) = true ↔ ¬ n.val / 2 ^ (2 - k.val) % 2 = 1) := by
    decide +kernel
  have := h ⟨b.b0.toNat, b.b0.isLt⟩ ⟨k, hk⟩
  rw [show BitVec.ofNat 8 (⟨b.b0.toNat, b.b0.isLt⟩ : Fin 256).val = b.b0 from BitVec.eq_of_toNat_eq (by simp)] at this
  exact this

theorem errOf_narrow (b : Bytes4) {k : Nat} (hk : k < 3) : errOf (argRegOrLit1 b (k + 1)) = operandError b k .narrow := by
  unfold argRegOrLit1
  by_cases h : b.b0.toNat / 2 ^ (2 - k) % 2 = 1
  · rw [if_neg (fun h' => (argIsLit_iff b hk).1 h' h), errOf_bind (o := none) (fun _ => rfl), errOf_argReg, Option.or_none]
    unfold operandError
    by_cases h2 : 32 ≤ b.nats (k + 1)
    · rw [if_pos ⟨.inl rfl, h2⟩, if_pos ⟨.inr h, h2⟩]
    · rw [if_neg (fun h' => h2 h'.2), if_neg (fun h' => h2 h'.2)]
  · rw [if_pos ((argIsLit_iff b hk).2 h)]
    unfold operandError
    rw [if_neg]
    · rfl
    · rintro ⟨h' | h', _⟩
      · cases h'
      · exact h h'

theorem errOf_wide (b : Bytes4) {k : Nat} (hk : k < 3) : errOf (argRegOrLit2 b (k + 1)) = operandError b k .wide := by
  unfold argRegOrLit2
  by_cases h : b.b0.toNat / 2 ^ (2 - k) % 2 = 1
  · rw [if_neg (fun h' => (argIsLit_iff b hk).1 h' h), errOf_bind (o := none) (fun _ => rfl), errOf_argReg, Option.or_none]
    unfold operandError
    by_cases h2 : 32 ≤ b.nats (k + 1)
    · rw [if_pos ⟨.inl rfl, h2⟩, if_pos ⟨.inr h, h2⟩]
    · rw [if_neg (fun h' => h2 h'.2), if_neg (fun h' => h2 h'.2)]
  · rw [if_pos ((argIsLit_iff b hk).2 h)]
    unfold operandError
    rw [if_neg]
    · rfl
    · rintro ⟨h' | h', _⟩
      · cases h'
      · exact h h'

/-- The decoder of one operand. -/
theorem errOf_two {α β γ : Type} {b : Bytes4} {x : Except InstrDecodingError α} {y : Except InstrDecodingError β} {f : α → β → γ}
    {k1 k2 : Kind} (hx : errOf x = operandError b 0 k1) (hy : errOf y = operandError b 1 k2) :
    errOf (do .ok (f (← x) (← y))) = firstError b 0 [k1, k2] := by
  refine (errOf_bind (o := operandError b 1 k2) fun a => ?_).trans ?_
  · refine (errOf_bind (o := none) fun _ => rfl).trans ?_
    rw [hy, Option.or_none]
  · rw [hx]
    show _ = (operandError b 0 k1).or ((operandError b 1 k2).or none)
    rw [Option.or_none]

theorem errOf_one {α γ : Type} {b : Bytes4} {x : Except InstrDecodingError α} {f : α → γ}
    {k1 : Kind} (hx : errOf x = operandError b 0 k1) : errOf (do .ok (f (← x))) = firstError b 0 [k1] := by
  refine (errOf_bind (o := none) fun _ => rfl).trans ?_
  rw [hx]; rfl

theorem errOf_three {α β δ γ : Type} {b : Bytes4} {x : Except InstrDecodingError α} {y : Except InstrDecodingError β}
    {z : Except InstrDecodingError δ} {f : α → β → δ → γ} {k1 k2 k3 : Kind} (hx : errOf x = operandError b 0 k1)
    (hy : errOf y = operandError b 1 k2) (hz : errOf z = operandError b 2 k3) :
    errOf (do .ok (f (← x) (← y) (← z))) = firstError b 0 [k1, k2, k3] := by
  refine (errOf_bind (o := (operandError b 1 k2).or (operandError b 2 k3)) fun a => ?_).trans ?_
  · refine (errOf_bind (o := operandError b 2 k3) fun _ => ?_).trans ?_
    · refine (errOf_bind (o := none) fun _ => rfl).trans ?_
      rw [hz, Option.or_none]
    · rw [hy]
  · rw [hx]
    show _ = (operandError b 0 k1).or ((operandError b 1 k2).or ((operandError b 2 k3).or none))
    rw [Option.or_none]

theorem errOf_decode (b : Bytes4) : errOf (Instr.decode b) =
    match operands (b.b0.toNat / 8) with
    | none => some (.unknownOpCode (b.b0 >>> 3))
    | some ks => firstError b 0 ks := by
  have hn : (b.b0 >>> 3).toNat = b.b0.toNat / 8 := by
    rw [BitVec.toNat_ushiftRight, Nat.shiftRight_eq_div_pow]
  rw [decode_at b hn]
  have hr := errOf_argReg b
  have h10 : errOf (argRegOrLit1 b 1) = _ := errOf_narrow b (k := 0) (by decide)
  have h11 : errOf (argRegOrLit1 b 2) = _ := errOf_narrow b (k := 1) (by decide)
  have h12 : errOf (argRegOrLit1 b 3) = _ := errOf_narrow b (k := 2) (by decide)
  have h20 : errOf (argRegOrLit2 b 1) = _ := errOf_wide b (k := 0) (by decide)
  have h21 : errOf (argRegOrLit2 b 2) = _ := errOf_wide b (k := 1) (by decide)
  have hlt : b.b0.toNat / 8 < 32 := by have := b.b0.isLt; omega
  generalize b.b0.toNat / 8 = n at hlt
  match n, hlt with
  | 0, _ => rfl
  | 1, _ | 3, _ | 4, _ | 5, _ | 8, _ | 9, _ | 10, _ | 13, _ => exact errOf_two (hr 0) h21
  | 2, _ => exact errOf_two (hr 0) (hr 1)
  | 6, _ | 7, _ | 20, _ | 28, _ => exact errOf_three (hr 0) h11 h12
  | 11, _ | 12, _ => exact errOf_two (hr 0) h11
  | 14, _ | 15, _ | 25, _ | 27, _ => exact errOf_one h20
  | 16, _ | 17, _ | 18, _ | 31, _ => exact errOf_one h10
  | 19, _ | 21, _ | 22, _ | 23, _ => exact errOf_three h10 h11 h12
  | 24, _ => exact errOf_three h10 h11 (hr 2)
  | 26, _ | 29, _ => exact errOf_one (hr 0)
  | 30, _ => rfl
  | n + 32, h => omega

/-- **C93.** A word is refused by the decoder exactly when its opcode is not in the table, or an operand designates a register
that does not exist; the error names the opcode, or the first such operand (numbered from 0) with the code it contains. -/
theorem C93_decoding_errors (b : Bytes4) (e : InstrDecodingError) :
    Instr.decode b = .error e ↔
      (operands (b.nats 0 / 8) = none ∧ ∃ op, op.toNat = b.nats 0 / 8 ∧ e = .unknownOpCode op) ∨
      ∃ k code, FirstBad b.nats k ∧ code.toNat = b.nats (k + 1) ∧ e = .unknownRegister k code := by
  have h0 : Instr.decode b = .error e ↔ errOf (Instr.decode b) = some e := by
    cases Instr.decode b with
    | ok i => exact ⟨nofun, nofun⟩
    | error e' => exact ⟨fun h => by cases h; rfl, fun h => by cases h; rfl⟩
  have hn : (b.b0 >>> 3).toNat = b.b0.toNat / 8 := by
    rw [BitVec.toNat_ushiftRight, Nat.shiftRight_eq_div_pow]
  rw [h0, errOf_decode]
  show _ ↔ (operands (b.b0.toNat / 8) = none ∧ ∃ op : U8, op.toNat = b.b0.toNat / 8 ∧ _) ∨ _
  cases ho : operands (b.b0.toNat / 8) with
  | none =>
    constructor
    · intro h; cases h
      exact .inl ⟨rfl, _, hn, rfl⟩
    · rintro (⟨_, op, h1, rfl⟩ | ⟨k, code, ⟨ks, h1, _⟩, _⟩)
      · have : op = b.b0 >>> 3 := BitVec.eq_of_toNat_eq (h1.trans hn.symm)
        rw [this]
      · have h1 : operands (b.b0.toNat / 8) = some ks := h1
        rw [ho] at h1; cases h1
  | some ks =>
    refine firstError_some.trans ?_
    constructor
    · rintro ⟨i, h1, h2, rfl⟩
      simp only [Nat.zero_add] at h1 h2 ⊢
      exact .inr ⟨i, _, ⟨ks, ho, h1, h2⟩, rfl, rfl⟩
    · rintro (⟨h, _⟩ | ⟨k, code, ⟨ks', h1, h2, h3⟩, h4, rfl⟩)
      · cases h
      · have h1 : operands (b.b0.toNat / 8) = some ks' := h1
        rw [ho] at h1; cases h1
        refine ⟨k, ?_, ?_, ?_⟩
        · rw [Nat.zero_add]; exact h2
        · intro j kind hj hk
          rw [Nat.zero_add]; exact h3 j kind hj hk
        · rw [Nat.zero_add, show code = b.get (k + 1) from BitVec.eq_of_toNat_eq h4]

/-- A word is accepted by the decoder exactly when its opcode is in the table and every operand designates a register that exists. -/
theorem C93_accepted (b : Bytes4) : (∃ i, Instr.decode b = .ok i) ↔
    ∃ ks, operands (b.nats 0 / 8) = some ks ∧ ∀ k kind, ks[k]? = some kind → ¬ Bad (b.nats 0) k kind (b.nats (k + 1)) := by
  constructor
  · rintro ⟨i, hi⟩
    have he := C93_decoding_errors b
    cases ho : operands (b.nats 0 / 8) with
    | none =>
      have hn : (b.b0 >>> 3).toNat = b.nats 0 / 8 := by
        rw [BitVec.toNat_ushiftRight, Nat.shiftRight_eq_div_pow]; rfl
      have := (he _).2 (.inl ⟨ho, _, hn, rfl⟩)
      rw [hi] at this; cases this
    | some ks =>
      refine ⟨ks, rfl, ?_⟩
      intro k
      induction k using Nat.strongRecOn with
      | ind k ih =>
        intro kind hk hb
        have := (he _).2 (.inr ⟨k, b.get (k + 1), ⟨ks, ho, ⟨kind, hk, hb⟩, fun j kd hj => ih j hj kd⟩, rfl, rfl⟩)
        rw [hi] at this; cases this
  · rintro ⟨ks, ho, hk⟩
    cases hi : Instr.decode b with
    | ok i => exact ⟨i, rfl⟩
    | error e =>
      rcases (C93_decoding_errors b e).1 hi with ⟨h, _⟩ | ⟨k, _, ⟨ks', h1, ⟨kind, h2, h3⟩, _⟩, _⟩
      · rw [ho] at h; cases h
      · rw [ho] at h1; cases h1
        exact absurd h3 (hk k kind h2)

/-- `if2 1, r33, 0xff`: the second operand is the first bad one. -/
example : Instr.decode ⟨0x9B, 1, 33, 0xFF⟩ = .error (.unknownRegister 1 33) ∧ FirstBad (Bytes4.nats ⟨0x9B, 1, 33, 0xFF⟩) 1 := by
  refine ⟨rfl, _, rfl, ⟨.narrow, rfl, by unfold Bad; decide⟩, ?_⟩
  intro j kind hj hk
  obtain rfl : j = 0 := by omega
  cases hk
  unfold Bad; decide

/-- The same word with constants is accepted. -/
example : Instr.decode ⟨0x98, 1, 33, 0xFF⟩ = .ok (.if2 (.lit 1) (.lit 33) (.lit 0xFF)) := rfl

end Lrvm
