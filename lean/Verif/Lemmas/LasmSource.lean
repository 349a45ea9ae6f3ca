import Verif.Lemmas.LasmTable
import Verif.Spec.LasmSource

/-!
# Assembling a documented source
-/

namespace Lrvm

open Lasm Spec

variable {env : Env}

/-! ## Numbers -/

theorem isDigit_val {c : Char} {d : Nat} (h : IsDigit c d) : d < 16 ∧ digitVal c = some d ∧ c ≠ '_' ∧ c ≠ 'x' ∧ c ≠ '-' ∧
    ((c ≠ ',' ∧ c ≠ '"') ∧ c ≠ ';' ∧ c ≠ '\n' ∧ c ≠ ' ') := by
  have upper : ∀ k : Fin 16, digitVal ("0123456789ABCDEF".toList[k]) = some k.val ∧ "0123456789ABCDEF".toList[k] ≠ '_' ∧
      "0123456789ABCDEF".toList[k] ≠ 'x' ∧ "0123456789ABCDEF".toList[k] ≠ '-' ∧
      (("0123456789ABCDEF".toList[k] ≠ ',' ∧ "0123456789ABCDEF".toList[k] ≠ '"') ∧ "0123456789ABCDEF".toList[k] ≠ ';' ∧
      "0123456789ABCDEF".toList[k] ≠ '\n' ∧ "0123456789ABCDEF".toList[k] ≠ ' ') := by decide
  have lower : ∀ k : Fin 16, digitVal ("0123456789abcdef".toList[k]) = some k.val ∧ "0123456789abcdef".toList[k] ≠ '_' ∧
      "0123456789abcdef".toList[k] ≠ 'x' ∧ "0123456789abcdef".toList[k] ≠ '-' ∧
      (("0123456789abcdef".toList[k] ≠ ',' ∧ "0123456789abcdef".toList[k] ≠ '"') ∧ "0123456789abcdef".toList[k] ≠ ';' ∧
      "0123456789abcdef".toList[k] ≠ '\n' ∧ "0123456789abcdef".toList[k] ≠ ' ') := by decide
  rcases h with h | h
  · obtain ⟨hd, rfl⟩ := List.getElem?_eq_some_iff.1 h
    exact ⟨hd, upper ⟨d, hd⟩⟩
  · obtain ⟨hd, rfl⟩ := List.getElem?_eq_some_iff.1 h
    exact ⟨hd, lower ⟨d, hd⟩⟩

theorem digitsVal_snoc {base d : Nat} {c : Char} (hd : digitVal c = some d) (hc : c ≠ '_') (hb : d < base) :
    ∀ (t : Text) (acc : Nat), digitsVal base acc (t ++ [c]) = (digitsVal base acc t).map fun n => n * base + d
  | [], acc => by
    show digitsVal base acc [c] = some (acc * base + d)
    simp [digitsVal, hc, hd, hb]
  | x :: t, acc => by
    rw [List.cons_append, digitsVal, digitsVal]
    split
    · exact digitsVal_snoc hd hc hb t acc
    · split
      · split
        · exact digitsVal_snoc hd hc hb t _
        · rfl
      · rfl

theorem numeral_val {base : Nat} {t : Text} {n : Nat} (h : Numeral base t n) : digitsVal base 0 t = some n := by
  induction h with
  | one hd hb =>
    obtain ⟨_, h1, h2, _⟩ := isDigit_val hd
    exact (digitsVal_snoc h1 h2 hb [] 0).trans (by simp [digitsVal])
  | more _ hd hb ih =>
    obtain ⟨_, h1, h2, _⟩ := isDigit_val hd
    rw [digitsVal_snoc h1 h2 hb, ih]
    rfl

theorem numeral_chars {base : Nat} {t : Text} {n : Nat} (h : Numeral base t n) :
    t ≠ [] ∧ ∀ c ∈ t, ∃ d, IsDigit c d ∧ d < base := by
  induction h with
  | @one c d hd hb => exact ⟨by simp, by intro x hx; rw [List.mem_singleton.1 hx]; exact ⟨d, hd, hb⟩⟩
  | @more t c n d _ hd hb ih =>
    refine ⟨by simp, ?_⟩
    intro x hx
    rcases List.mem_append.1 hx with hx | hx
    · exact ih.2 x hx
    · rw [List.mem_singleton.1 hx]; exact ⟨d, hd, hb⟩

theorem digit_ten {c : Char} {d : Nat} (h : IsDigit c d) (hd : d < 10) :
    c ∈ "0123456789".toList := by
  have upper : ∀ k : Fin 10, ("0123456789ABCDEF".toList[k]?) = some ("0123456789".toList[k]) ∧
      ("0123456789abcdef".toList[k]?) = some ("0123456789".toList[k]) := by decide
  rcases h with h | h
  · have := (upper ⟨d, hd⟩).1.symm.trans h
    rw [← Option.some.inj this]; exact List.getElem_mem _
  · have := (upper ⟨d, hd⟩).2.symm.trans h
    rw [← Option.some.inj this]; exact List.getElem_mem _

/-- What an unsigned number looks like and what it is worth. -/
theorem unsigned_val {t : Text} {n : Nat} (h : Unsigned t n) :
    parseNat t = some n ∧ (∃ c cs, t = c :: cs ∧ c ∈ "0123456789".toList) ∧
    ∀ c ∈ t, (c ≠ ',' ∧ c ≠ '"') ∧ c ≠ ';' ∧ c ≠ '\n' ∧ c ≠ ' ' := by
  cases h with
  | dec h =>
    have hv := numeral_val h
    obtain ⟨hne, hc⟩ := numeral_chars h
    have hsafe : ∀ c ∈ t, (c ≠ ',' ∧ c ≠ '"') ∧ c ≠ ';' ∧ c ≠ '\n' ∧ c ≠ ' ' := fun c hm => by
      obtain ⟨d, hd, _⟩ := hc c hm
      exact (isDigit_val hd).2.2.2.2.2
    match t, hne with
    | c :: cs, _ =>
      obtain ⟨d, hd, hlt⟩ := hc c (by simp)
      refine ⟨?_, ⟨c, cs, rfl, digit_ten hd hlt⟩, hsafe⟩
      unfold parseNat
      split
      · rename_i c' cs' heq
        have hx : 'x' ∈ c :: cs := by rw [heq]; simp
        obtain ⟨e, he, _⟩ := hc _ hx
        exact absurd rfl (isDigit_val he).2.2.2.1
      · rename_i c' cs' heq
        have hx : 'b' ∈ c :: cs := by rw [heq]; simp
        obtain ⟨e, he, hlt⟩ := hc _ hx
        exact absurd (digit_ten he hlt) (by decide)
      · rename_i c' cs' _ _ heq
        rw [← heq]
        have : c' = c := by injection heq with h1 h2; exact h1.symm
        rw [this, if_neg (isDigit_val hd).2.2.1]
        exact hv
      · rename_i heq
        cases heq
  | @hex t n h =>
    have hv := numeral_val h
    obtain ⟨hne, hc⟩ := numeral_chars h
    match t, hne with
    | c :: cs, _ =>
      refine ⟨hv, ⟨'0', _, rfl, by decide⟩, ?_⟩
      intro x hx
      rcases List.mem_cons.1 hx with rfl | hx
      · decide
      rcases List.mem_cons.1 hx with rfl | hx
      · decide
      obtain ⟨d, hd, _⟩ := hc x hx
      exact (isDigit_val hd).2.2.2.2.2
  | @bin t n h =>
    have hv := numeral_val h
    obtain ⟨hne, hc⟩ := numeral_chars h
    match t, hne with
    | c :: cs, _ =>
      refine ⟨hv, ⟨'0', _, rfl, by decide⟩, ?_⟩
      intro x hx
      rcases List.mem_cons.1 hx with rfl | hx
      · decide
      rcases List.mem_cons.1 hx with rfl | hx
      · decide
      obtain ⟨d, hd, _⟩ := hc x hx
      exact (isDigit_val hd).2.2.2.2.2

theorem parseNum_unsigned {t : Text} {n : Nat} (h : Unsigned t n) : parseNum t = some (n : Int) := by
  obtain ⟨hv, ⟨c, cs, rfl, hc⟩, _⟩ := unsigned_val h
  unfold parseNum
  split
  · rename_i heq
    injection heq with h1 h2
    rw [h1] at hc
    exact absurd hc (by decide)
  · rw [hv]; rfl

theorem classify_digit {t : Text} {c : Char} (h : t.head? = some c) (hc : c ∈ "0123456789-".toList) :
    classifyPlain t = (parseNum t).map Operand.num := by
  have names : ∀ table ∈ [regNames, arflagNames, divModeNames, hwInfoNames, if2ModeNames],
      ∀ e ∈ table, ∀ c ∈ "0123456789-".toList, e.1.toList.head? ≠ some c := by decide +kernel
  have h0 : ∀ table ∈ [regNames, arflagNames, divModeNames, hwInfoNames, if2ModeNames], lookupName table t = none :=
    fun table ht => lookupName_none h fun e he => names table ht e he c hc
  rw [classifyPlain, h0 regNames (by simp), h0 arflagNames (by simp), h0 divModeNames (by simp), h0 hwInfoNames (by simp),
    h0 if2ModeNames (by simp)]
  rfl

theorem unsigned_noSpace {t : Text} {n : Nat} (h : Unsigned t n) : ' ' ∉ t := by
  obtain ⟨-, -, hs⟩ := unsigned_val h
  exact fun hc => (hs _ hc).2.2.2 rfl

theorem written_unsigned {t : Text} {n : Nat} (h : Unsigned t n) : Written env t (.num n) := by
  obtain ⟨hv, ⟨c, cs, rfl, hc⟩, hs⟩ := unsigned_val h
  refine ⟨isOp_of (by simp) hs, classify_plain ?_⟩
  rw [classify_digit (c := c) rfl (List.mem_append_left ['-'] hc), parseNum_unsigned h]
  rfl

theorem written_number {t : Text} {z : Int} (h : Number t z) : Written env t (.num z) := by
  cases h with
  | pos h => exact written_unsigned h
  | @neg t n h =>
    obtain ⟨hv, _, hs⟩ := unsigned_val h
    refine ⟨isOp_of (by simp) ?_, classify_plain ?_⟩
    · intro x hx
      rcases List.mem_cons.1 hx with rfl | hx
      · decide
      · exact hs x hx
    · rw [classify_digit (c := '-') rfl (by decide)]
      have : parseNum ('-' :: t) = (parseNat t).map fun n => -(n : Int) := rfl
      rw [this, hv]
      rfl

theorem number_head {t : Text} {z : Int} (h : Number t z) : ∃ c, t.head? = some c ∧ c ∈ "0123456789-".toList := by
  cases h with
  | pos h =>
    obtain ⟨-, ⟨c, cs, rfl, hc⟩, -⟩ := unsigned_val h
    exact ⟨c, rfl, List.mem_append_left ['-'] hc⟩
  | neg h => exact ⟨'-', rfl, by decide⟩

theorem number_word {t : Text} {z : Int} (h : Number t z) : IsWord t ∧ parseNum t = some z := by
  cases h with
  | @pos t n h =>
    obtain ⟨-, ⟨c, cs, rfl, -⟩, hs⟩ := unsigned_val h
    exact ⟨⟨by simp, hs⟩, parseNum_unsigned h⟩
  | @neg t n h =>
    obtain ⟨hv, -, hs⟩ := unsigned_val h
    refine ⟨⟨by simp, ?_⟩, ?_⟩
    · intro x hx
      rcases List.mem_cons.1 hx with rfl | hx
      · decide
      · exact hs x hx
    · have : parseNum ('-' :: t) = (parseNat t).map fun n => -(n : Int) := rfl
      rw [this, hv]
      rfl

/-! ## Labels and sums -/

theorem digitsVal_space {base : Nat} : ∀ {t : Text} (acc : Nat), ' ' ∈ t → digitsVal base acc t = none
  | c :: cs, acc, h => by
    rw [digitsVal]
    rcases List.mem_cons.1 h with h | h
    · subst h
      rw [if_neg (by decide), show digitVal ' ' = none by decide]
    · split
      · exact digitsVal_space acc h
      · split
        · split
          · exact digitsVal_space _ h
          · rfl
        · rfl

theorem parseNat_space {t : Text} (h : ' ' ∈ t) : parseNat t = none := by
  unfold parseNat
  split
  · refine digitsVal_space _ ?_
    simpa using h
  · refine digitsVal_space _ ?_
    simpa using h
  · split
    · rfl
    · exact digitsVal_space _ h
  · rfl

theorem parseNum_space {t : Text} (h : ' ' ∈ t) : parseNum t = none := by
  unfold parseNum
  split
  · rw [parseNat_space (by simpa using h)]; rfl
  · rw [parseNat_space h]; rfl

theorem lookupName_absent {table : List (String × Nat)} {t : Text} (h : ∀ e ∈ table, e.1.toList ≠ t) :
    lookupName table t = none := by
  unfold lookupName
  rw [List.find?_eq_none.2 (by simpa using h)]
  rfl

theorem classifyPlain_absent {t : Text}
    (h : ∀ table ∈ [regNames, arflagNames, divModeNames, hwInfoNames, if2ModeNames], ∀ e ∈ table, e.1.toList ≠ t)
    (hp : parseNum t = none) : classifyPlain t = none := by
  rw [classifyPlain, lookupName_absent (h regNames (by simp)), lookupName_absent (h arflagNames (by simp)),
    lookupName_absent (h divModeNames (by simp)), lookupName_absent (h hwInfoNames (by simp)),
    lookupName_absent (h if2ModeNames (by simp)), hp]
  rfl

theorem classifyPlain_space {t : Text} (h : ' ' ∈ t) : classifyPlain t = none := by
  refine classifyPlain_absent ?_ (parseNum_space h)
  have names : ∀ table ∈ [regNames, arflagNames, divModeNames, hwInfoNames, if2ModeNames],
      ∀ e ∈ table, ' ' ∉ e.1.toList := by decide +kernel
  rintro table ht e he rfl
  exact names table ht e he h

theorem alnum_facts {c : Char} (h : c.isAlphanum = true ∨ c = '_' ∨ c = '.') :
    (c ≠ ',' ∧ c ≠ '"') ∧ c ≠ ';' ∧ c ≠ '\n' ∧ c ≠ ' ' ∧ c ≠ '-' ∧ labelChar c = true := by
  refine ⟨⟨?_, ?_⟩, ?_, ?_, ?_, ?_, ?_⟩
  · rintro rfl; revert h; decide
  · rintro rfl; revert h; decide
  · rintro rfl; revert h; decide
  · rintro rfl; revert h; decide
  · rintro rfl; revert h; decide
  · rintro rfl; revert h; decide
  · rcases h with h | rfl | rfl
    · simp [labelChar, h]
    · decide
    · decide

theorem digitVal_digit {c : Char} {d : Nat} (h : digitVal c = some d) (hd : d < 10) : c.isDigit = true := by
  unfold digitVal at h
  split at h
  · rename_i hc
    simp only [Char.isDigit, Bool.and_eq_true, decide_eq_true_eq]
    exact hc
  · split at h
    · rename_i hc
      have h1 : 65 ≤ c.toNat := hc.1
      have := Option.some.inj h
      omega
    · split at h
      · rename_i hc
        have h1 : 97 ≤ c.toNat := hc.1
        have := Option.some.inj h
        omega
      · cases h

theorem parseNum_label {t : Text} (h : IsLabel t) : parseNum t = none := by
  match t, h with
  | c :: cs, h =>
    have hc := alnum_facts (h.chars c (by simp))
    have hd : c.isDigit = false := h.head c rfl
    have h0 : c ≠ '0' := by rintro rfl; revert hd; decide
    have hp : parseNat (c :: cs) = none := by
      unfold parseNat
      split
      · rename_i e; exact absurd (List.cons.inj e).1 h0
      · rename_i e; exact absurd (List.cons.inj e).1 h0
      · rename_i c' cs' _ _ e
        obtain ⟨rfl, rfl⟩ := List.cons.inj e
        split
        · rfl
        · rename_i hu
          rw [digitsVal, if_neg hu]
          split
          · rename_i d hv
            split
            · rename_i hlt
              rw [digitVal_digit hv hlt] at hd
              cases hd
            · rfl
          · rfl
      · rfl
    unfold parseNum
    split
    · rename_i e; exact absurd (List.cons.inj e).1 hc.2.2.2.2.1
    · rw [hp]; rfl
  | [], h => exact absurd rfl h.ne

theorem label_word {t : Text} (h : IsLabel t) : IsWord t :=
  ⟨h.ne, fun c hc => by have := alnum_facts (h.chars c hc); exact ⟨this.1, this.2.1, this.2.2.1, this.2.2.2.1⟩⟩

theorem classifyPlain_label {t : Text} (h : IsLabel t) : classifyPlain t = none := by
  refine classifyPlain_absent ?_ (parseNum_label h)
  have regs : ∀ e ∈ regNames, ∃ r : Reg, e.1 = r.name := by
    have : ∀ e ∈ regNames, (Reg.fromCode (BitVec.ofNat 8 e.2)).map Reg.name = some e.1 := by decide +kernel
    intro e he
    have := this e he
    cases hr : Reg.fromCode (BitVec.ofNat 8 e.2) with
    | none => rw [hr] at this; cases this
    | some r => rw [hr] at this; exact ⟨r, (Option.some.inj this).symm⟩
  have consts : ∀ table ∈ [arflagNames, divModeNames, hwInfoNames, if2ModeNames],
      ∀ e ∈ table, e.1.toList ∈ constantNames := by decide +kernel
  rintro table ht e he rfl
  rcases List.mem_cons.1 ht with rfl | ht
  · obtain ⟨r, hr⟩ := regs e he
    exact h.notReg r (by rw [hr])
  · exact h.notConstant (consts table ht e he)

/-- The labels of the specification are those of the assembler. -/
def Agrees (names : Names) (env : Env) : Prop := ∀ t n, names t n → env t = some n

variable {names : Names}

theorem agrees_none : Agrees noNames env := fun _ _ h => h.elim

theorem term_word {t : Text} {z : Int} (hE : Agrees names env) (h : Spec.Term names t z) :
    IsWord t ∧ term env t = some z := by
  cases h with
  | num h =>
    obtain ⟨hw, hv⟩ := number_word h
    exact ⟨hw, by rw [term, hv]; rfl⟩
  | label hl hn =>
    exact ⟨label_word hl, by rw [term, parseNum_label hl, hE _ _ hn]; rfl⟩

/-- The words of a text. -/
def tokens (t : Text) : List Text := (splitAt ' ' t).filter (· != [])

theorem splitAt_append_all (c : Char) : ∀ (t rest : Text), splitAt c (t ++ c :: rest) = splitAt c t ++ splitAt c rest
  | [], rest => by simp [splitAt]
  | d :: ds, rest => by
    rw [List.cons_append, splitAt, splitAt]
    split
    · rw [splitAt_append_all c ds rest]; rfl
    · rw [splitAt_append_all c ds rest]
      cases h : splitAt c ds with
      | nil => exact absurd h (splitAt_ne_nil c ds)
      | cons x xs => rfl

theorem tokens_word {t : Text} (h : IsWord t) : tokens t = [t] := by
  unfold tokens
  rw [splitAt_none (fun hc => (h.2 _ hc).2.2.2 rfl), List.filter_cons_of_pos (by simpa using h.1), List.filter_nil]

theorem tokens_op {t u : Text} {o : Char} (ho : o ≠ ' ') (hu : IsWord u) :
    tokens (t ++ ' ' :: o :: ' ' :: u) = tokens t ++ [[o], u] := by
  have h1 : splitAt ' ' (o :: ' ' :: u) = [o] :: splitAt ' ' u := splitAt_append (t := [o]) (by simpa using ho.symm)
  have h2 := tokens_word hu
  unfold tokens at h2 ⊢
  rw [splitAt_append_all, List.filter_append, h1, List.filter_cons_of_pos (by simp), h2]

theorem sumFrom_add {u : Text} {w : Int} (hu : term env u = some w) : ∀ {acc z : Int} {ts : List Text},
    sumFrom env acc ts = some z → sumFrom env acc (ts ++ [['+'], u]) = some (z + w) := by
  intro acc z ts
  induction acc, ts using sumFrom.induct with
  | case1 acc => intro h; cases h; simp [sumFrom, hu]
  | case2 acc t ts ih =>
    intro h
    rw [sumFrom] at h
    show (term env t).bind (fun v => sumFrom env (acc + v) (ts ++ [['+'], u])) = _
    cases ht : term env t with
    | none => rw [ht] at h; cases h
    | some v => rw [ht] at h; exact ih v h
  | case3 acc t ts ih =>
    intro h
    rw [sumFrom] at h
    show (term env t).bind (fun v => sumFrom env (acc - v) (ts ++ [['+'], u])) = _
    cases ht : term env t with
    | none => rw [ht] at h; cases h
    | some v => rw [ht] at h; exact ih v h
  | case4 acc ts h1 h2 h3 =>
    intro h
    rw [sumFrom] at h
    · cases h
    all_goals assumption

theorem sumFrom_sub {u : Text} {w : Int} (hu : term env u = some w) : ∀ {acc z : Int} {ts : List Text},
    sumFrom env acc ts = some z → sumFrom env acc (ts ++ [['-'], u]) = some (z - w) := by
  intro acc z ts
  induction acc, ts using sumFrom.induct with
  | case1 acc => intro h; cases h; simp [sumFrom, hu]
  | case2 acc t ts ih =>
    intro h
    rw [sumFrom] at h
    show (term env t).bind (fun v => sumFrom env (acc + v) (ts ++ [['-'], u])) = _
    cases ht : term env t with
    | none => rw [ht] at h; cases h
    | some v => rw [ht] at h; exact ih v h
  | case3 acc t ts ih =>
    intro h
    rw [sumFrom] at h
    show (term env t).bind (fun v => sumFrom env (acc - v) (ts ++ [['-'], u])) = _
    cases ht : term env t with
    | none => rw [ht] at h; cases h
    | some v => rw [ht] at h; exact ih v h
  | case4 acc ts h1 h2 h3 =>
    intro h
    rw [sumFrom] at h
    · cases h
    all_goals assumption

theorem isOp_sum {t u : Text} {o : Char} (ho : (o ≠ ',' ∧ o ≠ '"') ∧ o ≠ ';' ∧ o ≠ '\n') (ht : IsOp t) (hu : IsWord u) :
    IsOp (t ++ ' ' :: o :: ' ' :: u) := by
  have hu' := isOp_of hu.1 hu.2
  refine ⟨by simp, ?_, ?_, ?_⟩
  · intro c hc
    simp only [List.mem_append, List.mem_cons] at hc
    rcases hc with hc | rfl | rfl | rfl | hc
    · exact ht.seps c hc
    · decide
    · exact ho
    · decide
    · exact hu'.seps c hc
  · have := ht.head
    cases t with
    | nil => exact absurd rfl ht.ne
    | cons c cs => simpa using this
  · have := hu'.last
    rw [List.getLast?_append, List.getLast?_cons, List.getLast?_cons, List.getLast?_cons]
    cases hl : u.getLast? with
    | none => exact absurd (List.getLast?_eq_none_iff.1 hl) hu.1
    | some c => rw [hl] at this; simpa using this

/-- What a value is for the assembler. -/
theorem value_expr {t : Text} {z : Int} (hE : Agrees names env) (h : Value names t z) :
    IsOp t ∧ (∃ x ts v, tokens t = x :: ts ∧ term env x = some v ∧ sumFrom env v ts = some z) ∧
    (classifyPlain t = some (.num z) ∨ classifyPlain t = none) := by
  induction h with
  | term h =>
    obtain ⟨hw, hv⟩ := term_word hE h
    refine ⟨isOp_of hw.1 hw.2, ⟨_, [], _, tokens_word hw, hv, rfl⟩, ?_⟩
    cases h with
    | num h =>
      have := (written_number (env := fun _ => none) h).value
      unfold classify at this
      left
      cases hc : classifyPlain _ with
      | some o => rw [hc] at this; exact congrArg some (Option.some.inj this)
      | none =>
        exfalso
        obtain ⟨c, hc1, hc2⟩ : ∃ c, List.head? _ = some c ∧ c ∈ "0123456789-".toList := number_head h
        rw [classify_digit hc1 hc2, (number_word h).2] at hc
        cases hc
    | label hl hn => exact Or.inr (classifyPlain_label hl)
  | add _ hu ih =>
    obtain ⟨ho, ⟨x, ts, v, h1, h2, h3⟩, -⟩ := ih
    obtain ⟨hw, hv⟩ := term_word hE hu
    refine ⟨isOp_sum (by decide) ho hw, ⟨x, ts ++ [['+'], _], v, ?_, h2, sumFrom_add hv h3⟩,
      Or.inr (classifyPlain_space (by simp))⟩
    rw [tokens_op (by decide) hw, h1]; rfl
  | sub _ hu ih =>
    obtain ⟨ho, ⟨x, ts, v, h1, h2, h3⟩, -⟩ := ih
    obtain ⟨hw, hv⟩ := term_word hE hu
    refine ⟨isOp_sum (by decide) ho hw, ⟨x, ts ++ [['-'], _], v, ?_, h2, sumFrom_sub hv h3⟩,
      Or.inr (classifyPlain_space (by simp))⟩
    rw [tokens_op (by decide) hw, h1]; rfl

theorem value_exprVal {t : Text} {z : Int} (hE : Agrees names env) (h : Value names t z) : exprVal env t = some z := by
  obtain ⟨-, ⟨x, ts, v, h1, h2, h3⟩, -⟩ := value_expr hE h
  unfold tokens at h1
  unfold exprVal
  rw [h1]
  show (term env x).bind (fun v => sumFrom env v ts) = _
  rw [h2]
  exact h3

theorem written_value {t : Text} {z : Int} (hE : Agrees names env) (h : Value names t z) : Written env t (.num z) := by
  obtain ⟨ho, -, hc⟩ := value_expr hE h
  refine ⟨ho, ?_⟩
  rcases hc with hc | hc
  · exact classify_plain hc
  · rw [classify, hc, value_exprVal hE h]; rfl

/-! ## Operands -/

theorem opReg_writes {t : Text} {r : Reg} (h : OpReg t r) : WritesReg env t r := by
  cases h; exact writesReg r

theorem op1_writes {t : Text} {v : RegOrLit1} (hE : Agrees names env) (h : Op1 names t v) : Writes1 env t v := by
  cases h with
  | reg r => exact writesReg r
  | lit h h0 hn =>
    rename_i z
    have := written_value hE h
    show Written env t (.num ((BitVec.ofInt 8 z).toNat : Nat))
    rwa [BitVec.toNat_ofInt, Int.toNat_of_nonneg (by omega), Int.emod_eq_of_lt (by omega) (by omega)]

theorem op2_writes {t : Text} {v : RegOrLit2} (hE : Agrees names env) (h : Op2 names t v) : Writes2 env t v := by
  cases h with
  | reg r => exact writesReg r
  | lit h h0 hn =>
    rename_i z
    have := written_value hE h
    show Written env t (.num ((BitVec.ofInt 16 z).toNat : Nat))
    rwa [BitVec.toNat_ofInt, Int.toNat_of_nonneg (by omega), Int.emod_eq_of_lt (by omega) (by omega)]

/-- A signed byte, as it is written. -/
inductive WritesS (env : Env) (t : Text) : RegOrLit1 → Prop
  | reg {r : Reg} : WritesReg env t r → WritesS env t (.reg r)
  | lit {z : Int} : Written env t (.num z) → -128 ≤ z ∧ z < 256 → WritesS env t (.lit (BitVec.ofInt 8 z))

theorem opS_writes {t : Text} {v : RegOrLit1} (hE : Agrees names env) (h : OpS names t v) : WritesS env t v := by
  cases h with
  | reg r => exact .reg (writesReg r)
  | lit h h1 h2 => exact .lit (written_value hE h) ⟨h1, h2⟩

theorem WritesS.isOp {t : Text} {v : RegOrLit1} (h : WritesS env t v) : IsOp t := by
  cases h with
  | reg h => exact h.isOp
  | lit h _ => exact h.isOp

section
variable {ps : List Pat} {os : List Operand} {z : Int}

theorem acc_i8z (h : -128 ≤ z ∧ z < 256) : acceptAll (.i8 :: ps) (.num z :: os) = (acceptAll ps os).map (z :: ·) := by
  refine acceptAll_some ?_
  simp only [Pat.accept]
  rw [if_pos h]

theorem rej_long {p : Pat} {o o' : Operand} : acceptAll [p] (o :: o' :: os) = none := by
  cases h : p.accept o with
  | none => exact acceptAll_none h
  | some v => rw [acceptAll_some h, acceptAll_long]; rfl

theorem acc_i16z (h : -32768 ≤ z ∧ z < 65536) : acceptAll (.i16 :: ps) (.num z :: os) = (acceptAll ps os).map (z :: ·) := by
  refine acceptAll_some ?_
  simp only [Pat.accept]
  rw [if_pos h]
end

macro "eval_cands_s" "[" ts:Lean.Parser.Tactic.simpLemma,* "]" : tactic => `(tactic|
  simp only [cands_nil, cands_cons, RegOrLit1.operand, RegOrLit2.operand, acc_reg, acc_arflag, acc_divMode, acc_hwInfo, acc_if2Mode, acceptAll_nil, acceptAll_short, acceptAll_long, rej_reg_arflag, rej_reg_divMode, rej_reg_hwInfo, rej_reg_if2Mode, rej_reg_num, rej_arflag_reg, rej_arflag_divMode, rej_arflag_hwInfo, rej_arflag_if2Mode, rej_arflag_num, rej_divMode_reg, rej_divMode_arflag, rej_divMode_hwInfo, rej_divMode_if2Mode, rej_divMode_num, rej_hwInfo_reg, rej_hwInfo_arflag, rej_hwInfo_divMode, rej_hwInfo_if2Mode, rej_hwInfo_num, rej_if2Mode_reg, rej_if2Mode_arflag, rej_if2Mode_divMode, rej_if2Mode_hwInfo, rej_if2Mode_num, rej_u8_reg, rej_u8_arflag, rej_u8_divMode, rej_u8_hwInfo, rej_u8_if2Mode, rej_u16_reg, rej_u16_arflag, rej_u16_divMode, rej_u16_hwInfo, rej_u16_if2Mode, rej_i8_reg, rej_i8_arflag, rej_i8_divMode, rej_i8_hwInfo, rej_i8_if2Mode, rej_i16_reg, rej_i16_arflag, rej_i16_divMode, rej_i16_hwInfo, rej_i16_if2Mode, acc_u8, acc_i8, acc_u16, acc_i16,
    Option.map_none, Option.map_some, Option.toList_none, Option.toList_some, List.nil_append, List.cons_append,
    outcome_one, outcome_zero, rej_long, $ts,*])

/-! ## Memory instructions with signed literals -/

theorem srcS_lsa {ta tb tc : Text} {a : Reg} {b : RegOrLit1} {c : RegOrLit1}
    (wa : WritesReg env ta a) (wb : Writes1 env tb b) (wc : WritesS env tc c) :
    Gives env (lasmLine "lsa" [ta, tb, tc]) (.lsa a b c) := by
  cases b with
  | reg b =>
    cases wc with
    | @reg c wc =>
      refine ⟨⟨0xA7, a.code, b.code, c.code⟩, ?_, by first | (eval_decode; done) | (eval_decode; rfl)⟩
      rw [lineOut3 (env := env) rulesFor_lsa (by decide) (by decide) wa.isOp wb.isOp wc.isOp wa.value wb.value wc.value]
      eval_cands_s []; apply eval_rule <;> eval_field
    | @lit zc wc hc =>
      refine ⟨⟨0xA6, a.code, b.code, BitVec.ofInt 8 zc⟩, ?_, by first | (eval_decode; done) | (eval_decode; rfl)⟩
      rw [lineOut3 (env := env) rulesFor_lsa (by decide) (by decide) wa.isOp wb.isOp wc.isOp wa.value wb.value wc.value]
      eval_cands_s [acc_i8z hc]; apply eval_rule <;> eval_field
  | lit b =>
    cases wc with
    | @reg c wc =>
      refine ⟨⟨0xA5, a.code, b, c.code⟩, ?_, by first | (eval_decode; done) | (eval_decode; rfl)⟩
      rw [lineOut3 (env := env) rulesFor_lsa (by decide) (by decide) wa.isOp wb.isOp wc.isOp wa.value wb.value wc.value]
      eval_cands_s []; apply eval_rule <;> eval_field
    | @lit zc wc hc =>
      refine ⟨⟨0xA4, a.code, b, BitVec.ofInt 8 zc⟩, ?_, by first | (eval_decode; done) | (eval_decode; rfl)⟩
      rw [lineOut3 (env := env) rulesFor_lsa (by decide) (by decide) wa.isOp wb.isOp wc.isOp wa.value wb.value wc.value]
      eval_cands_s [acc_i8z hc]; apply eval_rule <;> eval_field

theorem srcS_lea {ta tb tc : Text} {a : RegOrLit1} {b : RegOrLit1} {c : RegOrLit1}
    (wa : Writes1 env ta a) (wb : WritesS env tb b) (wc : WritesS env tc c) :
    Gives env (lasmLine "lea" [ta, tb, tc]) (.lea a b c) := by
  cases a with
  | reg a =>
    cases wb with
    | @reg b wb =>
      cases wc with
      | @reg c wc =>
        refine ⟨⟨0xAF, a.code, b.code, c.code⟩, ?_, by first | (eval_decode; done) | (eval_decode; rfl)⟩
        rw [lineOut3 (env := env) rulesFor_lea (by decide) (by decide) wa.isOp wb.isOp wc.isOp wa.value wb.value wc.value]
        eval_cands_s []; apply eval_rule <;> eval_field
      | @lit zc wc hc =>
        refine ⟨⟨0xAE, a.code, b.code, BitVec.ofInt 8 zc⟩, ?_, by first | (eval_decode; done) | (eval_decode; rfl)⟩
        rw [lineOut3 (env := env) rulesFor_lea (by decide) (by decide) wa.isOp wb.isOp wc.isOp wa.value wb.value wc.value]
        eval_cands_s [acc_i8z hc]; apply eval_rule <;> eval_field
    | @lit zb wb hb =>
      cases wc with
      | @reg c wc =>
        refine ⟨⟨0xAD, a.code, BitVec.ofInt 8 zb, c.code⟩, ?_, by first | (eval_decode; done) | (eval_decode; rfl)⟩
        rw [lineOut3 (env := env) rulesFor_lea (by decide) (by decide) wa.isOp wb.isOp wc.isOp wa.value wb.value wc.value]
        eval_cands_s [acc_i8z hb]; apply eval_rule <;> eval_field
      | @lit zc wc hc =>
        refine ⟨⟨0xAC, a.code, BitVec.ofInt 8 zb, BitVec.ofInt 8 zc⟩, ?_, by first | (eval_decode; done) | (eval_decode; rfl)⟩
        rw [lineOut3 (env := env) rulesFor_lea (by decide) (by decide) wa.isOp wb.isOp wc.isOp wa.value wb.value wc.value]
        eval_cands_s [acc_i8z hb, acc_i8z hc]; apply eval_rule <;> eval_field
  | lit a =>
    cases wb with
    | @reg b wb =>
      cases wc with
      | @reg c wc =>
        refine ⟨⟨0xAB, a, b.code, c.code⟩, ?_, by first | (eval_decode; done) | (eval_decode; rfl)⟩
        rw [lineOut3 (env := env) rulesFor_lea (by decide) (by decide) wa.isOp wb.isOp wc.isOp wa.value wb.value wc.value]
        eval_cands_s []; apply eval_rule <;> eval_field
      | @lit zc wc hc =>
        refine ⟨⟨0xAA, a, b.code, BitVec.ofInt 8 zc⟩, ?_, by first | (eval_decode; done) | (eval_decode; rfl)⟩
        rw [lineOut3 (env := env) rulesFor_lea (by decide) (by decide) wa.isOp wb.isOp wc.isOp wa.value wb.value wc.value]
        eval_cands_s [acc_i8z hc]; apply eval_rule <;> eval_field
    | @lit zb wb hb =>
      cases wc with
      | @reg c wc =>
        refine ⟨⟨0xA9, a, BitVec.ofInt 8 zb, c.code⟩, ?_, by first | (eval_decode; done) | (eval_decode; rfl)⟩
        rw [lineOut3 (env := env) rulesFor_lea (by decide) (by decide) wa.isOp wb.isOp wc.isOp wa.value wb.value wc.value]
        eval_cands_s [acc_i8z hb]; apply eval_rule <;> eval_field
      | @lit zc wc hc =>
        refine ⟨⟨0xA8, a, BitVec.ofInt 8 zb, BitVec.ofInt 8 zc⟩, ?_, by first | (eval_decode; done) | (eval_decode; rfl)⟩
        rw [lineOut3 (env := env) rulesFor_lea (by decide) (by decide) wa.isOp wb.isOp wc.isOp wa.value wb.value wc.value]
        eval_cands_s [acc_i8z hb, acc_i8z hc]; apply eval_rule <;> eval_field

theorem srcS_wsa {ta tb tc : Text} {a : RegOrLit1} {b : RegOrLit1} {c : RegOrLit1}
    (wa : Writes1 env ta a) (wb : WritesS env tb b) (wc : Writes1 env tc c) :
    Gives env (lasmLine "wsa" [ta, tb, tc]) (.wsa a b c) := by
  cases a with
  | reg a =>
    cases wb with
    | @reg b wb =>
      cases c with
      | reg c =>
        refine ⟨⟨0xB7, a.code, b.code, c.code⟩, ?_, by first | (eval_decode; done) | (eval_decode; rfl)⟩
        rw [lineOut3 (env := env) rulesFor_wsa (by decide) (by decide) wa.isOp wb.isOp wc.isOp wa.value wb.value wc.value]
        eval_cands_s []; apply eval_rule <;> eval_field
      | lit c =>
        refine ⟨⟨0xB6, a.code, b.code, c⟩, ?_, by first | (eval_decode; done) | (eval_decode; rfl)⟩
        rw [lineOut3 (env := env) rulesFor_wsa (by decide) (by decide) wa.isOp wb.isOp wc.isOp wa.value wb.value wc.value]
        eval_cands_s []; apply eval_rule <;> eval_field
    | @lit zb wb hb =>
      cases c with
      | reg c =>
        refine ⟨⟨0xB5, a.code, BitVec.ofInt 8 zb, c.code⟩, ?_, by first | (eval_decode; done) | (eval_decode; rfl)⟩
        rw [lineOut3 (env := env) rulesFor_wsa (by decide) (by decide) wa.isOp wb.isOp wc.isOp wa.value wb.value wc.value]
        eval_cands_s [acc_i8z hb]; apply eval_rule <;> eval_field
      | lit c =>
        refine ⟨⟨0xB4, a.code, BitVec.ofInt 8 zb, c⟩, ?_, by first | (eval_decode; done) | (eval_decode; rfl)⟩
        rw [lineOut3 (env := env) rulesFor_wsa (by decide) (by decide) wa.isOp wb.isOp wc.isOp wa.value wb.value wc.value]
        eval_cands_s [acc_i8z hb]; apply eval_rule <;> eval_field
  | lit a =>
    cases wb with
    | @reg b wb =>
      cases c with
      | reg c =>
        refine ⟨⟨0xB3, a, b.code, c.code⟩, ?_, by first | (eval_decode; done) | (eval_decode; rfl)⟩
        rw [lineOut3 (env := env) rulesFor_wsa (by decide) (by decide) wa.isOp wb.isOp wc.isOp wa.value wb.value wc.value]
        eval_cands_s []; apply eval_rule <;> eval_field
      | lit c =>
        refine ⟨⟨0xB2, a, b.code, c⟩, ?_, by first | (eval_decode; done) | (eval_decode; rfl)⟩
        rw [lineOut3 (env := env) rulesFor_wsa (by decide) (by decide) wa.isOp wb.isOp wc.isOp wa.value wb.value wc.value]
        eval_cands_s []; apply eval_rule <;> eval_field
    | @lit zb wb hb =>
      cases c with
      | reg c =>
        refine ⟨⟨0xB1, a, BitVec.ofInt 8 zb, c.code⟩, ?_, by first | (eval_decode; done) | (eval_decode; rfl)⟩
        rw [lineOut3 (env := env) rulesFor_wsa (by decide) (by decide) wa.isOp wb.isOp wc.isOp wa.value wb.value wc.value]
        eval_cands_s [acc_i8z hb]; apply eval_rule <;> eval_field
      | lit c =>
        refine ⟨⟨0xB0, a, BitVec.ofInt 8 zb, c⟩, ?_, by first | (eval_decode; done) | (eval_decode; rfl)⟩
        rw [lineOut3 (env := env) rulesFor_wsa (by decide) (by decide) wa.isOp wb.isOp wc.isOp wa.value wb.value wc.value]
        eval_cands_s [acc_i8z hb]; apply eval_rule <;> eval_field

theorem srcS_wea {ta tb tc : Text} {a : RegOrLit1} {b : RegOrLit1} {c : RegOrLit1}
    (wa : Writes1 env ta a) (wb : WritesS env tb b) (wc : WritesS env tc c) :
    Gives env (lasmLine "wea" [ta, tb, tc]) (.wea a b c) := by
  cases a with
  | reg a =>
    cases wb with
    | @reg b wb =>
      cases wc with
      | @reg c wc =>
        refine ⟨⟨0xBF, a.code, b.code, c.code⟩, ?_, by first | (eval_decode; done) | (eval_decode; rfl)⟩
        rw [lineOut3 (env := env) rulesFor_wea (by decide) (by decide) wa.isOp wb.isOp wc.isOp wa.value wb.value wc.value]
        eval_cands_s []; apply eval_rule <;> eval_field
      | @lit zc wc hc =>
        refine ⟨⟨0xBE, a.code, b.code, BitVec.ofInt 8 zc⟩, ?_, by first | (eval_decode; done) | (eval_decode; rfl)⟩
        rw [lineOut3 (env := env) rulesFor_wea (by decide) (by decide) wa.isOp wb.isOp wc.isOp wa.value wb.value wc.value]
        eval_cands_s [acc_i8z hc]; apply eval_rule <;> eval_field
    | @lit zb wb hb =>
      cases wc with
      | @reg c wc =>
        refine ⟨⟨0xBD, a.code, BitVec.ofInt 8 zb, c.code⟩, ?_, by first | (eval_decode; done) | (eval_decode; rfl)⟩
        rw [lineOut3 (env := env) rulesFor_wea (by decide) (by decide) wa.isOp wb.isOp wc.isOp wa.value wb.value wc.value]
        eval_cands_s [acc_i8z hb]; apply eval_rule <;> eval_field
      | @lit zc wc hc =>
        refine ⟨⟨0xBC, a.code, BitVec.ofInt 8 zb, BitVec.ofInt 8 zc⟩, ?_, by first | (eval_decode; done) | (eval_decode; rfl)⟩
        rw [lineOut3 (env := env) rulesFor_wea (by decide) (by decide) wa.isOp wb.isOp wc.isOp wa.value wb.value wc.value]
        eval_cands_s [acc_i8z hb, acc_i8z hc]; apply eval_rule <;> eval_field
  | lit a =>
    cases wb with
    | @reg b wb =>
      cases wc with
      | @reg c wc =>
        refine ⟨⟨0xBB, a, b.code, c.code⟩, ?_, by first | (eval_decode; done) | (eval_decode; rfl)⟩
        rw [lineOut3 (env := env) rulesFor_wea (by decide) (by decide) wa.isOp wb.isOp wc.isOp wa.value wb.value wc.value]
        eval_cands_s []; apply eval_rule <;> eval_field
      | @lit zc wc hc =>
        refine ⟨⟨0xBA, a, b.code, BitVec.ofInt 8 zc⟩, ?_, by first | (eval_decode; done) | (eval_decode; rfl)⟩
        rw [lineOut3 (env := env) rulesFor_wea (by decide) (by decide) wa.isOp wb.isOp wc.isOp wa.value wb.value wc.value]
        eval_cands_s [acc_i8z hc]; apply eval_rule <;> eval_field
    | @lit zb wb hb =>
      cases wc with
      | @reg c wc =>
        refine ⟨⟨0xB9, a, BitVec.ofInt 8 zb, c.code⟩, ?_, by first | (eval_decode; done) | (eval_decode; rfl)⟩
        rw [lineOut3 (env := env) rulesFor_wea (by decide) (by decide) wa.isOp wb.isOp wc.isOp wa.value wb.value wc.value]
        eval_cands_s [acc_i8z hb]; apply eval_rule <;> eval_field
      | @lit zc wc hc =>
        refine ⟨⟨0xB8, a, BitVec.ofInt 8 zb, BitVec.ofInt 8 zc⟩, ?_, by first | (eval_decode; done) | (eval_decode; rfl)⟩
        rw [lineOut3 (env := env) rulesFor_wea (by decide) (by decide) wa.isOp wb.isOp wc.isOp wa.value wb.value wc.value]
        eval_cands_s [acc_i8z hb, acc_i8z hc]; apply eval_rule <;> eval_field

/-! ## Defaults -/

theorem src_lsa2 {ta tb : Text} {a : Reg} {b : RegOrLit1}
    (wa : WritesReg env ta a) (wb : Writes1 env tb b) :
    Gives env (lasmLine "lsa" [ta, tb]) (.lsa a b (.lit 0)) := by
  cases b with
  | reg b =>
    refine ⟨⟨0xA6, a.code, b.code, 0⟩, ?_, by first | (eval_decode; done) | (eval_decode; rfl)⟩
    rw [lineOut2 (env := env) rulesFor_lsa (by decide) (by decide) wa.isOp wb.isOp wa.value wb.value]
    eval_cands_s []; apply eval_rule <;> eval_field
  | lit b =>
    refine ⟨⟨0xA4, a.code, b, 0⟩, ?_, by first | (eval_decode; done) | (eval_decode; rfl)⟩
    rw [lineOut2 (env := env) rulesFor_lsa (by decide) (by decide) wa.isOp wb.isOp wa.value wb.value]
    eval_cands_s []; apply eval_rule <;> eval_field

theorem src_wsa2 {ta tb : Text} {a : RegOrLit1} {b : RegOrLit1}
    (wa : Writes1 env ta a) (wb : Writes1 env tb b) :
    Gives env (lasmLine "wsa" [ta, tb]) (.wsa a (.lit 0) b) := by
  cases a with
  | reg a =>
    cases b with
    | reg b =>
      refine ⟨⟨0xB5, a.code, 0, b.code⟩, ?_, by first | (eval_decode; done) | (eval_decode; rfl)⟩
      rw [lineOut2 (env := env) rulesFor_wsa (by decide) (by decide) wa.isOp wb.isOp wa.value wb.value]
      eval_cands_s []; apply eval_rule <;> eval_field
    | lit b =>
      refine ⟨⟨0xB4, a.code, 0, b⟩, ?_, by first | (eval_decode; done) | (eval_decode; rfl)⟩
      rw [lineOut2 (env := env) rulesFor_wsa (by decide) (by decide) wa.isOp wb.isOp wa.value wb.value]
      eval_cands_s []; apply eval_rule <;> eval_field
  | lit a =>
    cases b with
    | reg b =>
      refine ⟨⟨0xB1, a, 0, b.code⟩, ?_, by first | (eval_decode; done) | (eval_decode; rfl)⟩
      rw [lineOut2 (env := env) rulesFor_wsa (by decide) (by decide) wa.isOp wb.isOp wa.value wb.value]
      eval_cands_s []; apply eval_rule <;> eval_field
    | lit b =>
      refine ⟨⟨0xB0, a, 0, b⟩, ?_, by first | (eval_decode; done) | (eval_decode; rfl)⟩
      rw [lineOut2 (env := env) rulesFor_wsa (by decide) (by decide) wa.isOp wb.isOp wa.value wb.value]
      eval_cands_s []; apply eval_rule <;> eval_field

theorem src_lea1 {ta : Text} {a : RegOrLit1}
    (wa : Writes1 env ta a) :
    Gives env (lasmLine "lea" [ta]) (.lea a (.reg .a0) (.lit 0)) := by
  cases a with
  | reg a =>
    refine ⟨⟨0xAE, a.code, 0, 0⟩, ?_, by first | (eval_decode; done) | (eval_decode; rfl)⟩
    rw [lineOut1 (env := env) rulesFor_lea (by decide) (by decide) wa.isOp wa.value]
    eval_cands_s []; apply eval_rule <;> eval_field
  | lit a =>
    refine ⟨⟨0xAA, a, 0, 0⟩, ?_, by first | (eval_decode; done) | (eval_decode; rfl)⟩
    rw [lineOut1 (env := env) rulesFor_lea (by decide) (by decide) wa.isOp wa.value]
    eval_cands_s []; apply eval_rule <;> eval_field

theorem src_wea1 {ta : Text} {a : RegOrLit1}
    (wa : Writes1 env ta a) :
    Gives env (lasmLine "wea" [ta]) (.wea a (.reg .a0) (.lit 0)) := by
  cases a with
  | reg a =>
    refine ⟨⟨0xBE, a.code, 0, 0⟩, ?_, by first | (eval_decode; done) | (eval_decode; rfl)⟩
    rw [lineOut1 (env := env) rulesFor_wea (by decide) (by decide) wa.isOp wa.value]
    eval_cands_s []; apply eval_rule <;> eval_field
  | lit a =>
    refine ⟨⟨0xBA, a, 0, 0⟩, ?_, by first | (eval_decode; done) | (eval_decode; rfl)⟩
    rw [lineOut1 (env := env) rulesFor_wea (by decide) (by decide) wa.isOp wa.value]
    eval_cands_s []; apply eval_rule <;> eval_field

theorem src_lea2 {ta tb : Text} {a : RegOrLit1} {b : RegOrLit1}
    (wa : Writes1 env ta a) (wb : WritesS env tb b) :
    Gives env (lasmLine "lea" [ta, tb]) (.lea a b (.lit 0)) := by
  cases a with
  | reg a =>
    cases wb with
    | @reg b wb =>
      refine ⟨⟨0xAE, a.code, b.code, 0⟩, ?_, by first | (eval_decode; done) | (eval_decode; rfl)⟩
      rw [lineOut2 (env := env) rulesFor_lea (by decide) (by decide) wa.isOp wb.isOp wa.value wb.value]
      eval_cands_s []; apply eval_rule <;> eval_field
    | @lit zb wb hb =>
      refine ⟨⟨0xAC, a.code, BitVec.ofInt 8 zb, 0⟩, ?_, by first | (eval_decode; done) | (eval_decode; rfl)⟩
      rw [lineOut2 (env := env) rulesFor_lea (by decide) (by decide) wa.isOp wb.isOp wa.value wb.value]
      eval_cands_s [acc_i8z hb]; apply eval_rule <;> eval_field
  | lit a =>
    cases wb with
    | @reg b wb =>
      refine ⟨⟨0xAA, a, b.code, 0⟩, ?_, by first | (eval_decode; done) | (eval_decode; rfl)⟩
      rw [lineOut2 (env := env) rulesFor_lea (by decide) (by decide) wa.isOp wb.isOp wa.value wb.value]
      eval_cands_s []; apply eval_rule <;> eval_field
    | @lit zb wb hb =>
      refine ⟨⟨0xA8, a, BitVec.ofInt 8 zb, 0⟩, ?_, by first | (eval_decode; done) | (eval_decode; rfl)⟩
      rw [lineOut2 (env := env) rulesFor_lea (by decide) (by decide) wa.isOp wb.isOp wa.value wb.value]
      eval_cands_s [acc_i8z hb]; apply eval_rule <;> eval_field

theorem src_wea2 {ta tb : Text} {a : RegOrLit1} {b : RegOrLit1}
    (wa : Writes1 env ta a) (wb : WritesS env tb b) :
    Gives env (lasmLine "wea" [ta, tb]) (.wea a b (.lit 0)) := by
  cases a with
  | reg a =>
    cases wb with
    | @reg b wb =>
      refine ⟨⟨0xBE, a.code, b.code, 0⟩, ?_, by first | (eval_decode; done) | (eval_decode; rfl)⟩
      rw [lineOut2 (env := env) rulesFor_wea (by decide) (by decide) wa.isOp wb.isOp wa.value wb.value]
      eval_cands_s []; apply eval_rule <;> eval_field
    | @lit zb wb hb =>
      refine ⟨⟨0xBC, a.code, BitVec.ofInt 8 zb, 0⟩, ?_, by first | (eval_decode; done) | (eval_decode; rfl)⟩
      rw [lineOut2 (env := env) rulesFor_wea (by decide) (by decide) wa.isOp wb.isOp wa.value wb.value]
      eval_cands_s [acc_i8z hb]; apply eval_rule <;> eval_field
  | lit a =>
    cases wb with
    | @reg b wb =>
      refine ⟨⟨0xBA, a, b.code, 0⟩, ?_, by first | (eval_decode; done) | (eval_decode; rfl)⟩
      rw [lineOut2 (env := env) rulesFor_wea (by decide) (by decide) wa.isOp wb.isOp wa.value wb.value]
      eval_cands_s []; apply eval_rule <;> eval_field
    | @lit zb wb hb =>
      refine ⟨⟨0xB8, a, BitVec.ofInt 8 zb, 0⟩, ?_, by first | (eval_decode; done) | (eval_decode; rfl)⟩
      rw [lineOut2 (env := env) rulesFor_wea (by decide) (by decide) wa.isOp wb.isOp wa.value wb.value]
      eval_cands_s [acc_i8z hb]; apply eval_rule <;> eval_field

theorem src_div2 {ta tb : Text} {a : Reg} {b : RegOrLit1}
    (wa : WritesReg env ta a) (wb : Writes1 env tb b) :
    Gives env (lasmLine "div" [ta, tb]) (.div a b (.reg .a0)) := by
  cases b with
  | reg b =>
    refine ⟨⟨0x37, a.code, b.code, 0⟩, ?_, by first | (eval_decode; done) | (eval_decode; rfl)⟩
    rw [lineOut2 (env := env) rulesFor_div (by decide) (by decide) wa.isOp wb.isOp wa.value wb.value]
    eval_cands_s []; apply eval_rule <;> eval_field
  | lit b =>
    refine ⟨⟨0x35, a.code, b, 0⟩, ?_, by first | (eval_decode; done) | (eval_decode; rfl)⟩
    rw [lineOut2 (env := env) rulesFor_div (by decide) (by decide) wa.isOp wb.isOp wa.value wb.value]
    eval_cands_s []; apply eval_rule <;> eval_field

theorem src_mod2 {ta tb : Text} {a : Reg} {b : RegOrLit1}
    (wa : WritesReg env ta a) (wb : Writes1 env tb b) :
    Gives env (lasmLine "mod" [ta, tb]) (.mod a b (.reg .a0)) := by
  cases b with
  | reg b =>
    refine ⟨⟨0x3F, a.code, b.code, 0⟩, ?_, by first | (eval_decode; done) | (eval_decode; rfl)⟩
    rw [lineOut2 (env := env) rulesFor_mod (by decide) (by decide) wa.isOp wb.isOp wa.value wb.value]
    eval_cands_s []; apply eval_rule <;> eval_field
  | lit b =>
    refine ⟨⟨0x3D, a.code, b, 0⟩, ?_, by first | (eval_decode; done) | (eval_decode; rfl)⟩
    rw [lineOut2 (env := env) rulesFor_mod (by decide) (by decide) wa.isOp wb.isOp wa.value wb.value]
    eval_cands_s []; apply eval_rule <;> eval_field

theorem srcS_srm {ta tb tc : Text} {a : RegOrLit1} {b : RegOrLit1} {c : Reg}
    (wa : Writes1 env ta a) (wb : WritesS env tb b) (wc : WritesReg env tc c) :
    Gives env (lasmLine "srm" [ta, tb, tc]) (.wea a b (.reg c)) := by
  cases a with
  | reg a =>
    cases wb with
    | @reg b wb =>
      refine ⟨⟨0xBF, a.code, b.code, c.code⟩, ?_, by first | (eval_decode; done) | (eval_decode; rfl)⟩
      rw [lineOut3 (env := env) rulesFor_srm (by decide) (by decide) wa.isOp wb.isOp wc.isOp wa.value wb.value wc.value]
      eval_cands_s []; apply eval_rule <;> eval_field
    | @lit zb wb hb =>
      refine ⟨⟨0xBD, a.code, BitVec.ofInt 8 zb, c.code⟩, ?_, by first | (eval_decode; done) | (eval_decode; rfl)⟩
      rw [lineOut3 (env := env) rulesFor_srm (by decide) (by decide) wa.isOp wb.isOp wc.isOp wa.value wb.value wc.value]
      eval_cands_s [acc_i8z hb]; apply eval_rule <;> eval_field
  | lit a =>
    cases wb with
    | @reg b wb =>
      refine ⟨⟨0xBB, a, b.code, c.code⟩, ?_, by first | (eval_decode; done) | (eval_decode; rfl)⟩
      rw [lineOut3 (env := env) rulesFor_srm (by decide) (by decide) wa.isOp wb.isOp wc.isOp wa.value wb.value wc.value]
      eval_cands_s []; apply eval_rule <;> eval_field
    | @lit zb wb hb =>
      refine ⟨⟨0xB9, a, BitVec.ofInt 8 zb, c.code⟩, ?_, by first | (eval_decode; done) | (eval_decode; rfl)⟩
      rw [lineOut3 (env := env) rulesFor_srm (by decide) (by decide) wa.isOp wb.isOp wc.isOp wa.value wb.value wc.value]
      eval_cands_s [acc_i8z hb]; apply eval_rule <;> eval_field

/-! ## Named operands -/

/-- A register or a name, as it is written. -/
inductive WritesN (env : Env) (k : Nat → Operand) (t : Text) : RegOrLit1 → Prop
  | reg {r : Reg} : WritesReg env t r → WritesN env k t (.reg r)
  | lit {n : U8} : Written env t (k n.toNat) → WritesN env k t (.lit n)

theorem opName_writes {table : List (String × Nat)} {k : Nat → Operand}
    (h : ∀ e ∈ table, opTest e.1.toList = true ∧ classifyPlain e.1.toList = some (k (e.2 % 256))) {t : Text} {v : RegOrLit1}
    (ho : OpName table t v) : WritesN env k t v := by
  cases ho with
  | reg r => exact .reg (writesReg r)
  | name hm =>
    rename_i n
    refine .lit ⟨isOp_of_test (h _ hm).1, ?_⟩
    rw [BitVec.toNat_ofNat]
    exact classify_plain (h _ hm).2

theorem opFlag_writes {t : Text} {v : RegOrLit1} (h : OpName flagConstants t v) : WritesN env .arflag t v :=
  opName_writes (by decide +kernel) h

theorem opDiv_writes {t : Text} {v : RegOrLit1} (h : OpName divConstants t v) : WritesN env .divMode t v :=
  opName_writes (by decide +kernel) h

theorem opCond_writes {t : Text} {v : RegOrLit1} (h : OpName condConstants t v) : WritesN env .if2Mode t v :=
  opName_writes (by decide +kernel) h

theorem opInfo_writes {t : Text} {v : RegOrLit1} (h : OpName infoConstants t v) : WritesN env .hwInfo t v :=
  opName_writes (by decide +kernel) h

theorem srcN_div {ta tb tc : Text} {a : Reg} {b : RegOrLit1} {c : RegOrLit1}
    (wa : WritesReg env ta a) (wb : Writes1 env tb b) (wc : WritesN env .divMode tc c) :
    Gives env (lasmLine "div" [ta, tb, tc]) (.div a b c) := by
  cases b with
  | reg b =>
    cases wc with
    | @reg c wc =>
      refine ⟨⟨0x37, a.code, b.code, c.code⟩, ?_, by eval_decode⟩
      rw [lineOut3 (env := env) rulesFor_div (by decide) (by decide) wa.isOp wb.isOp wc.isOp wa.value wb.value wc.value]
      eval_cands; apply eval_rule <;> eval_field
    | @lit c wc =>
      refine ⟨⟨0x36, a.code, b.code, c⟩, ?_, by eval_decode⟩
      rw [lineOut3 (env := env) rulesFor_div (by decide) (by decide) wa.isOp wb.isOp wc.isOp wa.value wb.value wc.value]
      eval_cands; apply eval_rule <;> eval_field
  | lit b =>
    cases wc with
    | @reg c wc =>
      refine ⟨⟨0x35, a.code, b, c.code⟩, ?_, by eval_decode⟩
      rw [lineOut3 (env := env) rulesFor_div (by decide) (by decide) wa.isOp wb.isOp wc.isOp wa.value wb.value wc.value]
      eval_cands; apply eval_rule <;> eval_field
    | @lit c wc =>
      refine ⟨⟨0x34, a.code, b, c⟩, ?_, by eval_decode⟩
      rw [lineOut3 (env := env) rulesFor_div (by decide) (by decide) wa.isOp wb.isOp wc.isOp wa.value wb.value wc.value]
      eval_cands; apply eval_rule <;> eval_field

theorem srcN_mod {ta tb tc : Text} {a : Reg} {b : RegOrLit1} {c : RegOrLit1}
    (wa : WritesReg env ta a) (wb : Writes1 env tb b) (wc : WritesN env .divMode tc c) :
    Gives env (lasmLine "mod" [ta, tb, tc]) (.mod a b c) := by
  cases b with
  | reg b =>
    cases wc with
    | @reg c wc =>
      refine ⟨⟨0x3F, a.code, b.code, c.code⟩, ?_, by eval_decode⟩
      rw [lineOut3 (env := env) rulesFor_mod (by decide) (by decide) wa.isOp wb.isOp wc.isOp wa.value wb.value wc.value]
      eval_cands; apply eval_rule <;> eval_field
    | @lit c wc =>
      refine ⟨⟨0x3E, a.code, b.code, c⟩, ?_, by eval_decode⟩
      rw [lineOut3 (env := env) rulesFor_mod (by decide) (by decide) wa.isOp wb.isOp wc.isOp wa.value wb.value wc.value]
      eval_cands; apply eval_rule <;> eval_field
  | lit b =>
    cases wc with
    | @reg c wc =>
      refine ⟨⟨0x3D, a.code, b, c.code⟩, ?_, by eval_decode⟩
      rw [lineOut3 (env := env) rulesFor_mod (by decide) (by decide) wa.isOp wb.isOp wc.isOp wa.value wb.value wc.value]
      eval_cands; apply eval_rule <;> eval_field
    | @lit c wc =>
      refine ⟨⟨0x3C, a.code, b, c⟩, ?_, by eval_decode⟩
      rw [lineOut3 (env := env) rulesFor_mod (by decide) (by decide) wa.isOp wb.isOp wc.isOp wa.value wb.value wc.value]
      eval_cands; apply eval_rule <;> eval_field

theorem srcN_hwd {ta tb tc : Text} {a : Reg} {b : RegOrLit1} {c : RegOrLit1}
    (wa : WritesReg env ta a) (wb : Writes1 env tb b) (wc : WritesN env .hwInfo tc c) :
    Gives env (lasmLine "hwd" [ta, tb, tc]) (.hwd a b c) := by
  cases b with
  | reg b =>
    cases wc with
    | @reg c wc =>
      refine ⟨⟨0xE7, a.code, b.code, c.code⟩, ?_, by eval_decode⟩
      rw [lineOut3 (env := env) rulesFor_hwd (by decide) (by decide) wa.isOp wb.isOp wc.isOp wa.value wb.value wc.value]
      eval_cands; apply eval_rule <;> eval_field
    | @lit c wc =>
      refine ⟨⟨0xE6, a.code, b.code, c⟩, ?_, by eval_decode⟩
      rw [lineOut3 (env := env) rulesFor_hwd (by decide) (by decide) wa.isOp wb.isOp wc.isOp wa.value wb.value wc.value]
      eval_cands; apply eval_rule <;> eval_field
  | lit b =>
    cases wc with
    | @reg c wc =>
      refine ⟨⟨0xE5, a.code, b, c.code⟩, ?_, by eval_decode⟩
      rw [lineOut3 (env := env) rulesFor_hwd (by decide) (by decide) wa.isOp wb.isOp wc.isOp wa.value wb.value wc.value]
      eval_cands; apply eval_rule <;> eval_field
    | @lit c wc =>
      refine ⟨⟨0xE4, a.code, b, c⟩, ?_, by eval_decode⟩
      rw [lineOut3 (env := env) rulesFor_hwd (by decide) (by decide) wa.isOp wb.isOp wc.isOp wa.value wb.value wc.value]
      eval_cands; apply eval_rule <;> eval_field

theorem srcN_if {ta : Text} {a : RegOrLit1}
    (wa : WritesN env .arflag ta a) :
    Gives env (lasmLine "if" [ta]) (.«if» a) := by
  cases wa with
  | @reg a wa =>
    refine ⟨⟨0x8C, a.code, 0, 0⟩, ?_, by eval_decode⟩
    rw [lineOut1 (env := env) rulesFor_if (by decide) (by decide) wa.isOp wa.value]
    eval_cands; apply eval_rule <;> eval_field
  | @lit a wa =>
    refine ⟨⟨0x88, a, 0, 0⟩, ?_, by eval_decode⟩
    rw [lineOut1 (env := env) rulesFor_if (by decide) (by decide) wa.isOp wa.value]
    eval_cands; apply eval_rule <;> eval_field

theorem srcN_ifn {ta : Text} {a : RegOrLit1}
    (wa : WritesN env .arflag ta a) :
    Gives env (lasmLine "ifn" [ta]) (.ifN a) := by
  cases wa with
  | @reg a wa =>
    refine ⟨⟨0x94, a.code, 0, 0⟩, ?_, by eval_decode⟩
    rw [lineOut1 (env := env) rulesFor_ifn (by decide) (by decide) wa.isOp wa.value]
    eval_cands; apply eval_rule <;> eval_field
  | @lit a wa =>
    refine ⟨⟨0x90, a, 0, 0⟩, ?_, by eval_decode⟩
    rw [lineOut1 (env := env) rulesFor_ifn (by decide) (by decide) wa.isOp wa.value]
    eval_cands; apply eval_rule <;> eval_field

theorem srcN_if2 {ta tb tc : Text} {a : RegOrLit1} {b : RegOrLit1} {c : RegOrLit1}
    (wa : WritesN env .arflag ta a) (wb : WritesN env .arflag tb b) (wc : WritesN env .if2Mode tc c) :
    Gives env (lasmLine "if2" [ta, tb, tc]) (.if2 a b c) := by
  cases wa with
  | @reg a wa =>
    cases wb with
    | @reg b wb =>
      cases wc with
      | @reg c wc =>
        refine ⟨⟨0x9F, a.code, b.code, c.code⟩, ?_, by eval_decode⟩
        rw [lineOut3 (env := env) rulesFor_if2 (by decide) (by decide) wa.isOp wb.isOp wc.isOp wa.value wb.value wc.value]
        eval_cands; apply eval_rule <;> eval_field
      | @lit c wc =>
        refine ⟨⟨0x9E, a.code, b.code, c⟩, ?_, by eval_decode⟩
        rw [lineOut3 (env := env) rulesFor_if2 (by decide) (by decide) wa.isOp wb.isOp wc.isOp wa.value wb.value wc.value]
        eval_cands; apply eval_rule <;> eval_field
    | @lit b wb =>
      cases wc with
      | @reg c wc =>
        refine ⟨⟨0x9D, a.code, b, c.code⟩, ?_, by eval_decode⟩
        rw [lineOut3 (env := env) rulesFor_if2 (by decide) (by decide) wa.isOp wb.isOp wc.isOp wa.value wb.value wc.value]
        eval_cands; apply eval_rule <;> eval_field
      | @lit c wc =>
        refine ⟨⟨0x9C, a.code, b, c⟩, ?_, by eval_decode⟩
        rw [lineOut3 (env := env) rulesFor_if2 (by decide) (by decide) wa.isOp wb.isOp wc.isOp wa.value wb.value wc.value]
        eval_cands; apply eval_rule <;> eval_field
  | @lit a wa =>
    cases wb with
    | @reg b wb =>
      cases wc with
      | @reg c wc =>
        refine ⟨⟨0x9B, a, b.code, c.code⟩, ?_, by eval_decode⟩
        rw [lineOut3 (env := env) rulesFor_if2 (by decide) (by decide) wa.isOp wb.isOp wc.isOp wa.value wb.value wc.value]
        eval_cands; apply eval_rule <;> eval_field
      | @lit c wc =>
        refine ⟨⟨0x9A, a, b.code, c⟩, ?_, by eval_decode⟩
        rw [lineOut3 (env := env) rulesFor_if2 (by decide) (by decide) wa.isOp wb.isOp wc.isOp wa.value wb.value wc.value]
        eval_cands; apply eval_rule <;> eval_field
    | @lit b wb =>
      cases wc with
      | @reg c wc =>
        refine ⟨⟨0x99, a, b, c.code⟩, ?_, by eval_decode⟩
        rw [lineOut3 (env := env) rulesFor_if2 (by decide) (by decide) wa.isOp wb.isOp wc.isOp wa.value wb.value wc.value]
        eval_cands; apply eval_rule <;> eval_field
      | @lit c wc =>
        refine ⟨⟨0x98, a, b, c⟩, ?_, by eval_decode⟩
        rw [lineOut3 (env := env) rulesFor_if2 (by decide) (by decide) wa.isOp wb.isOp wc.isOp wa.value wb.value wc.value]
        eval_cands; apply eval_rule <;> eval_field

theorem srcN_ifor {ta tb : Text} {a : RegOrLit1} {b : RegOrLit1}
    (wa : WritesN env .arflag ta a) (wb : WritesN env .arflag tb b) :
    Gives env (lasmLine "ifor" [ta, tb]) (.if2 a b (.lit 1)) := by
  cases wa with
  | @reg a wa =>
    cases wb with
    | @reg b wb =>
      refine ⟨⟨0x9E, a.code, b.code, 1⟩, ?_, by eval_decode⟩
      rw [lineOut2 (env := env) rulesFor_ifor (by decide) (by decide) wa.isOp wb.isOp wa.value wb.value]
      eval_cands; apply eval_rule <;> eval_field
    | @lit b wb =>
      refine ⟨⟨0x9C, a.code, b, 1⟩, ?_, by eval_decode⟩
      rw [lineOut2 (env := env) rulesFor_ifor (by decide) (by decide) wa.isOp wb.isOp wa.value wb.value]
      eval_cands; apply eval_rule <;> eval_field
  | @lit a wa =>
    cases wb with
    | @reg b wb =>
      refine ⟨⟨0x9A, a, b.code, 1⟩, ?_, by eval_decode⟩
      rw [lineOut2 (env := env) rulesFor_ifor (by decide) (by decide) wa.isOp wb.isOp wa.value wb.value]
      eval_cands; apply eval_rule <;> eval_field
    | @lit b wb =>
      refine ⟨⟨0x98, a, b, 1⟩, ?_, by eval_decode⟩
      rw [lineOut2 (env := env) rulesFor_ifor (by decide) (by decide) wa.isOp wb.isOp wa.value wb.value]
      eval_cands; apply eval_rule <;> eval_field

theorem srcN_ifand {ta tb : Text} {a : RegOrLit1} {b : RegOrLit1}
    (wa : WritesN env .arflag ta a) (wb : WritesN env .arflag tb b) :
    Gives env (lasmLine "ifand" [ta, tb]) (.if2 a b (.lit 2)) := by
  cases wa with
  | @reg a wa =>
    cases wb with
    | @reg b wb =>
      refine ⟨⟨0x9E, a.code, b.code, 2⟩, ?_, by eval_decode⟩
      rw [lineOut2 (env := env) rulesFor_ifand (by decide) (by decide) wa.isOp wb.isOp wa.value wb.value]
      eval_cands; apply eval_rule <;> eval_field
    | @lit b wb =>
      refine ⟨⟨0x9C, a.code, b, 2⟩, ?_, by eval_decode⟩
      rw [lineOut2 (env := env) rulesFor_ifand (by decide) (by decide) wa.isOp wb.isOp wa.value wb.value]
      eval_cands; apply eval_rule <;> eval_field
  | @lit a wa =>
    cases wb with
    | @reg b wb =>
      refine ⟨⟨0x9A, a, b.code, 2⟩, ?_, by eval_decode⟩
      rw [lineOut2 (env := env) rulesFor_ifand (by decide) (by decide) wa.isOp wb.isOp wa.value wb.value]
      eval_cands; apply eval_rule <;> eval_field
    | @lit b wb =>
      refine ⟨⟨0x98, a, b, 2⟩, ?_, by eval_decode⟩
      rw [lineOut2 (env := env) rulesFor_ifand (by decide) (by decide) wa.isOp wb.isOp wa.value wb.value]
      eval_cands; apply eval_rule <;> eval_field

theorem srcN_ifxor {ta tb : Text} {a : RegOrLit1} {b : RegOrLit1}
    (wa : WritesN env .arflag ta a) (wb : WritesN env .arflag tb b) :
    Gives env (lasmLine "ifxor" [ta, tb]) (.if2 a b (.lit 3)) := by
  cases wa with
  | @reg a wa =>
    cases wb with
    | @reg b wb =>
      refine ⟨⟨0x9E, a.code, b.code, 3⟩, ?_, by eval_decode⟩
      rw [lineOut2 (env := env) rulesFor_ifxor (by decide) (by decide) wa.isOp wb.isOp wa.value wb.value]
      eval_cands; apply eval_rule <;> eval_field
    | @lit b wb =>
      refine ⟨⟨0x9C, a.code, b, 3⟩, ?_, by eval_decode⟩
      rw [lineOut2 (env := env) rulesFor_ifxor (by decide) (by decide) wa.isOp wb.isOp wa.value wb.value]
      eval_cands; apply eval_rule <;> eval_field
  | @lit a wa =>
    cases wb with
    | @reg b wb =>
      refine ⟨⟨0x9A, a, b.code, 3⟩, ?_, by eval_decode⟩
      rw [lineOut2 (env := env) rulesFor_ifxor (by decide) (by decide) wa.isOp wb.isOp wa.value wb.value]
      eval_cands; apply eval_rule <;> eval_field
    | @lit b wb =>
      refine ⟨⟨0x98, a, b, 3⟩, ?_, by eval_decode⟩
      rw [lineOut2 (env := env) rulesFor_ifxor (by decide) (by decide) wa.isOp wb.isOp wa.value wb.value]
      eval_cands; apply eval_rule <;> eval_field

theorem srcN_ifnor {ta tb : Text} {a : RegOrLit1} {b : RegOrLit1}
    (wa : WritesN env .arflag ta a) (wb : WritesN env .arflag tb b) :
    Gives env (lasmLine "ifnor" [ta, tb]) (.if2 a b (.lit 4)) := by
  cases wa with
  | @reg a wa =>
    cases wb with
    | @reg b wb =>
      refine ⟨⟨0x9E, a.code, b.code, 4⟩, ?_, by eval_decode⟩
      rw [lineOut2 (env := env) rulesFor_ifnor (by decide) (by decide) wa.isOp wb.isOp wa.value wb.value]
      eval_cands; apply eval_rule <;> eval_field
    | @lit b wb =>
      refine ⟨⟨0x9C, a.code, b, 4⟩, ?_, by eval_decode⟩
      rw [lineOut2 (env := env) rulesFor_ifnor (by decide) (by decide) wa.isOp wb.isOp wa.value wb.value]
      eval_cands; apply eval_rule <;> eval_field
  | @lit a wa =>
    cases wb with
    | @reg b wb =>
      refine ⟨⟨0x9A, a, b.code, 4⟩, ?_, by eval_decode⟩
      rw [lineOut2 (env := env) rulesFor_ifnor (by decide) (by decide) wa.isOp wb.isOp wa.value wb.value]
      eval_cands; apply eval_rule <;> eval_field
    | @lit b wb =>
      refine ⟨⟨0x98, a, b, 4⟩, ?_, by eval_decode⟩
      rw [lineOut2 (env := env) rulesFor_ifnor (by decide) (by decide) wa.isOp wb.isOp wa.value wb.value]
      eval_cands; apply eval_rule <;> eval_field

theorem srcN_ifnand {ta tb : Text} {a : RegOrLit1} {b : RegOrLit1}
    (wa : WritesN env .arflag ta a) (wb : WritesN env .arflag tb b) :
    Gives env (lasmLine "ifnand" [ta, tb]) (.if2 a b (.lit 5)) := by
  cases wa with
  | @reg a wa =>
    cases wb with
    | @reg b wb =>
      refine ⟨⟨0x9E, a.code, b.code, 5⟩, ?_, by eval_decode⟩
      rw [lineOut2 (env := env) rulesFor_ifnand (by decide) (by decide) wa.isOp wb.isOp wa.value wb.value]
      eval_cands; apply eval_rule <;> eval_field
    | @lit b wb =>
      refine ⟨⟨0x9C, a.code, b, 5⟩, ?_, by eval_decode⟩
      rw [lineOut2 (env := env) rulesFor_ifnand (by decide) (by decide) wa.isOp wb.isOp wa.value wb.value]
      eval_cands; apply eval_rule <;> eval_field
  | @lit a wa =>
    cases wb with
    | @reg b wb =>
      refine ⟨⟨0x9A, a, b.code, 5⟩, ?_, by eval_decode⟩
      rw [lineOut2 (env := env) rulesFor_ifnand (by decide) (by decide) wa.isOp wb.isOp wa.value wb.value]
      eval_cands; apply eval_rule <;> eval_field
    | @lit b wb =>
      refine ⟨⟨0x98, a, b, 5⟩, ?_, by eval_decode⟩
      rw [lineOut2 (env := env) rulesFor_ifnand (by decide) (by decide) wa.isOp wb.isOp wa.value wb.value]
      eval_cands; apply eval_rule <;> eval_field

theorem srcN_ifleft {ta tb : Text} {a : RegOrLit1} {b : RegOrLit1}
    (wa : WritesN env .arflag ta a) (wb : WritesN env .arflag tb b) :
    Gives env (lasmLine "ifleft" [ta, tb]) (.if2 a b (.lit 6)) := by
  cases wa with
  | @reg a wa =>
    cases wb with
    | @reg b wb =>
      refine ⟨⟨0x9E, a.code, b.code, 6⟩, ?_, by eval_decode⟩
      rw [lineOut2 (env := env) rulesFor_ifleft (by decide) (by decide) wa.isOp wb.isOp wa.value wb.value]
      eval_cands; apply eval_rule <;> eval_field
    | @lit b wb =>
      refine ⟨⟨0x9C, a.code, b, 6⟩, ?_, by eval_decode⟩
      rw [lineOut2 (env := env) rulesFor_ifleft (by decide) (by decide) wa.isOp wb.isOp wa.value wb.value]
      eval_cands; apply eval_rule <;> eval_field
  | @lit a wa =>
    cases wb with
    | @reg b wb =>
      refine ⟨⟨0x9A, a, b.code, 6⟩, ?_, by eval_decode⟩
      rw [lineOut2 (env := env) rulesFor_ifleft (by decide) (by decide) wa.isOp wb.isOp wa.value wb.value]
      eval_cands; apply eval_rule <;> eval_field
    | @lit b wb =>
      refine ⟨⟨0x98, a, b, 6⟩, ?_, by eval_decode⟩
      rw [lineOut2 (env := env) rulesFor_ifleft (by decide) (by decide) wa.isOp wb.isOp wa.value wb.value]
      eval_cands; apply eval_rule <;> eval_field

theorem srcN_ifright {ta tb : Text} {a : RegOrLit1} {b : RegOrLit1}
    (wa : WritesN env .arflag ta a) (wb : WritesN env .arflag tb b) :
    Gives env (lasmLine "ifright" [ta, tb]) (.if2 a b (.lit 7)) := by
  cases wa with
  | @reg a wa =>
    cases wb with
    | @reg b wb =>
      refine ⟨⟨0x9E, a.code, b.code, 7⟩, ?_, by eval_decode⟩
      rw [lineOut2 (env := env) rulesFor_ifright (by decide) (by decide) wa.isOp wb.isOp wa.value wb.value]
      eval_cands; apply eval_rule <;> eval_field
    | @lit b wb =>
      refine ⟨⟨0x9C, a.code, b, 7⟩, ?_, by eval_decode⟩
      rw [lineOut2 (env := env) rulesFor_ifright (by decide) (by decide) wa.isOp wb.isOp wa.value wb.value]
      eval_cands; apply eval_rule <;> eval_field
  | @lit a wa =>
    cases wb with
    | @reg b wb =>
      refine ⟨⟨0x9A, a, b.code, 7⟩, ?_, by eval_decode⟩
      rw [lineOut2 (env := env) rulesFor_ifright (by decide) (by decide) wa.isOp wb.isOp wa.value wb.value]
      eval_cands; apply eval_rule <;> eval_field
    | @lit b wb =>
      refine ⟨⟨0x98, a, b, 7⟩, ?_, by eval_decode⟩
      rw [lineOut2 (env := env) rulesFor_ifright (by decide) (by decide) wa.isOp wb.isOp wa.value wb.value]
      eval_cands; apply eval_rule <;> eval_field

/-! ## Jumps -/

theorem src_jp {tb : Text} {b : RegOrLit2} (wb : Writes2 env tb b) : Gives env (lasmLine "jp" [tb]) (.cpy .pc b) := by
  have h := lineOut1 (env := env) rulesFor_jp (by decide) (by decide) wb.isOp wb.value
  cases b with
  | reg b =>
    refine ⟨⟨0x0E, 0x16, b.code, 0⟩, ?_, by first | (eval_decode; done) | (eval_decode; rfl)⟩
    rw [h]; eval_cands; apply eval_rule <;> eval_field
  | lit b =>
    refine ⟨⟨0x0C, 0x16, (b >>> 8).setWidth 8, b.setWidth 8⟩, ?_, by first | (eval_decode; done) | (eval_decode; rfl)⟩
    rw [h]; eval_cands; apply eval_rule <;> eval_field

theorem src_jprLit {t : Text} {z : Int} (w : Written env t (.num z)) (hz : -32768 ≤ z ∧ z < 65536) :
    Gives env (lasmLine "jpr" [t]) (.jpr (.lit (BitVec.ofInt 16 z))) := by
  refine ⟨⟨0x70, BitVec.ofInt 8 (z / 256), BitVec.ofInt 8 z, 0⟩, ?_, ?_⟩
  · rw [lineOut1 (env := env) rulesFor_jpr (by decide) (by decide) w.isOp w.value]
    eval_cands_s [acc_i16z hz]
    apply eval_rule <;> eval_field
  · have : BitVec.ofInt 8 (z / 256) ++ BitVec.ofInt 8 z = BitVec.ofInt 16 z := by
      apply BitVec.eq_of_toNat_eq
      rw [BitVec.toNat_append, BitVec.toNat_ofInt, BitVec.toNat_ofInt, BitVec.toNat_ofInt,
        ← Nat.shiftLeft_add_eq_or_of_lt (by omega), Nat.shiftLeft_eq]
      omega
    rw [← this]
    eval_decode

/-! ## Every documented instruction -/

theorem documented_gives {mn : String} {ops : List Text} {i : Instr} (hE : Agrees names env)
    (h : Documented names mn ops i) (hb : ¬ Misassembled names mn ops) :
    Gives env (lasmLine mn ops) i := by
  cases h with
  | cpy ha hb' => exact src_cpy (opReg_writes ha) (op2_writes hE hb')
  | ex ha hb' => exact src_ex (opReg_writes ha) (opReg_writes hb')
  | add ha hb' => exact src_add (opReg_writes ha) (op2_writes hE hb')
  | sub ha hb' => exact src_sub (opReg_writes ha) (op2_writes hE hb')
  | mul ha hb' => exact src_mul (opReg_writes ha) (op2_writes hE hb')
  | div ha hb' hc => exact srcN_div (opReg_writes ha) (op1_writes hE hb') (opDiv_writes hc)
  | divDefault ha hb' => exact absurd .div hb
  | mod ha hb' hc => exact srcN_mod (opReg_writes ha) (op1_writes hE hb') (opDiv_writes hc)
  | modDefault ha hb' => exact absurd .mod hb
  | and ha hb' => exact src_and (opReg_writes ha) (op2_writes hE hb')
  | bor ha hb' => exact src_bor (opReg_writes ha) (op2_writes hE hb')
  | xor ha hb' => exact src_xor (opReg_writes ha) (op2_writes hE hb')
  | shl ha hb' => exact src_shl (opReg_writes ha) (op1_writes hE hb')
  | shr ha hb' => exact src_shr (opReg_writes ha) (op1_writes hE hb')
  | cmp ha hb' => exact src_cmp (opReg_writes ha) (op2_writes hE hb')
  | lsm ha => exact src_lsm (op2_writes hE ha)
  | itr ha => exact absurd .itr hb
  | «if» ha => exact srcN_if (opFlag_writes ha)
  | ifN ha => exact srcN_ifn (opFlag_writes ha)
  | if2 ha hb' hc => exact srcN_if2 (opFlag_writes ha) (opFlag_writes hb') (opCond_writes hc)
  | lsa ha hb' hc => exact srcS_lsa (opReg_writes ha) (op1_writes hE hb') (opS_writes hE hc)
  | lsaDefault ha hb' => exact src_lsa2 (opReg_writes ha) (op1_writes hE hb')
  | lea ha hb' hc => exact srcS_lea (op1_writes hE ha) (opS_writes hE hb') (opS_writes hE hc)
  | leaDefault1 ha hb' => exact absurd .lea1 hb
  | leaDefault2 ha => exact absurd .lea2 hb
  | wsa ha hb' hc => exact srcS_wsa (op1_writes hE ha) (opS_writes hE hb') (op1_writes hE hc)
  | wsaDefault ha hb' => exact src_wsa2 (op1_writes hE ha) (op1_writes hE hb')
  | wea ha hb' hc => exact srcS_wea (op1_writes hE ha) (opS_writes hE hb') (opS_writes hE hc)
  | weaDefault2 ha => exact absurd .wea2 hb
  | srm ha hb' hc => exact absurd .srm hb
  | push ha => exact src_push (op2_writes hE ha)
  | pop ha => exact src_pop (opReg_writes ha)
  | call ha => exact src_call (op2_writes hE ha)
  | hwd ha hb' hc => exact srcN_hwd (opReg_writes ha) (op1_writes hE hb') (opInfo_writes hc)
  | cycles ha => exact src_cycles (opReg_writes ha)
  | halt => exact gives_halt
  | reset ha => exact src_reset (op1_writes hE ha)
  | ifeq => exact gives_ifeq
  | ifnq => exact gives_ifnq
  | ifgt => exact gives_ifgt
  | ifge => exact gives_ifge
  | ifls => exact gives_ifls
  | ifle => exact gives_ifle
  | jp ha => exact src_jp (op2_writes hE ha)
  | ret => exact gives_ret
  | ifor ha hb' => exact srcN_ifor (opFlag_writes ha) (opFlag_writes hb')
  | ifand ha hb' => exact srcN_ifand (opFlag_writes ha) (opFlag_writes hb')
  | ifxor ha hb' => exact srcN_ifxor (opFlag_writes ha) (opFlag_writes hb')
  | ifnor ha hb' => exact srcN_ifnor (opFlag_writes ha) (opFlag_writes hb')
  | ifnand ha hb' => exact srcN_ifnand (opFlag_writes ha) (opFlag_writes hb')
  | ifleft ha hb' => exact srcN_ifleft (opFlag_writes ha) (opFlag_writes hb')
  | ifright ha hb' => exact srcN_ifright (opFlag_writes ha) (opFlag_writes hb')
  | zro ha => cases ha; exact gives_zro _
  | inc ha => cases ha; exact gives_inc _
  | dec ha => cases ha; exact gives_dec _
  | jpr ha =>
    cases ha with
    | reg r => exact src_jprReg (writesReg r)
    | lit h h1 h2 => exact src_jprLit (written_value hE h) ⟨h1, h2⟩
  | if2Byte ha hb' hc =>
    cases hc with
    | reg r => exact srcN_if2 (opFlag_writes ha) (opFlag_writes hb') (.reg (writesReg r))
    | lit h _ _ => exact absurd (.if2 h) hb
  | hwdByte ha hb' hc =>
    cases hc with
    | reg r => exact srcN_hwd (opReg_writes ha) (op1_writes hE hb') (.reg (writesReg r))
    | lit h _ _ => exact absurd (.hwd h) hb

end Lrvm
