import Verif.Model.Tools.Lasm

/-!
# Lemmas about LASM: digits, lines, operands, rules
-/

namespace Lrvm

open Lasm

/-! ## Numbers -/

theorem digitVal_upperDigit {d : Nat} (h : d < 16) : digitVal (upperDigit d) = some d := by
  have : ∀ d : Fin 16, digitVal (upperDigit d.val) = some d.val := by decide +kernel
  exact this ⟨d, h⟩

theorem upperDigit_ne {d : Nat} (h : d < 16) {c : Char} (hc : digitVal c = none) : upperDigit d ≠ c := by
  intro he
  rw [← he, digitVal_upperDigit h] at hc
  cases hc

theorem digitsVal_digit {base acc d : Nat} {cs : Text} (hb : base ≤ 16) (h : d < base) :
    digitsVal base acc (upperDigit d :: cs) = digitsVal base (acc * base + d) cs := by
  have h16 : d < 16 := Nat.lt_of_lt_of_le h hb
  have hne : upperDigit d ≠ '_' := upperDigit_ne h16 (by decide)
  simp [digitsVal, hne, digitVal_upperDigit h16, h]

theorem digitsVal_digitsAux {base : Nat} (h2 : 2 ≤ base) (hb : base ≤ 16) :
    ∀ (fuel n : Nat) (acc : Text), n < fuel → digitsVal base 0 (digitsAux base fuel n acc) = digitsVal base n acc
  | 0, n, acc, h => absurd h (Nat.not_lt_zero _)
  | fuel + 1, n, acc, h => by
    rw [digitsAux]
    split
    · rename_i hn
      rw [digitsVal_digit hb hn]
      simp
    · rename_i hn
      have hlt : n / base < fuel := by
        have : n / base < n := Nat.div_lt_self (by omega) (by omega)
        omega
      rw [digitsVal_digitsAux h2 hb fuel (n / base) _ hlt, digitsVal_digit hb (Nat.mod_lt _ (by omega)),
        Nat.div_add_mod']

theorem digitsVal_digits {base : Nat} (h2 : 2 ≤ base) (hb : base ≤ 16) (n : Nat) :
    digitsVal base 0 (digits base n) = some n := by
  rw [digits, digitsVal_digitsAux h2 hb _ _ _ (Nat.lt_succ_self n)]
  rfl

/-- Every character of the digits is a digit. -/
theorem mem_digitsAux {base : Nat} (h2 : 2 ≤ base) :
    ∀ (fuel n : Nat) (acc : Text) (c : Char), c ∈ digitsAux base fuel n acc → c ∈ acc ∨ ∃ d, d < base ∧ c = upperDigit d
  | 0, _, _, _, h => Or.inl h
  | fuel + 1, n, acc, c, h => by
    rw [digitsAux] at h
    split at h
    · rename_i hn
      rcases List.mem_cons.1 h with h | h
      · exact Or.inr ⟨n, hn, h⟩
      · exact Or.inl h
    · rcases mem_digitsAux h2 fuel _ _ c h with h | h
      · rcases List.mem_cons.1 h with h | h
        · exact Or.inr ⟨n % base, Nat.mod_lt _ (by omega), h⟩
        · exact Or.inl h
      · exact Or.inr h

theorem mem_digits {base : Nat} (h2 : 2 ≤ base) {n : Nat} {c : Char} (h : c ∈ digits base n) :
    ∃ d, d < base ∧ c = upperDigit d := by
  rcases mem_digitsAux h2 _ _ _ _ h with h | h
  · cases h
  · exact h

theorem digitsAux_ne_nil {base : Nat} :
    ∀ (fuel n : Nat) (acc : Text), (0 < fuel ∨ acc ≠ []) → digitsAux base fuel n acc ≠ []
  | 0, _, acc, h => by
    rcases h with h | h
    · omega
    · simpa [digitsAux] using h
  | fuel + 1, n, acc, _ => by
    rw [digitsAux]
    split
    · simp
    · exact digitsAux_ne_nil fuel _ _ (Or.inr (by simp))

theorem digits_ne_nil {base n : Nat} : digits base n ≠ [] := digitsAux_ne_nil _ _ _ (Or.inl (Nat.succ_pos n))

variable {env : Env}

/-! ## Texts without separators -/

/-- A text that is one operand: not empty, no separator inside, no space around. -/
structure IsOp (t : Text) : Prop where
  ne : t ≠ []
  seps : ∀ c ∈ t, (c ≠ ',' ∧ c ≠ '"') ∧ c ≠ ';' ∧ c ≠ '\n'
  head : t.head? ≠ some ' '
  last : t.getLast? ≠ some ' '

theorem isOp_of {t : Text} (ne : t ≠ []) (h : ∀ c ∈ t, (c ≠ ',' ∧ c ≠ '"') ∧ c ≠ ';' ∧ c ≠ '\n' ∧ c ≠ ' ') : IsOp t := by
  refine ⟨ne, fun c hc => ⟨(h c hc).1, (h c hc).2.1, (h c hc).2.2.1⟩, ?_, ?_⟩
  · intro he
    exact (h ' ' (List.mem_of_mem_head? (by simp [he]))).2.2.2 rfl
  · intro he
    exact (h ' ' (List.mem_of_getLast? he)).2.2.2 rfl

theorem trim_of {t : Text} (head : t.head? ≠ some ' ') (last : t.getLast? ≠ some ' ') : trim t = t := by
  have hL : t.dropWhile (· == ' ') = t := by
    cases t with
    | nil => rfl
    | cons c cs =>
      have : c ≠ ' ' := fun h => head (by simp [h])
      rw [List.dropWhile_cons, if_neg (by simpa using this)]
  have hR : (t.reverse).dropWhile (· == ' ') = t.reverse := by
    have hl : t.reverse.head? ≠ some ' ' := by rwa [List.head?_reverse]
    generalize t.reverse = r at hl
    cases r with
    | nil => rfl
    | cons c cs =>
      have : c ≠ ' ' := fun h => hl (by simp [h])
      rw [List.dropWhile_cons, if_neg (by simpa using this)]
  rw [trim, hL, hR, List.reverse_reverse]

theorem IsOp.trim {t : Text} (h : IsOp t) : Lasm.trim t = t := trim_of h.head h.last

theorem trim_space {t : Text} : Lasm.trim (' ' :: t) = Lasm.trim t := by simp [Lasm.trim, List.dropWhile]

theorem trim_snoc_space {t : Text} : Lasm.trim (t ++ [' ']) = Lasm.trim t := by
  rw [Lasm.trim, Lasm.trim, List.dropWhile_append]
  split
  · rename_i h
    have h' : t.dropWhile (· == ' ') = [] := by simpa using h
    rw [h']
    rfl
  · rw [List.reverse_append]
    simp [List.dropWhile]

/-! ## Splitting -/

theorem splitAt_ne_nil (c : Char) (t : Text) : splitAt c t ≠ [] := by
  cases t with
  | nil => simp [splitAt]
  | cons d ds =>
    rw [splitAt]
    split
    · simp
    · split <;> simp

theorem splitAt_none {c : Char} {t : Text} (h : c ∉ t) : splitAt c t = [t] := by
  induction t with
  | nil => rfl
  | cons d ds ih =>
    have hd : d ≠ c := fun e => h (by simp [e])
    rw [splitAt, if_neg hd, ih (fun hm => h (List.mem_cons_of_mem _ hm))]

theorem splitAt_append {c : Char} {t rest : Text} (h : c ∉ t) :
    splitAt c (t ++ c :: rest) = t :: splitAt c rest := by
  induction t with
  | nil => simp [splitAt]
  | cons d ds ih =>
    have hd : d ≠ c := fun e => h (by simp [e])
    rw [List.cons_append, splitAt, if_neg hd, ih (fun hm => h (List.mem_cons_of_mem _ hm))]

theorem joinText_cons {sep t : Text} {ts : List Text} (h : ts ≠ []) :
    joinText sep (t :: ts) = t ++ sep ++ joinText sep ts := by
  cases ts with
  | nil => exact absurd rfl h
  | cons u us => rfl

/-- Lines joined by `\n` are found again. -/
theorem splitAt_joinText {c : Char} : ∀ {ts : List Text}, ts ≠ [] → (∀ t ∈ ts, c ∉ t) →
    splitAt c (joinText [c] ts) = ts
  | [], h, _ => absurd rfl h
  | [t], _, h => splitAt_none (h t (by simp))
  | t :: u :: us, _, h => by
    rw [joinText_cons (by simp), List.append_assoc]
    rw [List.singleton_append, splitAt_append (h t (by simp)),
      splitAt_joinText (by simp) (fun t ht => h t (List.mem_cons_of_mem _ ht))]

theorem splitOperands_ne_nil (q : Bool) (t : Text) : splitOperands q t ≠ [] := by
  cases t with
  | nil => simp [splitOperands]
  | cons d ds =>
    rw [splitOperands]
    split
    · simp
    · split <;> simp

theorem splitOperands_none {t : Text} (h : ∀ c ∈ t, c ≠ ',' ∧ c ≠ '"') : splitOperands false t = [t] := by
  induction t with
  | nil => rfl
  | cons d ds ih =>
    have hd := h d (by simp)
    rw [splitOperands, if_neg (fun e => hd.1 e.1), if_neg hd.2, ih (fun c hc => h c (by simp [hc]))]

theorem splitOperands_append {t rest : Text} (h : ∀ c ∈ t, c ≠ ',' ∧ c ≠ '"') :
    splitOperands false (t ++ ',' :: rest) = t :: splitOperands false rest := by
  induction t with
  | nil => simp [splitOperands]
  | cons d ds ih =>
    have hd := h d (by simp)
    rw [List.cons_append, splitOperands, if_neg (fun e => hd.1 e.1), if_neg hd.2, ih (fun c hc => h c (by simp [hc]))]

/-- Operands joined by `, ` are found again. -/
theorem splitAt_operands : ∀ {ts : List Text}, ts ≠ [] → (∀ t ∈ ts, IsOp t) →
    (splitOperands false (joinText ", ".toList ts)).map trim = ts
  | [], h, _ => absurd rfl h
  | [t], _, h => by
    have ht := h t (by simp)
    rw [joinText, splitOperands_none (fun c hm => (ht.seps _ hm).1), List.map_cons, ht.trim, List.map_nil]
  | t :: u :: us, _, h => by
    have ht := h t (by simp)
    have ih := splitAt_operands (ts := u :: us) (by simp) (fun t ht => h t (List.mem_cons_of_mem _ ht))
    rw [joinText_cons (by simp), List.append_assoc]
    show List.map Lasm.trim (splitOperands false (t ++ ',' :: ' ' :: joinText ", ".toList (u :: us))) = _
    rw [splitOperands_append (fun c hm => (ht.seps _ hm).1), splitOperands, if_neg (by decide), if_neg (by decide)]
    cases hs : splitOperands false (joinText ", ".toList (u :: us)) with
    | nil => exact absurd hs (splitOperands_ne_nil _ _)
    | cons x xs =>
      rw [hs] at ih
      simp only [List.map_cons, trim_space, ht.trim]
      rw [← ih, List.map_cons]

theorem mem_joinText {sep : Text} {c : Char} : ∀ {ts : List Text}, c ∈ joinText sep ts → c ∈ sep ∨ ∃ t ∈ ts, c ∈ t
  | [], h => by cases h
  | [t], h => Or.inr ⟨t, by simp, h⟩
  | t :: u :: us, h => by
    rw [joinText_cons (by simp), List.append_assoc] at h
    rcases List.mem_append.1 h with h | h
    · exact Or.inr ⟨t, by simp, h⟩
    · rcases List.mem_append.1 h with h | h
      · exact Or.inl h
      · rcases mem_joinText (ts := u :: us) h with h | ⟨x, hx, hc⟩
        · exact Or.inl h
        · exact Or.inr ⟨x, List.mem_cons_of_mem _ hx, hc⟩

theorem joinText_ne_nil {sep : Text} : ∀ {ts : List Text}, ts ≠ [] → (∀ t ∈ ts, t ≠ []) → joinText sep ts ≠ []
  | [], h, _ => absurd rfl h
  | [t], _, h => h t (by simp)
  | t :: u :: us, _, h => by
    rw [joinText_cons (by simp)]
    have := h t (by simp)
    simp [this]

theorem joinText_head {sep : Text} : ∀ {ts : List Text}, (∀ t ∈ ts, IsOp t) → (joinText sep ts).head? ≠ some ' '
  | [], _ => by simp [joinText]
  | [t], h => (h t (by simp)).head
  | t :: u :: us, h => by
    rw [joinText_cons (by simp), List.append_assoc, List.head?_append]
    have ht := h t (by simp)
    cases hh : t.head? with
    | none => exact absurd (List.head?_eq_none_iff.1 hh) ht.ne
    | some c =>
      have := ht.head
      rw [hh] at this
      simpa using this

theorem joinText_last {sep : Text} : ∀ {ts : List Text}, (∀ t ∈ ts, IsOp t) → (joinText sep ts).getLast? ≠ some ' '
  | [], _ => by simp [joinText]
  | [t], h => (h t (by simp)).last
  | t :: u :: us, h => by
    have ih := joinText_last (sep := sep) (ts := u :: us) (fun t ht => h t (List.mem_cons_of_mem _ ht))
    have hne : joinText sep (u :: us) ≠ [] :=
      joinText_ne_nil (by simp) (fun t ht => (h t (List.mem_cons_of_mem _ ht)).ne)
    rw [joinText_cons (by simp), List.getLast?_append]
    cases hh : (joinText sep (u :: us)).getLast? with
    | none => exact absurd (List.getLast?_eq_none_iff.1 hh) hne
    | some c =>
      rw [hh] at ih
      simpa using ih

/-! ## Lines -/

theorem takeWhile_all {p : Char → Bool} {t : Text} (h : ∀ c ∈ t, p c = true) : t.takeWhile p = t := by
  induction t with
  | nil => rfl
  | cons c cs ih => simp [h c (by simp), ih (fun c hc => h c (List.mem_cons_of_mem _ hc))]

theorem dropWhile_all {p : Char → Bool} {t : Text} (h : ∀ c ∈ t, p c = true) : t.dropWhile p = [] := by
  induction t with
  | nil => rfl
  | cons c cs ih => simp [h c (by simp), ih (fun c hc => h c (List.mem_cons_of_mem _ hc))]

theorem takeWhile_stop {p : Char → Bool} {t rest : Text} {d : Char} (h : ∀ c ∈ t, p c = true) (hd : p d = false) :
    (t ++ d :: rest).takeWhile p = t := by
  induction t with
  | nil => simp [hd]
  | cons c cs ih => simp [h c (by simp), ih (fun c hc => h c (List.mem_cons_of_mem _ hc))]

theorem dropWhile_stop {p : Char → Bool} {t rest : Text} {d : Char} (h : ∀ c ∈ t, p c = true) (hd : p d = false) :
    (t ++ d :: rest).dropWhile p = d :: rest := by
  induction t with
  | nil => simp [hd]
  | cons c cs ih => simp [h c (by simp), ih (fun c hc => h c (List.mem_cons_of_mem _ hc))]

/-- A mnemonic: not empty, and no separator inside. -/
abbrev IsWord (t : Text) : Prop := (t ≠ [] ∧ ∀ c ∈ t, (c ≠ ',' ∧ c ≠ '"') ∧ c ≠ ';' ∧ c ≠ '\n' ∧ c ≠ ' ')

/-- What may follow an instruction on its line: nothing, or a comment. -/
def IsTail (t : Text) : Prop := t = [] ∨ ∃ c, t = ' ' :: ';' :: c

theorem lasmLine_ne_nil {mn : String} {ops : List Text} (hm : IsWord mn.toList) : lasmLine mn ops ≠ [] := by
  have := hm.1
  cases ops <;> simp [lasmLine, this]

theorem lasmLine_mem {mn : String} {ops : List Text} {c : Char} (hm : IsWord mn.toList) (ho : ∀ t ∈ ops, IsOp t)
    (h : c ∈ lasmLine mn ops) : c ≠ ';' ∧ c ≠ '\n' := by
  cases ops with
  | nil => exact ⟨(hm.2 c h).2.1, (hm.2 c h).2.2.1⟩
  | cons t ts =>
    simp only [lasmLine] at h
    rcases List.mem_append.1 h with h | h
    · exact ⟨(hm.2 c h).2.1, (hm.2 c h).2.2.1⟩
    · rcases List.mem_cons.1 h with h | h
      · subst h
        exact ⟨by decide, by decide⟩
      · rcases mem_joinText h with h | ⟨t', ht', hc⟩
        · have : c = ',' ∨ c = ' ' := by simpa using h
          rcases this with rfl | rfl <;> exact ⟨by decide, by decide⟩
        · exact ⟨((ho t' ht').seps c hc).2.1, ((ho t' ht').seps c hc).2.2⟩

theorem lasmLine_head {mn : String} {ops : List Text} (hm : IsWord mn.toList) : (lasmLine mn ops).head? ≠ some ' ' := by
  have hx : ∀ t, (mn.toList ++ t).head? ≠ some ' ' := by
    intro t
    have := isOp_of hm.1 hm.2
    rw [List.head?_append]
    cases hh : mn.toList.head? with
    | none => exact absurd (List.head?_eq_none_iff.1 hh) this.ne
    | some c =>
      have := this.head
      rw [hh] at this
      simpa using this
  cases ops with
  | nil => simpa [lasmLine] using hx []
  | cons t ts => exact hx _

theorem lasmLine_last {mn : String} {ops : List Text} (hm : IsWord mn.toList) (ho : ∀ t ∈ ops, IsOp t) :
    (lasmLine mn ops).getLast? ≠ some ' ' := by
  cases ops with
  | nil => exact (isOp_of hm.1 hm.2).last
  | cons t ts =>
    have hj := joinText_last (sep := ", ".toList) ho
    have hne : joinText ", ".toList (t :: ts) ≠ [] := joinText_ne_nil (by simp) (fun t ht => (ho t ht).ne)
    simp only [lasmLine]
    rw [List.getLast?_append, List.getLast?_cons]
    cases hh : (joinText ", ".toList (t :: ts)).getLast? with
    | none => exact absurd (List.getLast?_eq_none_iff.1 hh) hne
    | some c =>
      rw [hh] at hj
      simpa using hj

/-- The code of a line, without its comment. -/
theorem lasmLine_code {mn : String} {ops : List Text} {tail : Text} (hm : IsWord mn.toList) (ho : ∀ t ∈ ops, IsOp t)
    (ht : IsTail tail) : trim ((lasmLine mn ops ++ tail).takeWhile (· != ';')) = lasmLine mn ops := by
  have hall : ∀ c ∈ lasmLine mn ops, (c != ';') = true := fun c hc => by simpa using (lasmLine_mem hm ho hc).1
  have htrim := trim_of (lasmLine_head (ops := ops) hm) (lasmLine_last hm ho)
  rcases ht with rfl | ⟨c, rfl⟩
  · rw [List.append_nil, takeWhile_all hall, htrim]
  · have : lasmLine mn ops ++ ' ' :: ';' :: c = (lasmLine mn ops ++ [' ']) ++ ';' :: c := by simp
    rw [this, takeWhile_stop (fun d hd => by
      rcases List.mem_append.1 hd with hd | hd
      · exact hall d hd
      · have : d = ' ' := by simpa using hd
        subst this
        decide) (by decide), trim_snoc_space, htrim]

theorem lasmLine_mnemonic {mn : String} {ops : List Text} (hm : IsWord mn.toList) :
    (lasmLine mn ops).takeWhile (· != ' ') = mn.toList := by
  have hall : ∀ c ∈ mn.toList, (c != ' ') = true := fun c hc => by simpa using (hm.2 c hc).2.2.2
  cases ops with
  | nil => exact takeWhile_all hall
  | cons t ts => exact takeWhile_stop hall (by decide)

theorem lasmLine_operands {mn : String} {ops : List Text} (hm : IsWord mn.toList) (ho : ∀ t ∈ ops, IsOp t) :
    (if trim ((lasmLine mn ops).dropWhile (· != ' ')) = [] then []
      else (splitOperands false (trim ((lasmLine mn ops).dropWhile (· != ' ')))).map trim) = ops := by
  have hall : ∀ c ∈ mn.toList, (c != ' ') = true := fun c hc => by simpa using (hm.2 c hc).2.2.2
  cases ops with
  | nil =>
    have : (lasmLine mn []).dropWhile (· != ' ') = [] := dropWhile_all hall
    rw [this]
    rfl
  | cons t ts =>
    have hd : (lasmLine mn (t :: ts)).dropWhile (· != ' ') = ' ' :: joinText ", ".toList (t :: ts) :=
      dropWhile_stop hall (by decide)
    have hj : trim ((lasmLine mn (t :: ts)).dropWhile (· != ' ')) = joinText ", ".toList (t :: ts) := by
      rw [hd, trim_space, trim_of (joinText_head ho) (joinText_last ho)]
    have hne : joinText ", ".toList (t :: ts) ≠ [] := joinText_ne_nil (by simp) (fun t ht => (ho t ht).ne)
    rw [hj, if_neg hne, splitAt_operands (by simp) ho]

/-- A line of the disassembler is assembled by its mnemonic and its operands. -/
theorem assembleLine_lasmLine {mn : String} {ops : List Text} {tail : Text} (hm : IsWord mn.toList)
    (hd : mn.toList ≠ "#d32".toList ∧ mn.toList ≠ "#d".toList) (ho : ∀ t ∈ ops, IsOp t) (ht : IsTail tail) :
    assembleLine env (lasmLine mn ops ++ tail) = (ops.mapM (classify env)).bind (assembleInstr mn.toList) := by
  have hc : lineCode (lasmLine mn ops ++ tail) = lasmLine mn ops := lasmLine_code hm ho ht
  simp only [assembleLine]
  generalize lineCode (lasmLine mn ops ++ tail) = code at hc
  subst hc
  rw [if_neg (lasmLine_ne_nil hm), lasmLine_mnemonic hm, lasmLine_operands hm ho, if_neg hd.2, if_neg hd.1]
  rfl

/-! ## Operands -/

/-- An operand without quotes is not a character. -/
theorem charVal_isOp {t : Text} (h : IsOp t) : charVal t = none := by
  unfold charVal
  split
  · exact absurd rfl (h.seps '"' (by simp)).1.2
  · rfl

theorem isOp_reg (r : Reg) : IsOp r.toLasm := by
  refine isOp_of ?_ ?_ <;> cases r <;> decide

theorem classify_plain {t : Text} {o : Operand} (h : classifyPlain t = some o) : classify env t = some o := by
  rw [classify, h]; rfl

theorem classify_reg (r : Reg) : classify env r.toLasm = some (.reg r.code.toNat) :=
  classify_plain (by cases r <;> decide +kernel)

theorem isOp_flag (f : ArFlag) : IsOp f.toLasm.toList := by
  refine isOp_of ?_ ?_ <;> cases f <;> decide

theorem classify_flag (f : ArFlag) : classify env f.toLasm.toList = some (.arflag f.code.toNat) :=
  classify_plain (by cases f <;> decide +kernel)

theorem isOp_hwInfo (i : HwInfo) : IsOp i.toLasm.toList := by
  refine isOp_of ?_ ?_ <;> cases i <;> decide

theorem classify_hwInfo (i : HwInfo) : classify env i.toLasm.toList = some (.hwInfo i.code.toNat) :=
  classify_plain (by cases i <;> decide +kernel)

theorem fmtHex_eq (n : Nat) : fmtHex 0 n = '0' :: 'x' :: digits 16 n := by
  simp [fmtHex, padLeft]

theorem digit_ne {d : Nat} (h : d < 16) :
    (upperDigit d ≠ ',' ∧ upperDigit d ≠ '"') ∧ upperDigit d ≠ ';' ∧ upperDigit d ≠ '\n' ∧ upperDigit d ≠ ' ' :=
  ⟨⟨upperDigit_ne h (by decide), upperDigit_ne h (by decide)⟩, upperDigit_ne h (by decide), upperDigit_ne h (by decide),
    upperDigit_ne h (by decide)⟩

theorem isOp_hexTail {t : Text} {n : Nat} (ht : ∀ c ∈ t, (c ≠ ',' ∧ c ≠ '"') ∧ c ≠ ';' ∧ c ≠ '\n' ∧ c ≠ ' ') :
    IsOp (t ++ digits 16 n) := by
  refine isOp_of (by simp [digits_ne_nil]) ?_
  intro c hc
  rcases List.mem_append.1 hc with hc | hc
  · exact ht c hc
  · obtain ⟨d, hd, rfl⟩ := mem_digits (by decide) hc
    exact digit_ne hd

theorem isOp_hex (n : Nat) : IsOp (fmtHex 0 n) := by
  rw [fmtHex_eq]
  exact isOp_hexTail (t := ['0', 'x']) (by decide)

theorem isOp_negHex (n : Nat) : IsOp ('-' :: fmtHex 0 n) := by
  rw [fmtHex_eq]
  exact isOp_hexTail (t := ['-', '0', 'x']) (by decide)

theorem lookupName_none {table : List (String × Nat)} {t : Text} {c : Char} (h : t.head? = some c)
    (hall : ∀ e ∈ table, e.1.toList.head? ≠ some c) : lookupName table t = none := by
  rw [lookupName, List.find?_eq_none.2]
  · rfl
  · intro e he heq
    have : e.1.toList = t := by simpa using heq
    exact hall e he (by rw [this, h])

theorem classify_num {t : Text} {c : Char} (h : t.head? = some c) (hc : c = '0' ∨ c = '-') :
    classifyPlain t = (parseNum t).map Operand.num := by
  have h1 : lookupName regNames t = none := lookupName_none h (by rcases hc with rfl | rfl <;> decide +kernel)
  have h2 : lookupName arflagNames t = none := lookupName_none h (by rcases hc with rfl | rfl <;> decide +kernel)
  have h3 : lookupName divModeNames t = none := lookupName_none h (by rcases hc with rfl | rfl <;> decide +kernel)
  have h4 : lookupName hwInfoNames t = none := lookupName_none h (by rcases hc with rfl | rfl <;> decide +kernel)
  have h5 : lookupName if2ModeNames t = none := lookupName_none h (by rcases hc with rfl | rfl <;> decide +kernel)
  rw [classifyPlain, h1, h2, h3, h4, h5]
  rfl

theorem parseNat_hex (n : Nat) : parseNat (fmtHex 0 n) = some n := by
  rw [fmtHex_eq]
  have h := digitsVal_digits (base := 16) (by decide) (by decide) n
  cases hd : digits 16 n with
  | nil => exact absurd hd digits_ne_nil
  | cons c cs =>
    rw [hd] at h
    exact h

theorem classify_hex (n : Nat) : classify env (fmtHex 0 n) = some (.num n) := by
  apply classify_plain
  rw [classify_num (c := '0') (by rw [fmtHex_eq]; rfl) (Or.inl rfl)]
  have : parseNum (fmtHex 0 n) = (parseNat (fmtHex 0 n)).map fun n => (n : Int) := by
    rw [fmtHex_eq]
    rfl
  rw [this, parseNat_hex]
  rfl

theorem classify_negHex (n : Nat) : classify env ('-' :: fmtHex 0 n) = some (.num (-n)) := by
  apply classify_plain
  rw [classify_num (c := '-') rfl (Or.inr rfl)]
  have : parseNum ('-' :: fmtHex 0 n) = (parseNat (fmtHex 0 n)).map fun n => -(n : Int) := rfl
  rw [this, parseNat_hex]
  rfl

/-! ## Lines that define no label -/

theorem labelOf_lasmLine {mn : String} {ops : List Text} (hm : labelOf mn.toList = none) (ho : ∀ t ∈ ops, IsOp t) :
    labelOf (lasmLine mn ops) = none := by
  cases ops with
  | nil => exact hm
  | cons t ts =>
    have hne : joinText ", ".toList (t :: ts) ≠ [] := joinText_ne_nil (by simp) (fun t ht => (ho t ht).ne)
    unfold labelOf
    rw [if_neg]
    rintro ⟨-, -, h⟩
    have : ' ' ∈ (lasmLine mn (t :: ts)).dropLast := by
      show ' ' ∈ (mn.toList ++ ' ' :: joinText ", ".toList (t :: ts)).dropLast
      rw [List.dropLast_append_of_ne_nil (by simp), List.dropLast_cons_of_ne_nil hne]
      simp
    exact absurd (List.all_eq_true.1 h ' ' this) (by decide)

theorem layout_plain {lines : List Text} (hp : ∀ l ∈ lines, labelOf (lineCode l) = none) (pos : Nat) (scope : Text) :
    layout pos scope lines = [] := by
  induction lines generalizing pos with
  | nil => rfl
  | cons l ls ih =>
    rw [layout, hp l (by simp)]
    exact ih (fun l hl => hp l (List.mem_cons_of_mem _ hl)) _

theorem emit_plain {labels : List (Text × Nat)} {lines : List Text} (hp : ∀ l ∈ lines, labelOf (lineCode l) = none)
    (pos : Nat) (scope : Text) :
    emit labels pos scope lines = (lines.mapM (assembleLine (resolve labels scope))).map List.flatten := by
  induction lines generalizing pos with
  | nil => rfl
  | cons l ls ih =>
    rw [emit, hp l (by simp), List.mapM_cons]
    show (assembleLine _ l).bind _ = _
    cases assembleLine (resolve labels scope) l with
    | none => rfl
    | some b =>
      show (emit _ _ _ ls).bind _ = _
      rw [ih (fun l hl => hp l (List.mem_cons_of_mem _ hl))]
      cases hm : ls.mapM (assembleLine (resolve labels scope)) with
      | none => simp [hm]
      | some bs => simp [hm]

/-- A source without labels is assembled line by line. -/
theorem assemble_plain {lines : List Text} (hne : lines ≠ []) (hn : ∀ l ∈ lines, '\n' ∉ l)
    (hp : ∀ l ∈ lines, labelOf (lineCode l) = none) :
    assemble (joinText ['\n'] lines) = (lines.mapM (assembleLine (resolve [] []))).map List.flatten := by
  unfold assemble
  simp only [splitAt_joinText hne hn, layout_plain hp, emit_plain hp]
  rw [if_pos (by simp)]

end Lrvm
