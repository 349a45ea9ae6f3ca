import Verif.Props.Tools.LasmSource

/-!
# LASM: C84 (sources with labels)
-/

namespace Lrvm

open Spec Lasm

/-! ## C84 -/

theorem fullName_qualified (scope name : Text) : fullName scope name = qualified scope name := by
  unfold fullName
  by_cases h : name.head? = some '.'
  · rw [if_pos h]
    cases name with
    | nil => cases h
    | cons c t => rw [Option.some.inj h]; rfl
  · rw [if_neg h]
    unfold qualified
    split
    · exact absurd rfl h
    · rfl

theorem flatten_len (bs : List Bytes4) : (bs.map Bytes4.toList).flatten.length = 4 * bs.length := by
  induction bs with
  | nil => rfl
  | cons b bs ih => rw [List.map_cons, List.flatten_cons, List.length_append, ih, List.length_cons]; show 4 + _ = _; omega

theorem find_of_nodup {labels : List (Text × Nat)} (hd : (labels.map (·.1)).Nodup) {k : Text} {a : Nat}
    (h : (k, a) ∈ labels) : labels.find? (fun e => e.1 == k) = some (k, a) := by
  induction labels with
  | nil => simp at h
  | cons e es ih =>
    rw [List.map_cons, List.nodup_cons] at hd
    rcases List.mem_cons.1 h with rfl | h
    · rw [List.find?_cons_of_pos (by simp)]
    · rw [List.find?_cons_of_neg, ih hd.2 h]
      simp only [beq_iff_eq]
      intro hk
      exact hd.1 (hk ▸ List.mem_map_of_mem (f := (·.1)) h)

theorem agrees_resolve {labels : List (Text × Nat)} (hd : (labels.map (·.1)).Nodup) (scope : Text) :
    Agrees (namesIn labels scope) (resolve labels scope) := by
  intro t n h
  unfold resolve
  rw [fullName_qualified, find_of_nodup hd h]
  rfl

theorem labelLine {name : Text} (h : IsLabel name) (n : Nat) :
    '\n' ∉ List.replicate n ' ' ++ name ++ [':'] ∧
      labelOf (lineCode (List.replicate n ' ' ++ name ++ [':'])) = some name := by
  have hf : ∀ c ∈ name, _ := fun c hc => alnum_facts (h.chars c hc)
  constructor
  · simp only [List.append_assoc, List.mem_append, List.mem_replicate, List.mem_singleton, not_or]
    exact ⟨fun hc => absurd hc.2 (by decide), fun hc => (hf _ hc).2.2.1 rfl, by decide⟩
  · have hc : lineCode (name ++ [':']) = name ++ [':'] := by
      unfold lineCode
      rw [takeWhile_all, trim_of]
      · intro hc
        cases hn : name with
        | nil => exact absurd hn h.ne
        | cons d t =>
          rw [hn] at hc
          have : d = ' ' := by simpa using hc
          exact (hf d (by rw [hn]; simp)).2.2.2.1 this
      · simp
      · intro c hc
        rcases List.mem_append.1 hc with hc | hc
        · simpa using (hf c hc).2.1
        · rw [List.mem_singleton.1 hc]; decide
    rw [List.append_assoc, lineCode_spaces, hc]
    unfold labelOf
    rw [if_pos, List.dropLast_concat]
    refine ⟨by simp, ?_, ?_⟩
    · rw [List.dropLast_concat]; exact h.ne
    · rw [List.dropLast_concat, List.all_eq_true]
      exact fun c hc => (hf c hc).2.2.2.2.2

theorem alignPos_word (k : Nat) : alignPos (4 * k) = 4 * k := by unfold alignPos; omega

theorem listing_gives {labels : List (Text × Nat)} (hd : (labels.map (·.1)).Nodup) {scope : Text} {address : Nat}
    {lines : List Text} {words : List ProgramWord} {defined : List (Text × Nat)}
    (h : Listing labels scope address lines words defined) : ∀ k, address = 4 * k →
    (∀ t ∈ lines, '\n' ∉ t) ∧ layout address scope lines = defined ∧
      ∃ bs : List Bytes4, emit labels address scope lines = some (bs.map Bytes4.toList).flatten ∧
        bs.map ProgramWord.decode = words.map asRead := by
  induction h with
  | nil => exact fun k _ => ⟨by simp, rfl, [], rfl, rfl⟩
  | @line scope address t ws lines words defined hl _ ih =>
    intro k hk
    obtain ⟨⟨hn, hlab, hsize⟩, bs, h1, h2, h3⟩ := sourceLine_bytes (agrees_resolve hd scope) hl
    obtain ⟨i1, i2, cs, i3, i4⟩ := ih (k + ws.length) (by omega)
    refine ⟨by simpa [hn] using i1, ?_, bs ++ cs, ?_, by simp [h3, i4]⟩
    · rw [layout, hlab]
      simp only []
      rw [hsize, i2]
    · rw [emit, hlab]
      simp only []
      rw [h1]
      have hlen : ((bs.map Bytes4.toList).flatten).length = 4 * ws.length := by rw [flatten_len, h2]
      show (emit labels (address + ((bs.map Bytes4.toList).flatten).length) scope lines).bind _ = _
      rw [hlen, i3]
      simp
  | @globalLabel n scope address name lines words defined hl hh _ ih =>
    intro k hk
    obtain ⟨hn, hlab⟩ := labelLine hl n
    obtain ⟨i1, i2, cs, i3, i4⟩ := ih k hk
    have ha : alignPos address = address := by rw [hk, alignPos_word]
    refine ⟨fun t ht => (List.mem_cons.1 ht).elim (fun e => e ▸ hn) (i1 t), ?_, cs, ?_, i4⟩
    · rw [layout, hlab]
      simp only [ha, fullName, nextScope, if_neg hh]
      rw [i2]
    · rw [emit, hlab]
      simp only [ha, nextScope, if_neg hh]
      rw [i3]
      simp
  | @localLabel n scope address name lines words defined hl hh _ ih =>
    intro k hk
    obtain ⟨hn, hlab⟩ := labelLine hl n
    obtain ⟨i1, i2, cs, i3, i4⟩ := ih k hk
    have ha : alignPos address = address := by rw [hk, alignPos_word]
    refine ⟨fun t ht => (List.mem_cons.1 ht).elim (fun e => e ▸ hn) (i1 t), ?_, cs, ?_, i4⟩
    · rw [layout, hlab]
      simp only [ha, fullName, nextScope, if_pos hh]
      rw [i2]
    · rw [emit, hlab]
      simp only [ha, nextScope, if_pos hh]
      rw [i3]
      simp

/-- **C84**: a source with labels assembles to the words of its lines, in order, where every label stands for the address
of what follows it. -/
theorem C84_labels (lines : List (List Char)) (words : List ProgramWord) (h : Source lines words) :
    assembleProg (List.intercalate ['\n'] lines) = some (.ok (words.map asRead)) := by
  obtain ⟨labels, hd, hl⟩ := h
  obtain ⟨h1, h2, bs, h3, h4⟩ := listing_gives hd hl 0 rfl
  have hs : assemble (List.intercalate ['\n'] lines) = some (bs.map Bytes4.toList).flatten := by
    rw [← joinText_intercalate]
    by_cases hne : lines = []
    · subst hne
      cases hl
      rw [← h3]
      rfl
    · unfold assemble
      simp only [splitAt_joinText hne h1, h2]
      rw [if_pos hd, h3]
  unfold assembleProg
  rw [hs]
  show some (Program.decode _ false) = _
  rw [decode_program (flatten_length bs), groups4_flatten, h4]

/-- **C84**, duplicates: a source that defines a label twice is refused. -/
theorem C84_duplicate (labels defined : List (List Char × Nat)) (lines : List (List Char)) (words : List ProgramWord)
    (hd : (labels.map (·.1)).Nodup) (hl : Listing labels [] 0 lines words defined)
    (hdup : ¬ (defined.map (·.1)).Nodup) : assembleProg (List.intercalate ['\n'] lines) = none := by
  obtain ⟨h1, h2, -⟩ := listing_gives hd hl 0 rfl
  have hs : assemble (List.intercalate ['\n'] lines) = none := by
    rw [← joinText_intercalate]
    by_cases hne : lines = []
    · subst hne
      cases hl
      exact absurd List.nodup_nil hdup
    · unfold assemble
      simp only [splitAt_joinText hne h1, h2]
      rw [if_neg hdup]
  unfold assembleProg
  rw [hs]
  rfl

theorem label_start : IsLabel "start".toList :=
  ⟨by decide, by decide, by decide, fun r => by cases r <;> decide, by decide⟩

theorem label_loop : IsLabel ".loop".toList :=
  ⟨by decide, by decide, by decide, fun r => by cases r <;> decide, by decide⟩

theorem label_end : IsLabel "end".toList :=
  ⟨by decide, by decide, by decide, fun r => by cases r <;> decide, by decide⟩

/-- A source with a loop: a local label that is used after it is defined, and a global one that is used before. -/
example : Source ["start:".toList, "  cpy a0, 3".toList, ".loop:".toList, "  dec a0".toList, "  cmp a0, 0".toList,
      "  ifnq".toList, "    jp .loop".toList, "  jp end - 4 + 4".toList, "end:".toList, "  halt".toList]
    [.instr (.cpy .a0 (.lit 3)), .instr (.sub .a0 (.lit 1)), .instr (.cmp .a0 (.lit 0)), .instr (.ifN (.lit 0)),
      (.instr (.cpy .pc (.lit 4))), (.instr (.cpy .pc (.lit 24))), .instr .halt] := by
  have d : ∀ n : Fin 10, Value (namesIn [("start".toList, 0), ("start.loop".toList, 4), ("end".toList, 24)] "start".toList)
      [Nat.digitChar n] n := fun n =>
    .term (.num (.pos (n := n) (.dec (.one (d := n) (.inl (by revert n; decide)) (by revert n; decide)))))
  have four : Term (namesIn [("start".toList, 0), ("start.loop".toList, 4), ("end".toList, 24)] "start".toList)
      "4".toList 4 := .num (.pos (n := 4) (.dec (.one (.inl rfl) (by decide))))
  refine ⟨[("start".toList, 0), ("start.loop".toList, 4), ("end".toList, 24)], by decide, ?_⟩
  refine .globalLabel 0 label_start (by decide) ?_
  refine .line (ws := [_]) (.code 2 (mn := "cpy") (ops := ["a0".toList, "3".toList])
    (.cpy (.name .a0) (.lit (z := 3) (d 3) (by decide) (by decide))) (notBroken (by decide))) ?_
  refine .localLabel 0 label_loop (by decide) ?_
  refine .line (ws := [_]) (.code 2 (mn := "dec") (ops := ["a0".toList]) (.dec (.name .a0)) (notBroken (by decide))) ?_
  refine .line (ws := [_]) (.code 2 (mn := "cmp") (ops := ["a0".toList, "0".toList])
    (.cmp (.name .a0) (.lit (z := 0) (d 0) (by decide) (by decide))) (notBroken (by decide))) ?_
  refine .line (ws := [_]) (.code 2 (mn := "ifnq") (ops := []) .ifnq (notBroken (by decide))) ?_
  refine .line (ws := [_]) (.code 4 (mn := "jp") (ops := [".loop".toList])
    (.jp (.lit (z := 4) (.term (.label label_loop (n := 4) (by unfold namesIn; decide))) (by decide) (by decide))) (notBroken (by decide))) ?_
  refine .line (ws := [_]) (.code 2 (mn := "jp") (ops := ["end - 4 + 4".toList])
    (.jp (.lit (z := 24) (.add (.sub (.term (.label label_end (n := 24) (by unfold namesIn; decide))) four) four) (by decide) (by decide)))
    (notBroken (by decide))) ?_
  refine .globalLabel 0 label_end (by decide) ?_
  exact .line (ws := [_]) (.code 2 (mn := "halt") (ops := []) .halt (notBroken (by decide))) .nil

/-- A source with the same label twice. -/
example : ∃ defined, Listing [] [] 0 ["end:".toList, "end:".toList] [] defined ∧ ¬ (defined.map (·.1)).Nodup :=
  ⟨_, .globalLabel 0 label_end (by decide) (.globalLabel 0 label_end (by decide) .nil), by decide⟩

end Lrvm
