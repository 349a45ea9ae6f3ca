import Verif.Props.Tools.LasmLabels

/-!
# Assembling a source in two parts
-/

namespace Lrvm

open Spec Lasm

/-- The last global label after some lines. -/
def scopeAfter : Text → List Text → Text
  | scope, [] => scope
  | scope, line :: lines =>
    match labelOf (lineCode line) with
    | some name => scopeAfter (nextScope scope name) lines
    | none => scopeAfter scope lines

/-- The position after some lines. -/
def posAfter : Nat → List Text → Nat
  | pos, [] => pos
  | pos, line :: lines =>
    match labelOf (lineCode line) with
    | some _ => posAfter (alignPos pos) lines
    | none => posAfter (pos + lineSize line) lines

theorem layout_append (xs ys : List Text) : ∀ pos scope, layout pos scope (xs ++ ys) =
    layout pos scope xs ++ layout (posAfter pos xs) (scopeAfter scope xs) ys := by
  induction xs with
  | nil => intros; rfl
  | cons x xs ih =>
    intro pos scope
    rw [List.cons_append, layout, layout, posAfter, scopeAfter]
    cases labelOf (lineCode x) with
    | some name => simp only [ih]; rfl
    | none => simp only [ih]

theorem le_alignPos (pos : Nat) : pos ≤ alignPos pos := by unfold alignPos; omega

theorem emit_append {labels : List (Text × Nat)} {xs ys : List Text} : ∀ {pos scope bs},
    emit labels pos scope xs = some bs →
    emit labels pos scope (xs ++ ys) = (emit labels (pos + bs.length) (scopeAfter scope xs) ys).map (bs ++ ·) := by
  induction xs with
  | nil =>
    intro pos scope bs h
    injection h with h; subst h
    simp [scopeAfter]
  | cons x xs ih =>
    intro pos scope bs h
    rw [emit] at h
    rw [List.cons_append, emit, scopeAfter]
    split at h
    · next name hn =>
      simp only [Option.bind_eq_bind, Option.bind_eq_some_iff] at h
      obtain ⟨rest, h1, h2⟩ := h
      injection h2 with h2; subst h2
      simp only [hn]
      rw [ih h1]
      have : pos + (List.replicate (alignPos pos - pos) (0 : U8) ++ rest).length = alignPos pos + rest.length := by
        have := le_alignPos pos
        simp; omega
      rw [this]
      cases emit labels (alignPos pos + rest.length) (scopeAfter (nextScope scope name) xs) ys <;> simp
    · next hn =>
      simp only [Option.bind_eq_bind, Option.bind_eq_some_iff] at h
      obtain ⟨b, h1, rest, h2, h3⟩ := h
      injection h3 with h3; subst h3
      simp only [hn, h1, Option.bind_eq_bind, Option.bind_some]
      rw [ih h2, List.length_append, Nat.add_assoc]
      cases emit labels (pos + (b.length + rest.length)) (scopeAfter scope xs) ys <;> simp

theorem joinText_append {sep : Text} {xs ys : List Text} (hx : xs ≠ []) (hy : ys ≠ []) :
    joinText sep (xs ++ ys) = joinText sep xs ++ sep ++ joinText sep ys := by
  induction xs with
  | nil => exact absurd rfl hx
  | cons x xs ih =>
    by_cases h : xs = []
    · subst h
      rw [List.cons_append, List.nil_append, joinText_cons hy]
      rfl
    · rw [List.cons_append, joinText_cons (by simp [h]), joinText_cons h, ih h]
      simp [List.append_assoc]

/-- Some lines of a source: the labels they define, the words they emit, and where they end. -/
def ChunkOk (labels : List (Text × Nat)) (pos : Nat) (scope : Text) (chunk : List Text) (pos' : Nat) (scope' : Text)
    (ls : List (Text × Nat)) (ws : List Word) : Prop :=
  layout pos scope chunk = ls ∧ posAfter pos chunk = pos' ∧ scopeAfter scope chunk = scope' ∧
  emit labels pos scope chunk = some (wordsToBytes ws) ∧ pos + 4 * ws.length = pos' ∧ ∀ x ∈ chunk, '\n' ∉ x

instance {labels pos scope chunk pos' scope' ls ws} : Decidable (ChunkOk labels pos scope chunk pos' scope' ls ws) := by
  unfold ChunkOk; infer_instance

theorem ChunkOk.append {labels : List (Text × Nat)} {p1 p2 p3 : Nat} {s1 s2 s3 : Text} {c1 c2 : List Text}
    {l1 l2 : List (Text × Nat)} {w1 w2 : List Word} (h1 : ChunkOk labels p1 s1 c1 p2 s2 l1 w1)
    (h2 : ChunkOk labels p2 s2 c2 p3 s3 l2 w2) : ChunkOk labels p1 s1 (c1 ++ c2) p3 s3 (l1 ++ l2) (w1 ++ w2) := by
  obtain ⟨a1, a2, a3, a4, a5, a6⟩ := h1
  obtain ⟨b1, b2, b3, b4, b5, b6⟩ := h2
  have hpos : ∀ (xs : List Text) p, posAfter p (xs ++ c2) = posAfter (posAfter p xs) c2 := by
    intro xs
    induction xs with
    | nil => intro p; rfl
    | cons x xs ih =>
      intro p
      rw [List.cons_append, posAfter, posAfter]
      cases labelOf (lineCode x) with
      | some name => simp only [ih]
      | none => simp only [ih]
  have hsc : ∀ (xs : List Text) p, scopeAfter p (xs ++ c2) = scopeAfter (scopeAfter p xs) c2 := by
    intro xs
    induction xs with
    | nil => intro p; rfl
    | cons x xs ih =>
      intro p
      rw [List.cons_append, scopeAfter, scopeAfter]
      cases labelOf (lineCode x) with
      | some name => simp only [ih]
      | none => simp only [ih]
  refine ⟨?_, ?_, ?_, ?_, ?_, ?_⟩
  · rw [layout_append, a1, a2, a3, b1]
  · rw [hpos, a2, b2]
  · rw [hsc, a3, b3]
  · rw [emit_append a4, a3, wordsToBytes_length, a5, b4]
    show some _ = _
    unfold wordsToBytes
    rw [List.flatMap_append]
  · rw [List.length_append]; omega
  · intro x hx
    rcases List.mem_append.1 hx with hx | hx
    · exact a6 x hx
    · exact b6 x hx

theorem ChunkOk.toWords {labels : List (Text × Nat)} {p : Nat} {s : Text} {c : List Text} {w : List Word}
    (h : ChunkOk labels 0 [] c p s labels w) (hn : (labels.map (·.1)).Nodup) (hc : c ≠ []) :
    assembleWords (joinText ['\n'] c) = some w := by
  obtain ⟨a1, a2, a3, a4, a5, a6⟩ := h
  unfold assembleWords assemble
  rw [splitAt_joinText hc a6]
  simp only
  rw [a1, if_pos hn, a4]
  show some _ = _
  rw [bytesToWords_wordsToBytes]

theorem ChunkOk.toWordsTail {labels : List (Text × Nat)} {p : Nat} {s : Text} {c t : List Text} {w : List Word} {bs : List U8}
    (h : ChunkOk labels 0 [] c p s labels w) (h1 : layout p s t = []) (h2 : emit labels p s t = some bs)
    (h3 : ∀ x ∈ t, '\n' ∉ x) (hn : (labels.map (·.1)).Nodup) (ht : t ≠ []) :
    assembleWords (joinText ['\n'] (c ++ t)) = some (w ++ bytesToWords bs) := by
  obtain ⟨a1, a2, a3, a4, a5, a6⟩ := h
  unfold assembleWords assemble
  rw [splitAt_joinText (by simp [ht]) (by
    intro x hx
    rcases List.mem_append.1 hx with hx | hx
    · exact a6 x hx
    · exact h3 x hx)]
  simp only
  rw [layout_append, a1, a2, a3, h1, List.append_nil, if_pos hn, emit_append a4, a3,
    show 0 + (wordsToBytes w).length = p by rw [wordsToBytes_length]; omega, h2]
  show some _ = _
  rw [bytesToWords_append]

/-- The words of a text without zero bytes followed by a word that is zero. -/
theorem words_of_text (u : List U8) : (∀ b ∈ u, b ≠ 0) → ∃ W, bytesToWords (u ++ [0, 0, 0, 0]) = W ++ [0] ∧
    (∀ w ∈ W, w ≠ 0) ∧ 4 * W.length < u.length + 4 ∧
    wordsToBytes W = u ++ List.replicate (4 * W.length - u.length) 0 := by
  have hz : ∀ a b c d : U8, a ≠ 0 → join4 a b c d ≠ 0 := by
    intro a b c d ha h
    have := congrArg BitVec.toNat h
    rw [join4_nat] at this
    apply ha
    apply BitVec.eq_of_toNat_eq
    simp at this ⊢
    omega
  have shl : ∀ n : Nat, (0 : Word) <<< n = 0 := fun n => BitVec.zero_shiftLeft n
  refine strong_four (P := fun u => (∀ b ∈ u, b ≠ 0) → ∃ W, bytesToWords (u ++ [0, 0, 0, 0]) = W ++ [0] ∧
    (∀ w ∈ W, w ≠ 0) ∧ 4 * W.length < u.length + 4 ∧
    wordsToBytes W = u ++ List.replicate (4 * W.length - u.length) 0) ?_ ?_ u
  · intro l hl h
    match l, hl, h with
    | [], _, _ => exact ⟨[], rfl, by simp, by simp, rfl⟩
    | [a], _, h =>
      refine ⟨[join4 a 0 0 0], ?_, by simpa using hz a 0 0 0 (h a (by simp)), by simp, ?_⟩
      · show bytesToWords (a :: 0 :: 0 :: 0 :: [0]) = _
        rw [bytesToWords_cons4]; rfl
      · rw [wordsToBytes_cons, beBytes_join4]; rfl
    | [a, b], _, h =>
      refine ⟨[join4 a b 0 0], ?_, by simpa using hz a b 0 0 (h a (by simp)), by simp, ?_⟩
      · show bytesToWords (a :: b :: 0 :: 0 :: [0, 0]) = _
        rw [bytesToWords_cons4]; rfl
      · rw [wordsToBytes_cons, beBytes_join4]; rfl
    | [a, b, c], _, h =>
      refine ⟨[join4 a b c 0], ?_, by simpa using hz a b c 0 (h a (by simp)), by simp, ?_⟩
      · show bytesToWords (a :: b :: c :: 0 :: [0, 0, 0]) = _
        rw [bytesToWords_cons4]; rfl
      · rw [wordsToBytes_cons, beBytes_join4]; rfl
    | a :: b :: c :: d :: l, hl, _ => simp at hl; omega
  · intro a b c d l ih h
    obtain ⟨W, h1, h2, h3, h4⟩ := ih (fun x hx => h x (by simp [hx]))
    refine ⟨join4 a b c d :: W, ?_, ?_, ?_, ?_⟩
    · show bytesToWords (a :: b :: c :: d :: (l ++ [0, 0, 0, 0])) = _
      rw [bytesToWords_cons4, h1]; rfl
    · intro w hw
      rcases List.mem_cons.1 hw with rfl | hw
      · exact hz a b c d (h a (by simp))
      · exact h2 w hw
    · simp only [List.length_cons]; omega
    · rw [wordsToBytes_cons, beBytes_join4, h4]
      have : 4 * (join4 a b c d :: W).length - (a :: b :: c :: d :: l).length = 4 * W.length - l.length := by
        simp only [List.length_cons]; omega
      rw [this]; rfl

end Lrvm
