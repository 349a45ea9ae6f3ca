import Verif.Model.Tools.Bytes

/-!
# Bytes and words
-/

namespace Lrvm

/-- The word with the given bytes, strongest first. -/
def join4 (b0 b1 b2 b3 : U8) : Word := b0 ++ b1 ++ b2 ++ b3

theorem append_nat (a : BitVec m) (b : BitVec n) : (a ++ b).toNat = a.toNat * 2 ^ n + b.toNat := by
  rw [BitVec.toNat_append, ← Nat.shiftLeft_add_eq_or_of_lt b.isLt, Nat.shiftLeft_eq]

theorem join4_nat (b0 b1 b2 b3 : U8) :
    (join4 b0 b1 b2 b3).toNat = ((b0.toNat * 256 + b1.toNat) * 256 + b2.toNat) * 256 + b3.toNat := by
  simp only [join4, append_nat]

theorem bytesToWordsLoop_shift (i : Nat) (w : Word) (bs : List U8) :
    bytesToWordsLoop (i + 4) w bs = bytesToWordsLoop i w bs := by
  induction bs generalizing i w with
  | nil => rfl
  | cons b bs ih =>
    simp only [bytesToWordsLoop, show (i + 4) % 4 = i % 4 by omega, show i + 4 + 1 = (i + 1) + 4 by omega, ih]

theorem join4_sum (b0 b1 b2 b3 : U8) :
    (0 + (b0.setWidth 32 <<< 24) + (b1.setWidth 32 <<< 16) + (b2.setWidth 32 <<< 8) + (b3.setWidth 32 <<< 0) : Word)
      = join4 b0 b1 b2 b3 := by
  apply BitVec.eq_of_toNat_eq
  simp only [join4_nat, BitVec.toNat_add, BitVec.toNat_shiftLeft, BitVec.toNat_setWidth, Nat.shiftLeft_eq]
  have := b0.isLt; have := b1.isLt; have := b2.isLt; have := b3.isLt
  simp
  omega

theorem bytesToWords_cons4 (b0 b1 b2 b3 : U8) (bs : List U8) :
    bytesToWords (b0 :: b1 :: b2 :: b3 :: bs) = join4 b0 b1 b2 b3 :: bytesToWords bs := by
  have hl : bytesToWordsLoop 0 0 (b0 :: b1 :: b2 :: b3 :: bs) =
      (join4 b0 b1 b2 b3 :: (bytesToWordsLoop 0 0 bs).1, (bytesToWordsLoop 0 0 bs).2) := by
    simp only [bytesToWordsLoop]
    rw [if_neg (by decide), if_neg (by decide), if_neg (by decide), if_pos (by decide), ← join4_sum]
    rw [show 0 + 1 + 1 + 1 + 1 = 0 + 4 from rfl, bytesToWordsLoop_shift]
    rfl
  unfold bytesToWords
  rw [hl]
  have hr : (b0 :: b1 :: b2 :: b3 :: bs).length % 4 = bs.length % 4 := by simp only [List.length_cons]; omega
  dsimp only
  rw [hr]
  split <;> rfl

theorem beBytes_four (w : Word) : beBytes 4 w =
    [(w >>> 24).setWidth 8, (w >>> 16).setWidth 8, (w >>> 8).setWidth 8, w.setWidth 8] := by
  simp [beBytes, List.range_succ]

theorem join4_split (w : Word) :
    join4 ((w >>> 24).setWidth 8) ((w >>> 16).setWidth 8) ((w >>> 8).setWidth 8) (w.setWidth 8) = w := by
  apply BitVec.eq_of_toNat_eq
  simp only [join4_nat, BitVec.toNat_setWidth, BitVec.toNat_ushiftRight, Nat.shiftRight_eq_div_pow]
  have := w.isLt
  omega

theorem beBytes_join4 (b0 b1 b2 b3 : U8) : beBytes 4 (join4 b0 b1 b2 b3) = [b0, b1, b2, b3] := by
  rw [beBytes_four]
  have := b0.isLt; have := b1.isLt; have := b2.isLt; have := b3.isLt
  have h := join4_nat b0 b1 b2 b3
  refine congr (congrArg _ ?_) (congr (congrArg _ ?_) (congr (congrArg _ ?_) (congr (congrArg _ ?_) rfl))) <;>
  · apply BitVec.eq_of_toNat_eq
    simp only [BitVec.toNat_setWidth, BitVec.toNat_ushiftRight, Nat.shiftRight_eq_div_pow, h]
    omega

theorem bytesToWords_be4 (w : Word) (bs : List U8) :
    bytesToWords (beBytes 4 w ++ bs) = w :: bytesToWords bs := by
  rw [beBytes_four]
  exact (bytesToWords_cons4 _ _ _ _ bs).trans (by rw [join4_split])

theorem beBytes_eight (x : U64) :
    beBytes 8 x = beBytes 4 ((x >>> 32).setWidth 32 : Word) ++ beBytes 4 (x.setWidth 32 : Word) := by
  rw [beBytes_four, beBytes_four]
  simp only [beBytes, List.range_succ, List.range_zero, List.nil_append, List.map_append, List.map_cons,
    List.map_nil, List.cons_append]
  have := x.isLt
  refine congr (congrArg _ ?_) (congr (congrArg _ ?_) (congr (congrArg _ ?_) (congr (congrArg _ ?_)
    (congr (congrArg _ ?_) (congr (congrArg _ ?_) (congr (congrArg _ ?_) (congr (congrArg _ ?_) rfl))))))) <;>
  · apply BitVec.eq_of_toNat_eq
    simp only [BitVec.toNat_setWidth, BitVec.toNat_ushiftRight, Nat.shiftRight_eq_div_pow]
    omega

theorem bytesToWords_be8 (x : U64) (bs : List U8) :
    bytesToWords (beBytes 8 x ++ bs) = (x >>> 32).setWidth 32 :: x.setWidth 32 :: bytesToWords bs := by
  rw [beBytes_eight, List.append_assoc, bytesToWords_be4, bytesToWords_be4]

theorem bytesToWords_nil : bytesToWords [] = [] := rfl

theorem bytesToWords_wordsToBytes (ws : List Word) : bytesToWords (wordsToBytes ws) = ws := by
  induction ws with
  | nil => rfl
  | cons w ws ih =>
    show bytesToWords (beBytes 4 w ++ wordsToBytes ws) = _
    rw [bytesToWords_be4, ih]

theorem wordsToBytes_cons (w : Word) (ws : List Word) : wordsToBytes (w :: ws) = beBytes 4 w ++ wordsToBytes ws := rfl

theorem wordsToBytes_length (ws : List Word) : (wordsToBytes ws).length = 4 * ws.length := by
  induction ws with
  | nil => rfl
  | cons w ws ih => rw [wordsToBytes_cons, List.length_append, ih, beBytes_four]; simp; omega

/-- Lists whose length is a multiple of four. -/
theorem aligned_induction {P : List α → Prop} (nil : P [])
    (cons : ∀ a b c d l, l.length % 4 = 0 → P l → P (a :: b :: c :: d :: l)) :
    ∀ l : List α, l.length % 4 = 0 → P l
  | [], _ => nil
  | [_], h => by simp at h
  | [_, _], h => by simp at h
  | [_, _, _], h => by simp at h
  | a :: b :: c :: d :: l, h =>
    cons a b c d l (by simp only [List.length_cons] at h; omega) (aligned_induction nil cons l (by simp only [List.length_cons] at h; omega))

theorem wordsToBytes_bytesToWords {bs : List U8} (h : bs.length % 4 = 0) : wordsToBytes (bytesToWords bs) = bs := by
  revert h
  refine aligned_induction (P := fun bs => wordsToBytes (bytesToWords bs) = bs) rfl ?_ bs
  intro a b c d l _ ih
  rw [bytesToWords_cons4, wordsToBytes_cons, beBytes_join4, ih]; rfl

/-- Induction on lists by groups of four. -/
theorem strong_four {P : List α → Prop} (short : ∀ l, l.length < 4 → P l)
    (cons : ∀ a b c d l, P l → P (a :: b :: c :: d :: l)) : ∀ l : List α, P l
  | [] => short _ (by simp)
  | [_] => short _ (by simp)
  | [_, _] => short _ (by simp)
  | [_, _, _] => short _ (by simp)
  | a :: b :: c :: d :: l => cons a b c d l (strong_four short cons l)

/-- Every list of bytes is whole words followed by at most three bytes. -/
theorem bytes_split : ∀ bs : List U8, ∃ ws tail, bs = wordsToBytes ws ++ tail ∧ tail.length = bs.length % 4
  | [] => ⟨[], [], rfl, rfl⟩
  | [a] => ⟨[], [a], rfl, rfl⟩
  | [a, b] => ⟨[], [a, b], rfl, rfl⟩
  | [a, b, c] => ⟨[], [a, b, c], rfl, rfl⟩
  | a :: b :: c :: d :: l => by
    obtain ⟨ws, t, h1, h2⟩ := bytes_split l
    refine ⟨join4 a b c d :: ws, t, ?_, by rw [h2]; simp only [List.length_cons]; omega⟩
    rw [wordsToBytes_cons, beBytes_join4, h1]; rfl

theorem bytesToWords_append (ws : List Word) (tail : List U8) :
    bytesToWords (wordsToBytes ws ++ tail) = ws ++ bytesToWords tail := by
  induction ws with
  | nil => rfl
  | cons w ws ih => rw [wordsToBytes_cons, List.append_assoc, bytesToWords_be4, ih]; rfl

end Lrvm
