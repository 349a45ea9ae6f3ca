import Verif.Model.Text
import Verif.Spec.Text

/-!
# The text functions meet the definition of UTF-8
-/

namespace Lrvm

open Spec

/-- The numeric values of the bytes of a character of code `v`. -/
def encN (v : Nat) : List Nat :=
  if v ≤ 127 then [v]
  else if v ≤ 2047 then [v / 64 % 32 + 192, v % 64 + 128]
  else if v ≤ 65535 then [v / 4096 % 16 + 224, v / 64 % 64 + 128, v % 64 + 128]
  else [v / 262144 % 8 + 240, v / 4096 % 64 + 128, v / 64 % 64 + 128, v % 64 + 128]

theorem utf8_single (c : Char) : utf8 [c] = (encN c.toNat).map (BitVec.ofNat 8) := by
  unfold utf8 encN
  simp only [List.flatMap_cons, List.flatMap_nil, List.append_nil]
  show (String.utf8EncodeChar c).map _ = _
  unfold String.utf8EncodeChar
  rw [show c.toNat = c.val.toNat from rfl]
  generalize c.val.toNat = v
  show List.map _ (if v ≤ 127 then _ else if v ≤ 2047 then _ else if v ≤ 65535 then _ else _) = _
  by_cases h1 : v ≤ 127
  · rw [if_pos h1, if_pos h1]; rfl
  · rw [if_neg h1, if_neg h1]
    by_cases h2 : v ≤ 2047
    · rw [if_pos h2, if_pos h2]; rfl
    · rw [if_neg h2, if_neg h2]
      by_cases h3 : v ≤ 65535
      · rw [if_pos h3, if_pos h3]; rfl
      · rw [if_neg h3, if_neg h3]; rfl

theorem utf8_cons (c : Char) (t : List Char) : utf8 (c :: t) = utf8 [c] ++ utf8 t := by
  unfold utf8
  rw [← List.map_append, ← List.flatMap_append]
  rfl

theorem utf8_append (s t : List Char) : utf8 (s ++ t) = utf8 s ++ utf8 t := by
  unfold utf8
  rw [← List.map_append, ← List.flatMap_append]

theorem utf8_nil : utf8 [] = [] := rfl

theorem encN_lt {v x : Nat} (h : x ∈ encN v) : x < 256 := by
  unfold encN at h
  repeat' split at h
  all_goals
    simp only [List.mem_cons, List.not_mem_nil, or_false] at h
    omega

theorem encN_length (v : Nat) : 0 < (encN v).length ∧ (encN v).length ≤ 4 := by
  unfold encN
  repeat' split
  all_goals simp

theorem utf8_single_length (c : Char) : (utf8 [c]).length = (encN c.toNat).length := by
  rw [utf8_single, List.length_map]

/-- The byte values of a character's encoding, read at the front of a list. -/
theorem natAt_enc (c : Char) (rest : List U8) {i x : Nat} (h : (encN c.toNat)[i]? = some x) :
    natAt (utf8 [c] ++ rest) i = x := by
  unfold natAt
  have hi : i < (encN c.toNat).length := (List.getElem?_eq_some_iff.mp h).1
  rw [List.getElem?_append_left (by rw [utf8_single_length]; exact hi), utf8_single, List.getElem?_map, h]
  show (BitVec.ofNat 8 x).toNat = x
  rw [BitVec.toNat_ofNat]
  exact Nat.mod_eq_of_lt (encN_lt (List.mem_of_getElem? h))

theorem Char.valid (c : Char) : c.toNat < 0xD800 ∨ (0xDFFF < c.toNat ∧ c.toNat < 0x110000) := c.valid

theorem Char.ofNat_toNat' (c : Char) : Char.ofNat c.toNat = c := by simp

theorem toNat_ofNat_valid {n : Nat} (h : n < 0xD800 ∨ (0xDFFF < n ∧ n < 0x110000)) : (Char.ofNat n).toNat = n := by
  have hv : n.isValidChar := h
  rw [Char.ofNat, dif_pos hv]
  rfl

/-- A character is decoded from its encoding. -/
theorem step_enc (c : Char) {b0 b1 b2 b3 : Nat} (h : ∀ i x : Nat, (encN c.toNat)[i]? = some x → [b0, b1, b2, b3][i]? = some x) :
    utf8Step b0 b1 b2 b3 = .char c (encN c.toNat).length := by
  have hv := Char.valid c
  have hc := Char.ofNat_toNat' c
  revert h hv hc
  generalize c.toNat = v
  intro h hv hc
  subst hc
  unfold encN at h ⊢
  unfold utf8Step isCont second3 second4
  split at h
  · have h0 := h 0 _ rfl
    simp at h0
    rw [if_pos (by omega), h0]; simp [*]
  · split at h
    · have h0 := h 0 _ rfl
      have h1 := h 1 _ rfl
      simp at h0 h1
      rw [if_neg (by omega), if_pos (by omega), if_pos (by simp; omega)]
      rw [show b0 % 32 * 64 + b1 % 64 = v by omega]; simp [*]
    · split at h
      · have h0 := h 0 _ rfl
        have h1 := h 1 _ rfl
        have h2 := h 2 _ rfl
        simp at h0 h1 h2
        rw [if_neg (by omega), if_neg (by omega), if_pos (by omega), if_pos (by simp; omega), if_pos (by simp; omega)]
        rw [show b0 % 16 * 4096 + b1 % 64 * 64 + b2 % 64 = v by omega]; simp [*]
      · have h0 := h 0 _ rfl
        have h1 := h 1 _ rfl
        have h2 := h 2 _ rfl
        have h3 := h 3 _ rfl
        simp at h0 h1 h2 h3
        rw [if_neg (by omega), if_neg (by omega), if_neg (by omega), if_pos (by omega), if_pos (by simp; omega),
          if_pos (by simp; omega), if_pos (by simp; omega)]
        rw [show b0 % 8 * 262144 + b1 % 64 * 4096 + b2 % 64 * 64 + b3 % 64 = v by omega]; simp [*]

/-- What is decoded is the encoding of the character. -/
theorem step_char {b0 b1 b2 b3 : Nat} {c : Char} {n : Nat} (h : utf8Step b0 b1 b2 b3 = .char c n) :
    encN c.toNat = [b0, b1, b2, b3].take n ∧ 0 < n ∧ n ≤ 4 := by
  unfold utf8Step isCont second3 second4 at h
  split at h
  · cases h
    rw [toNat_ofNat_valid (by omega)]
    unfold encN
    rw [if_pos (by omega)]
    exact ⟨rfl, by omega, by omega⟩
  · split at h
    · split at h
      · next h1 =>
        simp at h1
        cases h
        rw [toNat_ofNat_valid (by omega)]
        unfold encN
        rw [if_neg (by omega), if_pos (by omega), show (b0 % 32 * 64 + b1 % 64) / 64 % 32 + 192 = b0 by omega,
          show (b0 % 32 * 64 + b1 % 64) % 64 + 128 = b1 by omega]
        exact ⟨rfl, by omega, by omega⟩
      · cases h
    · split at h
      · split at h
        · next h1 =>
          simp at h1
          split at h
          · next h2 =>
            simp at h2
            cases h
            rw [toNat_ofNat_valid (by omega)]
            unfold encN
            rw [if_neg (by omega), if_neg (by omega), if_pos (by omega),
              show (b0 % 16 * 4096 + b1 % 64 * 64 + b2 % 64) / 4096 % 16 + 224 = b0 by omega,
              show (b0 % 16 * 4096 + b1 % 64 * 64 + b2 % 64) / 64 % 64 + 128 = b1 by omega,
              show (b0 % 16 * 4096 + b1 % 64 * 64 + b2 % 64) % 64 + 128 = b2 by omega]
            exact ⟨rfl, by omega, by omega⟩
          · cases h
        · cases h
      · split at h
        · split at h
          · next h1 =>
            simp at h1
            split at h
            · next h2 =>
              simp at h2
              split at h
              · next h3 =>
                simp at h3
                cases h
                rw [toNat_ofNat_valid (by omega)]
                unfold encN
                rw [if_neg (by omega), if_neg (by omega), if_neg (by omega),
                  show (b0 % 8 * 262144 + b1 % 64 * 4096 + b2 % 64 * 64 + b3 % 64) / 262144 % 8 + 240 = b0 by omega,
                  show (b0 % 8 * 262144 + b1 % 64 * 4096 + b2 % 64 * 64 + b3 % 64) / 4096 % 64 + 128 = b1 by omega,
                  show (b0 % 8 * 262144 + b1 % 64 * 4096 + b2 % 64 * 64 + b3 % 64) / 64 % 64 + 128 = b2 by omega,
                  show (b0 % 8 * 262144 + b1 % 64 * 4096 + b2 % 64 * 64 + b3 % 64) % 64 + 128 = b3 by omega]
                exact ⟨rfl, by omega, by omega⟩
              · cases h
            · cases h
          · cases h
        · cases h

/-- The verdict on invalid bytes looks at one byte after them at most, and those after the first can be completed to a
character. -/
theorem step_invalid {b0 b1 b2 b3 k : Nat} (h : utf8Step b0 b1 b2 b3 = .invalid k) :
    (k = 1 ∧ ∀ c2 c3, utf8Step b0 b1 c2 c3 = .invalid 1) ∨
    (k = 2 ∧ b1 ≠ 0 ∧ (∀ c3, utf8Step b0 b1 b2 c3 = .invalid 2) ∧ ∃ c n, utf8Step b0 b1 128 128 = .char c n ∧ 2 ≤ n) ∨
    (k = 3 ∧ b1 ≠ 0 ∧ b2 ≠ 0 ∧ ∃ c n, utf8Step b0 b1 b2 128 = .char c n ∧ 3 ≤ n) := by
  unfold utf8Step at h ⊢
  split at h
  · cases h
  · split at h
    · split at h
      · cases h
      · cases h
        left; refine ⟨rfl, fun _ _ => ?_⟩
        simp [*]
    · split at h
      · split at h
        · next h1 =>
          split at h
          · cases h
          · cases h
            right; left
            refine ⟨rfl, ?_, fun _ => by simp [*], ?_⟩
            · rintro rfl; simp [second3] at h1
            · simp only [if_neg (show ¬ b0 < 128 from ‹_›), if_neg (show ¬ (194 ≤ b0 ∧ b0 ≤ 223) from ‹_›),
                if_pos (show 224 ≤ b0 ∧ b0 ≤ 239 from ‹_›), h1, if_true]
              exact ⟨_, 3, rfl, by omega⟩
        · cases h
          left; refine ⟨rfl, fun _ _ => ?_⟩
          simp [*]
      · split at h
        · split at h
          · next h1 =>
            split at h
            · next h2 =>
              split at h
              · cases h
              · cases h
                right; right
                refine ⟨rfl, ?_, ?_, ?_⟩
                · rintro rfl; simp [second4] at h1
                · rintro rfl; simp [isCont] at h2
                · simp only [if_neg (show ¬ b0 < 128 from ‹_›), if_neg (show ¬ (194 ≤ b0 ∧ b0 ≤ 223) from ‹_›),
                    if_neg (show ¬ (224 ≤ b0 ∧ b0 ≤ 239) from ‹_›),
                    if_pos (show 240 ≤ b0 ∧ b0 ≤ 244 from ‹_›), h1, h2, if_true]
                  exact ⟨_, 4, rfl, by omega⟩
            · cases h
              right; left
              refine ⟨rfl, ?_, fun _ => by simp [*], ?_⟩
              · rintro rfl; simp [second4] at h1
              · simp only [if_neg (show ¬ b0 < 128 from ‹_›), if_neg (show ¬ (194 ≤ b0 ∧ b0 ≤ 223) from ‹_›),
                  if_neg (show ¬ (224 ≤ b0 ∧ b0 ≤ 239) from ‹_›),
                  if_pos (show 240 ≤ b0 ∧ b0 ≤ 244 from ‹_›), h1, if_true]
                exact ⟨_, 4, rfl, by omega⟩
          · cases h
            left; refine ⟨rfl, fun _ _ => ?_⟩
            simp [*]
        · cases h
          left; refine ⟨rfl, fun _ _ => ?_⟩
          simp [*]

theorem nextChunk_enc (c : Char) (rest : List U8) : nextChunk (utf8 [c] ++ rest) = .char c (utf8 [c]).length := by
  rw [utf8_single_length]
  refine step_enc c fun i x hx => ?_
  have hn := natAt_enc c rest hx
  have hl := encN_length c.toNat
  have hi : i < (encN c.toNat).length := (List.getElem?_eq_some_iff.mp hx).1
  have h4 : i < 4 := by omega
  rcases i with _ | _ | _ | _ | i
  · exact congrArg some hn
  · exact congrArg some hn
  · exact congrArg some hn
  · exact congrArg some hn
  · omega

theorem natAt_nonzero {bs : List U8} {i : Nat} (h : natAt bs i ≠ 0) : i < bs.length := by
  by_cases hi : i < bs.length
  · exact hi
  · unfold natAt at h
    rw [List.getElem?_eq_none (by omega)] at h
    exact absurd rfl h

theorem natAt_get {bs : List U8} {i : Nat} (h : i < bs.length) : bs[i]? = some (BitVec.ofNat 8 (natAt bs i)) := by
  unfold natAt
  rw [List.getElem?_eq_getElem h]
  simp

/-- Bytes after the first of a character are not 0. -/
theorem encN_tail {v i x : Nat} (h : (encN v)[i + 1]? = some x) : x ≠ 0 := by
  unfold encN at h
  repeat' split at h
  all_goals
    rcases i with _ | _ | _ | i <;> simp at h <;> omega

/-- The first bytes of a list, by value. -/
theorem take_of_natAt {bs : List U8} {l : List Nat} {n : Nat} (hn : n ≤ 4) (hlen : n ≤ bs.length)
    (h : l = [natAt bs 0, natAt bs 1, natAt bs 2, natAt bs 3].take n) : bs.take n = l.map (BitVec.ofNat 8) := by
  subst h
  apply List.ext_getElem?
  intro i
  rw [List.getElem?_take, List.getElem?_map, List.getElem?_take]
  split
  · next hi =>
    rw [natAt_get (by omega)]
    rcases i with _ | _ | _ | _ | i <;> first | rfl | omega
  · rfl

theorem nextChunk_char {bs : List U8} {c : Char} {n : Nat} (hne : bs ≠ []) (h : nextChunk bs = .char c n) :
    bs = utf8 [c] ++ bs.drop n ∧ 0 < n ∧ n ≤ bs.length := by
  obtain ⟨h1, h2, h3⟩ := step_char h
  have hlen : n ≤ bs.length := by
    by_cases hn : n = 1
    · have := List.length_pos_iff.mpr hne; omega
    · obtain ⟨m, rfl⟩ : ∃ m, n = m + 2 := ⟨n - 2, by omega⟩
      have hx : (encN c.toNat)[m + 1]? = some (natAt bs (m + 1)) := by
        rw [h1]
        rcases m with _ | _ | _ | m <;> first | rfl | omega
      have := natAt_nonzero (encN_tail hx)
      omega
  refine ⟨?_, h2, hlen⟩
  rw [utf8_single, ← take_of_natAt h3 hlen h1, List.take_append_drop]

/-- The bytes of the list begin like a character's: the first ones have the same values. -/
theorem prefix_natAt {bad : List U8} {c : Char} (h : bad <+: utf8 [c]) {i : Nat} (hi : i < bad.length) :
    natAt (utf8 [c]) i = natAt bad i := by
  obtain ⟨r, hr⟩ := h
  unfold natAt
  rw [← hr, List.getElem?_append_left hi]

theorem natAt_take {bs : List U8} {n i : Nat} (hi : i < n) : natAt (bs.take n) i = natAt bs i := by
  unfold natAt; rw [List.getElem?_take, if_pos hi]

/-- A list as its beginning and one more byte. -/
theorem take_snoc {bs : List U8} {k : Nat} {b : U8} {r : List U8} (h : bs.drop k = b :: r) :
    bs.take k ++ [b] = bs.take (k + 1) ∧ k < bs.length := by
  have hk : k < bs.length := by
    by_cases hk : k < bs.length
    · exact hk
    · rw [List.drop_eq_nil_of_le (by omega)] at h; cases h
  have hb : bs[k]? = some b := by
    have : (bs.drop k)[0]? = some b := by rw [h]; rfl
    rw [List.getElem?_drop] at this; exact this
  refine ⟨?_, hk⟩
  rw [List.take_add_one, hb]; rfl

theorem nextChunk_invalid {bs : List U8} {k : Nat} (hne : bs ≠ []) (h : nextChunk bs = .invalid k) :
    Broken (bs.take k) (bs.drop k) ∧ 0 < k ∧ k ≤ bs.length := by
  have hpos := List.length_pos_iff.mpr hne
  have hnc : ∀ c, ¬ utf8 [c] <+: bs := by
    rintro c ⟨r, hr⟩
    rw [← hr, nextChunk_enc] at h
    cases h
  -- a character beginning with the same `m` bytes
  have hsame : ∀ {m : Nat} {c : Char}, bs.take m <+: utf8 [c] → m ≤ bs.length → ∀ i, i < m →
      natAt (utf8 [c]) i = natAt bs i := by
    intro m c hp hm i hi
    rw [prefix_natAt hp (by rw [List.length_take]; omega), natAt_take hi]
  have hch : ∀ c : Char, ∃ n, nextChunk (utf8 [c]) = .char c n := fun c => by
    have := nextChunk_enc c []
    rw [List.append_nil] at this
    exact ⟨_, this⟩
  have hcompl : ∀ {m : Nat} {c : Char} {n : Nat} {l : List Nat}, encN c.toNat = l.take n → m ≤ n → m ≤ bs.length → m ≤ 4 →
      l.take m = [natAt bs 0, natAt bs 1, natAt bs 2, natAt bs 3].take m → bs.take m <+: utf8 [c] := by
    intro m c n l he hmn hm h4 hl
    rw [take_of_natAt h4 hm rfl, utf8_single, he, ← hl, List.map_take, List.map_take]
    rw [show (List.map (BitVec.ofNat 8) l).take m = ((List.map (BitVec.ofNat 8) l).take n).take m by
      rw [List.take_take, Nat.min_eq_left hmn]]
    exact List.take_prefix _ _
  have mk : 0 < k → k ≤ bs.length → (k = 1 ∨ ∃ c, bs.take k <+: utf8 [c]) →
      (∀ c, k + 1 ≤ bs.length → (∀ i, i < k + 1 → natAt (utf8 [c]) i = natAt bs i) → False) →
      Broken (bs.take k) (bs.drop k) := by
    intro hk hl hs hm
    refine ⟨?_, ?_, ?_, ?_⟩
    · intro hh
      have := congrArg List.length hh
      rw [List.length_take, List.length_nil] at this; omega
    · rw [List.take_append_drop]; exact hnc
    · rcases hs with rfl | hs
      · left; rw [List.length_take]; omega
      · exact .inr hs
    · intro b r hbr c hp
      obtain ⟨h1, h2⟩ := take_snoc hbr
      rw [h1] at hp
      exact hm c (by omega) fun i hi => hsame hp (by omega) i hi
  have hstep := step_invalid h
  rcases hstep with ⟨rfl, hl⟩ | ⟨rfl, h1, hl, c, n, hc, hn⟩ | ⟨rfl, h1, h2, c, n, hc, hn⟩
  · refine ⟨mk (by omega) (by omega) (.inl rfl) ?_, by omega, by omega⟩
    intro c _ hag
    obtain ⟨n, hn⟩ := hch c
    have h0 := hag 0 (by omega); have h1 := hag 1 (by omega)
    unfold nextChunk at hn
    rw [h0, h1, hl] at hn
    cases hn
  · have hlen := natAt_nonzero h1
    refine ⟨mk (by omega) (by omega) (.inr ⟨c, ?_⟩) ?_, by omega, by omega⟩
    · exact hcompl (step_char hc).1 hn (by omega) (by omega) rfl
    · intro c _ hag
      obtain ⟨n, hn⟩ := hch c
      have h0 := hag 0 (by omega); have h1 := hag 1 (by omega); have h2 := hag 2 (by omega)
      unfold nextChunk at hn
      rw [h0, h1, h2, hl] at hn
      cases hn
  · have hlen := natAt_nonzero h2
    refine ⟨mk (by omega) (by omega) (.inr ⟨c, ?_⟩) ?_, by omega, by omega⟩
    · exact hcompl (step_char hc).1 hn (by omega) (by omega) rfl
    · intro c _ hag
      obtain ⟨n, hn⟩ := hch c
      have h0 := hag 0 (by omega); have h1 := hag 1 (by omega); have h2 := hag 2 (by omega); have h3 := hag 3 (by omega)
      unfold nextChunk at hn h
      rw [h0, h1, h2, h3, h] at hn
      cases hn

theorem chunks_lossy : ∀ (fuel : Nat) (bs : List U8), bs.length ≤ fuel →
    Lossy bs ((chunks fuel bs).map Chunk.lossyChar) := by
  intro fuel
  induction fuel with
  | zero => intro bs h; cases bs with
    | nil => exact .nil
    | cons => simp at h
  | succ fuel ih =>
    intro bs h
    cases bs with
    | nil => exact .nil
    | cons b bs =>
      unfold chunks
      cases hc : nextChunk (b :: bs) with
      | char c n =>
        obtain ⟨h1, h2, h3⟩ := nextChunk_char (by simp) hc
        have := ih ((b :: bs).drop n) (by rw [List.length_drop]; simp at h h3 ⊢; omega)
        have := Lossy.char c this
        rw [← h1] at this
        exact this
      | invalid k =>
        obtain ⟨h1, h2, h3⟩ := nextChunk_invalid (by simp) hc
        have := ih ((b :: bs).drop k) (by rw [List.length_drop]; simp at h h3 ⊢; omega)
        have := Lossy.broken h1 this
        rw [List.take_append_drop] at this
        exact this

theorem chunks_text : ∀ (fuel : Nat) (bs : List U8), bs.length ≤ fuel → ∀ t,
    (chunksText (chunks fuel bs) = some t ↔ utf8 t = bs) := by
  intro fuel
  induction fuel with
  | zero =>
    intro bs h t
    cases bs with
    | nil =>
      cases t with
      | nil => exact ⟨fun _ => rfl, fun _ => rfl⟩
      | cons c t =>
        refine ⟨(fun h => by cases h), fun h => ?_⟩
        rw [utf8_cons] at h
        have := congrArg List.length h
        rw [List.length_append, utf8_single_length, List.length_nil] at this
        have h2 := (encN_length c.toNat).1
        omega
    | cons => simp at h
  | succ fuel ih =>
    intro bs h t
    cases bs with
    | nil =>
      cases t with
      | nil => exact ⟨fun _ => rfl, fun _ => rfl⟩
      | cons c t =>
        refine ⟨(fun h => by cases h), fun h => ?_⟩
        rw [utf8_cons] at h
        have := congrArg List.length h
        rw [List.length_append, utf8_single_length, List.length_nil] at this
        have h2 := (encN_length c.toNat).1
        omega
    | cons b bs =>
      unfold chunks
      cases hc : nextChunk (b :: bs) with
      | char c n =>
        obtain ⟨h1, h2, h3⟩ := nextChunk_char (by simp) hc
        have ih := ih ((b :: bs).drop n) (by rw [List.length_drop]; simp at h h3 ⊢; omega)
        simp only [chunksText, Option.map_eq_some_iff]
        constructor
        · rintro ⟨t', ht', rfl⟩
          rw [utf8_cons, (ih t').mp ht', ← h1]
        · intro ht
          cases t with
          | nil => cases ht
          | cons c' t' =>
            have hcc := nextChunk_enc c' (utf8 t')
            rw [← utf8_cons, ht, hc] at hcc
            injection hcc with e1 e2
            subst e1
            refine ⟨t', (ih t').mpr ?_, rfl⟩
            rw [utf8_cons] at ht
            rw [← ht, e2, List.drop_left]
      | invalid k =>
        simp only [chunksText]
        refine ⟨(fun h => by cases h), fun ht => ?_⟩
        cases t with
        | nil => cases ht
        | cons c t =>
          have hcc := nextChunk_enc c (utf8 t)
          rw [← utf8_cons, ht, hc] at hcc
          cases hcc

/-- `from_utf8` accepts exactly the encodings of texts, and gives the text. -/
theorem fromUtf8_iff {bs : List U8} {t : List Char} : fromUtf8 bs = some t ↔ utf8 t = bs :=
  chunks_text _ _ (Nat.le_refl _) t

theorem fromUtf8_none {bs : List U8} : fromUtf8 bs = none ↔ ∀ t, utf8 t ≠ bs := by
  constructor
  · intro h t ht
    rw [← fromUtf8_iff, h] at ht
    cases ht
  · intro h
    cases hh : fromUtf8 bs with
    | none => rfl
    | some t => exact absurd (fromUtf8_iff.mp hh) (h t)

/-- `from_utf8_lossy` is the recommended lossy decoding. -/
theorem fromUtf8Lossy_lossy (bs : List U8) : Lossy bs (fromUtf8Lossy bs) := chunks_lossy _ _ (Nat.le_refl _)

/-- The specification of lossy decoding determines the text. -/
theorem Lossy.nextChunk_broken {bad rest : List U8} (h : Broken bad rest) :
    nextChunk (bad ++ rest) = .invalid bad.length := by
  have hne : bad ++ rest ≠ [] := by simp [h.nonempty]
  cases hc : nextChunk (bad ++ rest) with
  | char c n =>
    obtain ⟨h1, _⟩ := nextChunk_char hne hc
    exact absurd ⟨_, h1.symm⟩ (h.noChar c)
  | invalid k =>
    obtain ⟨h1, h2, h3⟩ := nextChunk_invalid hne hc
    congr 1
    have hpos := List.length_pos_iff.mpr h.nonempty
    rcases Nat.lt_trichotomy k bad.length with hlt | heq | hgt
    · -- `bad` continues past `k`: its byte `k` extends a piece that is maximal
      have hs := h.small.resolve_left (by omega)
      obtain ⟨c, hc⟩ := hs
      obtain ⟨x, hx⟩ : ∃ x r, (bad ++ rest).drop k = x :: r := by
        cases hd : (bad ++ rest).drop k with
        | nil =>
          have := congrArg List.length hd
          rw [List.length_drop, List.length_append] at this
          simp at this; omega
        | cons x r => exact ⟨x, r, rfl⟩
      obtain ⟨r, hx⟩ := hx
      refine absurd ?_ (h1.maximal x r hx c)
      rw [(take_snoc hx).1, List.take_append_of_le_length (by omega)]
      exact (List.take_prefix _ _).trans hc
    · exact heq
    · have hs := h1.small.resolve_left (by rw [List.length_take]; omega)
      obtain ⟨c, hc⟩ := hs
      cases rest with
      | nil => simp at h3; omega
      | cons b r =>
        refine absurd ?_ (h.maximal b r rfl c)
        have : bad ++ [b] = (bad ++ b :: r).take (bad.length + 1) := by
          rw [List.take_append, List.take_of_length_le (by omega)]
          simp
        rw [this]
        refine List.IsPrefix.trans ?_ hc
        rw [show (bad ++ b :: r).take (bad.length + 1) = ((bad ++ b :: r).take k).take (bad.length + 1) by
          rw [List.take_take, Nat.min_eq_left (by omega)]]
        exact List.take_prefix _ _

theorem Lossy.unique {bs : List U8} {t t' : List Char} (h : Lossy bs t) (h' : Lossy bs t') : t = t' := by
  induction h generalizing t' with
  | nil =>
    generalize hb : ([] : List U8) = bs at h'
    cases h' with
    | nil => rfl
    | char c _ =>
      have := congrArg List.length hb
      rw [List.length_append, utf8_single_length, List.length_nil] at this
      have h2 := (encN_length c.toNat).1
      omega
    | broken hbr _ =>
      have := congrArg List.length hb
      have h2 := List.length_pos_iff.mpr hbr.nonempty
      rw [List.length_append, List.length_nil] at this
      omega
  | @char bs t c _ ih =>
    have hc := nextChunk_enc c bs
    generalize hb : utf8 [c] ++ bs = bs' at h' hc
    cases h' with
    | nil =>
      have := congrArg List.length hb
      rw [List.length_append, utf8_single_length, List.length_nil] at this
      have h2 := (encN_length c.toNat).1
      omega
    | @char bs2 t2 c2 h2 =>
      rw [nextChunk_enc] at hc
      injection hc with e1 e2
      subst e1
      rw [ih ((List.append_cancel_left hb) ▸ h2)]
    | broken hbr _ =>
      rw [Lossy.nextChunk_broken hbr] at hc
      cases hc
  | @broken bad bs t hbr _ ih =>
    have hc := Lossy.nextChunk_broken hbr
    generalize hb : bad ++ bs = bs' at h' hc
    cases h' with
    | nil =>
      have := congrArg List.length hb
      have h2 := List.length_pos_iff.mpr hbr.nonempty
      rw [List.length_append, List.length_nil] at this
      omega
    | @char bs2 t2 c2 h2 =>
      rw [nextChunk_enc] at hc
      cases hc
    | @broken bad2 bs2 t2 hbr2 h2 =>
      rw [Lossy.nextChunk_broken hbr2] at hc
      injection hc with e
      have := List.append_inj hb e.symm
      rw [ih (this.2 ▸ h2)]

/-- Lossy decoding keeps valid texts. -/
theorem Lossy.of_text (t : List Char) : Lossy (utf8 t) t := by
  induction t with
  | nil => exact .nil
  | cons c t ih => rw [utf8_cons]; exact .char c ih

theorem fromUtf8Lossy_text (t : List Char) : fromUtf8Lossy (utf8 t) = t :=
  Lossy.unique (fromUtf8Lossy_lossy _) (Lossy.of_text t)

/-- `char::from_u32` accepts exactly the codes of characters. -/
theorem charFromU32_iff {w : Word} {c : Char} : charFromU32 w = some c ↔ c.toNat = w.toNat := by
  unfold charFromU32
  constructor
  · intro h
    split at h
    · next hv => cases h; exact toNat_ofNat_valid hv
    · cases h
  · intro h
    rw [if_pos (h ▸ c.valid), ← h, Char.ofNat_toNat']

end Lrvm
