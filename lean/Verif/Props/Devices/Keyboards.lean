import Verif.Model.Devices.Keyboard
import Verif.Props.Devices.Displays

/-!
# Keyboards: C70, C71, C73, C78
-/

namespace Lrvm

open Spec

variable {pf : Profile}

/-! ## C70: the character keyboard -/

/-- State of a character keyboard after a history (newest first). -/
structure CharInv (input : Nat → Char) (hist : List Req) (d : SyncCharKeyboard) : Prop where
  input_eq : d.input = input
  asked : d.asked = charRequests hist
  buffer : d.buffer.toNat = charHeld input hist

theorem word_eq_iff {a : Word} {n : Nat} (hn : n < 2 ^ 32) : a = BitVec.ofNat 32 n ↔ a.toNat = n := by
  constructor
  · rintro rfl; exact ofNat_toNat_lt hn
  · intro h; exact BitVec.eq_of_toNat_eq (by rw [ofNat_toNat_lt hn]; exact h)

theorem CharInv.step {input : Nat → Char} {hist : List Req} {d : SyncCharKeyboard} (h : CharInv input hist d) (r : Req)
    (hr : r.Within 8) : ∃ d' a, serve d r = some (d', a) ∧ CharInv input (r :: hist) d' := by
  have h0 : ∀ a : Word, a = 0 ↔ a.toNat = 0 := fun a => word_eq_iff (n := 0) (by decide)
  have h4 : ∀ a : Word, a = 4 ↔ a.toNat = 4 := fun a => word_eq_iff (n := 4) (by decide)
  cases r with
  | reset => exact ⟨_, _, rfl, h.input_eq, h.asked, rfl⟩
  | read a ex =>
    have h1 := hr.1; have h2 := hr.2
    by_cases ha : a.toNat = 0
    · refine ⟨d, .value (BitVec.ofNat 32 d.buffer.toNat) ex, ?_, h.input_eq, h.asked, h.buffer⟩
      show (SyncCharKeyboard.read d a ex).map _ = _
      unfold SyncCharKeyboard.read
      rw [if_pos ((h0 a).mpr ha)]; rfl
    · have ha4 : a.toNat = 4 := by omega
      refine ⟨d, .value 0 0x2100, ?_, h.input_eq, h.asked, h.buffer⟩
      show (SyncCharKeyboard.read d a ex).map _ = _
      unfold SyncCharKeyboard.read
      rw [if_neg (fun hh => ha ((h0 a).mp hh)), if_pos ((h4 a).mpr ha4)]; rfl
  | write a w ex =>
    have h1 := hr.1; have h2 := hr.2
    have hser : ∀ {d' ex'}, SyncCharKeyboard.write d a w ex = some (d', ex') →
        serve d (.write a w ex) = some (d', .wrote ex') := by
      intro d' ex' hh
      show (SyncCharKeyboard.write d a w ex).map _ = _
      rw [hh]; rfl
    unfold SyncCharKeyboard.write at hser
    by_cases ha : a.toNat = 0
    · rw [if_pos ((h0 a).mpr ha)] at hser
      refine ⟨_, _, hser rfl, h.input_eq, ?_, ?_⟩
      · show d.asked = if _ then _ else _
        rw [if_neg (by omega)]; exact h.asked
      · show _ = if _ then _ else if _ then _ else _
        rw [if_neg (by omega), if_neg (by omega)]; exact h.buffer
    · have ha4 : a.toNat = 4 := by omega
      rw [if_neg (fun hh => ha ((h0 a).mp hh)), if_pos ((h4 a).mpr ha4)] at hser
      have hq : ∀ n, w.toNat = n → charRequests (.write a w ex :: hist) =
          if n = 1 then charRequests hist + 1 else charRequests hist := by
        intro n hn; simp only [charRequests, ha4, hn, true_and]
      have hc : ∀ n, w.toNat = n → charHeld input (.write a w ex :: hist) =
          if n = 1 then (input (charRequests hist)).toNat else if n = 2 then 0 else charHeld input hist := by
        intro n hn; simp only [charHeld, ha4, hn, true_and]
      generalize hn : w.toNat = n at hser
      have hq := hq n hn
      have hc := hc n hn
      split at hser
      · refine ⟨_, _, hser rfl, h.input_eq, ?_, ?_⟩
        · rw [hq, if_pos rfl, ← h.asked]
        · rw [hc, if_pos rfl, ← h.asked, ← h.input_eq]
      · refine ⟨_, _, hser rfl, h.input_eq, ?_, ?_⟩
        · rw [hq, if_neg (by decide), ← h.asked]
        · rw [hc, if_neg (by decide), if_pos rfl]; rfl
      · next n1 n2 =>
        refine ⟨_, _, hser rfl, h.input_eq, ?_, ?_⟩
        · rw [hq, if_neg n1, ← h.asked]
        · rw [hc, if_neg n1, if_neg n2, ← h.buffer]

theorem CharInv.run {input : Nat → Char} {rs hist : List Req} {d : SyncCharKeyboard} (h : CharInv input hist d)
    (hr : ∀ r ∈ rs, r.Within 8) :
    ∃ d' as, serveAll d rs = some (d', as) ∧ CharInv input (rs.reverse ++ hist) d' := by
  induction rs generalizing d hist with
  | nil => exact ⟨d, [], rfl, h⟩
  | cons r rs ih =>
    obtain ⟨d1, a, h1, hi1⟩ := h.step r (hr r List.mem_cons_self)
    obtain ⟨d2, as, h2, hi2⟩ := ih hi1 fun r h => hr r (List.mem_cons_of_mem _ h)
    refine ⟨d2, a :: as, serveAll_cons h1 h2, ?_⟩
    rw [List.reverse_cons, List.append_assoc]; exact hi2

/-- **C70**, for any history: a read gives the character of the last request, or 0 after a clear or a reset; each request
takes the next character of the input handler. -/
theorem C70_history (input : Nat → Char) (hw : U64) {rs : List Req} (hr : ∀ r ∈ rs, r.Within 8) (ex : U16) :
    ∃ d' as, serveAll (SyncCharKeyboard.new input hw) rs = some (d', as) ∧
      Bus.read d' 0 ex = some (d', BitVec.ofNat 32 (charHeld input rs.reverse), ex) ∧
      d'.asked = charRequests rs.reverse := by
  obtain ⟨d', as, h1, h2⟩ := CharInv.run (hist := []) (⟨rfl, rfl, rfl⟩ : CharInv input [] (SyncCharKeyboard.new input hw)) hr
  rw [List.append_nil] at h2
  refine ⟨d', as, h1, ?_, h2.asked⟩
  show some (d', BitVec.ofNat 32 d'.buffer.toNat, ex) = _
  rw [h2.buffer]

theorem charHeld_spares {input : Nat → Char} {l older : List Req} (hs : ∀ r ∈ l, r.Spares 4) :
    charHeld input (l ++ older) = charHeld input older := by
  induction l with
  | nil => rfl
  | cons r l ih =>
    have ih := ih fun r h => hs r (List.mem_cons_of_mem _ h)
    have hr := hs r List.mem_cons_self
    show charHeld input (r :: (l ++ older)) = _
    cases r with
    | reset => exact absurd hr id
    | read a ex => exact ih
    | write a w ex =>
      have : a.toNat ≠ 4 := fun h => hr ((word_eq_iff (n := 4) (by decide)).mpr h)
      show (if _ then _ else if _ then _ else _) = _
      rw [if_neg (fun h => this h.1), if_neg (fun h => this h.1)]
      exact ih

/-- **C70**. After a read request (0x01 at word 1), and until the next command or reset, every read of word 0 gives the
character the input handler answered, without exception. -/
theorem C70 (input : Nat → Char) (hw : U64) {rs rs' : List Req} {ex ex' : U16} {d' : SyncCharKeyboard} {as : List Answer}
    (hr : ∀ r ∈ rs ++ .write 4 0x01 ex' :: rs', r.Within 8) (hs : ∀ r ∈ rs', r.Spares 4)
    (h : serveAll (SyncCharKeyboard.new input hw) (rs ++ .write 4 0x01 ex' :: rs') = some (d', as)) :
    Bus.read d' 0 ex = some (d', BitVec.ofNat 32 (input (charRequests rs.reverse)).toNat, ex) := by
  obtain ⟨d2, as2, h1, h2, _⟩ := C70_history input hw hr ex
  rw [h] at h1
  cases h1
  rw [h2, List.reverse_append, List.reverse_cons, List.append_assoc, charHeld_spares (fun r h => hs r (List.mem_reverse.mp h))]
  rfl

/-- **C70**: writes of word 0 and unknown commands are refused with an exception and change nothing. -/
theorem C70_refused (d : SyncCharKeyboard) (w : Word) (ex : U16) :
    Bus.write d 0 w ex = some (d, 0x3100) ∧ Bus.read d 4 ex = some (d, 0, 0x2100) ∧
    (w.toNat ≠ 1 → w.toNat ≠ 2 → ∃ ex', Bus.write d 4 w ex = some (d, ex') ∧ ex'.toNat / 256 = 0x10 ∧
      ex'.toNat % 256 = w.toNat % 256) := by
  refine ⟨rfl, rfl, fun h1 h2 => ⟨(AuxHwException.unknownOperation (w.setWidth 8)).encode, ?_, ?_, ?_⟩⟩
  · show SyncCharKeyboard.write d 4 w ex = _
    unfold SyncCharKeyboard.write
    rw [if_neg (by decide), if_pos rfl]
    generalize w.toNat = n at h1 h2 ⊢
    split
    · exact absurd rfl h1
    · exact absurd rfl h2
    · rfl
  · have := (((C59_round_trip _).2 _ _).mp (AuxTable.unknownOperation (w.setWidth 8))).1
    have h8 : (w.setWidth 8 : U8).toNat = w.toNat % 2 ^ 8 := BitVec.toNat_setWidth ..
    omega
  · have := (((C59_round_trip _).2 _ _).mp (AuxTable.unknownOperation (w.setWidth 8))).1
    have h8 : (w.setWidth 8 : U8).toNat = w.toNat % 2 ^ 8 := BitVec.toNat_setWidth ..
    omega

theorem C73_char_keyboard (input : Nat → Char) (hw : U64) : Robust pf (SyncCharKeyboard.new input hw) 8 := by
  refine robust_of_inv (fun d => ∃ hist, CharInv input hist d) ⟨[], rfl, rfl, rfl⟩ ?_ ?_
  · rintro d r ⟨hist, hi⟩ hr
    obtain ⟨d', a, h2, h3⟩ := hi.step r hr
    exact ⟨d', a, h2, _, h3⟩
  · rintro d _
    obtain ⟨m, h1, h2⟩ := newEncode_size (hw := d.hwId) (size := 8) (cat := .keyboard .readCharSynchronous) (md := none)
      (dt := none) rfl
    exact ⟨m, h1, by rw [h2]; rfl⟩

example : (serveAll (SyncCharKeyboard.new (fun n => if n = 0 then 'a' else 'b') 7)
    [.read 0 0, .write 4 1 0, .read 0 0, .write 4 1 0, .read 0 0, .write 0 5 0, .read 0 0, .reset, .read 0 0]).map (·.2) =
    some [.value 0 0, .wrote 0, .value 97 0, .wrote 0, .value 98 0, .wrote 0x3100, .value 98 0, .done, .value 0 0] := by
  decide +kernel

/-! ## C71: the line keyboard -/

theorem paddedByte_cons (b : U8) (bs : List U8) (j : Nat) : paddedByte (b :: bs) (j + 1) = paddedByte bs j := rfl

theorem paddedByte_end {bs : List U8} {j : Nat} (h : bs.length ≤ j) : paddedByte bs j = 0 := by
  unfold paddedByte
  rw [List.getElem?_eq_none h]; rfl

theorem wordAt_succ (a b c d : U8) (bs : List U8) (i : Nat) : wordAt (a :: b :: c :: d :: bs) (i + 1) = wordAt bs i := rfl

theorem byte_shift (b : U8) (k : Nat) (hk : k ≤ 24) : (b.setWidth 32 <<< k : Word).toNat = b.toNat * 2 ^ k := by
  have hb := b.isLt
  have hp : 2 ^ k ≤ 2 ^ 24 := Nat.pow_le_pow_right (by decide) hk
  have : b.toNat * 2 ^ k < 2 ^ 32 :=
    Nat.lt_of_lt_of_le (Nat.mul_lt_mul_of_pos_right hb (Nat.two_pow_pos k))
      (Nat.le_trans (Nat.mul_le_mul_left (2 ^ 8) hp) (by decide))
  rw [BitVec.toNat_shiftLeft, BitVec.toNat_setWidth, Nat.shiftLeft_eq, Nat.mod_eq_of_lt (a := b.toNat) (by omega)]
  exact Nat.mod_eq_of_lt this

theorem add_toNat_lt {x y : Word} (h : x.toNat + y.toNat < 4294967296) : (x + y).toNat = x.toNat + y.toNat := by
  rw [BitVec.toNat_add]; exact Nat.mod_eq_of_lt h

/-- The first word of a sequence, as the loop computes it. -/
theorem wordAt_four (a b c d : U8) (bs : List U8) :
    ((0 : Word) + (a.setWidth 32 <<< 24) + (b.setWidth 32 <<< 16) + (c.setWidth 32 <<< 8) + (d.setWidth 32 <<< 0)) =
      wordAt (a :: b :: c :: d :: bs) 0 := by
  have ha := a.isLt; have hb := b.isLt; have hc := c.isLt; have hd := d.isLt
  have sa := byte_shift a 24 (by decide); have sb := byte_shift b 16 (by decide)
  have sc := byte_shift c 8 (by decide); have sd := byte_shift d 0 (by decide)
  have h1 : ((0 : Word) + (a.setWidth 32 <<< 24)).toNat = a.toNat * 2 ^ 24 := by
    rw [add_toNat_lt, sa] <;> rw [show (0 : Word).toNat = 0 from rfl] <;> omega
  have h2 : ((0 : Word) + (a.setWidth 32 <<< 24) + (b.setWidth 32 <<< 16)).toNat = a.toNat * 2 ^ 24 + b.toNat * 2 ^ 16 := by
    rw [add_toNat_lt, h1, sb]; rw [h1, sb]; omega
  have h3 : ((0 : Word) + (a.setWidth 32 <<< 24) + (b.setWidth 32 <<< 16) + (c.setWidth 32 <<< 8)).toNat =
      a.toNat * 2 ^ 24 + b.toNat * 2 ^ 16 + c.toNat * 2 ^ 8 := by
    rw [add_toNat_lt, h2, sc]; rw [h2, sc]; omega
  apply BitVec.eq_of_toNat_eq
  rw [show wordAt (a :: b :: c :: d :: bs) 0 =
    BitVec.ofNat 32 (a.toNat * 2 ^ 24 + b.toNat * 2 ^ 16 + c.toNat * 2 ^ 8 + d.toNat) from rfl,
    ofNat_toNat_lt (by omega), add_toNat_lt, h3, sd]
  · omega
  · rw [h3, sd]; omega

theorem addZero (x : Word) : x + (0 : Word) = x := BitVec.add_zero x

theorem storeWord_get (pos : Nat) (buffer : List Word) (i : Nat) (bytes : List U8) (w : Word) (h0 : 0 < bytes.length)
    (h4 : bytes.length ≤ 4) (hw : w = wordAt bytes 0) : (if pos ≥ buffer.length then buffer else buffer.set pos w)[i]? =
    if pos ≤ i ∧ 4 * (i - pos) < bytes.length then (buffer[i]?).map (fun _ => wordAt bytes (i - pos)) else buffer[i]? := by
  by_cases hp : pos ≥ buffer.length
  · rw [if_pos hp]
    split
    · rw [List.getElem?_eq_none (by omega)]; rfl
    · rfl
  · rw [if_neg hp]
    split
    · next h =>
      have hi : i = pos := by omega
      subst hi
      rw [List.getElem?_set_self (by omega), List.getElem?_eq_getElem (by omega), hw, Nat.sub_self]; rfl
    · next h => rw [List.getElem?_set_ne (by omega)]

theorem lineLoop_get : ∀ (bytes : List U8) (pos : Nat) (buffer : List Word) (i : Nat),
    (lineLoop 0 0 pos buffer bytes)[i]? =
      if pos ≤ i ∧ 4 * (i - pos) < bytes.length then (buffer[i]?).map (fun _ => wordAt bytes (i - pos)) else buffer[i]?
  | [], pos, buffer, i => by
    rw [if_neg (by simp)]; rfl
  | [a], pos, buffer, i => by
    refine storeWord_get pos buffer i [a] _ (by simp) (by simp) ?_
    refine Eq.trans ?_ (wordAt_four a 0 0 0 [])
    show _ = _ + (0 : Word) + 0 + 0
    rw [addZero, addZero, addZero]
  | [a, b], pos, buffer, i => by
    refine storeWord_get pos buffer i [a, b] _ (by simp) (by simp) ?_
    refine Eq.trans ?_ (wordAt_four a b 0 0 [])
    show _ = _ + (0 : Word) + 0
    rw [addZero, addZero]
  | [a, b, c], pos, buffer, i => by
    refine storeWord_get pos buffer i [a, b, c] _ (by simp) (by simp) ?_
    refine Eq.trans ?_ (wordAt_four a b c 0 [])
    show _ = _ + (0 : Word)
    rw [addZero]
  | a :: b :: c :: d :: bs, pos, buffer, i => by
    have hu : lineLoop 0 0 pos buffer (a :: b :: c :: d :: bs) =
        if pos ≥ buffer.length then buffer
        else lineLoop 0 0 (pos + 1) (buffer.set pos (wordAt (a :: b :: c :: d :: bs) 0)) bs := by
      rw [← wordAt_four]; rfl
    rw [hu]
    by_cases hp : pos ≥ buffer.length
    · rw [if_pos hp]
      split
      · rw [List.getElem?_eq_none (by omega)]; rfl
      · rfl
    · rw [if_neg hp, lineLoop_get bs]
      by_cases hi : i = pos
      · subst hi
        rw [if_neg (by omega), if_pos ⟨Nat.le_refl _, by rw [Nat.sub_self]; simp⟩, List.getElem?_set_self (by omega),
          List.getElem?_eq_getElem (by omega), Nat.sub_self]
        rfl
      · rw [List.getElem?_set_ne (Ne.symm hi)]
        by_cases hc : pos + 1 ≤ i ∧ 4 * (i - (pos + 1)) < bs.length
        · rw [if_pos hc, if_pos (by simp only [List.length_cons]; omega), show i - pos = i - (pos + 1) + 1 by omega,
            wordAt_succ]
        · rw [if_neg hc, if_neg (by simp only [List.length_cons]; omega)]

theorem lineLoop_length : ∀ (bytes : List U8) (w : Word) (k pos : Nat) (buffer : List Word),
    (lineLoop w k pos buffer bytes).length = buffer.length
  | [], w, k, pos, buffer => by
    unfold lineLoop
    split
    · split
      · rfl
      · rw [List.length_set]
    · rfl
  | b :: bs, w, k, pos, buffer => by
    unfold lineLoop
    dsimp only
    split
    · split
      · rfl
      · rw [lineLoop_length bs, List.length_set]
    · rw [lineLoop_length bs]

/-- State of a line keyboard of `cap` bytes after a history (newest first). -/
structure LineInv (cap : Nat) (input : Nat → List Char) (hist : List Req) (d : SyncLineKeyboard) : Prop where
  words : d.capacity.toNat * 4 + 4 = cap
  cap_lt : cap < 2 ^ 32
  length : d.buffer.length = d.capacity.toNat
  input_eq : d.input = input
  asked : d.asked = lineRequests (cap - 4) hist
  buffer : ∀ i, i < d.capacity.toNat → d.buffer[i]? = some (lineHeld (cap - 4) input i hist)

theorem LineInv.same {cap : Nat} {input : Nat → List Char} {hist : List Req} {d : SyncLineKeyboard}
    (h : LineInv cap input hist d) (r : Req) (hq : lineRequests (cap - 4) (r :: hist) = lineRequests (cap - 4) hist)
    (hr : ∀ i, lineHeld (cap - 4) input i (r :: hist) = lineHeld (cap - 4) input i hist) :
    LineInv cap input (r :: hist) d where
  words := h.words
  cap_lt := h.cap_lt
  length := h.length
  input_eq := h.input_eq
  asked := by rw [hq]; exact h.asked
  buffer i hi := by rw [hr i]; exact h.buffer i hi

theorem LineInv.clear {cap : Nat} {input : Nat → List Char} {hist : List Req} {d : SyncLineKeyboard}
    (h : LineInv cap input hist d) (r : Req) (hq : lineRequests (cap - 4) (r :: hist) = lineRequests (cap - 4) hist)
    (hr : ∀ i, lineHeld (cap - 4) input i (r :: hist) = 0) :
    LineInv cap input (r :: hist) { d with buffer := List.replicate d.buffer.length 0 } where
  words := h.words
  cap_lt := h.cap_lt
  length := by rw [List.length_replicate]; exact h.length
  input_eq := h.input_eq
  asked := by rw [hq]; exact h.asked
  buffer i hi := by rw [List.getElem?_replicate, if_pos (by rw [h.length]; exact hi), hr]

theorem LineInv.step {cap : Nat} {input : Nat → List Char} {hist : List Req} {d : SyncLineKeyboard}
    (h : LineInv cap input hist d) (r : Req) (hr : r.Within cap) :
    ∃ d' a, serve d r = some (d', a) ∧ LineInv cap input (r :: hist) d' := by
  have hw := h.words
  cases r with
  | reset => exact ⟨_, _, rfl, h.clear _ rfl fun _ => rfl⟩
  | read a ex =>
    have h1 := hr.1; have h2 := hr.2
    have hdiv := word_div4 a
    have he : a / 4 = d.capacity ↔ a.toNat / 4 = d.capacity.toNat := by rw [← hdiv]; exact BitVec.toNat_eq
    by_cases hc : a / 4 = d.capacity
    · refine ⟨d, .value 0 ex, ?_, h.same _ rfl fun _ => rfl⟩
      show (if a / 4 = d.capacity then some (d, (0 : Word), ex) else _).map _ = _
      rw [if_pos hc]; rfl
    · refine ⟨d, .value (lineHeld (cap - 4) input (a.toNat / 4) hist) ex, ?_, h.same _ rfl fun _ => rfl⟩
      show (if a / 4 = d.capacity then some (d, (0 : Word), ex) else
        (do let w ← d.buffer[(a / 4).toNat]?; some (d, w, ex))).map _ = _
      rw [if_neg hc, hdiv, h.buffer _ (by rw [he] at hc; omega)]; rfl
  | write a w ex =>
    have h1 := hr.1; have h2 := hr.2
    have hdiv := word_div4 a
    have he : a / 4 = d.capacity ↔ a.toNat / 4 = d.capacity.toNat := by rw [← hdiv]; exact BitVec.toNat_eq
    have hser : ∀ {d' ex'}, SyncLineKeyboard.write d a w ex = some (d', ex') →
        serve d (.write a w ex) = some (d', .wrote ex') := by
      intro d' ex' hh
      show (SyncLineKeyboard.write d a w ex).map _ = _
      rw [hh]; rfl
    unfold SyncLineKeyboard.write at hser
    by_cases hc : a.toNat = cap - 4
    · have hq : ∀ n, w.toNat = n → lineRequests (cap - 4) (.write a w ex :: hist) =
          if n = 0xAA then lineRequests (cap - 4) hist + 1 else lineRequests (cap - 4) hist := by
        intro n hn; simp only [lineRequests, hc, hn, true_and]
      have hl : ∀ n, w.toNat = n → ∀ i, lineHeld (cap - 4) input i (.write a w ex :: hist) =
          if n = 0xAA ∧ 4 * i < (utf8 (input (lineRequests (cap - 4) hist))).length then
            wordAt (utf8 (input (lineRequests (cap - 4) hist))) i
          else if n = 0xFF then 0 else lineHeld (cap - 4) input i hist := by
        intro n hn i; simp only [lineHeld, hc, hn, true_and]
      rw [if_neg (fun hh => hh (he.mpr (by omega)))] at hser
      generalize hn : w.toNat = n at hser
      have hq := hq n hn
      have hl := hl n hn
      split at hser
      · refine ⟨_, _, hser rfl, hw, h.cap_lt, ?_, h.input_eq, ?_, ?_⟩
        · rw [lineLoop_length]; exact h.length
        · rw [hq, if_pos rfl, ← h.asked]
        · intro i hi
          show (lineLoop 0 0 0 d.buffer (utf8 (d.input d.asked)))[i]? = _
          rw [lineLoop_get, h.buffer i hi, hl i, h.asked, h.input_eq]
          simp only [Nat.zero_le, true_and, Nat.sub_zero]
          split
          · rfl
          · rfl
      · exact ⟨_, _, hser rfl, h.clear _ (by rw [hq, if_neg (by decide)]) fun i => by
          rw [hl i, if_neg (fun hh => absurd hh.1 (by decide)), if_pos rfl]⟩
      · next n1 n2 =>
        exact ⟨_, _, hser rfl, h.same _ (by rw [hq, if_neg n1]) fun i => by
          rw [hl i, if_neg (fun hh => n1 hh.1), if_neg n2]⟩
    · rw [if_pos (fun hh => hc (by have := he.mp hh; omega))] at hser
      refine ⟨_, _, hser rfl, h.same _ ?_ fun i => ?_⟩
      · show (if _ then _ else _) = _
        rw [if_neg (fun hh => hc hh.1)]
      · show (if _ then _ else if _ then _ else _) = _
        rw [if_neg (fun hh => hc hh.1), if_neg (fun hh => hc hh.1)]

theorem LineInv.run {cap : Nat} {input : Nat → List Char} {rs hist : List Req} {d : SyncLineKeyboard}
    (h : LineInv cap input hist d) (hr : ∀ r ∈ rs, r.Within cap) :
    ∃ d' as, serveAll d rs = some (d', as) ∧ LineInv cap input (rs.reverse ++ hist) d' := by
  induction rs generalizing d hist with
  | nil => exact ⟨d, [], rfl, h⟩
  | cons r rs ih =>
    obtain ⟨d1, a, h1, hi1⟩ := h.step r (hr r List.mem_cons_self)
    obtain ⟨d2, as, h2, hi2⟩ := ih hi1 fun r h => hr r (List.mem_cons_of_mem _ h)
    refine ⟨d2, a :: as, serveAll_cons h1 h2, ?_⟩
    rw [List.reverse_cons, List.append_assoc]; exact hi2

theorem line_new {cap : Word} {input : Nat → List Char} {hw : U64} {d : SyncLineKeyboard}
    (h : SyncLineKeyboard.new cap input hw = some d) : LineInv cap.toNat input [] d ∧ 4 ≤ cap.toNat := by
  unfold SyncLineKeyboard.new at h
  split at h
  · cases h
  · split at h
    · cases h
    · next h4 h0 =>
      cases h
      have h4 := word_mod4 h4
      have h0 : cap.toNat ≠ 0 := fun hh => h0 (BitVec.eq_of_toNat_eq hh)
      have hlt := cap.isLt
      have e : (cap / 4 - 1).toNat = cap.toNat / 4 - 1 := by
        rw [BitVec.toNat_sub_of_le (by rw [BitVec.le_def, word_div4]; show 1 ≤ _; omega), word_div4]; rfl
      refine ⟨⟨?_, hlt, ?_, rfl, rfl, ?_⟩, by omega⟩
      · show (cap / 4 - 1).toNat * 4 + 4 = _; rw [e]; omega
      · show (List.replicate _ _).length = _; rw [List.length_replicate]
      · intro i hi
        show (List.replicate _ (0 : Word))[i]? = _
        rw [List.getElem?_replicate, if_pos hi]; rfl

/-- **C71**, what really holds for any history: word `i` of the buffer is the one of the last line that reached it since
the last clear or reset — later, shorter lines leave it — and each request takes the next line of the input handler. -/
theorem C71_history_partial {cap : Word} {input : Nat → List Char} {hw : U64} {d : SyncLineKeyboard}
    (hn : SyncLineKeyboard.new cap input hw = some d) {rs : List Req} (hr : ∀ r ∈ rs, r.Within cap.toNat) :
    ∃ d' as, serveAll d rs = some (d', as) ∧ d'.asked = lineRequests (cap.toNat - 4) rs.reverse ∧
      ∀ (a : Word) ex, a.toNat % 4 = 0 → a.toNat < cap.toNat - 4 →
        Bus.read d' a ex = some (d', lineHeld (cap.toNat - 4) input (a.toNat / 4) rs.reverse, ex) := by
  obtain ⟨hi, h4⟩ := line_new hn
  obtain ⟨d', as, h1, h2⟩ := hi.run hr
  rw [List.append_nil] at h2
  refine ⟨d', as, h1, h2.asked, fun a ex ha hlt => ?_⟩
  have hw := h2.words
  have he : a / 4 = d'.capacity ↔ a.toNat / 4 = d'.capacity.toNat := by rw [← word_div4 a]; exact BitVec.toNat_eq
  show (if a / 4 = d'.capacity then some (d', (0 : Word), ex) else
    (do let w ← d'.buffer[(a / 4).toNat]?; some (d', w, ex))) = _
  rw [if_neg (fun hh => by have := he.mp hh; omega), word_div4, h2.buffer _ (by omega)]; rfl

theorem lineHeld_spares {cap : Word} {input : Nat → List Char} {i : Nat} {l older : List Req} (h4 : 4 ≤ cap.toNat)
    (hs : ∀ r ∈ l, r.Spares (cap - 4)) :
    lineHeld (cap.toNat - 4) input i (l ++ older) = lineHeld (cap.toNat - 4) input i older := by
  have e : (cap - 4).toNat = cap.toNat - 4 := by
    rw [BitVec.toNat_sub_of_le (by rw [BitVec.le_def]; exact h4)]; rfl
  induction l with
  | nil => rfl
  | cons r l ih =>
    have ih := ih fun r h => hs r (List.mem_cons_of_mem _ h)
    have hr := hs r List.mem_cons_self
    show lineHeld _ input i (r :: (l ++ older)) = _
    cases r with
    | reset => exact absurd hr id
    | read a ex => exact ih
    | write a w ex =>
      have : a.toNat ≠ cap.toNat - 4 := fun h => hr (BitVec.eq_of_toNat_eq (by rw [h, e]))
      show (if _ then _ else if _ then _ else _) = _
      rw [if_neg (fun h => this h.1), if_neg (fun h => this h.1)]
      exact ih

theorem lineRequests_spares {cap : Word} {l older : List Req} (h4 : 4 ≤ cap.toNat)
    (hs : ∀ r ∈ l, r.Spares (cap - 4)) :
    lineRequests (cap.toNat - 4) (l ++ older) = lineRequests (cap.toNat - 4) older := by
  have e : (cap - 4).toNat = cap.toNat - 4 := by
    rw [BitVec.toNat_sub_of_le (by rw [BitVec.le_def]; exact h4)]; rfl
  induction l with
  | nil => rfl
  | cons r l ih =>
    have ih := ih fun r h => hs r (List.mem_cons_of_mem _ h)
    have hr := hs r List.mem_cons_self
    show lineRequests _ (r :: (l ++ older)) = _
    cases r with
    | reset => exact absurd hr id
    | read a ex => exact ih
    | write a w ex =>
      have : a.toNat ≠ cap.toNat - 4 := fun h => hr (BitVec.eq_of_toNat_eq (by rw [h, e]))
      show (if _ then _ else _) = _
      rw [if_neg (fun h => this h.1)]
      exact ih

theorem within_command {cap : Word} (h4 : 4 ≤ cap.toNat) (hm : cap.toNat % 4 = 0) (w : Word) (ex : U16) :
    (Req.write (cap - 4) w ex).Within cap.toNat := by
  have e : (cap - 4).toNat = cap.toNat - 4 := by
    rw [BitVec.toNat_sub_of_le (by rw [BitVec.le_def]; exact h4)]; rfl
  exact ⟨by rw [e]; omega, by rw [e]; omega⟩

/-- **C71**, what holds: when the buffer is cleared (command 0xFF or a reset; `clr`) before the line request, and until the
next command or reset, the buffer holds exactly the line's bytes, the strongest first, padded with zeros — or, if the line
is too long, as many of its words as fit. -/
theorem C71_line_partial {cap : Word} {input : Nat → List Char} {hw : U64} {d d' : SyncLineKeyboard} {as : List Answer}
    (hn : SyncLineKeyboard.new cap input hw = some d) {rs mid rs' : List Req} {clr : Req} {e1 e2 : U16}
    (hclr : clr = .reset ∨ clr = .write (cap - 4) 0xFF e1)
    (hr : ∀ r ∈ rs ++ clr :: mid ++ .write (cap - 4) 0xAA e2 :: rs', r.Within cap.toNat)
    (hmid : ∀ r ∈ mid, r.Spares (cap - 4)) (hs : ∀ r ∈ rs', r.Spares (cap - 4))
    (h : serveAll d (rs ++ clr :: mid ++ .write (cap - 4) 0xAA e2 :: rs') = some (d', as))
    (a : Word) (ex : U16) (ha : a.toNat % 4 = 0) (hlt : a.toNat < cap.toNat - 4) :
    Bus.read d' a ex =
      some (d', wordAt (utf8 (input (lineRequests (cap.toNat - 4) rs.reverse))) (a.toNat / 4), ex) := by
  obtain ⟨d2, as2, h1, _, h2⟩ := C71_history_partial hn hr
  rw [h] at h1
  cases h1
  obtain ⟨_, h4⟩ := line_new hn
  have e : (cap - 4).toNat = cap.toNat - 4 := by
    rw [BitVec.toNat_sub_of_le (by rw [BitVec.le_def]; exact h4)]; rfl
  have hrev : ∀ {l : List Req}, (∀ r ∈ l, r.Spares (cap - 4)) → ∀ r ∈ l.reverse, r.Spares (cap - 4) :=
    fun h r hm => h r (List.mem_reverse.mp hm)
  have hl : (rs ++ clr :: mid ++ .write (cap - 4) 0xAA e2 :: rs').reverse =
      rs'.reverse ++ .write (cap - 4) 0xAA e2 :: (mid.reverse ++ clr :: rs.reverse) := by simp
  have hq : lineRequests (cap.toNat - 4) (clr :: rs.reverse) = lineRequests (cap.toNat - 4) rs.reverse := by
    rcases hclr with rfl | rfl
    · rfl
    · show (if _ then _ else _) = _
      rw [if_neg (fun hh => absurd hh.2 (by decide))]
  have hz : lineHeld (cap.toNat - 4) input (a.toNat / 4) (clr :: rs.reverse) = 0 := by
    rcases hclr with rfl | rfl
    · rfl
    · show (if _ then _ else if _ then _ else _) = _
      rw [if_neg (fun hh => absurd hh.2.1 (by decide)), if_pos ⟨e, rfl⟩]
  rw [h2 a ex ha hlt, hl, lineHeld_spares h4 (hrev hs)]
  have hh : lineHeld (cap.toNat - 4) input (a.toNat / 4)
      (.write (cap - 4) 0xAA e2 :: (mid.reverse ++ clr :: rs.reverse)) =
      wordAt (utf8 (input (lineRequests (cap.toNat - 4) rs.reverse))) (a.toNat / 4) := by
    show (if _ then _ else if _ then _ else _) = _
    rw [lineRequests_spares h4 (hrev hmid), hq]
    split
    · rfl
    · next hlong =>
      rw [if_neg (fun hh => absurd hh.2 (by decide)), lineHeld_spares h4 (hrev hmid), hz]
      have hlong : (utf8 (input (lineRequests (cap.toNat - 4) rs.reverse))).length ≤ 4 * (a.toNat / 4) :=
        Nat.le_of_not_lt fun hh => hlong ⟨e, rfl, hh⟩
      unfold wordAt
      rw [paddedByte_end hlong, paddedByte_end (by omega), paddedByte_end (by omega), paddedByte_end (by omega)]
      rfl
  rw [hh]

example : ((SyncLineKeyboard.new 16 (fun n => if n = 0 then "abcdefgh".toList else "xé".toList) 7).bind fun d =>
    serveAll d [.write 12 0xAA 0, .read 4 0, .write 12 0xFF 0, .write 12 0xAA 0, .read 0 0, .read 4 0, .write 0 5 0]).map (·.2) =
    some [.wrote 0, .value 0x65666768 0, .wrote 0, .wrote 0, .value 0x78C3A900 0, .value 0 0, .wrote 0x3100] := by
  decide +kernel

/-- **C71** fails: a line request does not pad with zeros. After the line `abcdefgh`, the line `ab` leaves the second half of
the first one in the buffer. -/
theorem C71_padding_refuted : ∃ (cap : Word) (input : Nat → List Char) (d d' : SyncLineKeyboard) (as : List Answer),
    SyncLineKeyboard.new cap input 7 = some d ∧ input 1 = "ab".toList ∧
    serveAll d [.write (cap - 4) 0xAA 0, .write (cap - 4) 0xAA 0] = some (d', as) ∧
    Bus.read d' 4 0 = some (d', 0x65666768, 0) ∧ wordAt (utf8 "ab".toList) 1 = 0 :=
  ⟨16, fun n => if n = 0 then "abcdefgh".toList else "ab".toList, _, _, _, rfl, rfl, rfl, rfl, by decide +kernel⟩

/-- **C78** fails: the buffer is documented to hold valid UTF-8 data, but a line that is too long is cut at a word, maybe
inside a character. -/
theorem C78_utf8_refuted : ∃ (cap : Word) (input : Nat → List Char) (d d' : SyncLineKeyboard) (as : List Answer) (w : Word),
    SyncLineKeyboard.new cap input 7 = some d ∧ cap.toNat = 8 ∧
    serveAll d [.write (cap - 4) 0xAA 0] = some (d', as) ∧
    Bus.read d' 0 0 = some (d', w, 0) ∧ ∀ t, utf8 t ≠ wordsToBytes [w] :=
  ⟨8, fun _ => "aaaé".toList, _, _, _, _, rfl, rfl, rfl, rfl, fromUtf8_none.mp (by decide +kernel)⟩

theorem utf8_zeros (t : List Char) (k : Nat) :
    utf8 (t ++ List.replicate k (Char.ofNat 0)) = utf8 t ++ List.replicate k (0 : U8) := by
  induction t with
  | nil =>
    induction k with
    | zero => rfl
    | succ k ih =>
      rw [List.replicate_succ, List.replicate_succ]
      show utf8 (Char.ofNat 0 :: ([] ++ List.replicate k (Char.ofNat 0))) = _
      rw [utf8_cons, ih]; rfl
  | cons c t ih => rw [List.cons_append, utf8_cons, ih, utf8_cons c t, List.append_assoc]

theorem wordAt_byte (bytes : List U8) (i j : Nat) (hj : j < 4) :
    (wordAt bytes i).toNat / 256 ^ (3 - j) % 256 = paddedByte bytes (4 * i + j) := by
  have hb : ∀ k, paddedByte bytes k < 256 := by
    intro k
    unfold paddedByte
    cases bytes[k]? with
    | none => decide
    | some b => exact b.isLt
  have h0 := hb (4 * i); have h1 := hb (4 * i + 1); have h2 := hb (4 * i + 2); have h3 := hb (4 * i + 3)
  unfold wordAt
  rw [ofNat_toNat_lt (by omega)]
  rcases j with _ | _ | _ | _ | j
  · show _ / 256 ^ 3 % 256 = paddedByte bytes (4 * i); omega
  · show _ / 256 ^ 2 % 256 = paddedByte bytes (4 * i + 1); omega
  · show _ / 256 ^ 1 % 256 = paddedByte bytes (4 * i + 2); omega
  · show _ / 256 ^ 0 % 256 = paddedByte bytes (4 * i + 3); omega
  · omega

/-- **C78**, what holds: when the buffer holds a line that fits (see `C71_line_partial`), its bytes are valid UTF-8: the
line followed by NUL characters. -/
theorem C78_utf8_partial {n : Nat} {line : List Char} {bytes : List U8} (hfit : (utf8 line).length ≤ 4 * n)
    (hb : BytesOf n (fun i => wordAt (utf8 line) i) bytes) :
    utf8 (line ++ List.replicate (4 * n - (utf8 line).length) (Char.ofNat 0)) = bytes := by
  obtain ⟨h1, h2⟩ := hb
  rw [utf8_zeros]
  apply List.ext_getElem?
  intro k
  by_cases hk : k < 4 * n
  · have h3 := h2 (k / 4) (k % 4) (by omega) (by omega)
    simp only [wordAt_byte _ _ _ (show k % 4 < 4 by omega)] at h3
    rw [show 4 * (k / 4) + k % 4 = k by omega] at h3
    obtain ⟨x, hx, hx'⟩ := Option.map_eq_some_iff.mp h3
    rw [hx]
    by_cases hl : k < (utf8 line).length
    · rw [List.getElem?_append_left hl]
      unfold paddedByte at hx'
      rw [List.getElem?_eq_getElem hl] at hx' ⊢
      exact congrArg some (BitVec.eq_of_toNat_eq hx'.symm)
    · rw [List.getElem?_append_right (by omega), List.getElem?_replicate, if_pos (by omega)]
      rw [paddedByte_end (by omega)] at hx'
      exact congrArg some (BitVec.eq_of_toNat_eq hx'.symm)
  · rw [List.getElem?_eq_none (by rw [List.length_append, List.length_replicate]; omega),
      List.getElem?_eq_none (by omega)]

theorem C73_line_keyboard {cap : Word} {input : Nat → List Char} {hw : U64} {d : SyncLineKeyboard}
    (h : SyncLineKeyboard.new cap input hw = some d) : Robust pf d cap.toNat := by
  obtain ⟨h1, _⟩ := line_new h
  refine robust_of_inv (fun d => ∃ hist, LineInv cap.toNat input hist d) ⟨_, h1⟩ ?_ ?_
  · rintro d r ⟨hist, hi⟩ hr
    obtain ⟨d', a, h2, h3⟩ := hi.step r hr
    exact ⟨d', a, h2, _, h3⟩
  · rintro d ⟨hist, hi⟩
    obtain ⟨y, h2, h3⟩ := mul4_add4 (pf := pf) hi.words hi.cap_lt
    have hw := hi.words
    obtain ⟨m, h4, h5⟩ := newEncode_size (hw := d.hwId) (size := y) (cat := .keyboard .readLineSynchronous) (md := none)
      (dt := none) (by omega)
    refine ⟨m, ?_, by rw [h5, h3]⟩
    show (do let t ← pf.mul d.capacity 4; let bytes ← pf.add t 4; let m ← DeviceMetadata.new d.hwId bytes _ none none; m.encode) = _
    simp only [Option.bind_eq_bind] at h2 h4 ⊢
    rw [← Option.bind_assoc, h2]
    exact h4

/-- A line after a clear: the hypotheses of `C71_line_partial` (and of `C78_utf8_partial`: the line fits). -/
example : ∃ d, SyncLineKeyboard.new 16 (fun n => if n = 0 then "abcdefgh".toList else "xé".toList) 7 = some d ∧
    (∀ r ∈ [Req.write 12 0xAA 0] ++ .write (16 - 4) 0xFF 0 :: [Req.read 8 0] ++ .write (16 - 4) 0xAA 0 :: [.read 0 0, .read 4 0],
      r.Within (16 : Word).toNat) ∧
    (∀ r ∈ [Req.read 8 0], r.Spares (16 - 4)) ∧ (∀ r ∈ [Req.read 0 0, .read 4 0], r.Spares (16 - 4)) ∧
    (serveAll d ([Req.write 12 0xAA 0] ++ .write (16 - 4) 0xFF 0 :: [Req.read 8 0] ++
      .write (16 - 4) 0xAA 0 :: [.read 0 0, .read 4 0])).map (·.2) =
      some [.wrote 0, .wrote 0, .value 0 0, .wrote 0, .value 0x78C3A900 0, .value 0 0] ∧
    (utf8 "xé".toList).length ≤ 4 * 3 := by
  refine ⟨_, rfl, ?_, ?_, ?_, by decide +kernel, by decide +kernel⟩ <;> intro r hr <;> simp at hr <;>
    rcases hr with rfl | rfl | rfl | rfl | rfl | rfl <;> simp [Req.Within, Req.Spares]

end Lrvm
