import Verif.Spec.Buffers
import Verif.Model.Devices.Display
import Verif.Lemmas.Text
import Verif.Props.Devices.Memories
import Verif.Props.Tools.Encodings

/-!
# Displays: C68, C69, C73, C76, C77
-/

namespace Lrvm

open Spec

variable {pf : Profile}

/-! ## C68: the buffered display -/

/-- `words * 4 + 4` of a component of `cap` bytes. -/
theorem mul4_add4 {x : Word} {cap : Nat} (h : x.toNat * 4 + 4 = cap) (hc : cap < 2 ^ 32) :
    ∃ y, (do let t ← pf.mul x 4; pf.add t 4) = some y ∧ y.toNat = cap := by
  obtain ⟨t, h1, h2⟩ := mul4 (pf := pf) (x := x) (by omega)
  have hn : (t + 4).toNat = cap := by
    rw [BitVec.toNat_add, h2, show (4 : Word).toNat = 4 from rfl, h]
    exact Nat.mod_eq_of_lt hc
  refine ⟨t + 4, ?_, hn⟩
  rw [h1]
  cases pf with
  | release => rfl
  | debug =>
    show Profile.add .debug t 4 = _
    unfold Profile.add
    rw [if_pos (by rw [h2, show (4 : Word).toNat = 4 from rfl]; omega)]

/-- State of a buffered display of `cap` bytes after a history (newest first). -/
structure DisplayInv (cap : Nat) (hist : List Req) (d : BufferedDisplay) : Prop where
  words : d.words.toNat * 4 + 4 = cap
  cap_lt : cap < 2 ^ 32
  length : d.buffer.length = d.words.toNat
  buffer : ∀ i, i < d.words.toNat → d.buffer[i]? = some (lastWord (cap - 4) i hist)

theorem DisplayInv.clear {cap : Nat} {hist : List Req} {d : BufferedDisplay} (h : DisplayInv cap hist d) (r : Req)
    (hr : ∀ i, lastWord (cap - 4) i (r :: hist) = 0) : DisplayInv cap (r :: hist) d.clear where
  words := h.words
  cap_lt := h.cap_lt
  length := by
    show (List.replicate _ _).length = _
    rw [List.length_replicate]; exact h.length
  buffer i hi := by
    show (List.replicate d.buffer.length (0 : Word))[i]? = _
    rw [List.getElem?_replicate, if_pos (by rw [h.length]; exact hi), hr]

theorem DisplayInv.same {cap : Nat} {hist : List Req} {d d' : BufferedDisplay} (h : DisplayInv cap hist d) (r : Req)
    (hw : d'.words = d.words) (hb : d'.buffer = d.buffer)
    (hr : ∀ i, i < d.words.toNat → lastWord (cap - 4) i (r :: hist) = lastWord (cap - 4) i hist) :
    DisplayInv cap (r :: hist) d' where
  words := by rw [hw]; exact h.words
  cap_lt := h.cap_lt
  length := by rw [hw, hb]; exact h.length
  buffer i hi := by rw [hw] at hi; rw [hb, hr i hi]; exact h.buffer i hi

/-- One request: the buffer follows `lastWord`, and only display commands call the handler, with the buffer's text. -/
theorem DisplayInv.step {cap : Nat} {hist : List Req} {d : BufferedDisplay} (h : DisplayInv cap hist d) (r : Req)
    (hr : r.Within cap) : ∃ d' a, serve d r = some (d', a) ∧ DisplayInv cap (r :: hist) d' ∧
      (isShow (cap - 4) r = false → d'.calls = d.calls) ∧
      (isShow (cap - 4) r = true → ∃ c, d'.calls = d.calls ++ [c]) := by
  have hw := h.words
  cases r with
  | read a ex => exact ⟨d, _, rfl, h.same _ rfl rfl fun _ _ => rfl, fun _ => rfl, fun hh => by cases hh⟩
  | reset => exact ⟨_, _, rfl, h.clear _ fun _ => rfl, fun _ => rfl, fun hh => by cases hh⟩
  | write a w ex =>
    have ha := hr.1; have hlt := hr.2
    have hdiv := word_div4 a
    by_cases hc : a.toNat = cap - 4
    · have hnl : ¬ a / 4 < d.words := by rw [BitVec.lt_def, hdiv]; omega
      have hser : ∀ {d' ex'}, BufferedDisplay.write d a w ex = some (d', ex') →
          serve d (.write a w ex) = some (d', .wrote ex') := by
        intro d' ex' hh
        show (BufferedDisplay.write d a w ex).map _ = _
        rw [hh]; rfl
      unfold BufferedDisplay.write at hser
      simp only [if_neg hnl] at hser
      have hsh : ∀ n, w.toNat = n → isShow (cap - 4) (.write a w ex) = (n == 0xAA || n == 0xBB) := by
        intro n hn; simp only [isShow, hc, hn, beq_self_eq_true, Bool.true_and]
      have hlw : ∀ n, w.toNat = n → ∀ i, lastWord (cap - 4) i (.write a w ex :: hist) =
          if n = 0xFF then 0 else lastWord (cap - 4) i hist := by
        intro n hn i
        simp only [lastWord, hc, hn, if_true]
      generalize hn : w.toNat = n at hser
      have hsh := hsh n hn
      have hlw := hlw n hn
      rw [hsh]
      split at hser
      · exact ⟨_, _, hser rfl, h.same _ rfl rfl fun i _ => (hlw i).trans (if_neg (by decide)), (fun hh => by cases hh),
          fun _ => ⟨_, rfl⟩⟩
      · exact ⟨_, _, hser rfl, h.same _ rfl rfl fun i _ => (hlw i).trans (if_neg (by decide)), (fun hh => by cases hh),
          fun _ => ⟨_, rfl⟩⟩
      · exact ⟨_, _, hser rfl, h.clear _ fun i => (hlw i).trans (if_pos rfl), fun _ => rfl, fun hh => by cases hh⟩
      · next h1 h2 h3 =>
        refine ⟨_, _, hser rfl, h.same _ rfl rfl fun i _ => (hlw i).trans (if_neg h3), fun _ => rfl, fun hh => ?_⟩
        simp only [Bool.or_eq_true, beq_iff_eq] at hh
        exact (hh.elim h1 h2).elim
    · have hl : a / 4 < d.words := by rw [BitVec.lt_def, hdiv]; omega
      have hlen : a.toNat / 4 < d.buffer.length := by
        rw [h.length]; rw [BitVec.lt_def, hdiv] at hl; exact hl
      have hsf : isShow (cap - 4) (.write a w ex) = false := by
        simp [isShow, hc]
      have hser : serve d (.write a w ex) = some ({ d with buffer := d.buffer.set (a.toNat / 4) w }, .wrote ex) := by
        show (BufferedDisplay.write d a w ex).map _ = _
        unfold BufferedDisplay.write
        simp only [if_pos hl, hdiv, if_pos hlen]
        rfl
      refine ⟨_, _, hser, ⟨hw, h.cap_lt, ?_, ?_⟩, fun _ => rfl, fun hh => by rw [hsf] at hh; cases hh⟩
      · show (d.buffer.set _ _).length = _
        rw [List.length_set]; exact h.length
      · intro i hi
        show (d.buffer.set _ _)[i]? = _
        simp only [lastWord, if_neg hc]
        by_cases hi' : a.toNat = 4 * i
        · rw [if_pos hi', show a.toNat / 4 = i by omega, List.getElem?_set_self (by rw [h.length]; exact hi)]
        · rw [if_neg hi', List.getElem?_set_ne (by omega)]
          exact h.buffer i hi

theorem DisplayInv.run {cap : Nat} {rs : List Req} {hist : List Req} {d : BufferedDisplay} (h : DisplayInv cap hist d)
    (hr : ∀ r ∈ rs, r.Within cap) : ∃ d' as, serveAll d rs = some (d', as) ∧ DisplayInv cap (rs.reverse ++ hist) d' ∧
      d'.calls.length = d.calls.length + rs.countP (isShow (cap - 4)) := by
  induction rs generalizing d hist with
  | nil => exact ⟨d, [], rfl, h, rfl⟩
  | cons r rs ih =>
    obtain ⟨d1, a, h1, hi1, hf, ht⟩ := h.step r (hr r List.mem_cons_self)
    obtain ⟨d2, as, h2, hi2, hl⟩ := ih hi1 fun r h => hr r (List.mem_cons_of_mem _ h)
    refine ⟨d2, a :: as, serveAll_cons h1 h2, ?_, ?_⟩
    · rw [List.reverse_cons, List.append_assoc]; exact hi2
    · rw [hl, List.countP_cons]
      cases hs : isShow (cap - 4) r with
      | false => rw [hf hs]; simp
      | true =>
        obtain ⟨c, hc⟩ := ht hs
        rw [hc]; simp; omega

theorem display_new {cap : Word} {hw : U64} {d : BufferedDisplay} (h : BufferedDisplay.new cap hw = some d) :
    DisplayInv cap.toNat [] d ∧ d.calls = [] ∧ 4 ≤ cap.toNat := by
  unfold BufferedDisplay.new at h
  split at h
  · cases h
  · split at h
    · cases h
    · next h0 h4 =>
      cases h
      have h4 := word_mod4 h4
      have h0 : cap.toNat ≠ 0 := fun hh => h0 (BitVec.eq_of_toNat_eq hh)
      have hlt := cap.isLt
      have e : (cap / 4 - 1).toNat = cap.toNat / 4 - 1 := by
        rw [BitVec.toNat_sub_of_le (by rw [BitVec.le_def, word_div4]; show 1 ≤ _; omega), word_div4]; rfl
      refine ⟨⟨?_, hlt, ?_, ?_⟩, rfl, by omega⟩
      · show (cap / 4 - 1).toNat * 4 + 4 = _; rw [e]; omega
      · show (List.replicate _ _).length = _; rw [List.length_replicate]
      · intro i hi
        show (List.replicate _ (0 : Word))[i]? = _
        rw [List.getElem?_replicate, if_pos hi]; rfl

/-- The bytes of the buffer. -/
theorem DisplayInv.bytes {cap : Nat} {hist : List Req} {d : BufferedDisplay} (h : DisplayInv cap hist d) :
    BytesOf ((cap - 4) / 4) (fun i => lastWord (cap - 4) i hist) (wordsToBytes d.buffer) := by
  have hw := h.words
  obtain ⟨h1, h2⟩ := C57_words_to_bytes d.buffer
  refine ⟨by rw [h1, h.length]; omega, ?_⟩
  intro i j hi hj
  exact h2 i j _ (h.buffer i (by omega)) hj

theorem decodeStr_decoded (bytes : List U8) : Decoded bytes (decodeStr bytes) := by
  unfold decodeStr
  cases hf : fromUtf8 bytes with
  | none => exact ⟨rfl, fromUtf8_none.mp hf⟩
  | some t => exact fromUtf8_iff.mp hf

/-- **C68**. Take a new buffered display of `cap` bytes and any history of in-range reads, writes and resets. A display
command (0xAA at the last word) then calls the handler exactly once, with the text encoded by the buffer's bytes — the last
words written since the last clear, in order, or 0 — or with those bytes if they are not UTF-8; it raises nothing and changes
nothing else. -/
theorem C68_display {cap : Word} {hw : U64} {d : BufferedDisplay} (hn : BufferedDisplay.new cap hw = some d) {rs : List Req}
    (hr : ∀ r ∈ rs, r.Within cap.toNat) (ex : U16) : ∃ d1 as bytes c, serveAll d rs = some (d1, as) ∧
      Bus.write d1 (cap - 4) 0xAA ex = some ({ d1 with calls := d1.calls ++ [c] }, ex) ∧
      BytesOf ((cap.toNat - 4) / 4) (fun i => lastWord (cap.toNat - 4) i rs.reverse) bytes ∧ Decoded bytes c := by
  obtain ⟨hinv, _, h4⟩ := display_new hn
  obtain ⟨d1, as, h1, hi, _⟩ := hinv.run hr
  rw [List.append_nil] at hi
  refine ⟨d1, as, wordsToBytes d1.buffer, decodeStr (wordsToBytes d1.buffer), h1, ?_, hi.bytes, decodeStr_decoded _⟩
  have hw := hi.words
  have e : (cap - 4).toNat = cap.toNat - 4 := by
    rw [BitVec.toNat_sub_of_le (by rw [BitVec.le_def]; exact h4)]; rfl
  show BufferedDisplay.write _ _ _ _ = _
  unfold BufferedDisplay.write
  simp only [if_neg (show ¬ (cap - 4) / 4 < d1.words by rw [BitVec.lt_def, word_div4, e]; omega)]
  rfl

/-- **C68**, lossy command (0xBB): the same bytes, decoded with U+FFFD for each broken piece. -/
theorem C68_display_lossy {cap : Word} {hw : U64} {d : BufferedDisplay} (hn : BufferedDisplay.new cap hw = some d)
    {rs : List Req} (hr : ∀ r ∈ rs, r.Within cap.toNat) (ex : U16) : ∃ d1 as bytes t, serveAll d rs = some (d1, as) ∧
      Bus.write d1 (cap - 4) 0xBB ex = some ({ d1 with calls := d1.calls ++ [.ok t] }, ex) ∧
      BytesOf ((cap.toNat - 4) / 4) (fun i => lastWord (cap.toNat - 4) i rs.reverse) bytes ∧ Lossy bytes t := by
  obtain ⟨hinv, _, h4⟩ := display_new hn
  obtain ⟨d1, as, h1, hi, _⟩ := hinv.run hr
  rw [List.append_nil] at hi
  refine ⟨d1, as, wordsToBytes d1.buffer, fromUtf8Lossy (wordsToBytes d1.buffer), h1, ?_, hi.bytes,
    fromUtf8Lossy_lossy _⟩
  have hw := hi.words
  have e : (cap - 4).toNat = cap.toNat - 4 := by
    rw [BitVec.toNat_sub_of_le (by rw [BitVec.le_def]; exact h4)]; rfl
  show BufferedDisplay.write _ _ _ _ = _
  unfold BufferedDisplay.write
  simp only [if_neg (show ¬ (cap - 4) / 4 < d1.words by rw [BitVec.lt_def, word_div4, e]; omega)]
  rfl

/-- **C68**: the handler is called once per display command and never otherwise. -/
theorem C68_calls {cap : Word} {hw : U64} {d : BufferedDisplay} (hn : BufferedDisplay.new cap hw = some d) {rs : List Req}
    (hr : ∀ r ∈ rs, r.Within cap.toNat) : ∃ d1 as, serveAll d rs = some (d1, as) ∧
      d1.calls.length = rs.countP (isShow (cap.toNat - 4)) := by
  obtain ⟨hinv, hc, _⟩ := display_new hn
  obtain ⟨d1, as, h1, _, hl⟩ := hinv.run hr
  exact ⟨d1, as, h1, by rw [hl, hc]; simp⟩

/-- **C68**: any other command raises `UnknownOperation` with its lowest byte (0x10xx) and changes nothing. -/
theorem C68_unknown {cap : Word} {hw : U64} {d : BufferedDisplay} (hn : BufferedDisplay.new cap hw = some d) {rs : List Req}
    (hr : ∀ r ∈ rs, r.Within cap.toNat) (w : Word) (ex : U16) (h1 : w ≠ 0xAA) (h2 : w ≠ 0xBB) (h3 : w ≠ 0xFF) :
    ∃ d1 as ex', serveAll d rs = some (d1, as) ∧ Bus.write d1 (cap - 4) w ex = some (d1, ex') ∧
      ex'.toNat = 0x1000 + w.toNat % 256 := by
  obtain ⟨hinv, _, h4⟩ := display_new hn
  obtain ⟨d1, as, hs, hi, _⟩ := hinv.run hr
  have hw := hi.words
  have e : (cap - 4).toNat = cap.toNat - 4 := by
    rw [BitVec.toNat_sub_of_le (by rw [BitVec.le_def]; exact h4)]; rfl
  have hne : ∀ k : Word, w ≠ k → w.toNat ≠ k.toNat := fun k hk hh => hk (BitVec.eq_of_toNat_eq hh)
  refine ⟨d1, as, (AuxHwException.unknownOperation (w.setWidth 8)).encode, hs, ?_, ?_⟩
  · show BufferedDisplay.write _ _ _ _ = _
    unfold BufferedDisplay.write
    simp only [if_neg (show ¬ (cap - 4) / 4 < d1.words by rw [BitVec.lt_def, word_div4, e]; omega)]
    have a1 := hne _ h1; have a2 := hne _ h2; have a3 := hne _ h3
    simp only [show (0xAA : Word).toNat = 0xAA from rfl, show (0xBB : Word).toNat = 0xBB from rfl,
      show (0xFF : Word).toNat = 0xFF from rfl] at a1 a2 a3
    generalize w.toNat = n at a1 a2 a3
    split
    · exact absurd rfl a1
    · exact absurd rfl a2
    · exact absurd rfl a3
    · rfl
  · show ((0x10#8).setWidth 16 <<< 8 + (w.setWidth 8).setWidth 16 : U16).toNat = _
    rw [BitVec.toNat_add, show ((0x10#8).setWidth 16 <<< 8 : U16).toNat = 0x1000 from rfl, BitVec.toNat_setWidth,
      BitVec.toNat_setWidth]
    omega

/-- A 12-byte display: "Hi" and "!" padded, shown, then cleared and shown again. -/
example : ∃ d d1 as, BufferedDisplay.new 12 7 = some d ∧
    serveAll d [.write 0 0x48690A20 0, .write 4 0x21202020 0, .write 8 0xAA 0, .write 8 0xFF 0, .write 8 0xAA 0,
      .write 0 0xFF202020 0, .write 8 0xAA 0, .write 8 0xBB 0] = some (d1, as) ∧
    d1.calls.map Except.toOption = [some "Hi\n !   ".toList, some (List.replicate 8 (Char.ofNat 0)), none,
      some ("\uFFFD   ".toList ++ List.replicate 4 (Char.ofNat 0))] := by
  refine ⟨_, _, _, rfl, rfl, ?_⟩
  decide +kernel

/-! ## C76: what display commands do to the buffer -/

/-- **C76** fails: a display command does not clear the buffer (the documentation says it does); whatever the history, the
next display command shows the same again. -/
theorem C76_display_refuted {cap : Word} {hw : U64} {d d1 : BufferedDisplay} (hn : BufferedDisplay.new cap hw = some d)
    {rs : List Req} {as : List Answer} (hr : ∀ r ∈ rs, r.Within cap.toNat) (hs : serveAll d rs = some (d1, as)) (ex : U16) :
    ∃ c d2, Bus.write d1 (cap - 4) 0xAA ex = some (d2, ex) ∧ d2.calls = d1.calls ++ [c] ∧
      ∃ d3, Bus.write d2 (cap - 4) 0xAA ex = some (d3, ex) ∧ d3.calls = d1.calls ++ [c, c] := by
  obtain ⟨hinv, _, h4⟩ := display_new hn
  obtain ⟨d1', as', h1, hi, _⟩ := hinv.run hr
  rw [hs] at h1; cases h1
  have hw := hi.words
  have e : (cap - 4).toNat = cap.toNat - 4 := by
    rw [BitVec.toNat_sub_of_le (by rw [BitVec.le_def]; exact h4)]; rfl
  have hne := show ¬ (cap - 4) / 4 < d1.words by rw [BitVec.lt_def, word_div4, e]; omega
  refine ⟨decodeStr (wordsToBytes d1.buffer), { d1 with calls := d1.calls ++ [decodeStr (wordsToBytes d1.buffer)] }, ?_, rfl,
    { d1 with calls := d1.calls ++ [decodeStr (wordsToBytes d1.buffer)] ++ [decodeStr (wordsToBytes d1.buffer)] }, ?_, by
      show _ ++ _ ++ _ = _; rw [List.append_assoc]; rfl⟩
  · show BufferedDisplay.write _ _ _ _ = _
    unfold BufferedDisplay.write
    simp only [if_neg hne]
    rfl
  · show BufferedDisplay.write _ _ _ _ = _
    unfold BufferedDisplay.write
    simp only [if_neg hne]
    rfl

/-- **C76**, what holds: command 0xFF clears the buffer. -/
theorem C76_clear_partial {cap : Word} {hw : U64} {d : BufferedDisplay} (hn : BufferedDisplay.new cap hw = some d)
    {rs : List Req} (hr : ∀ r ∈ rs, r.Within cap.toNat) (ex ex' : U16) : ∃ d1 as bytes c,
      serveAll d (rs ++ [.write (cap - 4) 0xFF ex']) = some (d1, as) ∧
      Bus.write d1 (cap - 4) 0xAA ex = some ({ d1 with calls := d1.calls ++ [c] }, ex) ∧
      bytes = List.replicate (cap.toNat - 4) (0 : U8) ∧ Decoded bytes c := by
  obtain ⟨hinv, _, h4⟩ := display_new hn
  have e : (cap - 4).toNat = cap.toNat - 4 := by
    rw [BitVec.toNat_sub_of_le (by rw [BitVec.le_def]; exact h4)]; rfl
  have hlt := cap.isLt
  have hw := hinv.words
  have hr' : ∀ r ∈ rs ++ [Req.write (cap - 4) 0xFF ex'], r.Within cap.toNat := by
    intro r hm
    rcases List.mem_append.mp hm with hm | hm
    · exact hr r hm
    · rw [List.mem_singleton] at hm
      subst hm
      exact ⟨by rw [e]; omega, by rw [e]; omega⟩
  obtain ⟨d1, as, bytes, c, h1, h2, h3, h5⟩ := C68_display hn hr' ex
  refine ⟨d1, as, bytes, c, h1, h2, ?_, h5⟩
  obtain ⟨hl, hb⟩ := h3
  have hz : ∀ i, lastWord (cap.toNat - 4) i (rs ++ [Req.write (cap - 4) 0xFF ex']).reverse = 0 := by
    intro i
    rw [List.reverse_append]
    show (if (cap - 4).toNat = cap.toNat - 4 then (if (0xFF : Word).toNat = 0xFF then (0 : Word) else _) else _) = 0
    rw [if_pos e]; rfl
  apply List.ext_getElem?
  intro n
  rw [List.getElem?_replicate]
  split
  · next hn' =>
    have := hb (n / 4) (n % 4) (by omega) (by omega)
    simp only [hz] at this
    rw [show 4 * (n / 4) + n % 4 = n by omega, show (0 : Word).toNat = 0 from rfl, Nat.zero_div] at this
    obtain ⟨x, hx, hx0⟩ := Option.map_eq_some_iff.mp this
    rw [hx]
    congr 1
    exact BitVec.eq_of_toNat_eq hx0
  · rw [List.getElem?_eq_none (by omega)]

/-! ## C69: character and number displays -/

theorem charOrWord_charOf (w : Word) : CharOf w (charOrWord w) := by
  unfold charOrWord
  cases h : charFromU32 w with
  | some c => exact charFromU32_iff.mp h
  | none =>
    refine ⟨rfl, fun c hc => ?_⟩
    rw [charFromU32_iff.mpr hc] at h
    cases h

theorem Spec.Matches.append {P : α → β → Prop} {as as' : List α} {bs bs' : List β} (h : Matches P as bs)
    (h' : Matches P as' bs') : Matches P (as ++ as') (bs ++ bs') := by
  induction as generalizing bs with
  | nil => cases bs with
    | nil => exact h'
    | cons => exact absurd h id
  | cons a as ih => cases bs with
    | nil => exact absurd h id
    | cons b bs => exact ⟨h.1, ih h.2⟩

theorem written_append (rs rs' : List Req) : written (rs ++ rs') = written rs ++ written rs' := by
  induction rs with
  | nil => rfl
  | cons r rs ih => cases r <;> simp [written, ih]

/-- A component that answers every read with `MemoryNotReadable`, ignores resets, and hands over something for every
write. -/
theorem handler_history {D : Type} [Bus D] {calls : D → List α} {P : Word × Word → α → Prop} {W : Req → Prop}
    (hread : ∀ (d : D) a ex, Bus.read d a ex = some (d, 0, 0x2100)) (hreset : ∀ d : D, Bus.reset d = some d)
    (hwrite : ∀ (d : D) a w ex, W (.write a w ex) →
      ∃ d' x, Bus.write d a w ex = some (d', ex) ∧ calls d' = calls d ++ [x] ∧ P (a, w) x)
    {rs : List Req} (hr : ∀ r ∈ rs, W r) (d : D) :
    ∃ d' as new, serveAll d rs = some (d', as) ∧ calls d' = calls d ++ new ∧ Matches P (written rs) new := by
  induction rs generalizing d with
  | nil => exact ⟨d, [], [], rfl, by simp, trivial⟩
  | cons r rs ih =>
    have ih := ih fun r h => hr r (List.mem_cons_of_mem _ h)
    cases r with
    | read a ex =>
      obtain ⟨d', as, new, h1, h2, h3⟩ := ih d
      exact ⟨d', _, new, serveAll_cons (by simp only [serve, hread]; rfl) h1, h2, h3⟩
    | reset =>
      obtain ⟨d', as, new, h1, h2, h3⟩ := ih d
      exact ⟨d', _, new, serveAll_cons (by simp only [serve, hreset]; rfl) h1, h2, h3⟩
    | write a w ex =>
      obtain ⟨d1, x, h1, h2, h3⟩ := hwrite d a w ex (hr _ List.mem_cons_self)
      obtain ⟨d', as, new, h4, h5, h6⟩ := ih d1
      refine ⟨d', _, x :: new, serveAll_cons (by simp only [serve, h1]; rfl) h4, ?_, h3, h6⟩
      rw [h5, h2, List.append_assoc]; rfl

/-- **C69**, character display. Whatever requests it receives, it calls its handler once per write, in order, with the
character of the written code, or with the word if it is no character; it never panics. -/
theorem C69_char (hw : U64) (rs : List Req) : ∃ d' as, serveAll (CharDisplay.new hw) rs = some (d', as) ∧
    Matches (fun aw x => CharOf aw.2 x) (written rs) d'.calls := by
  obtain ⟨d', as, new, h1, h2, h3⟩ := handler_history (calls := CharDisplay.calls) (P := fun aw x => CharOf aw.2 x)
    (W := fun _ => True) (fun _ _ _ => rfl) (fun _ => rfl)
    (fun d a w ex _ => ⟨{ d with calls := d.calls ++ [charOrWord w] }, _, rfl, rfl, charOrWord_charOf w⟩)
    (rs := rs) (fun _ _ => trivial) (CharDisplay.new hw)
  exact ⟨d', as, h1, by rw [h2]; exact h3⟩

theorem number_write (d : NumberDisplay) (a w : Word) (ex : U16) (ha : a.toNat % 4 = 0) :
    ∃ d' x, Bus.write d a w ex = some (d', ex) ∧ d'.calls = d.calls ++ [x] ∧ NumberShown (a, w) x := by
  have hm : (a % 16).toNat = a.toNat % 16 := by rw [BitVec.toNat_umod]; rfl
  have hlt : (decide (a < 16) = true ↔ a.toNat / 4 < 4) := by
    rw [decide_eq_true_eq, BitVec.lt_def]; show a.toNat < 16 ↔ _; omega
  have hw : ∀ {fmt}, NumberFormat.of (a % 16).toNat = some fmt →
      Bus.write d a w ex = some ({ d with calls := d.calls ++ [(w, fmt, decide (a < 16))] }, ex) := by
    intro fmt h
    show NumberDisplay.write _ _ _ _ = _
    unfold NumberDisplay.write
    rw [h]; rfl
  rw [hm] at hw
  have h4 : a.toNat % 16 = 0 ∨ a.toNat % 16 = 4 ∨ a.toNat % 16 = 8 ∨ a.toNat % 16 = 12 := by omega
  rcases h4 with h | h | h | h
  · rw [h] at hw
    refine ⟨_, _, hw rfl, rfl, rfl, ?_, hlt⟩
    simp only [show a.toNat / 4 % 4 = 0 by omega]
  · rw [h] at hw
    refine ⟨_, _, hw rfl, rfl, rfl, ?_, hlt⟩
    simp only [show a.toNat / 4 % 4 = 1 by omega]
  · rw [h] at hw
    refine ⟨_, _, hw rfl, rfl, rfl, ?_, hlt⟩
    simp only [show a.toNat / 4 % 4 = 2 by omega]
  · rw [h] at hw
    refine ⟨_, _, hw rfl, rfl, rfl, ?_, hlt⟩
    simp only [show a.toNat / 4 % 4 = 3 by omega]

/-- **C69**, number display. For any history of aligned requests it calls its handler once per write, in order, with the
written word, the formatting of the word's index and the newline flag of the documentation; it never panics. -/
theorem C69_number (hw : U64) (rs : List Req) (hr : ∀ r ∈ rs, r.Within 64) :
    ∃ d' as, serveAll (NumberDisplay.new hw) rs = some (d', as) ∧ Matches NumberShown (written rs) d'.calls := by
  obtain ⟨d', as, new, h1, h2, h3⟩ := handler_history (calls := NumberDisplay.calls) (P := NumberShown)
    (W := fun r => r.Within 64) (fun _ _ _ => rfl) (fun _ => rfl) (fun d a w ex h => number_write d a w ex h.1)
    hr (NumberDisplay.new hw)
  exact ⟨d', as, h1, by rw [h2]; exact h3⟩

example : (serveAll (CharDisplay.new 7) [.write 0 0x41 0, .read 0 0, .write 0 0xD800 0]).map
    (fun x => x.1.calls.map Except.toOption) = some [some 'A', none] := by decide +kernel

example : (serveAll (NumberDisplay.new 7) [.write 8 0x41 0, .read 0 0, .write 20 0xD800 0]).map (fun x => x.1.calls) =
    some [(0x41, .dec, true), (0xD800, .hexLong, false)] := by decide +kernel

/-! ## C77: the basic debug interface -/

theorem debug_write (d : BasicDebug) (a w : Word) (ex : U16) (ha : a.toNat < 64) :
    ∃ d' x, Bus.write d a w ex = some (d', ex) ∧ d'.calls = d.calls ++ [x] ∧ DebugShown (a, w) x := by
  have hw : ∀ {info}, DebugInfo.of (a / 4).toNat w = some info →
      Bus.write d a w ex = some ({ d with calls := d.calls ++ [info] }, ex) := by
    intro info h
    show (do let info ← DebugInfo.of (a / 4).toNat w; _) = _
    rw [h]; rfl
  have h8 : (w.setWidth 8).toNat = w.toNat % 2 ^ 8 := BitVec.toNat_setWidth ..
  have h16 : (w.setWidth 16).toNat = w.toNat % 2 ^ 16 := BitVec.toNat_setWidth ..
  have hs : ∀ k, k ≤ 32 → ((w.setWidth k).toInt - w.toNat) % 2 ^ k = 0 := by
    intro k _
    rw [BitVec.toInt_setWidth, Int.bmod_def]
    split
    · rw [Int.sub_emod, show ((2 : Int) ^ k) = ((2 ^ k : Nat) : Int) by simp, Int.emod_emod_of_dvd _ (Int.dvd_refl _)]
      simp
    · rw [Int.sub_emod, show ((2 : Int) ^ k) = ((2 ^ k : Nat) : Int) by simp, Int.sub_emod_right,
        Int.emod_emod_of_dvd _ (Int.dvd_refl _)]
      simp
  rw [word_div4] at hw
  have h : a.toNat / 4 < 16 := by omega
  have hget : ∀ n, n < 16 → ∃ info, DebugInfo.of n w = some info ∧ debugTable w n info := by
    intro n hlt
    rcases n with _ | _ | _ | _ | _ | _ | _ | _ | _ | _ | _ | _ | _ | _ | _ | _ | n
    · exact ⟨_, rfl, h8⟩
    · exact ⟨_, rfl, h16⟩
    · exact ⟨_, rfl, rfl⟩
    · exact ⟨_, rfl, hs 8 (by decide)⟩
    · exact ⟨_, rfl, hs 16 (by decide)⟩
    · exact ⟨_, rfl, rfl⟩
    · exact ⟨_, rfl, h8⟩
    · exact ⟨_, rfl, h16⟩
    · exact ⟨_, rfl, rfl⟩
    · exact ⟨_, rfl, hs 8 (by decide)⟩
    · exact ⟨_, rfl, hs 16 (by decide)⟩
    · exact ⟨_, rfl, rfl⟩
    · refine ⟨_, rfl, ?_⟩
      show (w != 0) = true ↔ w.toNat ≠ 0
      rw [bne_iff_ne, ne_eq, ne_eq, BitVec.toNat_eq]; rfl
    · exact ⟨_, rfl, charOrWord_charOf w⟩
    · exact ⟨_, rfl, rfl⟩
    · exact ⟨_, rfl, trivial⟩
    · omega
  obtain ⟨info, h1, h2⟩ := hget _ h
  exact ⟨_, info, hw h1, rfl, h2⟩

/-- **C77**. For any history of in-range requests, the basic debug interface calls its handler once per write, in order,
with the information the documentation gives for the word's index. -/
theorem C77_reports_partial (hw : U64) (rs : List Req) (hr : ∀ r ∈ rs, r.Within 32) :
    ∃ d' as, serveAll (BasicDebug.new hw) rs = some (d', as) ∧ Matches DebugShown (written rs) d'.calls := by
  obtain ⟨d', as, new, h1, h2, h3⟩ := handler_history (calls := BasicDebug.calls) (P := DebugShown)
    (W := fun r => r.Within 32) (fun _ _ _ => rfl) (fun _ => rfl)
    (fun d a w ex h => debug_write d a w ex (Nat.lt_trans h.2 (by decide))) hr (BasicDebug.new hw)
  exact ⟨d', as, h1, by rw [h2]; exact h3⟩

/-- **C77** fails for half of the documented words: the interface advertises 32 bytes, so words 8 to 15 are outside of it
(a board never sends them to it), although the component itself would understand them. -/
theorem C77_words_refuted (hw : U64) : Advertises pf (BasicDebug.new hw) 32 ∧
    ∀ k, 8 ≤ k → k < 16 → ¬ (Req.write (BitVec.ofNat 32 (4 * k)) w ex).Within 32 ∧
      ∀ d : BasicDebug, ∃ d' x, Bus.write d (BitVec.ofNat 32 (4 * k)) w ex = some (d', ex) ∧ d'.calls = d.calls ++ [x] ∧
        DebugShown (BitVec.ofNat 32 (4 * k), w) x := by
  constructor
  · obtain ⟨m, h1, h2⟩ := newEncode_size (hw := hw) (size := 32) (cat := .debug .basic) (md := none) (dt := none) rfl
    exact ⟨m, h1, by rw [h2]; rfl⟩
  · intro k h1 h2
    have e : (BitVec.ofNat 32 (4 * k)).toNat = 4 * k := ofNat_toNat_lt (by omega)
    refine ⟨fun h => ?_, fun d => debug_write d _ w ex (by rw [e]; omega)⟩
    have := h.2
    rw [e] at this; omega

example : ∃ d as, serveAll (BasicDebug.new 7) [.write 0 0x1FF 0, .read 0 0, .write 20 5 0] = some (d, as) ∧
    Matches DebugShown [(0, 0x1FF), (20, 5)] d.calls := ⟨_, _, rfl, rfl, rfl, trivial⟩

/-! ## C73: displays and debug interface -/

theorem robust_of_inv {D : Type} [Bus D] {d : D} {size : Nat} (I : D → Prop) (hI : I d)
    (hstep : ∀ d r, I d → r.Within size → ∃ d' a, serve d r = some (d', a) ∧ I d')
    (hadv : ∀ d, I d → Advertises pf d size) : Robust pf d size := by
  intro rs hr
  obtain ⟨d', as, h1, h2⟩ := serveAll_inv hstep rs hI hr
  exact ⟨d', as, h1, hadv d' h2⟩

theorem C73_buffered_display {cap : Word} {hw : U64} {d : BufferedDisplay} (h : BufferedDisplay.new cap hw = some d) :
    Robust pf d cap.toNat := by
  obtain ⟨h1, _⟩ := display_new h
  refine robust_of_inv (fun d => ∃ hist, DisplayInv cap.toNat hist d) ⟨_, h1⟩ ?_ ?_
  · rintro d r ⟨hist, hi⟩ hr
    obtain ⟨d', a, h2, h3, _⟩ := hi.step r hr
    exact ⟨d', a, h2, _, h3⟩
  · rintro d ⟨hist, hi⟩
    obtain ⟨y, h2, h3⟩ := mul4_add4 (pf := pf) hi.words hi.cap_lt
    have hw := hi.words
    obtain ⟨m, h4, h5⟩ := newEncode_size (hw := d.hwId) (size := y) (cat := .display .buffered) (md := none) (dt := none)
      (by omega)
    refine ⟨m, ?_, by rw [h5, h3]⟩
    show (do let t ← pf.mul d.words 4; let bytes ← pf.add t 4; let m ← DeviceMetadata.new d.hwId bytes _ none none; m.encode) = _
    simp only [Option.bind_eq_bind] at h2 h4 ⊢
    rw [← Option.bind_assoc, h2]
    exact h4

theorem robust_handler {D : Type} [Bus D] {d : D} {size : Nat}
    (hread : ∀ (d : D) a ex, Bus.read d a ex = some (d, 0, 0x2100)) (hreset : ∀ d : D, Bus.reset d = some d)
    (hwrite : ∀ (d : D) a w ex, (Req.write a w ex).Within size → ∃ d' ex', Bus.write d a w ex = some (d', ex'))
    (hadv : ∀ d : D, Advertises pf d size) : Robust pf d size := by
  refine robust_of_inv (fun _ => True) trivial ?_ (fun d _ => hadv d)
  intro d r _ hr
  cases r with
  | read a ex => exact ⟨d, _, by simp only [serve, hread]; rfl, trivial⟩
  | reset => exact ⟨d, _, by simp only [serve, hreset]; rfl, trivial⟩
  | write a w ex =>
    obtain ⟨d', ex', h⟩ := hwrite d a w ex hr
    exact ⟨d', _, by simp only [serve, h]; rfl, trivial⟩

theorem C73_char_display (hw : U64) : Robust pf (CharDisplay.new hw) 4 :=
  robust_handler (fun _ _ _ => rfl) (fun _ => rfl) (fun _ _ _ _ _ => ⟨_, _, rfl⟩) fun d => by
    obtain ⟨m, h1, h2⟩ := newEncode_size (hw := d.hwId) (size := 4) (cat := .display .buffered) (md := none) (dt := none) rfl
    exact ⟨m, h1, by rw [h2]; rfl⟩

theorem C73_number_display (hw : U64) : Robust pf (NumberDisplay.new hw) 64 :=
  robust_handler (fun _ _ _ => rfl) (fun _ => rfl)
    (fun d a w ex h => by obtain ⟨d', x, h1, _⟩ := number_write d a w ex h.1; exact ⟨d', ex, h1⟩) fun d => by
    obtain ⟨m, h1, h2⟩ := newEncode_size (hw := d.hwId) (size := 64) (cat := .display .number) (md := none) (dt := none) rfl
    exact ⟨m, h1, by rw [h2]; rfl⟩

theorem C73_basic_debug (hw : U64) : Robust pf (BasicDebug.new hw) 32 :=
  robust_handler (fun _ _ _ => rfl) (fun _ => rfl)
    (fun d a w ex h => by
      obtain ⟨d', x, h1, _⟩ := debug_write d a w ex (Nat.lt_trans h.2 (by decide)); exact ⟨d', ex, h1⟩) fun d => by
    obtain ⟨m, h1, h2⟩ := newEncode_size (hw := d.hwId) (size := 32) (cat := .debug .basic) (md := none) (dt := none) rfl
    exact ⟨m, h1, by rw [h2]; rfl⟩

end Lrvm
