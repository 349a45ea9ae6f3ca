import Verif.Spec.Printing
import Verif.Model.Devices.Printing
import Verif.Props.Devices.Displays
import Verif.Props.Tools.RunLines

/-!
# C99: what the displays and the debug interface print
-/

namespace Lrvm

open Spec Spec.RunLines Spec.Printing

variable {pf : Profile}

theorem fmtHex_zero (n : Nat) : fmtHex 0 n = hex 0 n := by
  rw [← fmtHex_hex]; rfl

theorem fmtDec_ten (n : Nat) : fmtDec n = Nat.toDigits 10 n := digits_ten n

/-- Handler calls that match what was written, element by element, print the concatenation. -/
theorem matches_flatMap {α β : Type} {P : α → β → Prop} {f : β → Text} {g : α → Text} (h : ∀ a b, P a b → f b = g a) :
    ∀ {as : List α} {bs : List β}, Matches P as bs → bs.flatMap f = as.flatMap g
  | [], [], _ => rfl
  | a :: as, b :: bs, hm => by
    rw [List.flatMap_cons, List.flatMap_cons, h a b hm.1, matches_flatMap h hm.2]
  | [], _ :: _, hm => hm.elim
  | _ :: _, [], hm => hm.elim

/-! ## The number display -/

theorem number_text {aw : Word × Word} {c : Word × NumberFormat × Bool} (h : NumberShown aw c) :
    numberPrinted c = numberText aw := by
  obtain ⟨w, f, nl⟩ := c
  obtain ⟨h1, h2, h3⟩ := h
  simp only at h1 h2 h3
  subst h1
  unfold numberPrinted numberText
  simp only
  have e : (if nl = true then ['\n'] else ([] : Text)) = if aw.1.toNat / 4 < 4 then ['\n'] else [] := by
    by_cases hn : nl = true
    · rw [if_pos hn, if_pos (h3.mp hn)]
    · rw [if_neg hn, if_neg fun h => hn (h3.mpr h)]
  rw [e]
  congr 1
  generalize aw.1.toNat / 4 % 4 = k at h2
  split at h2
  · subst h2; exact fmtHex_zero _
  · subst h2; exact fmtHex_hex 8 _
  · subst h2; exact digits_ten _
  · subst h2
    refine (congrArg (padLeft '0' 10) (digits_ten _)).trans ?_
    split <;> first | contradiction | rfl

/-- **C99**, number display. After any history of requests inside the component, a printing number display has printed, in
order and nothing else, the text of each number written in the format of its address. -/
theorem C99_number (hw : U64) (rs : List Req) (hr : ∀ r ∈ rs, r.Within 64) :
    ∃ d as, serveAll (NumberDisplay.new hw) rs = some (d, as) ∧
      d.calls.flatMap numberPrinted = (written rs).flatMap numberText := by
  obtain ⟨d, as, h, hm⟩ := C69_number hw rs hr
  exact ⟨d, as, h, matches_flatMap (fun _ _ h => number_text h) hm⟩

example : ∃ d as, serveAll (NumberDisplay.new 1) [.write 0 255 0, .write 20 255 0, .read 0 0, .write 28 37 0] = some (d, as) ∧
    d.calls.flatMap numberPrinted = "0xFF\n0x000000FF0000000037".toList := ⟨_, _, rfl, by decide +kernel⟩

/-! ## The character display -/

theorem isValidChar_of {c : Char} {n : Nat} (h : c.toNat = n) : ∃ hv : n.isValidChar, c = Char.ofNatAux n hv := by
  subst h
  exact ⟨c.valid, Char.ext (UInt32.toNat_inj.mp rfl)⟩

theorem char_text {w : Word} {x : Except Word Char} (h : CharOf w x) : charPrinted x = charText w := by
  unfold charText
  cases x with
  | ok c =>
    obtain ⟨hv, hc⟩ := isValidChar_of (show c.toNat = w.toNat from h)
    rw [dif_pos hv, ← hc]; rfl
  | error e =>
    rw [dif_neg fun hv => h.2 (Char.ofNatAux w.toNat hv) rfl]
    rfl

/-- **C99**, character display. After any history of requests, a lossy printing character display has printed, in order and
nothing else, the character of each code written, or U+FFFD for a word that is no character's code. -/
theorem C99_char (hw : U64) (rs : List Req) : ∃ d as, serveAll (CharDisplay.new hw) rs = some (d, as) ∧
    d.calls.flatMap charPrinted = (written rs).flatMap fun aw => charText aw.2 := by
  obtain ⟨d, as, h, hm⟩ := C69_char hw rs
  exact ⟨d, as, h, matches_flatMap (fun _ _ h => char_text h) hm⟩

example : ∃ d as, serveAll (CharDisplay.new 1) [.write 0 0x48 0, .write 0 0xD800 0, .read 0 0, .write 0 0x69 0] = some (d, as) ∧
    d.calls.flatMap charPrinted = ['H', '\uFFFD', 'i'] := ⟨_, _, rfl, by decide +kernel⟩

/-! ## The buffered display -/

theorem decodeStr_printed (bytes : List U8) : bufferPrinted (decodeStr bytes) = fromUtf8Lossy bytes := by
  unfold decodeStr
  cases hf : fromUtf8 bytes with
  | none => rfl
  | some t => rw [← fromUtf8_iff.mp hf, fromUtf8Lossy_text]; rfl

/-- A display command prints the buffer, lossily. -/
theorem show_printed {cap : Nat} {hist : List Req} {d : BufferedDisplay} (h : DisplayInv cap hist d) (r : Req)
    (hs : isShow (cap - 4) r = true) {d' : BufferedDisplay} {a : Answer} (hd : serve d r = some (d', a)) :
    d'.calls.flatMap bufferPrinted = d.calls.flatMap bufferPrinted ++ fromUtf8Lossy (wordsToBytes d.buffer) := by
  have hw := h.words
  cases r with
  | read a ex => cases hs
  | reset => cases hs
  | write a w ex =>
    simp only [isShow, Bool.and_eq_true, Bool.or_eq_true, beq_iff_eq] at hs
    obtain ⟨hc, hv⟩ := hs
    have hnl : ¬ a / 4 < d.words := by rw [BitVec.lt_def, word_div4]; omega
    have hd : (BufferedDisplay.write d a w ex).map _ = _ := hd
    unfold BufferedDisplay.write at hd
    simp only [if_neg hnl] at hd
    rcases hv with hv | hv <;> rw [hv] at hd <;> cases hd
    · simp [decodeStr_printed]
    · simp [bufferPrinted]

theorem screen_run {cap : Nat} {rs hist : List Req} {d : BufferedDisplay} (h : DisplayInv cap hist d)
    (hs : Screen (cap - 4) ((cap - 4) / 4) hist (d.calls.flatMap bufferPrinted)) (hr : ∀ r ∈ rs, r.Within cap) :
    ∃ d' as, serveAll d rs = some (d', as) ∧
      Screen (cap - 4) ((cap - 4) / 4) (rs.reverse ++ hist) (d'.calls.flatMap bufferPrinted) := by
  induction rs generalizing d hist with
  | nil => exact ⟨d, [], rfl, hs⟩
  | cons r rs ih =>
    obtain ⟨d1, a, h1, hi1, hf, _⟩ := h.step r (hr r List.mem_cons_self)
    have hs1 : Screen (cap - 4) ((cap - 4) / 4) (r :: hist) (d1.calls.flatMap bufferPrinted) := by
      cases hq : isShow (cap - 4) r with
      | false => rw [hf hq]; exact .quiet r hq hs
      | true => rw [show_printed h r hq h1]; exact .show r hq hs h.bytes (fromUtf8Lossy_lossy _)
    obtain ⟨d2, as, h2, hs2⟩ := ih hi1 hs1 fun r h => hr r (List.mem_cons_of_mem _ h)
    refine ⟨d2, a :: as, serveAll_cons h1 h2, ?_⟩
    rw [List.reverse_cons, List.append_assoc]
    exact hs2

/-- **C99**, buffered display. After any history of requests inside the component, a lossy printing buffered display has
printed, in order and nothing else, at each display command — strict or lossy — the buffer of that time, with U+FFFD for each
broken piece. -/
theorem C99_buffered {cap : Word} {hw : U64} {d : BufferedDisplay} (hn : BufferedDisplay.new cap hw = some d) {rs : List Req}
    (hr : ∀ r ∈ rs, r.Within cap.toNat) : ∃ d1 as, serveAll d rs = some (d1, as) ∧
      Screen (cap.toNat - 4) ((cap.toNat - 4) / 4) rs.reverse (d1.calls.flatMap bufferPrinted) := by
  obtain ⟨hinv, hc, _⟩ := display_new hn
  obtain ⟨d1, as, h1, hs⟩ := screen_run hinv (by rw [hc]; exact .nil) hr
  rw [List.append_nil] at hs
  exact ⟨d1, as, h1, hs⟩

theorem bytesOf_unique {n : Nat} {f : Nat → Word} {bs bs' : List U8} (h : BytesOf n f bs) (h' : BytesOf n f bs') :
    bs = bs' := by
  refine List.ext_getElem? fun k => ?_
  by_cases hk : k < 4 * n
  · have e1 := h.2 (k / 4) (k % 4) (by omega) (by omega)
    have e2 := h'.2 (k / 4) (k % 4) (by omega) (by omega)
    rw [show 4 * (k / 4) + k % 4 = k by omega] at e1 e2
    cases h1 : bs[k]? with
    | none => rw [h1] at e1; cases e1
    | some x =>
      cases h2 : bs'[k]? with
      | none => rw [h2] at e2; cases e2
      | some y =>
        rw [h1] at e1; rw [h2] at e2
        exact congrArg some (BitVec.eq_of_toNat_eq (Option.some.inj (e1.trans e2.symm)))
  · rw [List.getElem?_eq_none (by rw [h.1]; omega), List.getElem?_eq_none (by rw [h'.1]; omega)]

/-- The specification leaves one text only. -/
theorem C99_buffered_unique {command n : Nat} {h : List Req} {t t' : Text} (hs : Screen command n h t)
    (hs' : Screen command n h t') : t = t' := by
  induction hs generalizing t' with
  | nil => cases hs'; rfl
  | quiet r hq _ ih =>
    cases hs' with
    | quiet _ _ h2 => exact ih h2
    | «show» _ hq' => rw [hq] at hq'; cases hq'
  | «show» r hq _ hb hl ih =>
    cases hs' with
    | quiet _ hq' => rw [hq] at hq'; cases hq'
    | «show» _ _ h2 hb' hl' =>
      rw [ih h2]
      have e := bytesOf_unique hb hb'
      subst e
      rw [Lossy.unique hl hl']

example : ∃ d d1 as, BufferedDisplay.new 12 7 = some d ∧
    serveAll d [.write 0 0x48690A20 0, .write 4 0x21202020 0, .write 8 0xAA 0, .write 0 0xFF202020 0, .read 0 0,
      .write 8 0xAA 0, .write 8 0xBB 0] = some (d1, as) ∧
    d1.calls.flatMap bufferPrinted = "Hi\n !   \uFFFD   !   \uFFFD   !   ".toList := by
  refine ⟨_, _, _, rfl, rfl, ?_⟩
  decide +kernel

/-! ## The debug interface -/

theorem signed_toInt {k : Nat} (hk : 0 < k) (n : BitVec k) (m : Nat) (h : n.toNat = m % 2 ^ k) : n.toInt = signed k m := by
  have hp : 2 ^ k = 2 * 2 ^ (k - 1) := by
    rw [← Nat.pow_succ', Nat.succ_eq_add_one]; congr 1; omega
  unfold signed
  rw [BitVec.toInt_eq_toNat_cond, h]
  by_cases hc : m % 2 ^ k < 2 ^ (k - 1)
  · rw [if_pos (by omega), if_pos hc]; rfl
  · rw [if_neg (by omega), if_neg hc]; norm_cast

theorem signedHex_text {k w : Nat} (hk : 0 < k) (n : BitVec k) (m : Nat) (h : n.toNat = m % 2 ^ k)
    (hl : pf = .release ∨ m % 2 ^ k ≠ 2 ^ (k - 1)) :
    signedHex pf (w + 2) n = some (withSign (hex w) (signed k m)) := by
  have hp : 2 ^ k = 2 * 2 ^ (k - 1) := by
    rw [← Nat.pow_succ', Nat.succ_eq_add_one]; congr 1; omega
  have hpos : 0 < 2 ^ (k - 1) := Nat.two_pow_pos _
  have hlt : n.toNat < 2 ^ k := n.isLt
  rw [← signed_toInt hk n m h]
  unfold signedHex withSign
  have ht := BitVec.toInt_eq_toNat_cond n
  by_cases hc : n.toInt < 0
  · rw [if_pos hc, if_pos hc, if_neg, fmtHex_hex]
    · congr 3
      rw [BitVec.toNat_neg]
      split at ht
      · omega
      · rw [Nat.mod_eq_of_lt (by omega)]; omega
    · rintro ⟨he, hd⟩
      rcases hl with hl | hl
      · rw [hl] at hd; cases hd
      · rw [← h, he, BitVec.toNat_intMin] at hl
        exact hl (Nat.mod_eq_of_lt (by omega))
  · rw [if_neg hc, if_neg hc, fmtHex_hex]
    congr 2
    split at ht <;> omega

theorem fmtInt_text (i : Int) : fmtInt i = withSign (Nat.toDigits 10) i := by
  unfold fmtInt withSign
  rw [digits_ten]

theorem congr_mod {k : Nat} (n : BitVec k) (m : Nat) (h : (n.toInt - m) % (2 ^ k : Nat) = 0) : n.toNat = m % 2 ^ k := by
  have ht : n.toInt = n.toNat ∨ n.toInt = (n.toNat : Int) - (2 ^ k : Nat) := by
    have := BitVec.toInt_eq_toNat_cond n
    split at this
    · exact .inl this
    · exact .inr this
  have hlt : n.toNat < 2 ^ k := n.isLt
  have h2 : ((n.toNat : Int) - m) % (2 ^ k : Nat) = 0 := by
    rcases ht with ht | ht
    · rwa [ht] at h
    · rw [ht, show (n.toNat : Int) - (2 ^ k : Nat) - m = ((n.toNat : Int) - m) - (2 ^ k : Nat) by omega, Int.sub_emod_right] at h
      exact h
  have h4 : (n.toNat : Int) % (2 ^ k : Nat) = (m : Int) % (2 ^ k : Nat) :=
    Int.emod_eq_emod_iff_emod_sub_eq_zero.mpr h2
  rw [← Int.natCast_emod, ← Int.natCast_emod, Nat.mod_eq_of_lt hlt] at h4
  exact Int.ofNat_inj.mp h4

theorem debug_text {aw : Word × Word} {i : DebugInfo} (h : DebugShown aw i) (hl : pf = .release ∨ ¬ Least aw) :
    i.text pf = some (debugText aw) := by
  obtain ⟨a, w⟩ := aw
  have hw : w.toNat < 2 ^ 32 := w.isLt
  have hw32 : w.toNat % 2 ^ 32 = w.toNat := Nat.mod_eq_of_lt hw
  unfold DebugShown at h
  simp only at h
  unfold debugText
  unfold Least at hl
  simp only at hl ⊢
  generalize a.toNat / 4 = k at h hl
  unfold debugTable at h
  split at h
  · exact congrArg some ((fmtHex_hex 2 _).trans (congrArg (hex 2) h))
  · exact congrArg some ((fmtHex_hex 4 _).trans (congrArg (hex 4) h))
  · exact congrArg some ((fmtHex_hex 8 _).trans (congrArg (hex 8) h))
  · next n =>
    exact signedHex_text (w := 2) (by decide) n _ (congr_mod n _ h) (hl.imp_right fun hl hh => hl (.inl ⟨rfl, hh⟩))
  · next n =>
    exact signedHex_text (w := 4) (by decide) n _ (congr_mod n _ h)
      (hl.imp_right fun hl hh => hl (.inr (.inl ⟨rfl, hh⟩)))
  · next n =>
    have e : n = w := BitVec.eq_of_toInt_eq h
    subst e
    exact signedHex_text (w := 8) (by decide) n _ hw32.symm
      (hl.imp_right fun hl hh => hl (.inr (.inr ⟨rfl, hw32.symm.trans hh⟩)))
  · exact congrArg some ((fmtDec_ten _).trans (congrArg (Nat.toDigits 10) h))
  · exact congrArg some ((fmtDec_ten _).trans (congrArg (Nat.toDigits 10) h))
  · exact congrArg some ((fmtDec_ten _).trans (congrArg (Nat.toDigits 10) h))
  · next n =>
    exact congrArg some ((fmtInt_text _).trans (congrArg _ (signed_toInt (by decide) n _ (congr_mod n _ h))))
  · next n =>
    exact congrArg some ((fmtInt_text _).trans (congrArg _ (signed_toInt (by decide) n _ (congr_mod n _ h))))
  · next n =>
    have e : n = w := BitVec.eq_of_toInt_eq h
    subst e
    exact congrArg some ((fmtInt_text _).trans (congrArg _ (signed_toInt (by decide) n _ hw32.symm)))
  · next b =>
    show some _ = some (ite _ _ _)
    by_cases hb : b = true
    · rw [if_pos hb, if_neg (h.mp hb)]
    · rw [if_neg hb, if_pos (Decidable.byContradiction fun hh => hb (h.mpr hh))]
  · next c =>
    cases c with
    | ok c =>
      obtain ⟨hv, hc⟩ := isValidChar_of (show c.toNat = w.toNat from h)
      show some _ = some (dite _ _ _)
      rw [dif_pos hv, ← hc]
    | error e =>
      show some _ = some (dite _ _ _)
      rw [dif_neg fun hv => h.2 (Char.ofNatAux w.toNat hv) rfl, fmtHex_hex 8, h.1]
  · next n =>
    subst h
    exact congrArg (fun t => some ("<Encoding-agnostic character: ".toList ++ t ++ ">".toList)) (fmtHex_hex 8 _)
  · rfl
  · exact h.elim

theorem debug_output : ∀ {as : List (Word × Word)} {is : List DebugInfo}, Matches DebugShown as is →
    (pf = .release ∨ ∀ aw ∈ as, ¬ Least aw) → debugOutput pf is = some (as.flatMap debugLine)
  | [], [], _, _ => rfl
  | aw :: as, i :: is, hm, hl => by
    unfold debugOutput debugPrinted
    rw [debug_text hm.1 (hl.imp_right fun h => h _ List.mem_cons_self),
      debug_output hm.2 (hl.imp_right fun h aw ha => h aw (List.mem_cons_of_mem _ ha))]
    rfl
  | [], _ :: _, hm, _ => hm.elim
  | _ :: _, [], hm, _ => hm.elim

/-- **C99**, debug interface. After any history of requests to its sixteen words the printing debug interface has printed one
line per number written, with the number in the format of the word's index — in release builds always, in debug builds unless
the least number of a signed type was written to the hexadecimal word of that type. -/
theorem C99_debug_partial (hw : U64) (rs : List Req) (hr : ∀ r ∈ rs, r.Within 64)
    (hl : pf = .release ∨ ∀ aw ∈ written rs, ¬ Least aw) :
    ∃ d as, serveAll (BasicDebug.new hw) rs = some (d, as) ∧
      debugOutput pf d.calls = some ((written rs).flatMap debugLine) := by
  obtain ⟨d', as, new, h1, h2, h3⟩ := handler_history (calls := BasicDebug.calls) (P := DebugShown)
    (W := fun r => r.Within 64) (fun _ _ _ => rfl) (fun _ => rfl)
    (fun d a w ex h => debug_write d a w ex h.2) hr (BasicDebug.new hw)
  refine ⟨d', as, h1, ?_⟩
  rw [h2]
  exact debug_output h3 hl

/-- **C99** is false in debug builds: the handler of the printing debug interface panics on the least number of each signed
type. -/
theorem C99_debug_refuted (hw : U64) (a w : Word) (ex : U16) (hl : Least (a, w)) :
    ∃ d as, serveAll (BasicDebug.new hw) [.write a w ex] = some (d, as) ∧ debugOutput .debug d.calls = none := by
  have ha : a.toNat < 64 := by
    unfold Least at hl
    simp only at hl
    omega
  obtain ⟨d, x, h1, h2, h3⟩ := debug_write (BasicDebug.new hw) a w ex ha
  refine ⟨d, [.wrote ex], ?_, ?_⟩
  · refine serveAll_cons (as := []) ?_ rfl
    show Option.map _ (Bus.write _ _ _ _) = _
    rw [h1]; rfl
  · rw [h2]
    unfold DebugShown at h3
    simp only at h3
    unfold Least at hl
    simp only at hl
    show (do let t ← debugPrinted .debug x; let ts ← debugOutput .debug []; some (t ++ ts)) = none
    suffices hx : x.text .debug = none by
      unfold debugPrinted; rw [hx]; rfl
    have key : ∀ {k wd : Nat} (hk : 0 < k) (n : BitVec k), n.toNat = 2 ^ (k - 1) → signedHex .debug wd n = none := by
      intro k wd hk n hn
      have hp : 2 ^ k = 2 * 2 ^ (k - 1) := by
        rw [← Nat.pow_succ', Nat.succ_eq_add_one]; congr 1; omega
      have hpos : 0 < 2 ^ (k - 1) := Nat.two_pow_pos _
      unfold signedHex
      have ht := BitVec.toInt_eq_toNat_cond n
      rw [if_neg (by omega)] at ht
      rw [if_pos (by omega), if_pos]
      refine ⟨BitVec.eq_of_toNat_eq ?_, rfl⟩
      rw [hn, BitVec.toNat_intMin, Nat.mod_eq_of_lt (by omega)]
    rcases hl with ⟨hk, hh⟩ | ⟨hk, hh⟩ | ⟨hk, hh⟩
    · rw [hk] at h3
      cases x <;> first | exact h3.elim | skip
      next n => exact key (by decide) n ((congr_mod n _ h3).trans hh)
    · rw [hk] at h3
      cases x <;> first | exact h3.elim | skip
      next n => exact key (by decide) n ((congr_mod n _ h3).trans hh)
    · rw [hk] at h3
      cases x <;> first | exact h3.elim | skip
      next n => exact key (by decide) n (by rw [BitVec.eq_of_toInt_eq h3]; exact hh)

example : ∃ d as, serveAll (BasicDebug.new 1) [.write 0 0x1FF 0, .write 12 0xF0 0, .read 0 0, .write 28 37 0] = some (d, as) ∧
    debugOutput .debug d.calls = some "[debug:basic] 0xFF\n[debug:basic] -0x10\n[debug:basic] 37\n".toList :=
  ⟨_, _, rfl, by decide +kernel⟩

example : Least (12, 0x80) := .inl ⟨rfl, rfl⟩
example : ¬ Least (12, 0xF0) := by unfold Least; decide
example : debugLine (12, 0x80) = "[debug:basic] -0x80\n".toList := by decide +kernel

end Lrvm
