import Verif.Model.Bus

/-!
# Specification of texts as bytes

`utf8` is the UTF-8 encoding of a text (Lean's own `String.utf8EncodeChar`).
-/

namespace Lrvm.Spec

/-- What a display that is asked to show `bytes` as UTF-8 hands over: the text they encode, or the bytes themselves when
they encode no text. -/
def Decoded (bytes : List U8) : Except (List U8) (List Char) → Prop
  | .ok t => utf8 t = bytes
  | .error bs => bs = bytes ∧ ∀ t, utf8 t ≠ bytes

/-- `bad`, followed by `rest`, is a maximal piece that cannot be part of a text: no character begins here, and `bad` is
either one byte or the beginning of a character, which the next byte of `rest` (if any) does not continue. -/
structure Broken (bad rest : List U8) : Prop where
  nonempty : bad ≠ []
  noChar : ∀ c, ¬ utf8 [c] <+: bad ++ rest
  small : bad.length = 1 ∨ ∃ c, bad <+: utf8 [c]
  maximal : ∀ b r, rest = b :: r → ∀ c, ¬ bad ++ [b] <+: utf8 [c]

/-- Lossy decoding, as Unicode recommends: characters are kept, each maximal broken piece becomes U+FFFD. -/
inductive Lossy : List U8 → List Char → Prop
  | nil : Lossy [] []
  | char {bs t} (c : Char) : Lossy bs t → Lossy (utf8 [c] ++ bs) (c :: t)
  | broken {bad bs t} : Broken bad bs → Lossy bs t → Lossy (bad ++ bs) (Char.ofNat 0xFFFD :: t)

end Lrvm.Spec
