import Verif.Model.Devices.Display
import Verif.Spec.Component
import Verif.Spec.Text

/-!
# Specification vocabulary for the buffered components

Histories are listed newest request first here.
-/

namespace Lrvm.Spec

/-- What word `i` of a buffered display's buffer should be: the last word written there since the buffer was last
cleared — by a reset or by command `0xFF` at address `command` — and 0 if there is none. -/
def lastWord (command i : Nat) : List Req → Word
  | [] => 0
  | .reset :: _ => 0
  | .read _ _ :: older => lastWord command i older
  | .write a w _ :: older =>
    if a.toNat = command then
      if w.toNat = 0xFF then 0 else lastWord command i older
    else if a.toNat = 4 * i then w
    else lastWord command i older

/-- `bytes` are the bytes of the words `f 0`, …, `f (n - 1)` in order, the strongest of each first. -/
def BytesOf (n : Nat) (f : Nat → Word) (bytes : List U8) : Prop :=
  bytes.length = 4 * n ∧
  ∀ i j, i < n → j < 4 → (bytes[4 * i + j]?).map BitVec.toNat = some ((f i).toNat / 256 ^ (3 - j) % 256)

/-- The request asks a buffered display, whose command word is at address `command`, to show its buffer. -/
def isShow (command : Nat) : Req → Bool
  | .write a w _ => a.toNat == command && (w.toNat == 0xAA || w.toNat == 0xBB)
  | _ => false

/-- The words a history (oldest request first) writes, with their addresses. -/
def written : List Req → List (Word × Word)
  | [] => []
  | .write a w _ :: rs => (a, w) :: written rs
  | _ :: rs => written rs

/-- The two lists have the same length and `P` holds between their elements, in order. -/
def Matches (P : α → β → Prop) : List α → List β → Prop
  | [], [] => True
  | a :: as, b :: bs => P a b ∧ Matches P as bs
  | _, _ => False

/-- What a character display hands over for a written word: the character of that code, or the word if there is none. -/
def CharOf (w : Word) : Except Word Char → Prop
  | .ok c => c.toNat = w.toNat
  | .error e => e = w ∧ ∀ c : Char, c.toNat ≠ w.toNat

/-- What the documentation of the number display says it shows for word `w` at word index `k`: the number as is, the
formatting of the index, a newline for the first four. -/
def NumberShown (aw : Word × Word) (call : Word × NumberFormat × Bool) : Prop :=
  call.1 = aw.2 ∧
  (match aw.1.toNat / 4 % 4 with
    | 0 => call.2.1 = .hex
    | 1 => call.2.1 = .hexLong
    | 2 => call.2.1 = .dec
    | _ => call.2.1 = .decLong) ∧
  (call.2.2 = true ↔ aw.1.toNat / 4 < 4)

/-- The documented table of the basic debug interface: what word `w` at word index `k` means. -/
def debugTable (w : Word) (k : Nat) (info : DebugInfo) : Prop :=
  match k, info with
  | 0, .unsignedByteHex n => n.toNat = w.toNat % 2 ^ 8
  | 1, .unsignedHalfWordHex n => n.toNat = w.toNat % 2 ^ 16
  | 2, .unsignedWordHex n => n.toNat = w.toNat
  | 3, .signedByteHex n => (n.toInt - w.toNat) % 2 ^ 8 = 0
  | 4, .signedHalfWordHex n => (n.toInt - w.toNat) % 2 ^ 16 = 0
  | 5, .signedWordHex n => n.toInt = w.toInt
  | 6, .unsignedByteDec n => n.toNat = w.toNat % 2 ^ 8
  | 7, .unsignedHalfWordDec n => n.toNat = w.toNat % 2 ^ 16
  | 8, .unsignedWordDec n => n.toNat = w.toNat
  | 9, .signedByteDec n => (n.toInt - w.toNat) % 2 ^ 8 = 0
  | 10, .signedHalfWordDec n => (n.toInt - w.toNat) % 2 ^ 16 = 0
  | 11, .signedWordDec n => n.toInt = w.toInt
  | 12, .boolean b => b = true ↔ w.toNat ≠ 0
  | 13, .utf8Char c => CharOf w c
  | 14, .encodingAgnosticChar n => n = w
  | 15, .debugMessage => True
  | _, _ => False

/-- What the basic debug interface should report for a word written at an address. -/
def DebugShown (aw : Word × Word) (info : DebugInfo) : Prop := debugTable aw.2 (aw.1.toNat / 4) info

/-- How many characters a history (newest first) asks of the character keyboard's input handler. -/
def charRequests : List Req → Nat
  | [] => 0
  | .write a w _ :: older => if a.toNat = 4 ∧ w.toNat = 0x01 then charRequests older + 1 else charRequests older
  | _ :: older => charRequests older

/-- The code the character keyboard should hold after a history (newest first): the character of the last request, or 0
if there is none since the last clear or reset. -/
def charHeld (input : Nat → Char) : List Req → Nat
  | [] => 0
  | .reset :: _ => 0
  | .read _ _ :: older => charHeld input older
  | .write a w _ :: older =>
    if a.toNat = 4 ∧ w.toNat = 0x01 then (input (charRequests older)).toNat
    else if a.toNat = 4 ∧ w.toNat = 0x02 then 0
    else charHeld input older

/-- Byte `j` of a sequence, 0 after its end. -/
def paddedByte (bytes : List U8) (j : Nat) : Nat := ((bytes[j]?).map BitVec.toNat).getD 0

/-- Word `i` of a sequence of bytes: four bytes, the strongest first, padded with zeros after the end. -/
def wordAt (bytes : List U8) (i : Nat) : Word := BitVec.ofNat 32
  (paddedByte bytes (4 * i) * 2 ^ 24 + paddedByte bytes (4 * i + 1) * 2 ^ 16 + paddedByte bytes (4 * i + 2) * 2 ^ 8
    + paddedByte bytes (4 * i + 3))

/-- How many lines a history (newest first) asks of the input handler of a line keyboard whose command word is at address
`command`. -/
def lineRequests (command : Nat) : List Req → Nat
  | [] => 0
  | .write a w _ :: older =>
    if a.toNat = command ∧ w.toNat = 0xAA then lineRequests command older + 1 else lineRequests command older
  | _ :: older => lineRequests command older

/-- What word `i` of a line keyboard's buffer really is after a history (newest first): the one of the last line that
reaches that word since the last clear or reset, and 0 if there is none. -/
def lineHeld (command : Nat) (input : Nat → List Char) (i : Nat) : List Req → Word
  | [] => 0
  | .reset :: _ => 0
  | .read _ _ :: older => lineHeld command input i older
  | .write a w _ :: older =>
    if a.toNat = command ∧ w.toNat = 0xAA ∧ 4 * i < (utf8 (input (lineRequests command older))).length then
      wordAt (utf8 (input (lineRequests command older))) i
    else if a.toNat = command ∧ w.toNat = 0xFF then 0
    else lineHeld command input i older

/-- The last word a history (newest first) writes at byte address `a`, if any. Resets do not matter. -/
def lastWritten (a : Nat) : List Req → Option Word
  | [] => none
  | .write b w _ :: older => if b.toNat = a then some w else lastWritten a older
  | _ :: older => lastWritten a older

end Lrvm.Spec
