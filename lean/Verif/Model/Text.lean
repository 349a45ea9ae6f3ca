import Verif.Model.Bus

/-!
# Text functions of Rust's standard library used by the components

Not code of `/repo`: `std::char::from_u32`, `std::str::from_utf8` and `String::from_utf8_lossy`, called from
`lrvm_aux/src/display/buffered.rs:108,113`, `lrvm_aux/src/display/character.rs:53` and
`lrvm_aux/src/debug/basic.rs:148`. They follow the standard library's algorithm (`core::str::lossy::Utf8Chunks`).
`Lemmas/Text.lean` proves them against the definition of UTF-8.
-/

namespace Lrvm

/-- `std::char::from_u32`. -/
def charFromU32 (w : Word) : Option Char :=
  if w.toNat.isValidChar then some (Char.ofNat w.toNat) else none

/-- What the next bytes are: a character taking `n` bytes, or `n` bytes that are not UTF-8. -/
inductive Chunk
  | char (c : Char) (n : Nat)
  | invalid (n : Nat)
  deriving DecidableEq

/-- A continuation byte. -/
def isCont (b : Nat) : Bool := decide (0x80 ≤ b ∧ b < 0xC0)

/-- Second byte of a three-byte character. -/
def second3 (b0 b1 : Nat) : Bool := decide
  ((b0 = 0xE0 ∧ 0xA0 ≤ b1 ∧ b1 < 0xC0) ∨ (0xE1 ≤ b0 ∧ b0 ≤ 0xEC ∧ 0x80 ≤ b1 ∧ b1 < 0xC0) ∨
   (b0 = 0xED ∧ 0x80 ≤ b1 ∧ b1 < 0xA0) ∨ (0xEE ≤ b0 ∧ b0 ≤ 0xEF ∧ 0x80 ≤ b1 ∧ b1 < 0xC0))

/-- Second byte of a four-byte character. -/
def second4 (b0 b1 : Nat) : Bool := decide
  ((b0 = 0xF0 ∧ 0x90 ≤ b1 ∧ b1 < 0xC0) ∨ (0xF1 ≤ b0 ∧ b0 ≤ 0xF3 ∧ 0x80 ≤ b1 ∧ b1 < 0xC0) ∨
   (b0 = 0xF4 ∧ 0x80 ≤ b1 ∧ b1 < 0x90))

/-- One turn of the loop of `Utf8Chunks::next` on the numeric values of the next four bytes (0 past the end, as
`safe_get` does). -/
def utf8Step (b0 b1 b2 b3 : Nat) : Chunk :=
  if b0 < 0x80 then .char (Char.ofNat b0) 1
  else if 0xC2 ≤ b0 ∧ b0 ≤ 0xDF then
    if isCont b1 then .char (Char.ofNat (b0 % 32 * 64 + b1 % 64)) 2 else .invalid 1
  else if 0xE0 ≤ b0 ∧ b0 ≤ 0xEF then
    if second3 b0 b1 then
      if isCont b2 then .char (Char.ofNat (b0 % 16 * 4096 + b1 % 64 * 64 + b2 % 64)) 3 else .invalid 2
    else .invalid 1
  else if 0xF0 ≤ b0 ∧ b0 ≤ 0xF4 then
    if second4 b0 b1 then
      if isCont b2 then
        if isCont b3 then .char (Char.ofNat (b0 % 8 * 262144 + b1 % 64 * 4096 + b2 % 64 * 64 + b3 % 64)) 4
        else .invalid 3
      else .invalid 2
    else .invalid 1
  else .invalid 1

/-- Value of byte `i`, 0 past the end. -/
def natAt (bs : List U8) (i : Nat) : Nat := ((bs[i]?).getD 0).toNat

/-- The next chunk of a non-empty list of bytes. -/
def nextChunk (bs : List U8) : Chunk := utf8Step (natAt bs 0) (natAt bs 1) (natAt bs 2) (natAt bs 3)

/-- The chunks of a list of bytes (`fuel` bounds the number of turns; a chunk has at least one byte). -/
def chunks : (fuel : Nat) → List U8 → List Chunk
  | 0, _ => []
  | _ + 1, [] => []
  | fuel + 1, b :: bs =>
    match nextChunk (b :: bs) with
    | .char c n => .char c n :: chunks fuel ((b :: bs).drop n)
    | .invalid n => .invalid n :: chunks fuel ((b :: bs).drop n)

/-- The text made of the chunks, if all are characters. -/
def chunksText : List Chunk → Option (List Char)
  | [] => some []
  | .char c _ :: cs => (chunksText cs).map (c :: ·)
  | .invalid _ :: _ => none

/-- `std::str::from_utf8`; `none` is the error. -/
def fromUtf8 (bs : List U8) : Option (List Char) := chunksText (chunks bs.length bs)

/-- The character that stands for a chunk: U+FFFD for invalid bytes. -/
def Chunk.lossyChar : Chunk → Char
  | .char c _ => c
  | .invalid _ => Char.ofNat 0xFFFD

/-- `String::from_utf8_lossy`. -/
def fromUtf8Lossy (bs : List U8) : List Char := (chunks bs.length bs).map Chunk.lossyChar

end Lrvm
