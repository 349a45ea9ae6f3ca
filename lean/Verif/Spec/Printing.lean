import Verif.Spec.RunLines
import Verif.Spec.Buffers

/-!
# What the displays and the debug interface should print

From the address and the word written, with Lean's own `Nat.toDigits` (`Spec/RunLines`).
-/

namespace Lrvm.Spec.Printing

open Lrvm.Spec.RunLines

/-- The character of a code, or the replacement character if there is none. -/
def charText (w : Word) : Text := if h : w.toNat.isValidChar then [Char.ofNatAux w.toNat h] else [Char.ofNat 0xFFFD]

/-- `out` is what a printing buffered display of `n` words, with its command word at address `command`, has printed after a
history (newest request first): at each display command, the buffer of that time, with U+FFFD for each broken piece. -/
inductive Screen (command n : Nat) : List Req → Text → Prop
  | nil : Screen command n [] []
  | quiet {older out} (r : Req) : isShow command r = false → Screen command n older out → Screen command n (r :: older) out
  | show {older out bytes t} (r : Req) : isShow command r = true → Screen command n older out →
      BytesOf n (fun i => lastWord command i older) bytes → Lossy bytes t → Screen command n (r :: older) (out ++ t)

/-- The number display: by word index, hexadecimal, hexadecimal on 8 digits, decimal, decimal on 10 digits; the first four
indices with a newline. -/
def numberText (aw : Word × Word) : Text :=
  (match aw.1.toNat / 4 % 4 with
    | 0 => hex 0 aw.2.toNat
    | 1 => hex 8 aw.2.toNat
    | 2 => Nat.toDigits 10 aw.2.toNat
    | _ => zeroes 10 (Nat.toDigits 10 aw.2.toNat)) ++
  if aw.1.toNat / 4 < 4 then ['\n'] else []

/-- The number in two's complement that the last `k` bits of `n` stand for. -/
def signed (k n : Nat) : Int := if n % 2 ^ k < 2 ^ (k - 1) then n % 2 ^ k else (n % 2 ^ k : Int) - 2 ^ k

/-- A minus sign for negative numbers, then the text of the absolute value. -/
def withSign (t : Nat → Text) (i : Int) : Text := if i < 0 then '-' :: t i.natAbs else t i.natAbs

/-- The documented table of the debug interface (words 0 to 7, the ones inside the advertised size), as texts. -/
def debugText (aw : Word × Word) : Text :=
  match aw.1.toNat / 4 with
  | 0 => hex 2 (aw.2.toNat % 2 ^ 8)
  | 1 => hex 4 (aw.2.toNat % 2 ^ 16)
  | 2 => hex 8 aw.2.toNat
  | 3 => withSign (hex 2) (signed 8 aw.2.toNat)
  | 4 => withSign (hex 4) (signed 16 aw.2.toNat)
  | 5 => withSign (hex 8) (signed 32 aw.2.toNat)
  | 6 => Nat.toDigits 10 (aw.2.toNat % 2 ^ 8)
  | 7 => Nat.toDigits 10 (aw.2.toNat % 2 ^ 16)
  | 8 => Nat.toDigits 10 aw.2.toNat
  | 9 => withSign (Nat.toDigits 10) (signed 8 aw.2.toNat)
  | 10 => withSign (Nat.toDigits 10) (signed 16 aw.2.toNat)
  | 11 => withSign (Nat.toDigits 10) (signed 32 aw.2.toNat)
  | 12 => if aw.2.toNat = 0 then "false".toList else "true".toList
  | 13 => if h : aw.2.toNat.isValidChar then [Char.ofNatAux aw.2.toNat h]
    else "<Invalid UTF-8 character: ".toList ++ hex 8 aw.2.toNat ++ ">".toList
  | 14 => "<Encoding-agnostic character: ".toList ++ hex 8 aw.2.toNat ++ ">".toList
  | _ => "debug point".toList

/-- A line of the debug interface. -/
def debugLine (aw : Word × Word) : Text := "[debug:basic] ".toList ++ debugText aw ++ ['\n']

/-- The least number of a signed type, written to its hexadecimal word. -/
def Least (aw : Word × Word) : Prop :=
  aw.1.toNat / 4 = 3 ∧ aw.2.toNat % 2 ^ 8 = 2 ^ 7 ∨ aw.1.toNat / 4 = 4 ∧ aw.2.toNat % 2 ^ 16 = 2 ^ 15 ∨
  aw.1.toNat / 4 = 5 ∧ aw.2.toNat = 2 ^ 31

end Lrvm.Spec.Printing
