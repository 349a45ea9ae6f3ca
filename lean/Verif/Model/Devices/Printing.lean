import Verif.Model.Devices.Display
import Verif.Model.Tools.Describe

/-!
# The printing handlers of the displays and of the debug interface

What reaches the standard output, as a text. Failures of the standard output itself (`expect("Failed to flush STDOUT")`) are not
modelled.
-/

namespace Lrvm

/-- The handler of `CharDisplay::new_print_lossy`, `lrvm_aux/src/display/character.rs:28-32`. -/
def charPrinted : Except Word Char → Text
  | .ok c => [c]
  | .error _ => ['\uFFFD']

/-- The handler of `BufferedDisplay::new_print_lossy`, `lrvm_aux/src/display/buffered.rs:70-73`. -/
def bufferPrinted : DecodedStr → Text
  | .ok t => t
  | .error bytes => fromUtf8Lossy bytes

/-- The `match` of `NumberDisplay::new_print`, `lrvm_aux/src/display/number.rs:51-56`. In `{:#010}` the `#` has no effect on a
decimal number. -/
def NumberFormat.text (n : Word) : NumberFormat → Text
  | .hex => fmtHex 0 n.toNat
  | .hexLong => fmtHex 10 n.toNat
  | .dec => fmtDec n.toNat
  | .decLong => padLeft '0' 10 (digits 10 n.toNat)

/-- The handler of `NumberDisplay::new_print`, `lrvm_aux/src/display/number.rs:50-63`. -/
def numberPrinted (call : Word × NumberFormat × Bool) : Text :=
  call.2.1.text call.1 ++ if call.2.2 then ['\n'] else []

/-- `if n < 0 { format!("-{:#0wX}", -n) } else { format!("{:#0wX}", n) }` on a signed type: the plain negation of the least
number panics in debug builds and gives the same number in release builds; `{:X}` shows the bits of a signed number,
`lrvm_aux/src/debug/basic.rs:70-90`. -/
def signedHex (pf : Profile) (w : Nat) {k : Nat} (n : BitVec k) : Res Text :=
  if n.toInt < 0 then
    if n = BitVec.intMin k ∧ pf = .debug then none else some ('-' :: fmtHex w (-n).toNat)
  else some (fmtHex w n.toNat)

/-- The `match` of `BasicDebug::new_println`, `lrvm_aux/src/debug/basic.rs:66-106`. -/
def DebugInfo.text (pf : Profile) : DebugInfo → Res Text
  | .unsignedByteHex n => some (fmtHex 4 n.toNat)
  | .unsignedHalfWordHex n => some (fmtHex 6 n.toNat)
  | .unsignedWordHex n => some (fmtHex 10 n.toNat)
  | .signedByteHex n => signedHex pf 4 n
  | .signedHalfWordHex n => signedHex pf 6 n
  | .signedWordHex n => signedHex pf 10 n
  | .unsignedByteDec n => some (fmtDec n.toNat)
  | .unsignedHalfWordDec n => some (fmtDec n.toNat)
  | .unsignedWordDec n => some (fmtDec n.toNat)
  | .signedByteDec n => some (fmtInt n.toInt)
  | .signedHalfWordDec n => some (fmtInt n.toInt)
  | .signedWordDec n => some (fmtInt n.toInt)
  | .boolean b => some (if b then "true".toList else "false".toList)
  | .utf8Char (.ok c) => some [c]
  | .utf8Char (.error code) => some ("<Invalid UTF-8 character: ".toList ++ fmtHex 10 code.toNat ++ ">".toList)
  | .encodingAgnosticChar c => some ("<Encoding-agnostic character: ".toList ++ fmtHex 10 c.toNat ++ ">".toList)
  | .debugMessage => some "debug point".toList

/-- The handler of `BasicDebug::new_println`, `lrvm_aux/src/debug/basic.rs:63-108`. -/
def debugPrinted (pf : Profile) (info : DebugInfo) : Res Text := do
  let t ← info.text pf
  some ("[debug:basic] ".toList ++ t ++ ['\n'])

/-- All that the debug interface's handler prints, or a panic. -/
def debugOutput (pf : Profile) : List DebugInfo → Res Text
  | [] => some []
  | i :: is => do
    let t ← debugPrinted pf i
    let ts ← debugOutput pf is
    some (t ++ ts)

end Lrvm
