import Verif.Model.Prelude

/-!
# Bytes and words (`lrvm_tools/src/bytes/mod.rs`)
-/

namespace Lrvm

/-- `to_be_bytes` of an unsigned type of `n` bytes: most significant byte first. -/
def beBytes (n : Nat) (x : BitVec w) : List U8 :=
  (List.range n).map fun i => (x >>> (8 * (n - 1 - i))).setWidth 8

/-- The loop of `bytes_to_words`, `lrvm_tools/src/bytes/mod.rs:11-18`, from index `i` with the partial
word `word` (the bytes fill disjoint bits of a word cleared every fourth byte, so the plain addition
cannot overflow and is written as a wrapping one). Returns the pushed words and the last partial word. -/
def bytesToWordsLoop : (i : Nat) → (word : Word) → List U8 → List Word × Word
  | _, word, [] => ([], word)
  | i, word, b :: bs =>
    let word := word + (b.setWidth 32 <<< ((3 - i % 4) * 8))
    if i % 4 = 3 then
      let r := bytesToWordsLoop (i + 1) 0 bs
      (word :: r.1, r.2)
    else bytesToWordsLoop (i + 1) word bs

/-- `bytes_to_words`, `lrvm_tools/src/bytes/mod.rs:4-25`. -/
def bytesToWords (bytes : List U8) : List Word :=
  let rem := bytes.length % 4
  let r := bytesToWordsLoop 0 0 bytes
  if rem ≠ 0 then r.1 ++ [r.2 <<< ((4 - rem) * 8)] else r.1

/-- `words_to_bytes`, `lrvm_tools/src/bytes/mod.rs:28-34`. -/
def wordsToBytes (words : List Word) : List U8 := words.flatMap (beBytes 4)

end Lrvm
