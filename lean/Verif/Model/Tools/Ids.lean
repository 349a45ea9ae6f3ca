import Verif.Model.Bus

/-!
# `lrvm_tools/src/ids/mod.rs`

The standard library's `DefaultHasher`, used there, is SipHash with one round per block, three final rounds and zero keys
(`core::hash::sip`, `SipHasher13::new_with_keys(0, 0)`).
-/

namespace Lrvm

/-- The state of SipHash. -/
structure Sip where
  v0 : U64
  v1 : U64
  v2 : U64
  v3 : U64
  deriving DecidableEq

/-- `Sip13Rounds::c_rounds`, one round (`core::hash::sip`, macro `compress!`). -/
def Sip.round (s : Sip) : Sip :=
  let v0 := s.v0 + s.v1
  let v2 := s.v2 + s.v3
  let v1 := s.v1.rotateLeft 13 ^^^ v0
  let v0 := v0.rotateLeft 32
  let v3 := s.v3.rotateLeft 16 ^^^ v2
  let v0 := v0 + v3
  let v3 := v3.rotateLeft 21 ^^^ v0
  let v2 := v2 + v1
  let v1 := v1.rotateLeft 17 ^^^ v2
  let v2 := v2.rotateLeft 32
  { v0, v1, v2, v3 }

/-- `Hasher::reset` with the keys `k0` and `k1`. -/
def Sip.start (k0 k1 : U64) : Sip where
  v0 := k0 ^^^ 0x736f6d6570736575
  v1 := k1 ^^^ 0x646f72616e646f6d
  v2 := k0 ^^^ 0x6c7967656e657261
  v3 := k1 ^^^ 0x7465646279746573

/-- The absorption of a block of 8 bytes. -/
def Sip.absorb (s : Sip) (m : U64) : Sip :=
  let s := Sip.round { s with v3 := s.v3 ^^^ m }
  { s with v0 := s.v0 ^^^ m }

/-- At most 8 bytes as an integer, the first byte being the weakest. -/
def leWord : List U8 → U64
  | [] => 0
  | b :: bs => (leWord bs <<< 8) ||| b.setWidth 64

/-- The blocks of 8 bytes; the last one, possibly empty, is completed by the length (modulo 256) of the whole message in its
strongest byte. -/
def sipBlocks (len : Nat) (bytes : List U8) : List U64 :=
  if 8 ≤ bytes.length then leWord (bytes.take 8) :: sipBlocks len (bytes.drop 8)
  else [(BitVec.ofNat 64 (len % 256) <<< 56) ||| leWord bytes]
termination_by bytes.length
decreasing_by simp only [List.length_drop]; omega

/-- SipHash-1-3 of a message. Simplification: the standard library absorbs the message piece by piece, here it is whole. -/
def sipHash13 (k0 k1 : U64) (bytes : List U8) : U64 :=
  let s := (sipBlocks bytes.length bytes).foldl Sip.absorb (Sip.start k0 k1)
  let s := Sip.round (Sip.round (Sip.round { s with v2 := s.v2 ^^^ 0xFF }))
  s.v0 ^^^ s.v1 ^^^ s.v2 ^^^ s.v3

/-- `gen_aux_id`, `lrvm_tools/src/ids/mod.rs:3-7`: `str::hash` gives the hasher the bytes of the string then 0xFF. -/
def genAuxId (name : List Char) : U64 := sipHash13 0 0 (utf8 name ++ [0xFF])

end Lrvm
