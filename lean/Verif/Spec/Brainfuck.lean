import Verif.Model.Devices.Display

/-!
# The language that the example `brainfuck` understands

It is not quite Brainfuck: `>` and `<` move the pointer by one byte and a cell takes four; a loop whose cell is zero is
skipped only if it is empty.
-/

namespace Lrvm.Brainfuck.Lang

/-- The program: the bytes of the line that fit in the buffer of the keyboard. -/
def typed (line : List Char) : List U8 := (utf8 line).take 4092

/-- The byte at a position of the program; 0 after the end. -/
def charAt (prog : List U8) (pos : Nat) : Nat := ((prog[pos]?).map BitVec.toNat).getD 0

/-- A program being interpreted: the position of the next character, how far (in bytes) the pointer is from the first cell,
the 1024 cells, the positions of the open loops (the last one first), how many keys were read, and the characters that were
displayed (or the numbers, if they are not those of a character). -/
structure St where
  pos : Nat
  ptr : Word
  cells : Nat → Word
  loops : List Nat
  asked : Nat
  out : List (Except Word Char)

/-- The beginning. -/
def St.start : St := ⟨0, 0, fun _ => 0, [], 0, []⟩

/-- How the interpretation ends. -/
inductive End
  /-- At the end of the program. -/
  | done
  /-- On a character that is not understood. -/
  | unknown (c : Nat)
  /-- On a `]` without a loop. -/
  | noLoop
  /-- `count` loops are not closed, it is noticed at `pos`, and the last one is reported at `last`. -/
  | unclosed (count pos last : Nat)
  /-- The pointer is not at the beginning of a cell. -/
  | misaligned
  /-- The pointer is not on a cell. -/
  | outside
  /-- More than 1021 loops. -/
  | tooDeep
  deriving DecidableEq

/-- What happens next. -/
inductive Next
  | go (s : St)
  | stop (s : St) (e : End)

/-- Use the cell under the pointer. -/
def St.onCell (s : St) (f : Nat → Next) : Next :=
  if s.ptr.toNat % 4 ≠ 0 then .stop s .misaligned
  else if s.ptr.toNat < 4096 then f (s.ptr.toNat / 4)
  else .stop s .outside

/-- Change a cell and go on. -/
def St.store (s : St) (k : Nat) (w : Word) : Next :=
  .go { s with pos := s.pos + 1, cells := fun i => if i = k then w else s.cells i }

/-- Interpret a character. -/
def step (prog : List U8) (keys : Nat → Char) (s : St) : Next :=
  let c := charAt prog s.pos
  if c = 0 ∨ c = 10 ∨ c = 13 then
    match s.loops with
    | [] => .stop s .done
    | l :: _ => .stop s (.unclosed s.loops.length s.pos l)
  else if c = '>'.toNat then .go { s with pos := s.pos + 1, ptr := s.ptr + 1 }
  else if c = '<'.toNat then .go { s with pos := s.pos + 1, ptr := s.ptr - 1 }
  else if c = '+'.toNat then s.onCell fun k => s.store k (s.cells k + 1)
  else if c = '-'.toNat then s.onCell fun k => s.store k (s.cells k - 1)
  else if c = '.'.toNat then s.onCell fun k => .go { s with pos := s.pos + 1, out := s.out ++ [charOrWord (s.cells k)] }
  else if c = ','.toNat then
    let s' := { s with asked := s.asked + 1 }
    s'.onCell fun k => s'.store k (BitVec.ofNat 32 (keys s.asked).toNat)
  else if c = '['.toNat then
    s.onCell fun k =>
      if s.cells k = 0 then
        if charAt prog (s.pos + 1) = ']'.toNat then .go { s with pos := s.pos + 2 }
        else .stop s (.unclosed (s.loops.length + 1) (s.pos + 1) (s.loops.headD 36))
      else if 1021 ≤ s.loops.length then .stop s .tooDeep
      else .go { s with pos := s.pos + 1, loops := s.pos :: s.loops }
  else if c = ']'.toNat then
    match s.loops with
    | [] => .stop s .noLoop
    | l :: ls => s.onCell fun k =>
      if s.cells k = 0 then .go { s with pos := s.pos + 1, loops := ls } else .go { s with pos := l, loops := ls }
  else .stop s (.unknown c)

/-- The interpretation of a program ends. -/
inductive Runs (prog : List U8) (keys : Nat → Char) : St → St → End → Prop
  | stop {s s' : St} {e : End} : step prog keys s = .stop s' e → Runs prog keys s s' e
  | go {s s' t : St} {e : End} : step prog keys s = .go s' → Runs prog keys s' t e → Runs prog keys s t e

/-- The state after some characters, if the interpretation has not ended. -/
def after (prog : List U8) (keys : Nat → Char) : Nat → St → Option St
  | 0, s => some s
  | n + 1, s =>
    match step prog keys s with
    | .go s' => after prog keys n s'
    | .stop _ _ => none

/-- The texts displayed at the end. -/
def texts : End → List String
  | .done => ["\n\n=== Goodbye! ===\n"]
  | .unknown _ => ["\n===> ERROR: At character ", "\n     ", "Unknown symbol ", "\n\nNow exiting after error.\n"]
  | .noLoop => ["\n===> ERROR: At character ", "\n     ", "No loop opened, cannot close one.", "\n\nNow exiting after error.\n"]
  | .unclosed _ _ _ => ["\n===> ERROR: At character ", "\n     ", "Program exited before closing all loops: ",
      " were not closed, last one at character ", "\n\nNow exiting after error.\n"]
  | _ => []

/-- The characters displayed at the end. -/
def chars : End → List (Except Word Char)
  | .unknown c => [.ok '\'', .ok (Char.ofNat c), .ok '\'', .ok ' ', .ok '(', .ok ')']
  | _ => []

/-- The numbers displayed at the end: positions are counted from 1. -/
def numbers (s : St) : End → List (Word × NumberFormat × Bool)
  | .unknown c => [(BitVec.ofNat 32 (s.pos + 1), .dec, true), (BitVec.ofNat 32 c, .hex, false)]
  | .noLoop => [(BitVec.ofNat 32 (s.pos + 1), .dec, true)]
  | .unclosed count pos last => [(BitVec.ofNat 32 (pos + 1), .dec, true), (BitVec.ofNat 32 count, .dec, true),
      (BitVec.ofNat 32 (last + 1), .dec, true)]
  | _ => []

end Lrvm.Brainfuck.Lang

/-! # Brainfuck -/

namespace Lrvm.Brainfuck.Std

/-- A Brainfuck program: a command and what follows. -/
inductive Program
  | done
  | right (next : Program)
  | left (next : Program)
  | inc (next : Program)
  | dec (next : Program)
  | put (next : Program)
  | get (next : Program)
  | loop (body next : Program)

/-- How a program is written, with moves written `n` times. -/
def Program.text (n : Nat) : Program → List Char
  | .done => []
  | .right p => List.replicate n '>' ++ p.text n
  | .left p => List.replicate n '<' ++ p.text n
  | .inc p => '+' :: p.text n
  | .dec p => '-' :: p.text n
  | .put p => '.' :: p.text n
  | .get p => ',' :: p.text n
  | .loop b p => '[' :: (b.text n ++ ']' :: p.text n)

/-- The deepest nesting of loops. -/
def Program.depth : Program → Nat
  | .done => 0
  | .right p | .left p | .inc p | .dec p | .put p | .get p => p.depth
  | .loop b p => max (b.depth + 1) p.depth

/-- The pointer, the 1024 cells of 32 bits, how many keys were read, and what was displayed. -/
structure St where
  ptr : Nat
  cells : Nat → Word
  asked : Nat
  out : List (Except Word Char)

/-- The beginning. -/
def St.start : St := ⟨0, fun _ => 0, 0, []⟩

/-- Change the current cell. -/
def St.set (s : St) (w : Word) : St := { s with cells := fun i => if i = s.ptr then w else s.cells i }

/-- The current cell. -/
def St.cell (s : St) : Word := s.cells s.ptr

/-- `Runs keys strict false p s t`: the program `p` run from state `s` ends in state `t`. `Runs keys strict true (.loop b p) s t`:
the same from the end of the body `b` of the loop. When `strict`, no loop with a body is reached with a zero cell. -/
inductive Runs (keys : Nat → Char) (strict : Bool) : Bool → Program → St → St → Prop
  | done {s : St} : Runs keys strict false .done s s
  | right {p : Program} {s t : St} : s.ptr + 1 < 1024 → Runs keys strict false p { s with ptr := s.ptr + 1 } t →
      Runs keys strict false (.right p) s t
  | left {p : Program} {s t : St} : 0 < s.ptr → Runs keys strict false p { s with ptr := s.ptr - 1 } t →
      Runs keys strict false (.left p) s t
  | inc {p : Program} {s t : St} : Runs keys strict false p (s.set (s.cell + 1)) t → Runs keys strict false (.inc p) s t
  | dec {p : Program} {s t : St} : Runs keys strict false p (s.set (s.cell - 1)) t → Runs keys strict false (.dec p) s t
  | put {p : Program} {s t : St} : Runs keys strict false p { s with out := s.out ++ [charOrWord s.cell] } t →
      Runs keys strict false (.put p) s t
  | get {p : Program} {s t : St} :
      Runs keys strict false p { s.set (BitVec.ofNat 32 (keys s.asked).toNat) with asked := s.asked + 1 } t →
      Runs keys strict false (.get p) s t
  | skip {b p : Program} {s t : St} : s.cell = 0 → (strict = true → b = .done) → Runs keys strict false p s t →
      Runs keys strict false (.loop b p) s t
  | enter {b p : Program} {s u t : St} : s.cell ≠ 0 → Runs keys strict false b s u → Runs keys strict true (.loop b p) u t →
      Runs keys strict false (.loop b p) s t
  | leave {b p : Program} {s t : St} : s.cell = 0 → Runs keys strict false p s t → Runs keys strict true (.loop b p) s t
  | again {b p : Program} {s t : St} : s.cell ≠ 0 → Runs keys strict false (.loop b p) s t → Runs keys strict true (.loop b p) s t

end Lrvm.Brainfuck.Std
