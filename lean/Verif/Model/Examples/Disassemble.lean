import Verif.Model.Tools.Lasm

/-!
# The example `examples/disassemble`

What it prints while working is not modelled.
-/

namespace Lrvm.Disassemble

/-- `re_assemble`, `examples/disassemble/src/main.rs:9-28`; `none` is a panic (a source that does not assemble, a word that
encodes no instruction, or a panic in `to_lasm`). -/
def reAssemble (pf : Profile) (source : Text) : Res Text :=
  match assemble source with
  | none => none
  | some code =>
    match Program.decode code true with
    | .error _ => none
    | .ok p => p.toLasm pf false

/-- The lines of `examples/disassemble/src/source.lasm`. -/
def sourceLines : List String :=
  ["; This comment is here just to check it is ignored during assembling", "", "main:", "    cpy a0, 0", "    add a0, 0x10",
   "    shl a0, 4", "    shr a0, 4", "    sub a0, 0x10", "    div a1, a0, DIV_ZRO_MIN", "    sub a2, ac2", "    cmp a1, 0",
   "    ", "    ifeq", "    call test1", "    ", "    ifle", "    call test2", "", "    ifleft ZF, EF", "    call test3", "",
   "    if2 EF, ZF, CMP_XOR", "    call test4", "", "    halt", "", "test1:", "    ret", "", "test2:", "    add a0, a1",
   "    ret", "", "test3:", "    add a0, 1", "    ret", "", "test4:", "    sub a0, 1", "    cpy pc, 0x10", "    ret", ""]

/-- `SOURCE`, `examples/disassemble/src/main.rs:7`. -/
def source : Text := List.intercalate ['\n'] (sourceLines.map String.toList)

/-- The lines of `EXPECTED_LASM.trim()`, `examples/disassemble/src/tests.rs:3-29`. -/
def expectedLines : List String :=
  ["zro a0", "add a0, 0x10", "shl a0, 0x4", "shr a0, 0x4", "sub a0, 0x10", "div a1, a0, DIV_ZRO_MIN", "sub a2, ac2",
   "cmp a1, 0x0", "ifeq", "call 0x44", "ifle", "call 0x48", "ifleft ZF, EF", "call 0x50", "ifxor EF, ZF", "call 0x58", "halt",
   "ret", "add a0, a1", "ret", "inc a0", "ret", "dec a0", "jp 0x10", "ret"]

/-- `EXPECTED_LASM`, trimmed. -/
def expected : Text := List.intercalate ['\n'] (expectedLines.map String.toList)

end Lrvm.Disassemble
