import Verif.Lemmas.Lasm

/-!
# The rules of each mnemonic

Generated from `Model/Tools/LasmRules.lean`; each list is checked by evaluation.
-/

namespace Lrvm

open Lasm

theorem rulesFor_cpy : (rules.filter fun r => r.mnemonic.toList == "cpy".toList) =
    [⟨"cpy", [.reg, .reg], [.byte 0x0e, .low 0, .low 1, .byte 0x00]⟩,
     ⟨"cpy", [.reg, .u16], [.byte 0x0c, .low 0, .high 1, .low 1]⟩] := by decide +kernel

theorem rulesFor_ex : (rules.filter fun r => r.mnemonic.toList == "ex".toList) =
    [⟨"ex", [.reg, .reg], [.byte 0x16, .low 0, .low 1, .byte 0x00]⟩] := by decide +kernel

theorem rulesFor_add : (rules.filter fun r => r.mnemonic.toList == "add".toList) =
    [⟨"add", [.reg, .reg], [.byte 0x1e, .low 0, .low 1, .byte 0x00]⟩,
     ⟨"add", [.reg, .u16], [.byte 0x1c, .low 0, .high 1, .low 1]⟩] := by decide +kernel

theorem rulesFor_sub : (rules.filter fun r => r.mnemonic.toList == "sub".toList) =
    [⟨"sub", [.reg, .reg], [.byte 0x26, .low 0, .low 1, .byte 0x00]⟩,
     ⟨"sub", [.reg, .u16], [.byte 0x24, .low 0, .high 1, .low 1]⟩] := by decide +kernel

theorem rulesFor_mul : (rules.filter fun r => r.mnemonic.toList == "mul".toList) =
    [⟨"mul", [.reg, .reg], [.byte 0x2e, .low 0, .low 1, .byte 0x00]⟩,
     ⟨"mul", [.reg, .u16], [.byte 0x2c, .low 0, .high 1, .low 1]⟩] := by decide +kernel

theorem rulesFor_div : (rules.filter fun r => r.mnemonic.toList == "div".toList) =
    [⟨"div", [.reg, .reg, .reg], [.byte 0x37, .low 0, .low 1, .low 2]⟩,
     ⟨"div", [.reg, .u8, .reg], [.byte 0x35, .low 0, .low 1, .low 2]⟩,
     ⟨"div", [.reg, .reg, .divMode], [.byte 0x36, .low 0, .low 1, .low 2]⟩,
     ⟨"div", [.reg, .u8, .divMode], [.byte 0x34, .low 0, .low 1, .low 2]⟩,
     ⟨"div", [.reg, .reg], [.byte 0x37, .low 0, .low 1, .byte 0x00]⟩,
     ⟨"div", [.reg, .u8], [.byte 0x35, .low 0, .low 1, .byte 0x00]⟩] := by decide +kernel

theorem rulesFor_mod : (rules.filter fun r => r.mnemonic.toList == "mod".toList) =
    [⟨"mod", [.reg, .reg, .reg], [.byte 0x3f, .low 0, .low 1, .low 2]⟩,
     ⟨"mod", [.reg, .u8, .reg], [.byte 0x3d, .low 0, .low 1, .low 2]⟩,
     ⟨"mod", [.reg, .reg, .divMode], [.byte 0x3e, .low 0, .low 1, .low 2]⟩,
     ⟨"mod", [.reg, .u8, .divMode], [.byte 0x3c, .low 0, .low 1, .low 2]⟩,
     ⟨"mod", [.reg, .reg], [.byte 0x3f, .low 0, .low 1, .byte 0x00]⟩,
     ⟨"mod", [.reg, .u8], [.byte 0x3d, .low 0, .low 1, .byte 0x00]⟩] := by decide +kernel

theorem rulesFor_and : (rules.filter fun r => r.mnemonic.toList == "and".toList) =
    [⟨"and", [.reg, .reg], [.byte 0x46, .low 0, .low 1, .byte 0x00]⟩,
     ⟨"and", [.reg, .u16], [.byte 0x44, .low 0, .high 1, .low 1]⟩] := by decide +kernel

theorem rulesFor_bor : (rules.filter fun r => r.mnemonic.toList == "bor".toList) =
    [⟨"bor", [.reg, .reg], [.byte 0x4e, .low 0, .low 1, .byte 0x00]⟩,
     ⟨"bor", [.reg, .u16], [.byte 0x4c, .low 0, .high 1, .low 1]⟩] := by decide +kernel

theorem rulesFor_xor : (rules.filter fun r => r.mnemonic.toList == "xor".toList) =
    [⟨"xor", [.reg, .reg], [.byte 0x56, .low 0, .low 1, .byte 0x00]⟩,
     ⟨"xor", [.reg, .u16], [.byte 0x54, .low 0, .high 1, .low 1]⟩] := by decide +kernel

theorem rulesFor_shl : (rules.filter fun r => r.mnemonic.toList == "shl".toList) =
    [⟨"shl", [.reg, .reg], [.byte 0x5e, .low 0, .low 1, .byte 0x00]⟩,
     ⟨"shl", [.reg, .u8], [.byte 0x5c, .low 0, .low 1, .byte 0x00]⟩] := by decide +kernel

theorem rulesFor_shr : (rules.filter fun r => r.mnemonic.toList == "shr".toList) =
    [⟨"shr", [.reg, .reg], [.byte 0x66, .low 0, .low 1, .byte 0x00]⟩,
     ⟨"shr", [.reg, .u8], [.byte 0x64, .low 0, .low 1, .byte 0x00]⟩] := by decide +kernel

theorem rulesFor_cmp : (rules.filter fun r => r.mnemonic.toList == "cmp".toList) =
    [⟨"cmp", [.reg, .reg], [.byte 0x6e, .low 0, .low 1, .byte 0x00]⟩,
     ⟨"cmp", [.reg, .u16], [.byte 0x6c, .low 0, .high 1, .low 1]⟩] := by decide +kernel

theorem rulesFor_jpr : (rules.filter fun r => r.mnemonic.toList == "jpr".toList) =
    [⟨"jpr", [.reg], [.byte 0x74, .low 0, .byte 0x00, .byte 0x00]⟩,
     ⟨"jpr", [.i16], [.byte 0x70, .high 0, .low 0, .byte 0x00]⟩] := by decide +kernel

theorem rulesFor_lsm : (rules.filter fun r => r.mnemonic.toList == "lsm".toList) =
    [⟨"lsm", [.reg], [.byte 0x7c, .low 0, .byte 0x00, .byte 0x00]⟩,
     ⟨"lsm", [.u16], [.byte 0x78, .high 0, .low 0, .byte 0x00]⟩] := by decide +kernel

theorem rulesFor_itr : (rules.filter fun r => r.mnemonic.toList == "itr".toList) =
    [⟨"itr", [.reg], [.byte 0x84, .undefined, .byte 0x00, .byte 0x00]⟩,
     ⟨"itr", [.u8], [.byte 0x80, .undefined, .undefined, .byte 0x00]⟩] := by decide +kernel

theorem rulesFor_if : (rules.filter fun r => r.mnemonic.toList == "if".toList) =
    [⟨"if", [.reg], [.byte 0x8c, .low 0, .byte 0x00, .byte 0x00]⟩,
     ⟨"if", [.arflag], [.byte 0x88, .low 0, .byte 0x00, .byte 0x00]⟩] := by decide +kernel

theorem rulesFor_ifn : (rules.filter fun r => r.mnemonic.toList == "ifn".toList) =
    [⟨"ifn", [.reg], [.byte 0x94, .low 0, .byte 0x00, .byte 0x00]⟩,
     ⟨"ifn", [.arflag], [.byte 0x90, .low 0, .byte 0x00, .byte 0x00]⟩] := by decide +kernel

theorem rulesFor_if2 : (rules.filter fun r => r.mnemonic.toList == "if2".toList) =
    [⟨"if2", [.reg, .reg, .reg], [.byte 0x9f, .low 0, .low 1, .low 2]⟩,
     ⟨"if2", [.reg, .reg, .if2Mode], [.byte 0x9e, .low 0, .low 1, .low 2]⟩,
     ⟨"if2", [.reg, .arflag, .reg], [.byte 0x9d, .low 0, .low 1, .low 2]⟩,
     ⟨"if2", [.reg, .arflag, .if2Mode], [.byte 0x9c, .low 0, .low 1, .low 2]⟩,
     ⟨"if2", [.arflag, .reg, .reg], [.byte 0x9b, .low 0, .low 1, .low 2]⟩,
     ⟨"if2", [.arflag, .reg, .if2Mode], [.byte 0x9a, .low 0, .low 1, .low 2]⟩,
     ⟨"if2", [.arflag, .arflag, .reg], [.byte 0x99, .low 0, .low 1, .low 2]⟩,
     ⟨"if2", [.arflag, .arflag, .if2Mode], [.byte 0x98, .low 0, .low 1, .low 2]⟩] := by decide +kernel

theorem rulesFor_lsa : (rules.filter fun r => r.mnemonic.toList == "lsa".toList) =
    [⟨"lsa", [.reg, .reg, .reg], [.byte 0xa7, .low 0, .low 1, .low 2]⟩,
     ⟨"lsa", [.reg, .u8, .reg], [.byte 0xa5, .low 0, .low 1, .low 2]⟩,
     ⟨"lsa", [.reg, .reg, .i8], [.byte 0xa6, .low 0, .low 1, .low 2]⟩,
     ⟨"lsa", [.reg, .u8, .i8], [.byte 0xa4, .low 0, .low 1, .low 2]⟩,
     ⟨"lsa", [.reg, .reg], [.byte 0xa6, .low 0, .low 1, .byte 0x00]⟩,
     ⟨"lsa", [.reg, .u8], [.byte 0xa4, .low 0, .low 1, .byte 0x00]⟩] := by decide +kernel

theorem rulesFor_lea : (rules.filter fun r => r.mnemonic.toList == "lea".toList) =
    [⟨"lea", [.reg, .reg, .reg], [.byte 0xaf, .low 0, .low 1, .low 2]⟩,
     ⟨"lea", [.reg, .i8, .reg], [.byte 0xad, .low 0, .low 1, .low 2]⟩,
     ⟨"lea", [.u8, .reg, .reg], [.byte 0xab, .low 0, .low 1, .low 2]⟩,
     ⟨"lea", [.u8, .i8, .reg], [.byte 0xa9, .low 0, .low 1, .low 2]⟩,
     ⟨"lea", [.reg, .reg, .i8], [.byte 0xae, .low 0, .low 1, .low 2]⟩,
     ⟨"lea", [.reg, .i8, .i8], [.byte 0xac, .low 0, .low 1, .low 2]⟩,
     ⟨"lea", [.u8, .reg, .i8], [.byte 0xaa, .low 0, .low 1, .low 2]⟩,
     ⟨"lea", [.u8, .i8, .i8], [.byte 0xa8, .low 0, .low 1, .low 2]⟩,
     ⟨"lea", [.reg, .reg], [.byte 0xae, .low 0, .low 1, .byte 0x00]⟩,
     ⟨"lea", [.reg, .i8], [.byte 0xac, .low 0, .low 1, .byte 0x00]⟩,
     ⟨"lea", [.u8, .reg], [.byte 0xaa, .low 0, .low 1, .byte 0x00]⟩,
     ⟨"lea", [.u8, .i8], [.byte 0xa8, .low 0, .low 1, .byte 0x00]⟩,
     ⟨"lea", [.reg], [.byte 0xae, .low 0, .byte 0x00, .byte 0x00]⟩,
     ⟨"lea", [.u8], [.byte 0xaa, .low 0, .byte 0x00, .byte 0x00]⟩] := by decide +kernel

theorem rulesFor_wsa : (rules.filter fun r => r.mnemonic.toList == "wsa".toList) =
    [⟨"wsa", [.reg, .reg, .reg], [.byte 0xb7, .low 0, .low 1, .low 2]⟩,
     ⟨"wsa", [.u8, .reg, .reg], [.byte 0xb3, .low 0, .low 1, .low 2]⟩,
     ⟨"wsa", [.reg, .reg, .u8], [.byte 0xb6, .low 0, .low 1, .low 2]⟩,
     ⟨"wsa", [.u8, .reg, .u8], [.byte 0xb2, .low 0, .low 1, .low 2]⟩,
     ⟨"wsa", [.reg, .i8, .reg], [.byte 0xb5, .low 0, .low 1, .low 2]⟩,
     ⟨"wsa", [.u8, .i8, .reg], [.byte 0xb1, .low 0, .low 1, .low 2]⟩,
     ⟨"wsa", [.reg, .i8, .u8], [.byte 0xb4, .low 0, .low 1, .low 2]⟩,
     ⟨"wsa", [.u8, .i8, .u8], [.byte 0xb0, .low 0, .low 1, .low 2]⟩,
     ⟨"wsa", [.reg, .reg], [.byte 0xb5, .low 0, .byte 0x00, .low 1]⟩,
     ⟨"wsa", [.u8, .reg], [.byte 0xb1, .low 0, .byte 0x00, .low 1]⟩,
     ⟨"wsa", [.reg, .u8], [.byte 0xb4, .low 0, .byte 0x00, .low 1]⟩,
     ⟨"wsa", [.u8, .u8], [.byte 0xb0, .low 0, .byte 0x00, .low 1]⟩] := by decide +kernel

theorem rulesFor_wea : (rules.filter fun r => r.mnemonic.toList == "wea".toList) =
    [⟨"wea", [.reg, .reg, .reg], [.byte 0xbf, .low 0, .low 1, .low 2]⟩,
     ⟨"wea", [.reg, .i8, .reg], [.byte 0xbd, .low 0, .low 1, .low 2]⟩,
     ⟨"wea", [.u8, .reg, .reg], [.byte 0xbb, .low 0, .low 1, .low 2]⟩,
     ⟨"wea", [.u8, .i8, .reg], [.byte 0xb9, .low 0, .low 1, .low 2]⟩,
     ⟨"wea", [.reg, .reg, .i8], [.byte 0xbe, .low 0, .low 1, .low 2]⟩,
     ⟨"wea", [.reg, .i8, .i8], [.byte 0xbc, .low 0, .low 1, .low 2]⟩,
     ⟨"wea", [.u8, .reg, .i8], [.byte 0xba, .low 0, .low 1, .low 2]⟩,
     ⟨"wea", [.u8, .i8, .i8], [.byte 0xb8, .low 0, .low 1, .low 2]⟩,
     ⟨"wea", [.reg, .reg], [.byte 0xbe, .low 0, .low 1, .byte 0x00]⟩,
     ⟨"wea", [.reg, .i8], [.byte 0xbc, .low 0, .low 1, .byte 0x00]⟩,
     ⟨"wea", [.u8, .reg], [.byte 0xba, .low 0, .low 1, .byte 0x00]⟩,
     ⟨"wea", [.u8, .i8], [.byte 0xb8, .low 0, .low 1, .byte 0x00]⟩,
     ⟨"wea", [.reg], [.byte 0xbe, .low 0, .byte 0x00, .byte 0x00]⟩,
     ⟨"wea", [.u8], [.byte 0xba, .low 0, .byte 0x00, .byte 0x00]⟩] := by decide +kernel

theorem rulesFor_srm : (rules.filter fun r => r.mnemonic.toList == "srm".toList) =
    [⟨"srm", [.reg, .reg, .reg], [.byte 0xbf, .low 0, .low 1, .low 2]⟩,
     ⟨"srm", [.reg, .i8, .reg], [.byte 0xbd, .low 0, .low 1, .low 2]⟩,
     ⟨"srm", [.u8, .reg, .reg], [.byte 0xbb, .low 0, .low 1, .low 2]⟩,
     ⟨"srm", [.u8, .i8, .reg], [.byte 0xb9, .low 0, .low 1, .low 2]⟩] := by decide +kernel

theorem rulesFor_push : (rules.filter fun r => r.mnemonic.toList == "push".toList) =
    [⟨"push", [.reg], [.byte 0xcc, .low 0, .byte 0x00, .byte 0x00]⟩,
     ⟨"push", [.u16], [.byte 0xc8, .high 0, .low 0, .byte 0x00]⟩] := by decide +kernel

theorem rulesFor_pop : (rules.filter fun r => r.mnemonic.toList == "pop".toList) =
    [⟨"pop", [.reg], [.byte 0xd4, .low 0, .byte 0x00, .byte 0x00]⟩] := by decide +kernel

theorem rulesFor_call : (rules.filter fun r => r.mnemonic.toList == "call".toList) =
    [⟨"call", [.reg], [.byte 0xdc, .low 0, .byte 0x00, .byte 0x00]⟩,
     ⟨"call", [.u16], [.byte 0xd8, .high 0, .low 0, .byte 0x00]⟩] := by decide +kernel

theorem rulesFor_hwd : (rules.filter fun r => r.mnemonic.toList == "hwd".toList) =
    [⟨"hwd", [.reg, .reg, .reg], [.byte 0xe7, .low 0, .low 1, .low 2]⟩,
     ⟨"hwd", [.reg, .reg, .hwInfo], [.byte 0xe6, .low 0, .low 1, .low 2]⟩,
     ⟨"hwd", [.reg, .u8, .reg], [.byte 0xe5, .low 0, .low 1, .low 2]⟩,
     ⟨"hwd", [.reg, .u8, .hwInfo], [.byte 0xe4, .low 0, .low 1, .low 2]⟩] := by decide +kernel

theorem rulesFor_cycles : (rules.filter fun r => r.mnemonic.toList == "cycles".toList) =
    [⟨"cycles", [.reg], [.byte 0xec, .low 0, .byte 0x00, .byte 0x00]⟩] := by decide +kernel

theorem rulesFor_halt : (rules.filter fun r => r.mnemonic.toList == "halt".toList) =
    [⟨"halt", [], [.byte 0xf0, .byte 0x00, .byte 0x00, .byte 0x00]⟩] := by decide +kernel

theorem rulesFor_reset : (rules.filter fun r => r.mnemonic.toList == "reset".toList) =
    [⟨"reset", [.reg], [.byte 0xfc, .low 0, .byte 0x00, .byte 0x00]⟩,
     ⟨"reset", [.u8], [.byte 0xf8, .low 0, .byte 0x00, .byte 0x00]⟩] := by decide +kernel

theorem rulesFor_zro : (rules.filter fun r => r.mnemonic.toList == "zro".toList) =
    [⟨"zro", [.reg], [.byte 0x56, .low 0, .low 0, .byte 0x00]⟩] := by decide +kernel

theorem rulesFor_not : (rules.filter fun r => r.mnemonic.toList == "not".toList) =
    [⟨"not", [.reg], [.byte 0x56, .low 0, .low 0, .byte 0x00]⟩] := by decide +kernel

theorem rulesFor_inc : (rules.filter fun r => r.mnemonic.toList == "inc".toList) =
    [⟨"inc", [.reg], [.byte 0x1c, .low 0, .byte 0x00, .byte 0x01]⟩] := by decide +kernel

theorem rulesFor_dec : (rules.filter fun r => r.mnemonic.toList == "dec".toList) =
    [⟨"dec", [.reg], [.byte 0x24, .low 0, .byte 0x00, .byte 0x01]⟩] := by decide +kernel

theorem rulesFor_ifeq : (rules.filter fun r => r.mnemonic.toList == "ifeq".toList) =
    [⟨"ifeq", [], [.byte 0x88, .byte 0x00, .byte 0x00, .byte 0x00]⟩] := by decide +kernel

theorem rulesFor_ifnq : (rules.filter fun r => r.mnemonic.toList == "ifnq".toList) =
    [⟨"ifnq", [], [.byte 0x90, .byte 0x00, .byte 0x00, .byte 0x00]⟩] := by decide +kernel

theorem rulesFor_ifgt : (rules.filter fun r => r.mnemonic.toList == "ifgt".toList) =
    [⟨"ifgt", [], [.byte 0x98, .byte 0x00, .byte 0x01, .byte 0x04]⟩] := by decide +kernel

theorem rulesFor_ifge : (rules.filter fun r => r.mnemonic.toList == "ifge".toList) =
    [⟨"ifge", [], [.byte 0x90, .byte 0x01, .byte 0x00, .byte 0x00]⟩] := by decide +kernel

theorem rulesFor_ifls : (rules.filter fun r => r.mnemonic.toList == "ifls".toList) =
    [⟨"ifls", [], [.byte 0x88, .byte 0x01, .byte 0x00, .byte 0x00]⟩] := by decide +kernel

theorem rulesFor_ifle : (rules.filter fun r => r.mnemonic.toList == "ifle".toList) =
    [⟨"ifle", [], [.byte 0x98, .byte 0x00, .byte 0x01, .byte 0x01]⟩] := by decide +kernel

theorem rulesFor_ifor : (rules.filter fun r => r.mnemonic.toList == "ifor".toList) =
    [⟨"ifor", [.reg, .reg], [.byte 0x9e, .low 0, .low 1, .byte 0x01]⟩,
     ⟨"ifor", [.reg, .arflag], [.byte 0x9c, .low 0, .low 1, .byte 0x01]⟩,
     ⟨"ifor", [.arflag, .reg], [.byte 0x9a, .low 0, .low 1, .byte 0x01]⟩,
     ⟨"ifor", [.arflag, .arflag], [.byte 0x98, .low 0, .low 1, .byte 0x01]⟩] := by decide +kernel

theorem rulesFor_ifand : (rules.filter fun r => r.mnemonic.toList == "ifand".toList) =
    [⟨"ifand", [.reg, .reg], [.byte 0x9e, .low 0, .low 1, .byte 0x02]⟩,
     ⟨"ifand", [.reg, .arflag], [.byte 0x9c, .low 0, .low 1, .byte 0x02]⟩,
     ⟨"ifand", [.arflag, .reg], [.byte 0x9a, .low 0, .low 1, .byte 0x02]⟩,
     ⟨"ifand", [.arflag, .arflag], [.byte 0x98, .low 0, .low 1, .byte 0x02]⟩] := by decide +kernel

theorem rulesFor_ifxor : (rules.filter fun r => r.mnemonic.toList == "ifxor".toList) =
    [⟨"ifxor", [.reg, .reg], [.byte 0x9e, .low 0, .low 1, .byte 0x03]⟩,
     ⟨"ifxor", [.reg, .arflag], [.byte 0x9c, .low 0, .low 1, .byte 0x03]⟩,
     ⟨"ifxor", [.arflag, .reg], [.byte 0x9a, .low 0, .low 1, .byte 0x03]⟩,
     ⟨"ifxor", [.arflag, .arflag], [.byte 0x98, .low 0, .low 1, .byte 0x03]⟩] := by decide +kernel

theorem rulesFor_ifnor : (rules.filter fun r => r.mnemonic.toList == "ifnor".toList) =
    [⟨"ifnor", [.reg, .reg], [.byte 0x9e, .low 0, .low 1, .byte 0x04]⟩,
     ⟨"ifnor", [.reg, .arflag], [.byte 0x9c, .low 0, .low 1, .byte 0x04]⟩,
     ⟨"ifnor", [.arflag, .reg], [.byte 0x9a, .low 0, .low 1, .byte 0x04]⟩,
     ⟨"ifnor", [.arflag, .arflag], [.byte 0x98, .low 0, .low 1, .byte 0x04]⟩] := by decide +kernel

theorem rulesFor_ifnand : (rules.filter fun r => r.mnemonic.toList == "ifnand".toList) =
    [⟨"ifnand", [.reg, .reg], [.byte 0x9e, .low 0, .low 1, .byte 0x05]⟩,
     ⟨"ifnand", [.reg, .arflag], [.byte 0x9c, .low 0, .low 1, .byte 0x05]⟩,
     ⟨"ifnand", [.arflag, .reg], [.byte 0x9a, .low 0, .low 1, .byte 0x05]⟩,
     ⟨"ifnand", [.arflag, .arflag], [.byte 0x98, .low 0, .low 1, .byte 0x05]⟩] := by decide +kernel

theorem rulesFor_ifleft : (rules.filter fun r => r.mnemonic.toList == "ifleft".toList) =
    [⟨"ifleft", [.reg, .reg], [.byte 0x9e, .low 0, .low 1, .byte 0x06]⟩,
     ⟨"ifleft", [.reg, .arflag], [.byte 0x9c, .low 0, .low 1, .byte 0x06]⟩,
     ⟨"ifleft", [.arflag, .reg], [.byte 0x9a, .low 0, .low 1, .byte 0x06]⟩,
     ⟨"ifleft", [.arflag, .arflag], [.byte 0x98, .low 0, .low 1, .byte 0x06]⟩] := by decide +kernel

theorem rulesFor_ifright : (rules.filter fun r => r.mnemonic.toList == "ifright".toList) =
    [⟨"ifright", [.reg, .reg], [.byte 0x9e, .low 0, .low 1, .byte 0x07]⟩,
     ⟨"ifright", [.reg, .arflag], [.byte 0x9c, .low 0, .low 1, .byte 0x07]⟩,
     ⟨"ifright", [.arflag, .reg], [.byte 0x9a, .low 0, .low 1, .byte 0x07]⟩,
     ⟨"ifright", [.arflag, .arflag], [.byte 0x98, .low 0, .low 1, .byte 0x07]⟩] := by decide +kernel

theorem rulesFor_jp : (rules.filter fun r => r.mnemonic.toList == "jp".toList) =
    [⟨"jp", [.reg], [.byte 0x0e, .byte 0x16, .low 0, .byte 0x00]⟩,
     ⟨"jp", [.u16], [.byte 0x0c, .byte 0x16, .high 0, .low 0]⟩] := by decide +kernel

theorem rulesFor_ret : (rules.filter fun r => r.mnemonic.toList == "ret".toList) =
    [⟨"ret", [], [.byte 0xd4, .byte 0x16, .byte 0x00, .byte 0x00]⟩] := by decide +kernel

end Lrvm
