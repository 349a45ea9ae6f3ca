import Verif.Lemmas.LasmAppend
import Verif.Model.Examples.HwDetect

/-!
# Assembling the example `hw_detect`
-/

namespace Lrvm.HwDetect

open Spec Lasm Lrvm

def labels : List (Text × Nat) :=
  [("main".toList, 0), ("main.loop".toList, 40), ("extract_infos".toList, 64)]

def lines0 : List Text :=
  [";",
    "; This program detects all components connected to the motherboard (even if they are not memory in memory).",
    "; It then writes informations about them in a dedicated RAM component.",
    ";",
    "; The exact format is the same for each component:",
    "; ",
    "; * uid (8 bytes)",
    "; * name (32 bytes)",
    "; * size (4 bytes)",
    "; * category (4 bytes)",
    "; * type (4 bytes)",
    "; * model (4 bytes)",
    "; * data (8 bytes)",
    "; * is mapped (4 bytes)",
    "; * map start addr (4 bytes)",
    "; * map end addr (4 bytes)",
    ";",
    "; For a total of 76 bytes per component.",
    ";",
    ";",
    "; List of registers:",
    ";  * ac0  : Address to write the current component's informations to",
    ";  * a0   : ID of the current component to get informations from",
    ";  * a1   : Number of components connected to the motherboard",
    "",
    "main:",
    "    ; Count number of connected components",
    "    ; The RAM we will write the metadata on starts at address 0x1000",
    "    cpy ac0, 0x1000",
    "    hwd a1, 0, HWD_COUNT",
    "    cpy a0, 0",
    "",
    "    wsa ac0, 0, a1",
    "    add ac0, 4",
    "",
    "    ; Halt if there is no component",
    "    cmp a1, 0",
    "    ifeq",
    "    halt"].map String.toList

def code0 : List Word := [0xc0a1000, 0xe4010000, 0xc000000, 0xb50a0001, 0x1c0a0004, 0x6c010000, 0x88000000, 0xf0000000]

theorem chunk0 : ChunkOk labels 0 [] lines0 32 "main".toList [("main".toList, 0)] code0 := by decide +kernel

def lines1 : List Text :=
  ["",
    "    ; Prepare the stack",
    "    ; The stack RAM starts at address 0x2000, but as the stack goes down each time, we need to use the end address",
    "    cpy ssp, 0x2020",
    "    sub ssp, 0x4",
    "",
    ".loop:",
    "    ; Extract metadata of the current component",
    "    call extract_infos",
    "",
    "    ; Indicate we want to get informations about the next component",
    "    add a0, 1",
    "",
    "    ; If we reached the total number of components...",
    "    cmp a0, a1",
    "    ifeq",
    "    ; We simply halt the processor (equivalent of a program exit here)",
    "    halt",
    "",
    "    ; Else, we loop to extract informations about the next component",
    "    jp .loop"].map String.toList

def code1 : List Word := [0xc182020, 0x24180004, 0xd8004000, 0x1c000001, 0x6e000100, 0x88000000, 0xf0000000, 0xc160028]

theorem chunk1 : ChunkOk labels 32 "main".toList lines1 64 "main".toList [("main.loop".toList, 40)] code1 := by decide +kernel

def lines2 : List Text :=
  ["",
    "; Write the informations of the component specified in `a0`",
    "; All routine registers (rr0 to rr7) are rewritten by this routine.",
    "extract_infos:",
    "    ; UID",
    "    hwd rr0, a0, HWD_UID_UPPER",
    "    hwd rr1, a0, HWD_UID_LOWER",
    "",
    "    wsa ac0, 0x00, rr0",
    "    wsa ac0, 0x04, rr1",
    "",
    "    ; Name",
    "    hwd rr0, a0, HWD_NAME_W1",
    "    hwd rr1, a0, HWD_NAME_W2",
    "    hwd rr2, a0, HWD_NAME_W3",
    "    hwd rr3, a0, HWD_NAME_W4"].map String.toList

def code2 : List Word := [0xe60d0001, 0xe60e0002, 0xb50a000d, 0xb50a040e, 0xe60d0011, 0xe60e0012, 0xe60f0013, 0xe6100014]

theorem chunk2 : ChunkOk labels 64 "main".toList lines2 96 "extract_infos".toList [("extract_infos".toList, 64)] code2 := by decide +kernel

def lines3 : List Text :=
  ["    hwd rr4, a0, HWD_NAME_W5",
    "    hwd rr5, a0, HWD_NAME_W6",
    "    hwd rr6, a0, HWD_NAME_W7",
    "    hwd rr7, a0, HWD_NAME_W8",
    "",
    "    wsa ac0, 0x08, rr0",
    "    wsa ac0, 0x0C, rr1",
    "    wsa ac0, 0x10, rr2",
    "    wsa ac0, 0x14, rr3"].map String.toList

def code3 : List Word := [0xe6110015, 0xe6120016, 0xe6130017, 0xe6140018, 0xb50a080d, 0xb50a0c0e, 0xb50a100f, 0xb50a1410]

theorem chunk3 : ChunkOk labels 96 "extract_infos".toList lines3 128 "extract_infos".toList [] code3 := by decide +kernel

def lines4 : List Text :=
  ["    wsa ac0, 0x18, rr4",
    "    wsa ac0, 0x1C, rr5",
    "    wsa ac0, 0x20, rr6",
    "    wsa ac0, 0x24, rr7",
    "",
    "    ; Size",
    "    hwd rr0, a0, HWD_SIZE",
    "",
    "    wsa ac0, 0x28, rr0",
    "",
    "    ; Category",
    "    hwd rr0, a0, HWD_CAT",
    "",
    "    wsa ac0, 0x2C, rr0"].map String.toList

def code4 : List Word := [0xb50a1811, 0xb50a1c12, 0xb50a2013, 0xb50a2414, 0xe60d0020, 0xb50a280d, 0xe60d0021, 0xb50a2c0d]

theorem chunk4 : ChunkOk labels 128 "extract_infos".toList lines4 160 "extract_infos".toList [] code4 := by decide +kernel

def lines5 : List Text :=
  ["",
    "    ; Type",
    "    hwd rr0, a0, HWD_TYPE",
    "",
    "    wsa ac0, 0x30, rr0",
    "",
    "    ; Model",
    "    hwd rr0, a0, HWD_MODEL",
    "",
    "    wsa ac0, 0x34, rr0",
    "",
    "    ; Additional data",
    "    hwd rr0, a0, HWD_DATA_UPPER",
    "    hwd rr1, a0, HWD_DATA_LOWER",
    "",
    "    wsa ac0, 0x38, rr0",
    "    wsa ac0, 0x3C, rr1"].map String.toList

def code5 : List Word := [0xe60d0022, 0xb50a300d, 0xe60d0023, 0xb50a340d, 0xe60d0024, 0xe60e0025, 0xb50a380d, 0xb50a3c0e]

theorem chunk5 : ChunkOk labels 160 "extract_infos".toList lines5 192 "extract_infos".toList [] code5 := by decide +kernel

def lines6 : List Text :=
  ["",
    "    ; Mapping",
    "    hwd rr0, a0, HWD_IS_MAPPED",
    "    cmp rr0, 1",
    "    ifnq",
    "    jpr 0x18",
    "",
    "    hwd rr0, a0, HWD_MAP_START",
    "    hwd rr1, a0, HWD_MAP_END",
    "",
    "    wsa ac0, 0x40, 1",
    "    wsa ac0, 0x44, rr0"].map String.toList

def code6 : List Word := [0xe60d00a0, 0x6c0d0001, 0x90000000, 0x70001800, 0xe60d00a1, 0xe60e00a2, 0xb40a4001, 0xb50a440d]

theorem chunk6 : ChunkOk labels 192 "extract_infos".toList lines6 224 "extract_infos".toList [] code6 := by decide +kernel

def lines7 : List Text :=
  ["    wsa ac0, 0x48, rr1",
    "",
    "    ; Shift memory address",
    "    add ac0, 0x4C",
    "",
    "    ret",
    ""].map String.toList

def code7 : List Word := [0xb50a480e, 0x1c0a004c, 0xd4160000]

theorem chunk7 : ChunkOk labels 224 "extract_infos".toList lines7 236 "extract_infos".toList [] code7 := by decide +kernel

/-- The words of the program. -/
def code : List Word := code0 ++ code1 ++ code2 ++ code3 ++ code4 ++ code5 ++ code6 ++ code7

set_option maxRecDepth 100000 in
theorem source_lines : sourceLines = lines0 ++ lines1 ++ lines2 ++ lines3 ++ lines4 ++ lines5 ++ lines6 ++ lines7 := rfl

theorem assemble_source : assembleWords source = some code := by
  unfold source
  rw [source_lines]
  exact ChunkOk.toWords (((((((chunk0.append chunk1).append chunk2).append chunk3).append chunk4).append chunk5).append chunk6).append chunk7) (by decide +kernel) (by simp [lines0])

end Lrvm.HwDetect
