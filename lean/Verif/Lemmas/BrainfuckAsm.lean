import Verif.Lemmas.LasmAppend
import Verif.Model.Examples.Brainfuck

/-!
# Assembling the example `brainfuck`
-/

namespace Lrvm.Brainfuck

open Spec Lasm Lrvm

def labels : List (Text × Nat) :=
  [("main".toList, 0),
    ("print".toList, 48),
    ("print.cpy_bytes".toList, 52),
    ("print.trigger_disp".toList, 84),
    ("read_line".toList, 100),
    ("read_char".toList, 112),
    ("print_char".toList, 132),
    ("print_hex".toList, 144),
    ("print_dec_newline".toList, 156),
    ("interpret_bf".toList, 168),
    ("interpret_bf.main".toList, 180),
    ("interpret_bf.complete".toList, 224),
    ("interpret_bf.next_char".toList, 280),
    ("interpret_bf.interpret".toList, 332),
    ("interpret_bf.more".toList, 500),
    ("interpret_bf.less".toList, 508),
    ("interpret_bf.plus".toList, 516),
    ("interpret_bf.minus".toList, 532),
    ("interpret_bf.dot".toList, 548),
    ("interpret_bf.comma".toList, 560),
    ("interpret_bf.open_bracket".toList, 572),
    ("interpret_bf.open_bracket_skip".toList, 600),
    ("interpret_bf.close_bracket".toList, 648),
    ("interpret_bf.close_bracket_goto_matching".toList, 688),
    ("interpret_bf.close_bracket_error".toList, 700),
    ("pre_error".toList, 716),
    ("post_error".toList, 756),
    ("welcome".toList, 768),
    ("running".toList, 864),
    ("error_pre_char_num".toList, 904),
    ("error_post_char_num".toList, 936),
    ("error_post_msg".toList, 948),
    ("err_unknown_char".toList, 980),
    ("err_no_opened_loop".toList, 1000),
    ("err_not_closed_loop_before_count".toList, 1040),
    ("err_not_closed_loop_after_count".toList, 1088),
    ("goodbye".toList, 1132)]

def lines0 : List Text :=
  ["; Brainfuck interpreter (complete)",
    ";",
    "; Memory            : 1024 cells (32 bits each)",
    "; I/O               : supported",
    "; Errors handling   : detailed output",
    "; Max. nested loops : 1021",
    "",
    "main:",
    "    ; Set the stack's address",
    "    cpy ssp, 0x2000",
    "",
    "    ; Display the welcome message",
    "    cpy rr6, welcome",
    "    call print",
    "",
    "    ; Make the user input their BrainFuck program",
    "    call read_line",
    "",
    "    ; Display the 'running' message",
    "    cpy rr6, running",
    "    call print",
    "",
    "    ; Run the program",
    "    cpy rr0, 0x4000",
    "    cpy rr1, 0x2000",
    "    call interpret_bf",
    "",
    "    ; Display the goodbye message",
    "    cpy rr6, goodbye",
    "    call print",
    "",
    "    ; Stop",
    "    halt"].map String.toList

def code0 : List Word :=
  [0x0c182000, 0x0c130300, 0xd8003000, 0xd8006400, 0x0c130360, 0xd8003000, 0x0c0d4000, 0x0c0e2000, 0xd800a800, 0x0c13046c, 0xd8003000, 0xf0000000]

theorem chunk0 : ChunkOk labels 0 [] lines0 48 "main".toList
    [("main".toList, 0)] code0 := by decide +kernel

def lines1 : List Text :=
  ["",
    "; Display a null-terminated string located at address 'rr6'",
    "print:",
    "    cpy rr7, 0x3000",
    "",
    ".cpy_bytes:",
    "    lea rr6",
    "",
    "    cmp avr, 0",
    "    ifeq",
    "    jp .trigger_disp",
    "",
    "    wea rr7",
    "",
    "    add rr6, 0x4",
    "    add rr7, 0x4",
    "",
    "    jp .cpy_bytes",
    "",
    ".trigger_disp:",
    "    cpy avr, 0x4000 - 0x4",
    "    wsa avr, 0, 0xAA",
    "    wsa avr, 0, 0xFF"].map String.toList

def code1 : List Word :=
  [0x0c143000, 0xae130000, 0x6c150000, 0x88000000, 0x0c160054, 0xbe140000, 0x1c130004, 0x1c140004, 0x0c160034, 0x0c153ffc, 0xb41500aa, 0xb41500ff]

theorem chunk1 : ChunkOk labels 48 "main".toList lines1 96 "print".toList
    [("print".toList, 48), ("print.cpy_bytes".toList, 52), ("print.trigger_disp".toList, 84)] code1 := by decide +kernel

def lines2 : List Text :=
  ["    ret",
    "",
    "; Read a line from the keyboard",
    "read_line:",
    "    cpy rr7, 0x5000 - 0x4",
    "    wsa rr7, 0, 0xAA ; trigger input",
    "    ret",
    "",
    "; Read a single character to 'avr'",
    "read_char:",
    "    cpy rr7, 0x5004",
    "    wsa rr7, 0, 0x01 ; trigger input",
    "    cpy rr7, 0x5000",
    "    lea rr7 ; read input",
    "    ret",
    "",
    "; Display a single character from 'avr'",
    "print_char:",
    "    cpy rr7, 0x5008",
    "    wea rr7",
    "    ret"].map String.toList

def code2 : List Word :=
  [0xd4160000, 0x0c144ffc, 0xb41400aa, 0xd4160000, 0x0c145004, 0xb4140001, 0x0c145000, 0xae140000, 0xd4160000, 0x0c145008, 0xbe140000, 0xd4160000]

theorem chunk2 : ChunkOk labels 96 "print".toList lines2 144 "print_char".toList
    [("read_line".toList, 100), ("read_char".toList, 112), ("print_char".toList, 132)] code2 := by decide +kernel

def lines3 : List Text :=
  ["",
    "; Display an integer from 'avr'",
    "print_hex:",
    "    cpy rr7, 0x502C",
    "    wea rr7",
    "    ret",
    "",
    "; Display a decimal integer from 'avr' with a newline",
    "print_dec_newline:",
    "    cpy rr7, 0x5014",
    "    wea rr7",
    "    ret",
    "",
    "; Interpret a null-terminated or line-break-terminated BrainFuck program",
    "; Starting from address in 'rr0'",
    "; With memory starting from address in 'rr1'",
    "interpret_bf:",
    "    ;   rr0    ; program address",
    "    ;   rr1    ; program memory",
    "    cpy rr2, 0 ; char number in program",
    "    cpy rr3, 0 ; number of opened loops",
    "    ;   a0     ; current instruction",
    "",
    "    sub rr2, 1 ; will be increment when getting the first character",
    "",
    ".main:",
    "    call .next_char",
    "",
    "    ; end if instruction character is NULL",
    "    cmp a0, 0",
    "    ifeq"].map String.toList

def code3 : List Word :=
  [0x0c14502c, 0xbe140000, 0xd4160000, 0x0c145014, 0xbe140000, 0xd4160000, 0x0c0f0000, 0x0c100000, 0x240f0001, 0xd8011800, 0x6c000000, 0x88000000]

theorem chunk3 : ChunkOk labels 144 "print_char".toList lines3 192 "interpret_bf".toList
    [("print_hex".toList, 144), ("print_dec_newline".toList, 156), ("interpret_bf".toList, 168), ("interpret_bf.main".toList, 180)] code3 := by decide +kernel

def lines4 : List Text :=
  ["    jp .complete",
    "",
    "    ; handle line breaks as well",
    "    cmp a0, 13",
    "    ifeq",
    "    jp .complete",
    "",
    "    ; same for line feeds",
    "    cmp a0, 10",
    "    ifeq",
    "    jp .complete",
    "",
    "    ; [DEBUG] print the character which is going to be interpreted",
    "    ; cpy avr, a0",
    "    ; cpy rr5, rr0",
    "    ; call print_char",
    "    ; cpy rr0, rr5",
    "",
    "    jp .interpret",
    "",
    "; When the program is finished",
    ".complete:",
    "    ; ensure all loops have been closed",
    "    cmp rr3, 0",
    "    ifeq",
    "    ret",
    "",
    "    ; else, exit with an error",
    "    cpy rr5, err_not_closed_loop_before_count"].map String.toList

def code4 : List Word :=
  [0x0c1600e0, 0x6c00000d, 0x88000000, 0x0c1600e0, 0x6c00000a, 0x88000000, 0x0c1600e0, 0x0c16014c, 0x6c100000, 0x88000000, 0xd4160000, 0x0c120410]

theorem chunk4 : ChunkOk labels 192 "interpret_bf".toList lines4 240 "interpret_bf".toList
    [("interpret_bf.complete".toList, 224)] code4 := by decide +kernel

def lines5 : List Text :=
  ["    call pre_error",
    "    ",
    "    cpy avr, rr3",
    "    call print_dec_newline",
    "",
    "    cpy rr6, err_not_closed_loop_after_count",
    "    call print",
    "",
    "    pop avr",
    "    inc avr",
    "    call print_dec_newline",
    "",
    "    call post_error",
    "",
    "    halt",
    "",
    "; Get the next character and store it in 'a0'",
    ".next_char:",
    "    ; increment the character counter",
    "    inc rr2",
    "",
    "    ; load the word containing the current instruction character in rr4",
    "    ; address: rr0 + (rr2 - (rr2 % 4))",
    "    ;        = rr0 + rr2 - (rr2 % 4)",
    "    cpy avr, rr0"].map String.toList

def code5 : List Word :=
  [0xd802cc00, 0x0e151000, 0xd8009c00, 0x0c130440, 0xd8003000, 0xd4150000, 0x1c150001, 0xd8009c00, 0xd802f400, 0xf0000000, 0x1c0f0001, 0x0e150d00]

theorem chunk5 : ChunkOk labels 240 "interpret_bf".toList lines5 288 "interpret_bf".toList
    [("interpret_bf.next_char".toList, 280)] code5 := by decide +kernel

def lines6 : List Text :=
  ["    add avr, rr2",
    "",
    "    cpy rr7, rr2",
    "    mod rr7, 4",
    "",
    "    sub avr, rr7",
    "",
    "    lsa a0, avr",
    "",
    "    ; get the character index in the retrieved word",
    "    ; index: rr2 % 4",
    "    cpy avr, rr2",
    "    mod avr, 4",
    "",
    "    ; get the character's byte",
    "    ;       word << (8 * index)",
    "    ; then: word >> 24",
    "    mul avr, 8",
    "    shl a0, avr",
    "    shr a0, 24",
    "",
    "    ret",
    "",
    "; character to interpret is in 'a0'",
    ".interpret:",
    "    cmp a0, \">\""].map String.toList

def code6 : List Word :=
  [0x1e150f00, 0x0e140f00, 0x3d140400, 0x26151400, 0xa6001500, 0x0e150f00, 0x3d150400, 0x2c150008, 0x5e001500, 0x64001800, 0xd4160000, 0x6c00003e]

theorem chunk6 : ChunkOk labels 288 "interpret_bf".toList lines6 336 "interpret_bf".toList
    [("interpret_bf.interpret".toList, 332)] code6 := by decide +kernel

def lines7 : List Text :=
  ["    ifeq",
    "    jp .more",
    "",
    "    cmp a0, \"<\"",
    "    ifeq",
    "    jp .less",
    "",
    "    cmp a0, \"+\"",
    "    ifeq",
    "    jp .plus",
    "",
    "    cmp a0, \"-\"",
    "    ifeq",
    "    jp .minus",
    "",
    "    cmp a0, \".\""].map String.toList

def code7 : List Word :=
  [0x88000000, 0x0c1601f4, 0x6c00003c, 0x88000000, 0x0c1601fc, 0x6c00002b, 0x88000000, 0x0c160204, 0x6c00002d, 0x88000000, 0x0c160214, 0x6c00002e]

theorem chunk7 : ChunkOk labels 336 "interpret_bf".toList lines7 384 "interpret_bf".toList
    [] code7 := by decide +kernel

def lines8 : List Text :=
  ["    ifeq",
    "    jp .dot",
    "",
    "    cmp a0, \",\"",
    "    ifeq",
    "    jp .comma",
    "",
    "    cmp a0, \"[\"",
    "    ifeq",
    "    jp .open_bracket",
    "",
    "    cmp a0, \"]\"",
    "    ifeq",
    "    jp .close_bracket",
    "",
    "    ; display an error message and halt",
    "    cpy rr5, err_unknown_char"].map String.toList

def code8 : List Word :=
  [0x88000000, 0x0c160224, 0x6c00002c, 0x88000000, 0x0c160230, 0x6c00005b, 0x88000000, 0x0c16023c, 0x6c00005d, 0x88000000, 0x0c160288, 0x0c1203d4]

theorem chunk8 : ChunkOk labels 384 "interpret_bf".toList lines8 432 "interpret_bf".toList
    [] code8 := by decide +kernel

def lines9 : List Text :=
  ["    call pre_error",
    "    cpy avr, \"'\"",
    "    call print_char",
    "    cpy avr, a0",
    "    call print_char",
    "    cpy avr, \"'\"",
    "    call print_char",
    "    cpy avr, \" \"",
    "    call print_char",
    "    cpy avr, \"(\"",
    "    call print_char",
    "    cpy avr, a0"].map String.toList

def code9 : List Word :=
  [0xd802cc00, 0x0c150027, 0xd8008400, 0x0e150000, 0xd8008400, 0x0c150027, 0xd8008400, 0x0c150020, 0xd8008400, 0x0c150028, 0xd8008400, 0x0e150000]

theorem chunk9 : ChunkOk labels 432 "interpret_bf".toList lines9 480 "interpret_bf".toList
    [] code9 := by decide +kernel

def lines10 : List Text :=
  ["    call print_hex",
    "    cpy avr, \")\"",
    "    call print_char",
    "    call post_error",
    "    halt",
    "",
    ".more:",
    "    inc rr1",
    "    jp .main",
    "",
    ".less:",
    "    dec rr1",
    "    jp .main",
    "",
    ".plus:",
    "    lea rr1",
    "    inc avr",
    "    wea rr1"].map String.toList

def code10 : List Word :=
  [0xd8009000, 0x0c150029, 0xd8008400, 0xd802f400, 0xf0000000, 0x1c0e0001, 0x0c1600b4, 0x240e0001, 0x0c1600b4, 0xae0e0000, 0x1c150001, 0xbe0e0000]

theorem chunk10 : ChunkOk labels 480 "interpret_bf".toList lines10 528 "interpret_bf".toList
    [("interpret_bf.more".toList, 500), ("interpret_bf.less".toList, 508), ("interpret_bf.plus".toList, 516)] code10 := by decide +kernel

def lines11 : List Text :=
  ["    jp .main",
    "",
    ".minus:",
    "    lea rr1",
    "    dec avr",
    "    wea rr1",
    "    jp .main",
    "",
    ".dot:",
    "    lea rr1",
    "    call print_char",
    "    jp .main",
    "",
    ".comma:",
    "    call read_char",
    "    wea rr1",
    "    jp .main",
    "",
    ".open_bracket:",
    "    ; increase the number of opened loops",
    "    inc rr3"].map String.toList

def code11 : List Word :=
  [0x0c1600b4, 0xae0e0000, 0x24150001, 0xbe0e0000, 0x0c1600b4, 0xae0e0000, 0xd8008400, 0x0c1600b4, 0xd8007000, 0xbe0e0000, 0x0c1600b4, 0x1c100001]

theorem chunk11 : ChunkOk labels 528 "interpret_bf".toList lines11 576 "interpret_bf".toList
    [("interpret_bf.minus".toList, 532), ("interpret_bf.dot".toList, 548), ("interpret_bf.comma".toList, 560), ("interpret_bf.open_bracket".toList, 572)] code11 := by decide +kernel

def lines12 : List Text :=
  ["",
    "    ; go to matching close bracket if current memory cell is equal to 0",
    "    lea rr1",
    "    cmp avr, 0",
    "    ifeq",
    "    jp .open_bracket_skip",
    "",
    "    push rr2",
    "    jp .main",
    "",
    ".open_bracket_skip:",
    "    call .next_char",
    "    cmp a0, \"]\"",
    "    ifnq",
    "    jpr 0xC",
    "",
    "    dec rr3 ; mark the loop as closed",
    "    jp .main"].map String.toList

def code12 : List Word :=
  [0xae0e0000, 0x6c150000, 0x88000000, 0x0c160258, 0xcc0f0000, 0x0c1600b4, 0xd8011800, 0x6c00005d, 0x90000000, 0x70000c00, 0x24100001, 0x0c1600b4]

theorem chunk12 : ChunkOk labels 576 "interpret_bf".toList lines12 624 "interpret_bf".toList
    [("interpret_bf.open_bracket_skip".toList, 600)] code12 := by decide +kernel

def lines13 : List Text :=
  ["",
    "    cmp a0, 0",
    "    jp .complete",
    "",
    "    cmp a0, 13",
    "    ifeq",
    "    jp .complete",
    "",
    "    jp .open_bracket_skip",
    "",
    ".close_bracket:",
    "    ; ensure a loop was opened before",
    "    cmp rr3, 0",
    "    ifeq",
    "    jp .close_bracket_error",
    "",
    "    ; decrease the number of opened brackets",
    "    dec rr3",
    "",
    "    ; go to matching open bracket if current memory cell is not equal to 0",
    "    lea rr1",
    "    cmp avr, 0"].map String.toList

def code13 : List Word :=
  [0x6c000000, 0x0c1600e0, 0x6c00000d, 0x88000000, 0x0c1600e0, 0x0c160258, 0x6c100000, 0x88000000, 0x0c1602bc, 0x24100001, 0xae0e0000, 0x6c150000]

theorem chunk13 : ChunkOk labels 624 "interpret_bf".toList lines13 672 "interpret_bf".toList
    [("interpret_bf.close_bracket".toList, 648)] code13 := by decide +kernel

def lines14 : List Text :=
  ["    ifnq",
    "    jp .close_bracket_goto_matching",
    "",
    "    ; else, just get rid of the loop",
    "    pop avr",
    "",
    "    jp .main",
    "",
    ".close_bracket_goto_matching:",
    "    ; go to matching opened bracket",
    "    pop rr2",
    "    dec rr2",
    "",
    "    jp .main",
    "",
    ".close_bracket_error:",
    "    cpy rr5, err_no_opened_loop",
    "    call pre_error",
    "    call post_error",
    "    halt",
    "",
    "; ============================================== ;",
    "; =================== ERRORS =================== ;",
    "; ============================================== ;",
    "",
    "; Display the header of an error message",
    "; Character number must be in 'rr2'",
    "; Pointer to message must be in 'rr5'",
    "pre_error:",
    "    cpy rr6, error_pre_char_num"].map String.toList

def code14 : List Word :=
  [0x90000000, 0x0c1602b0, 0xd4150000, 0x0c1600b4, 0xd40f0000, 0x240f0001, 0x0c1600b4, 0x0c1203e8, 0xd802cc00, 0xd802f400, 0xf0000000, 0x0c130388]

theorem chunk14 : ChunkOk labels 672 "interpret_bf".toList lines14 720 "pre_error".toList
    [("interpret_bf.close_bracket_goto_matching".toList, 688), ("interpret_bf.close_bracket_error".toList, 700), ("pre_error".toList, 716)] code14 := by decide +kernel

def lines15 : List Text :=
  ["    call print",
    "",
    "    cpy avr, rr2",
    "    inc avr",
    "    call print_dec_newline",
    "",
    "    cpy rr6, error_post_char_num",
    "    call print",
    "",
    "    cpy rr6, rr5",
    "    call print",
    "    ret",
    "",
    "; Display the footer of all error messages",
    "post_error:",
    "    cpy rr6, error_post_msg",
    "    call print",
    "    ret"].map String.toList

def code15 : List Word :=
  [0xd8003000, 0x0e150f00, 0x1c150001, 0xd8009c00, 0x0c1303a8, 0xd8003000, 0x0e131200, 0xd8003000, 0xd4160000, 0x0c1303b4, 0xd8003000, 0xd4160000]

theorem chunk15 : ChunkOk labels 720 "pre_error".toList lines15 768 "post_error".toList
    [("post_error".toList, 756)] code15 := by decide +kernel

def lines16 : List Text :=
  ["",
    "; =============================================== ;",
    "; =================== STRINGS =================== ;",
    "; =============================================== ;",
    "",
    "; Welcome message",
    "welcome:"].map String.toList

def code16 : List Word :=
  []

theorem chunk16 : ChunkOk labels 768 "post_error".toList lines16 768 "welcome".toList
    [("welcome".toList, 768)] code16 := by decide +kernel

def lines17 : List Text :=
  ["    #d \"\\n\"",
    "    #d \"=== Welcome to the BrainFuck interpreter! ===\"",
    "    #d \"\\n\\n\"",
    "    #d \"Please type your BrainFuck program here:\"",
    "    #d \"\\n\\n\"",
    "    #d32 0",
    "",
    "; Running message",
    "running:"].map String.toList

def code17 : List Word :=
  [0x0a3d3d3d, 0x2057656c, 0x636f6d65, 0x20746f20, 0x74686520, 0x42726169, 0x6e467563, 0x6b20696e, 0x74657270, 0x72657465, 0x7221203d, 0x3d3d0a0a, 0x506c6561, 0x73652074, 0x79706520, 0x796f7572, 0x20427261, 0x696e4675, 0x636b2070, 0x726f6772, 0x616d2068, 0x6572653a, 0x0a0a0000, 0x00000000]

theorem chunk17 : ChunkOk labels 768 "welcome".toList lines17 864 "running".toList
    [("running".toList, 864)] code17 := by decide +kernel

def lines18 : List Text :=
  ["    #d \"\\n\"",
    "    #d \"=> Now running your program...\"",
    "    #d \"\\n\\n\"",
    "    #d32 0",
    "",
    "; Error message (part 1)",
    "error_pre_char_num:"].map String.toList

def code18 : List Word :=
  [0x0a3d3e20, 0x4e6f7720, 0x72756e6e, 0x696e6720, 0x796f7572, 0x2070726f, 0x6772616d, 0x2e2e2e0a, 0x0a000000, 0x00000000]

theorem chunk18 : ChunkOk labels 864 "running".toList lines18 904 "error_pre_char_num".toList
    [("error_pre_char_num".toList, 904)] code18 := by decide +kernel

def lines19 : List Text :=
  ["    #d \"\\n\"",
    "    #d \"===> ERROR: At character \"",
    "    #d32 0",
    "",
    "; Error message (part 2)",
    "error_post_char_num:"].map String.toList

def code19 : List Word :=
  [0x0a3d3d3d, 0x3e204552, 0x524f523a, 0x20417420, 0x63686172, 0x61637465, 0x72200000, 0x00000000]

theorem chunk19 : ChunkOk labels 904 "error_pre_char_num".toList lines19 936 "error_post_char_num".toList
    [("error_post_char_num".toList, 936)] code19 := by decide +kernel

def lines20 : List Text :=
  ["    #d \"\\n\"",
    "    #d \"     \"",
    "    #d32 0",
    "",
    "; Error message (part 3)",
    "error_post_msg:"].map String.toList

def code20 : List Word :=
  [0x0a202020, 0x20200000, 0x00000000]

theorem chunk20 : ChunkOk labels 936 "error_post_char_num".toList lines20 948 "error_post_msg".toList
    [("error_post_msg".toList, 948)] code20 := by decide +kernel

def lines21 : List Text :=
  ["    #d \"\\n\\n\"",
    "    #d \"Now exiting after error.\"",
    "    #d \"\\n\"",
    "    #d32 0",
    "",
    "; Error: unknown character",
    "err_unknown_char:"].map String.toList

def code21 : List Word :=
  [0x0a0a4e6f, 0x77206578, 0x6974696e, 0x67206166, 0x74657220, 0x6572726f, 0x722e0a00, 0x00000000]

theorem chunk21 : ChunkOk labels 948 "error_post_msg".toList lines21 980 "err_unknown_char".toList
    [("err_unknown_char".toList, 980)] code21 := by decide +kernel

def lines22 : List Text :=
  ["    #d \"Unknown symbol \"",
    "    #d32 0",
    "",
    "; Error: no opened loop",
    "err_no_opened_loop:"].map String.toList

def code22 : List Word :=
  [0x556e6b6e, 0x6f776e20, 0x73796d62, 0x6f6c2000, 0x00000000]

theorem chunk22 : ChunkOk labels 980 "err_unknown_char".toList lines22 1000 "err_no_opened_loop".toList
    [("err_no_opened_loop".toList, 1000)] code22 := by decide +kernel

def lines23 : List Text :=
  ["    #d \"No loop opened, cannot close one.\"",
    "    #d32 0",
    "",
    "; Error: >= 1 loop not closed",
    "err_not_closed_loop_before_count:"].map String.toList

def code23 : List Word :=
  [0x4e6f206c, 0x6f6f7020, 0x6f70656e, 0x65642c20, 0x63616e6e, 0x6f742063, 0x6c6f7365, 0x206f6e65, 0x2e000000, 0x00000000]

theorem chunk23 : ChunkOk labels 1000 "err_no_opened_loop".toList lines23 1040 "err_not_closed_loop_before_count".toList
    [("err_not_closed_loop_before_count".toList, 1040)] code23 := by decide +kernel

def lines24 : List Text :=
  ["    #d \"Program exited before closing all loops: \"",
    "    #d32 0",
    "",
    "err_not_closed_loop_after_count:"].map String.toList

def code24 : List Word :=
  [0x50726f67, 0x72616d20, 0x65786974, 0x65642062, 0x65666f72, 0x6520636c, 0x6f73696e, 0x6720616c, 0x6c206c6f, 0x6f70733a, 0x20000000, 0x00000000]

theorem chunk24 : ChunkOk labels 1040 "err_not_closed_loop_before_count".toList lines24 1088 "err_not_closed_loop_after_count".toList
    [("err_not_closed_loop_after_count".toList, 1088)] code24 := by decide +kernel

def lines25 : List Text :=
  ["    #d \" were not closed, last one at character \"",
    "    #d32 0",
    "",
    "; Goodbye message",
    "goodbye:"].map String.toList

def code25 : List Word :=
  [0x20776572, 0x65206e6f, 0x7420636c, 0x6f736564, 0x2c206c61, 0x7374206f, 0x6e652061, 0x74206368, 0x61726163, 0x74657220, 0x00000000]

theorem chunk25 : ChunkOk labels 1088 "err_not_closed_loop_after_count".toList lines25 1132 "goodbye".toList
    [("goodbye".toList, 1132)] code25 := by decide +kernel

def linesEnd : List Text :=
  ["    #d \"\\n\\n\"",
    "    #d \"=== Goodbye! ===\"",
    "    #d \"\\n\"",
    "    #d32 0",
    ""].map String.toList

def codeEnd : List Word :=
  [0x0a0a3d3d, 0x3d20476f, 0x6f646279, 0x6521203d, 0x3d3d0a00, 0x00000000]

theorem chunkEnd : layout 1132 "goodbye".toList linesEnd = [] ∧ (emit labels 1132 "goodbye".toList linesEnd).map bytesToWords = some codeEnd ∧
    ∀ x ∈ linesEnd, '\n' ∉ x := by decide +kernel

/-- The words of the program. -/
def words : List Word :=
  code0 ++ code1 ++ code2 ++ code3 ++ code4 ++ code5 ++ code6 ++ code7 ++ code8 ++ code9 ++ code10 ++ code11 ++ code12 ++ code13 ++ code14 ++ code15 ++ code16 ++ code17 ++ code18 ++ code19 ++ code20 ++ code21 ++ code22 ++ code23 ++ code24 ++ code25 ++ codeEnd

set_option maxRecDepth 100000 in
theorem source_lines : sourceLines = lines0 ++ lines1 ++ lines2 ++ lines3 ++ lines4 ++ lines5 ++ lines6 ++ lines7 ++ lines8 ++ lines9 ++ lines10 ++ lines11 ++ lines12 ++ lines13 ++ lines14 ++ lines15 ++ lines16 ++ lines17 ++ lines18 ++ lines19 ++ lines20 ++ lines21 ++ lines22 ++ lines23 ++ lines24 ++ lines25 ++ linesEnd := rfl

theorem chunks : ChunkOk labels 0 [] (lines0 ++ lines1 ++ lines2 ++ lines3 ++ lines4 ++ lines5 ++ lines6 ++ lines7 ++ lines8 ++ lines9 ++ lines10 ++ lines11 ++ lines12 ++ lines13 ++ lines14 ++ lines15 ++ lines16 ++ lines17 ++ lines18 ++ lines19 ++ lines20 ++ lines21 ++ lines22 ++ lines23 ++ lines24 ++ lines25) 1132 "goodbye".toList labels
    (code0 ++ code1 ++ code2 ++ code3 ++ code4 ++ code5 ++ code6 ++ code7 ++ code8 ++ code9 ++ code10 ++ code11 ++ code12 ++ code13 ++ code14 ++ code15 ++ code16 ++ code17 ++ code18 ++ code19 ++ code20 ++ code21 ++ code22 ++ code23 ++ code24 ++ code25) := by
  have h := (((((((((((((((((((((((((chunk0.append chunk1).append chunk2).append chunk3).append chunk4).append chunk5).append chunk6).append chunk7).append chunk8).append chunk9).append chunk10).append chunk11).append chunk12).append chunk13).append chunk14).append chunk15).append chunk16).append chunk17).append chunk18).append chunk19).append chunk20).append chunk21).append chunk22).append chunk23).append chunk24).append chunk25)
  exact h

theorem assemble_source : assembleWords source = some words := by
  unfold source
  rw [source_lines]
  obtain ⟨h1, h2, h3⟩ := chunkEnd
  obtain ⟨bs, h4, h5⟩ := Option.map_eq_some_iff.1 h2
  have := chunks.toWordsTail h1 h4 h3 (by decide +kernel) (by simp [linesEnd])
  rw [h5] at this
  exact this

end Lrvm.Brainfuck
