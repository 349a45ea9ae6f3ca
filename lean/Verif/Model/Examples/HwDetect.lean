import Verif.Model.Tools.Run
import Verif.Model.Tools.Lasm
import Verif.Model.Devices.Memory
import Verif.Model.Text

/-!
# The example `examples/hw_detect`

The identifiers that `main` takes at random are parameters. The components of `main` may be followed by others, of any
kind `E`, so that more can be said of the program; the repository has none. What `main` prints is represented by the list
of the components it decodes (the formatting of these lines is not modelled).
-/

namespace Lrvm.HwDetect

/-- The lines of `examples/hw_detect/src/source.lasm:1-134`. -/
def sourceLines : List (List Char) :=
  [";",
    "; This program detects all components connected to the motherboard (even if they are not memory in memory).",
    "; It then writes informations about them in a dedicated RAM component.",
    ";",
    "; The exact format is the same for each component:",
    "; ",
    "; * uid (8 bytes)",
    "; * name (32 bytes)",
    "; * size (4 bytes)",
    "; * category (4 bytes)",
    "; * type (4 bytes)",
    "; * model (4 bytes)",
    "; * data (8 bytes)",
    "; * is mapped (4 bytes)",
    "; * map start addr (4 bytes)",
    "; * map end addr (4 bytes)",
    ";",
    "; For a total of 76 bytes per component.",
    ";",
    ";",
    "; List of registers:",
    ";  * ac0  : Address to write the current component's informations to",
    ";  * a0   : ID of the current component to get informations from",
    ";  * a1   : Number of components connected to the motherboard",
    "",
    "main:",
    "    ; Count number of connected components",
    "    ; The RAM we will write the metadata on starts at address 0x1000",
    "    cpy ac0, 0x1000",
    "    hwd a1, 0, HWD_COUNT",
    "    cpy a0, 0",
    "",
    "    wsa ac0, 0, a1",
    "    add ac0, 4",
    "",
    "    ; Halt if there is no component",
    "    cmp a1, 0",
    "    ifeq",
    "    halt",
    "",
    "    ; Prepare the stack",
    "    ; The stack RAM starts at address 0x2000, but as the stack goes down each time, we need to use the end address",
    "    cpy ssp, 0x2020",
    "    sub ssp, 0x4",
    "",
    ".loop:",
    "    ; Extract metadata of the current component",
    "    call extract_infos",
    "",
    "    ; Indicate we want to get informations about the next component",
    "    add a0, 1",
    "",
    "    ; If we reached the total number of components...",
    "    cmp a0, a1",
    "    ifeq",
    "    ; We simply halt the processor (equivalent of a program exit here)",
    "    halt",
    "",
    "    ; Else, we loop to extract informations about the next component",
    "    jp .loop",
    "",
    "; Write the informations of the component specified in `a0`",
    "; All routine registers (rr0 to rr7) are rewritten by this routine.",
    "extract_infos:",
    "    ; UID",
    "    hwd rr0, a0, HWD_UID_UPPER",
    "    hwd rr1, a0, HWD_UID_LOWER",
    "",
    "    wsa ac0, 0x00, rr0",
    "    wsa ac0, 0x04, rr1",
    "",
    "    ; Name",
    "    hwd rr0, a0, HWD_NAME_W1",
    "    hwd rr1, a0, HWD_NAME_W2",
    "    hwd rr2, a0, HWD_NAME_W3",
    "    hwd rr3, a0, HWD_NAME_W4",
    "    hwd rr4, a0, HWD_NAME_W5",
    "    hwd rr5, a0, HWD_NAME_W6",
    "    hwd rr6, a0, HWD_NAME_W7",
    "    hwd rr7, a0, HWD_NAME_W8",
    "",
    "    wsa ac0, 0x08, rr0",
    "    wsa ac0, 0x0C, rr1",
    "    wsa ac0, 0x10, rr2",
    "    wsa ac0, 0x14, rr3",
    "    wsa ac0, 0x18, rr4",
    "    wsa ac0, 0x1C, rr5",
    "    wsa ac0, 0x20, rr6",
    "    wsa ac0, 0x24, rr7",
    "",
    "    ; Size",
    "    hwd rr0, a0, HWD_SIZE",
    "",
    "    wsa ac0, 0x28, rr0",
    "",
    "    ; Category",
    "    hwd rr0, a0, HWD_CAT",
    "",
    "    wsa ac0, 0x2C, rr0",
    "",
    "    ; Type",
    "    hwd rr0, a0, HWD_TYPE",
    "",
    "    wsa ac0, 0x30, rr0",
    "",
    "    ; Model",
    "    hwd rr0, a0, HWD_MODEL",
    "",
    "    wsa ac0, 0x34, rr0",
    "",
    "    ; Additional data",
    "    hwd rr0, a0, HWD_DATA_UPPER",
    "    hwd rr1, a0, HWD_DATA_LOWER",
    "",
    "    wsa ac0, 0x38, rr0",
    "    wsa ac0, 0x3C, rr1",
    "",
    "    ; Mapping",
    "    hwd rr0, a0, HWD_IS_MAPPED",
    "    cmp rr0, 1",
    "    ifnq",
    "    jpr 0x18",
    "",
    "    hwd rr0, a0, HWD_MAP_START",
    "    hwd rr1, a0, HWD_MAP_END",
    "",
    "    wsa ac0, 0x40, 1",
    "    wsa ac0, 0x44, rr0",
    "    wsa ac0, 0x48, rr1",
    "",
    "    ; Shift memory address",
    "    add ac0, 0x4C",
    "",
    "    ret",
    ""].map String.toList

/-- `examples/hw_detect/src/source.lasm`. -/
def source : List Char := joinText ['\n'] sourceLines

/-- The components of the board, `examples/hw_detect/src/main.rs:111-118`, and others. -/
abbrev Dev (E : Type) := BootRom ⊕ (Ram ⊕ E)

/-- `Component`, `examples/hw_detect/src/main.rs:11-19`. -/
structure Component where
  uid : U64
  name : List Char
  size : Word
  catType : Except U64 DeviceCategory
  model : Word
  data : U64
  mapping : Option (Word × Word)

/-- The closure `read` of `decode_component`, `examples/hw_detect/src/main.rs:26-44`: an exception makes
`decode_component` return an error, for which `main` panics (`none`), `examples/hw_detect/src/main.rs:157`. -/
def hostRead [Bus D] (pf : Profile) (s : Machine D) (addr : Word) : Res (Word × Machine D) := do
  let (w, ex, s) ← memRead pf s addr 0
  assert (ex == 0)
  some (w, s)

/-- Reading at `addr + off`, for each of the offsets. -/
def hostReads [Bus D] (pf : Profile) (addr : Word) : List Word → Machine D → Res (List Word × Machine D)
  | [], s => some ([], s)
  | off :: offs, s => do
    let a ← pf.add addr off
    let (w, s) ← hostRead pf s a
    let (ws, s) ← hostReads pf addr offs s
    some (w :: ws, s)

/-- `((a as u64) << 32) + b as u64`. -/
def joinWords (pf : Profile) (a b : Word) : Res U64 := pf.add (a.setWidth 64 <<< 32) (b.setWidth 64)

/-- `decode_component`, `examples/hw_detect/src/main.rs:23-97`. The sums of two reads evaluate both reads first. -/
def decodeComponent [Bus D] (pf : Profile) (s : Machine D) (addr : Word) : Res (Component × Machine D) := do
  let (ids, s) ← hostReads pf addr [0x00, 0x04] s
  let uid ← joinWords pf (ids.getD 0 0) (ids.getD 1 0)
  let (name, s) ← hostReads pf addr [0x08, 0x0C, 0x10, 0x14, 0x18, 0x1C, 0x20, 0x24] s
  let (size, s) ← hostReads pf addr [0x28] s
  let (cat, s) ← hostReads pf addr [0x2C, 0x30] s
  let code ← joinWords pf (cat.getD 0 0) (cat.getD 1 0)
  let (model, s) ← hostReads pf addr [0x34] s
  let (data, s) ← hostReads pf addr [0x38, 0x3C] s
  let data ← joinWords pf (data.getD 0 0) (data.getD 1 0)
  let (mapped, s) ← hostReads pf addr [0x40] s
  let (mapping, s) ← if mapped.getD 0 0 = 0 then some (none, s) else do
    let (m, s) ← hostReads pf addr [0x44, 0x48] s
    some (some (m.getD 0 0, m.getD 1 0), s)
  some (
    { uid
      name := fromUtf8Lossy (wordsToBytes name)
      size := size.getD 0 0
      catType := match DeviceCategory.decode code with
        | some c => .ok c
        | none => .error code
      model := model.getD 0 0
      data
      mapping }, s)

/-- The loop of the closure of `main` over the next `n` components from `id`,
`examples/hw_detect/src/main.rs:147-179`. -/
def decodeLoop [Bus D] (pf : Profile) (s : Machine D) (id : Word) : Nat → Res (List Component × Machine D)
  | 0 => some ([], s)
  | n + 1 => do
    let off ← pf.mul id 76
    let addr ← pf.add 0x1004 off
    let (c, s) ← decodeComponent pf s addr
    let (cs, s) ← decodeLoop pf s (id + 1) n
    some (c :: cs, s)

/-- The closure given to `MotherBoard::map`, `examples/hw_detect/src/main.rs:124-180`: the components shown. -/
def detected [Bus D] (pf : Profile) (s : Machine D) : Res (List Component) := do
  let (n, s) ← hostRead pf s 0x1000
  let (cs, _) ← decodeLoop pf s 0 n.toNat
  some cs

/-- The components, `examples/hw_detect/src/main.rs:103-118`. -/
def components (idRom idData idStack : U64) (others : List E) : Option (List (Dev E)) := do
  let program ← assembleWords source
  let rom ← BootRom.withSize program 0x1000 idRom
  let data ← Ram.new 0x1000 idData
  let stack ← Ram.new 0x20 idStack
  some (.inl rom :: .inr (.inl data) :: .inr (.inl stack) :: others.map (fun e => .inr (.inr e)))

/-- `main`, `examples/hw_detect/src/main.rs:99-181`: it ends with a panic (`none`) or shows some components. -/
def Main [Bus E] (pf : Profile) (idRom idData idStack : U64) (others : List E) (r : Option (List Component)) : Prop :=
  match components idRom idData idStack others with
  | none => r = none
  | some ds => ∃ e, ExecVm pf ds RunConfig.haltOnEx e ∧ r = e.bind fun (s, _, _) => detected pf s

end Lrvm.HwDetect
