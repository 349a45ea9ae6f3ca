import Verif.Model.Tools.Lasm
import Verif.Model.Tools.Run
import Verif.Model.Devices.Display
import Verif.Model.Devices.Keyboard
import Verif.Model.Devices.Memory
import Verif.Model.Examples.Disassemble

/-!
# The unit tests of the repository, run on the model

Not proofs of any property: the tests of `/repo` (which the code passes) are replayed on the model, as evidence that the model
is faithful. `examples/disassemble/src/tests.rs` is in `Props/Examples/Disassemble` (C91); `lrvm_tools/src/tests/ids.rs` is on
a hash function of the standard library, which is not modelled.
-/

namespace Lrvm.RepoTests

variable {D : Type} [Bus D]

/-- The loop of `run_vm`, at most `n` turns of it. -/
def loop (pf : Profile) (cfg : RunConfig) : Nat → Machine D → Word → List Text →
    Option (Option (Machine D × Word × Option ExWithMode × List Text))
  | 0, _, _, _ => none
  | n + 1, s, a, ls =>
    match runTurn pf cfg s with
    | .exit => some (some (s, a, none, ls))
    | .again s' l => loop pf cfg n s' s.regs.pc (ls ++ l)
    | .stop s' ex l => some (some (s', s.regs.pc, some ex, ls ++ l))
    | .panic => some none

theorem loop_sound {pf : Profile} {cfg : RunConfig} : ∀ (n : Nat) (s : Machine D) (a : Word) (ls : List Text) {r},
    loop pf cfg n s a ls = some r → RunLoop pf cfg s a ls r
  | 0, _, _, _, _, h => by simp [loop] at h
  | n + 1, s, a, ls, r, h => by
    unfold loop at h
    split at h
    · next ht => cases h; exact .exit ht
    · next s' l ht => exact .again ht (loop_sound n _ _ _ h)
    · next s' ex l ht => cases h; exact .stop ht
    · next ht => cases h; exact .panic ht

/-- `exec_vm`, at most `n` turns of its loop. -/
def exec (pf : Profile) (n : Nat) (ds : List D) (cfg : RunConfig) : Option (Option (Machine D × StoppedState × List Text)) :=
  match prepareVm pf ds with
  | none => some none
  | some s => (loop pf cfg n s s.regs.pc []).map fun e => e.bind fun (s', a, ex, ls) => runFinish cfg s' a ex ls

theorem exec_sound {pf : Profile} {n : Nat} {ds : List D} {cfg : RunConfig} {r} (h : exec pf n ds cfg = some r) :
    ExecVm pf ds cfg r := by
  unfold exec at h
  unfold ExecVm
  split at h
  · next hp => simp only [hp]; exact (Option.some.inj h).symm
  · next s hp =>
    simp only [hp]
    cases hl : loop pf cfg n s s.regs.pc [] with
    | none => rw [hl] at h; simp at h
    | some e =>
      rw [hl] at h
      exact ⟨e, loop_sound n _ _ _ hl, (Option.some.inj h).symm⟩

/-- The run ends, and its end has a property. -/
def ends (pf : Profile) (n : Nat) (ds : Res (List D)) (cfg : RunConfig)
    (P : Machine D × StoppedState × List Text → Bool) : Bool :=
  match ds with
  | none => false
  | some ds => match exec pf n ds cfg with
    | some (some r) => P r
    | _ => false

/-- What a test asserts: the components are created, the call to `exec_vm` returns, and what it returns has a property. -/
theorem ends_sound {pf : Profile} {n : Nat} {ds : Res (List D)} {cfg : RunConfig}
    {P : Machine D × StoppedState × List Text → Bool} (h : ends pf n ds cfg P = true) :
    ∃ l r, ds = some l ∧ ExecVm pf l cfg (some r) ∧ P r = true := by
  unfold ends at h
  split at h
  · simp at h
  · next l =>
    split at h
    · next r hr => exact ⟨l, r, rfl, exec_sound hr, h⟩
    · simp at h

/-! ## `lrvm_tools/src/tests/asm.rs` -/

/-- `prog`, `lrvm_tools/src/tests/asm.rs:3-15`. -/
def prog : Program := Program.fromInstr
  [.add .a0 (.lit 0xFF), .sub .a0 (.lit 0xFF), .div .a0 (.lit 0) (.lit 0b0000_0100),
    .mod .a0 (.lit 0) (.lit (0b0000_0100 ||| 0b0000_0011)), .jpr (.lit (-80))]

/-- `encoded`, `lrvm_tools/src/tests/asm.rs:17-22`. -/
def encoded : List U8 :=
  [0x1C, 0x00, 0x00, 0xFF, 0x24, 0x00, 0x00, 0xFF, 0x34, 0x00, 0x00, 0x04, 0x3C, 0x00, 0x00, 0x07, 0x70, 0xFF, 0xB0, 0x00]

/-- `encoding`, `lrvm_tools/src/tests/asm.rs:34-37`. -/
example : prog.encode = encoded := by decide +kernel

/-- `decoding`, `lrvm_tools/src/tests/asm.rs:39-47`. -/
example : Program.decode encoded false = .ok prog := by rfl

/-- `asm_conversion`, `lrvm_tools/src/tests/asm.rs:24-32,49-72`. -/
example : prog.toLasm .debug false = some ("add a0, 0xFF\nsub a0, 0xFF\ndiv a0, 0x0, DIV_ZRO_MIN\n".toList ++
    "mod a0, 0x0, DIV_ZRO_MIN | DIV_OFW_MAX\njpr -0x50".toList) := by decide +kernel

/-! ## `lrvm_tools/src/tests/lasm.rs` -/

/-- `lasm_test`, `lrvm_tools/src/tests/lasm.rs:1-20`, `lrvm_tools/src/tests/demo.lasm`. -/
example : assemble ("main:\n    add a0, 0xFF\n    sub a0, 0xFF\n    div a0, 0x00, DIV_ZRO_MIN\n".toList ++
      "    mod a0, 0x00, DIV_ZRO_MIN\n    jpr -16".toList) =
    some [0x1C, 0x00, 0x00, 0xFF, 0x24, 0x00, 0x00, 0xFF, 0x34, 0x00, 0x00, 0x04, 0x3C, 0x00, 0x00, 0x04, 0x70, 0xFF, 0xF0,
      0x00] := by decide +kernel

/-! ## `lrvm_aux/src/tests/aux_01_storage/bootrom.rs` -/

/-- The machine of `prepare`, `lrvm_aux/src/tests/aux_01_storage/bootrom.rs:10-16`. -/
def rom (i : Instr) : Res (List BootRom) := do
  let r ← BootRom.withSize (Program.fromInstr [i, .halt]).encodeWords 0x1000 0
  some [r]

/-- `bootrom_read`, `lrvm_aux/src/tests/aux_01_storage/bootrom.rs:18-36`. -/
example : ∃ l r, rom (.cpy .a0 (.lit 0xABCD)) = some l ∧ ExecVm .debug l .default (some r) ∧
    (r.2.1.cycles == 2 && r.1.regs.a[0] == 0xABCD) = true :=
  ends_sound (n := 10) (by decide +kernel)

/-- `bootrom_write`, `lrvm_aux/src/tests/aux_01_storage/bootrom.rs:38-57`. -/
example : ∃ l r, rom (.wea (.lit 0) (.lit 0) (.lit 0)) = some l ∧ ExecVm .debug l .haltOnEx (some r) ∧
    (match r.2.1.ex with
      | some ex => NativeException.decodeWithMode ex.raw == some (.hardwareException .memoryNotWritable, true)
      | none => false) = true :=
  ends_sound (n := 10) (by decide +kernel)

/-! ## `lrvm_aux/src/tests/aux_01_storage/flash.rs` and `lrvm_aux/src/tests/aux_02_volatile_mem/ram.rs` -/

/-- The program of `flash_mem` and of `ram`, `lrvm_aux/src/tests/aux_01_storage/flash.rs:10-12`. -/
def twoWrites : Program :=
  Program.append (Program.appendAll (Program.fromInstr (ExtInstr.writeAddrLit 0x1000 0x01234567).toInstr)
    (ExtInstr.writeAddrLit 0x1008 0x89ABCDEF).toProgWords) (.instr .halt)

/-- The final assertions, `lrvm_aux/src/tests/aux_01_storage/flash.rs:22-54`. -/
def wordsRead [Bus D] (r : Machine D × StoppedState × List Text) : Bool :=
  r.2.1.ex == none &&
    (memRead .debug r.1 0x1000 0).map (fun x => (x.1, x.2.1)) == some (0x01234567, 0) &&
    (memRead .debug r.1 0x1008 0).map (fun x => (x.1, x.2.1)) == some (0x89ABCDEF, 0) &&
    (memRead .debug r.1 0x1010 0).map (fun x => (x.1, x.2.1)) == some (0, 0)

/-- The components of `flash_mem`. -/
def flash : Res (List (BootRom ⊕ PersistentMem)) := do
  let r ← BootRom.withSize twoWrites.encodeWords 0x1000 0
  let m ← PersistentMem.new 0x1000 1
  some [.inl r, .inr m]

/-- `flash_mem`, `lrvm_aux/src/tests/aux_01_storage/flash.rs:8-55`. -/
example : ∃ l r, flash = some l ∧ ExecVm .debug l .haltOnEx (some r) ∧ wordsRead r = true :=
  ends_sound (n := 20) (by decide +kernel)

/-- The components of `ram`. -/
def ramBoard : Res (List (BootRom ⊕ Ram)) := do
  let r ← BootRom.withSize twoWrites.encodeWords 0x1000 0
  let m ← Ram.new 0x1000 1
  some [.inl r, .inr m]

/-- `ram`, `lrvm_aux/src/tests/aux_02_volatile_mem/ram.rs:8-55`. -/
example : ∃ l r, ramBoard = some l ∧ ExecVm .debug l .haltOnEx (some r) ∧ wordsRead r = true :=
  ends_sound (n := 20) (by decide +kernel)

/-! ## `lrvm_aux/src/tests/aux_03_display` -/

/-- The components of `character.rs`, `lrvm_aux/src/tests/aux_03_display/character.rs:7-42`. -/
def charBoard : Res (List (BootRom ⊕ CharDisplay)) := do
  let p := Program.append (Program.fromInstr (ExtInstr.writeAddrLit 0x1000 (BitVec.ofNat 32 'Z'.toNat)).toInstr) (.instr .halt)
  let r ← BootRom.withSize p.encodeWords 0x1000 0
  some [.inl r, .inr (CharDisplay.new 1)]

/-- `buffered_display`, `lrvm_aux/src/tests/aux_03_display/character.rs:11-54`: exactly one call of the handler, with `Z`. -/
example : ∃ l r, charBoard = some l ∧ ExecVm .debug l .haltOnEx (some r) ∧
    (r.2.1.ex == none && match r.1.devs with
      | [.inl _, .inr d] => match d.calls with | [.ok c] => c == 'Z' | _ => false
      | _ => false) = true :=
  ends_sound (n := 20) (by decide +kernel)

/-- The loop on the bytes of `display_prog`, `lrvm_aux/src/tests/aux_03_display/buffered.rs:22-38`, from `byte_index`. -/
def showBytes : Nat → List U8 → List Instr
  | 0, [] => []
  | _ + 1, [] => [.wea (.reg .ac0) (.lit 0) (.lit 0)]
  | i, b :: bs =>
    .add .avr (.lit (b.setWidth 16)) ::
      (if i + 1 < 4 then .shl .avr (.lit 8) :: showBytes (i + 1) bs
       else .wea (.reg .ac0) (.lit 0) (.lit 0) :: .add .ac0 (.lit 4) :: .cpy .avr (.lit 0) :: showBytes 0 bs)

/-- `display_prog`, `lrvm_aux/src/tests/aux_03_display/buffered.rs:10-43`. -/
def displayProg (text : List Char) (displayAddr displayFinalAddr : Word) : Program :=
  Program.fromInstr ((ExtInstr.setReg .ac0 displayAddr).toInstr ++ [.cpy .avr (.lit 0)] ++ showBytes 0 (utf8 text) ++
    (ExtInstr.writeAddrLit displayFinalAddr 0xAA).toInstr)

/-- The components of `buffered.rs`, `lrvm_aux/src/tests/aux_03_display/buffered.rs:45-83`. -/
def bufferedBoard : Res (List (BootRom ⊕ BufferedDisplay)) := do
  let p := Program.append (displayProg "Hello world!".toList 0x1000 (0x1100 - 0x04)) (.instr .halt)
  let r ← BootRom.withSize p.encodeWords 0x1000 0
  let d ← BufferedDisplay.new 0x100 1
  some [.inl r, .inr d]

/-- `buffered_display`, `lrvm_aux/src/tests/aux_03_display/buffered.rs:45-92`: exactly one call, with the text and zeroes. -/
example : ∃ l r, bufferedBoard = some l ∧ ExecVm .debug l .haltOnEx (some r) ∧
    (r.2.1.ex == none && match r.1.devs with
      | [.inl _, .inr d] => match d.calls with
        | [.ok t] => t == "Hello world!".toList ++ List.replicate (t.length - 12) (Char.ofNat 0)
        | _ => false
      | _ => false) = true :=
  ends_sound (n := 100) (by decide +kernel)

/-! ## `lrvm_aux/src/tests/aux_04_keyboard` -/

/-- `keyb_prog`, `lrvm_aux/src/tests/aux_04_keyboard/sync_char.rs:12-18` and `sync_line.rs:12-18`, with the final halt. -/
def keybProg (command : Word) (inputEndAddr : Word) : Program :=
  Program.append (Program.append (Program.appendAll (Program.fromInstr (ExtInstr.setReg .ac0 inputEndAddr).toInstr)
    (ExtInstr.setReg .avr command).toProgWords) (.instr (.wea (.reg .ac0) (.lit 0) (.lit 0)))) (.instr .halt)

/-- The components of `sync_char.rs`. -/
def charKeyboard : Res (List (BootRom ⊕ SyncCharKeyboard)) := do
  let r ← BootRom.withSize (keybProg 0x01 0x1004).encodeWords 0x1000 0
  some [.inl r, .inr (SyncCharKeyboard.new (fun _ => 'Z') 1)]

/-- `sync_char`, `lrvm_aux/src/tests/aux_04_keyboard/sync_char.rs:20-75`: one request, and the character read. -/
example : ∃ l r, charKeyboard = some l ∧ ExecVm .debug l .haltOnEx (some r) ∧
    (r.2.1.ex == none && (match r.1.devs with | [.inl _, .inr d] => d.asked == 1 | _ => false) &&
      (memRead .debug r.1 0x1000 0).map (fun x => (charFromU32 x.1, x.2.1)) == some (some 'Z', 0)) = true :=
  ends_sound (n := 20) (by decide +kernel)

/-- The components of `sync_line.rs`. -/
def lineKeyboard : Res (List (BootRom ⊕ SyncLineKeyboard)) := do
  let r ← BootRom.withSize (keybProg 0xAA (0x1100 - 0x04)).encodeWords 0x1000 0
  let k ← SyncLineKeyboard.new 0x100 (fun _ => "Placeholder keyboard input".toList) 1
  some [.inl r, .inr k]

/-- The bytes read by the test, `lrvm_aux/src/tests/aux_04_keyboard/sync_line.rs:57-71`. -/
def lineBytes [Bus D] (s : Machine D) : List U8 :=
  ((List.range 64).map fun i => match memRead .debug s (BitVec.ofNat 32 (0x1000 + 4 * i)) 0 with
    | some (w, 0, _) => beBytes 4 w
    | _ => [0xFF]).flatten

/-- `sync_line`, `lrvm_aux/src/tests/aux_04_keyboard/sync_line.rs:20-84`: one request, and the line and zeroes are read. -/
example : ∃ l r, lineKeyboard = some l ∧ ExecVm .debug l .haltOnEx (some r) ∧
    (r.2.1.ex == none && (match r.1.devs with | [.inl _, .inr d] => d.asked == 1 | _ => false) &&
      lineBytes r.1 == utf8 "Placeholder keyboard input".toList ++ List.replicate (256 - 26) 0) = true :=
  ends_sound (n := 20) (by decide +kernel)

end Lrvm.RepoTests
