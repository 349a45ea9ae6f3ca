import Verif.Model.Tools.Asm
import Verif.Model.Tools.Metadata

/-!
# The builder methods of the library

`DeviceMetadata::set_size` and the chainable methods of `DivMode`.
-/

namespace Lrvm

/-- `DeviceMetadata::set_size`, `lrvm_tools/src/metadata/metadata.rs:36-39` (no check of the new size). -/
def DeviceMetadata.setSize (m : DeviceMetadata) (newSize : Word) : DeviceMetadata :=
  { m with sizeBytes := newSize }

/-- `DivMode::new`, `lrvm_tools/src/asm/div_modes.rs:250-252`, with the three `Default` implementations
(`div_modes.rs:77-81, 149-153, 221-225`). -/
def DivMode.new : DivMode := ⟨.unsigned, .forbid, .forbid⟩

/-- `DivMode::from_sub_modes`, `lrvm_tools/src/asm/div_modes.rs:264-270`. -/
def DivMode.fromSubModes (s : DivSignMode) (z : DivByZeroMode) (o : DivOverflowMode) : DivMode := ⟨s, z, o⟩

/-- `DivMode::sign_mode`, `lrvm_tools/src/asm/div_modes.rs:273-275`. -/
def DivMode.signMode (m : DivMode) : DivSignMode := m.sign

/-- `DivMode::zro_mode`, `lrvm_tools/src/asm/div_modes.rs:278-280`. -/
def DivMode.zroMode (m : DivMode) : DivByZeroMode := m.zero

/-- `DivMode::mbo_mode`, `lrvm_tools/src/asm/div_modes.rs:283-285`. -/
def DivMode.mboMode (m : DivMode) : DivOverflowMode := m.overflow

/-- `DivMode::with_sign_mode`, `lrvm_tools/src/asm/div_modes.rs:288-291`. -/
def DivMode.withSignMode (m : DivMode) (mode : DivSignMode) : DivMode := { m with sign := mode }

/-- `DivMode::with_zro_mode`, `lrvm_tools/src/asm/div_modes.rs:294-297`. -/
def DivMode.withZroMode (m : DivMode) (mode : DivByZeroMode) : DivMode := { m with zero := mode }

/-- `DivMode::with_ofw_mode`, `lrvm_tools/src/asm/div_modes.rs:300-303`. -/
def DivMode.withOfwMode (m : DivMode) (mode : DivOverflowMode) : DivMode := { m with overflow := mode }

/-- `DivSignMode::from_is_signed`, `lrvm_tools/src/asm/div_modes.rs:35-41`. -/
def DivSignMode.fromIsSigned (signed : Bool) : DivSignMode := if signed then .signed else .unsigned

/-- `DivSignMode::is_signed`, `lrvm_tools/src/asm/div_modes.rs:43-48`. -/
def DivSignMode.isSigned : DivSignMode → Bool
  | .unsigned => false
  | .signed => true

/-- `DivMode::to_val`, `lrvm_tools/src/asm/div_modes.rs:311-313`. -/
def DivMode.toVal (m : DivMode) : RegOrLit1 := .lit m.encode

end Lrvm
