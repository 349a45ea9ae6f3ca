import Verif.Model.Tools.Run

/-!
# The report of `prepare_vm` (`lrvm_tools/src/debug/prepare.rs`)

The lines printed and the message of the final panic, as texts.
-/

namespace Lrvm

variable {D : Type}

/-- `{:n}` of a string: filled with spaces on the right, by characters. -/
def padRight (width : Nat) (t : Text) : Text := t ++ List.replicate (width - t.length) ' '

/-- The derived `Debug` of `Mapping`, `lrvm/src/mem/mappings.rs:2-12`. -/
def Mapping.debugText (m : Mapping) : Text :=
  "Mapping { aux_id: ".toList ++ fmtDec m.auxId ++ ", aux_hw_id: ".toList ++ fmtDec m.auxHwId.toNat ++
    ", addr: ".toList ++ fmtDec m.addr.toNat ++ ", size: ".toList ++ fmtDec m.size.toNat ++ " }".toList

/-- The derived `Debug` of `MappingError`, `lrvm/src/mem/mappings.rs:22-33`. -/
def MappingError.debugText : MappingError → Text
  | .unknownComponent => "UnknownComponent".toList
  | .unalignedStartAddress => "UnalignedStartAddress".toList
  | .unalignedBusSize => "UnalignedBusSize".toList
  | .unalignedEndAddress => "UnalignedEndAddress".toList
  | .nullOrNegAddressRange => "NullOrNegAddressRange".toList
  | .alreadyMapped => "AlreadyMapped".toList
  | .nullBusSize => "NullBusSize".toList
  | .addressOverlaps m => "AddressOverlaps(".toList ++ m.debugText ++ ")".toList
  | .mappingTooLarge n => "MappingTooLarge { aux_size: ".toList ++ fmtDec n.toNat ++ " }".toList

/-- `hw_id.to_be_bytes()` as hexadecimal pairs joined with spaces, `lrvm_tools/src/debug/prepare.rs:40-46`. -/
def hwIdText (id : U64) : Text :=
  [' '].intercalate ([56, 48, 40, 32, 24, 16, 8, 0].map fun k =>
    padLeft '0' 2 (digits 16 ((id >>> k).setWidth 8 : U8).toNat))

/-- The line for one component, `lrvm_tools/src/debug/prepare.rs:22-47`. -/
def componentLine (r : AuxMappingStatus) : Text :=
  "=> Component ".toList ++ padLeft '0' 4 (digits 10 r.auxId) ++ " '".toList ++ padRight 32 r.auxName ++ "': ".toList ++
    (match r.auxMapping with | .ok _ => ['✓'] | .error _ => ['✗']) ++ [' '] ++
    (match r.auxMapping with
      | .ok rng => fmtHex 10 rng.startAddr.toNat ++ " -> ".toList ++ fmtHex 10 rng.endAddr.toNat
      | .error e => e.debugText) ++
    " (HW ID: 0x".toList ++ hwIdText r.auxHwId ++ ")".toList

/-- The message of the panic, `lrvm_tools/src/debug/prepare.rs:51-55`. -/
def failedText (n : Nat) : Text :=
  "Failed to map ".toList ++ fmtDec n ++ " component".toList ++ (if n = 1 then [] else ['s']) ++ ['!']

/-- What `prepare_vm` printed, and what came then: the panic message, or the machine (or a panic in a component's reset). -/
structure Prepared (D : Type) where
  lines : List Text
  result : Except Text (Res (Machine D))

/-- `prepare_vm`, `lrvm_tools/src/debug/prepare.rs:11-60`; `none` is a panic before any line is printed. -/
def prepareReport [Bus D] (pf : Profile) (components : List D) : Res (Prepared D) := do
  let s ← newBoard pf components
  let (r, s) ← mapContiguous pf s 0 (List.range components.length)
  some { lines := r.auxMapping.map componentLine
         result := match r.mapping with
           | .error failed => .error (failedText failed.length)
           | .ok _ => .ok (boardReset s) }

end Lrvm
