import Verif.Spec.RunLines
import Verif.Spec.Hw

/-!
# What `prepare_vm` should report

Components are placed one after the other from address 0; a component that cannot be placed takes no room. Addresses and sizes
are natural numbers.
-/

namespace Lrvm.Spec.Prepare

open Lrvm.Spec Lrvm.Spec.RunLines

/-- What happened to a component: its first and last word's addresses, or the reason of the refusal. -/
inductive Fate
  | placed (first last : Nat)
  | refused (reason : Text)

/-- Was the component refused? -/
def Fate.isRefused : Fate → Bool
  | .placed _ _ => false
  | .refused _ => true

/-- The fates of components with given hardware identifiers and sizes, from component number `k` and address `here` on;
`first` describes the first component that was placed. `none` if an address computation overflows in a debug build. -/
def fates (pf : Profile) : (k here : Nat) → (first : Option Text) → List (Nat × Nat) → Option (List Fate)
  | _, _, _, [] => some []
  | k, here, first, (hw, size) :: rest =>
    if pf = .debug ∧ (here + size < 4 ∨ 2 ^ 32 ≤ here + size) then none
    else if size = 0 then (fates pf (k + 1) here first rest).map (.refused "NullBusSize".toList :: ·)
    else if size % 4 ≠ 0 then (fates pf (k + 1) here first rest).map (.refused "UnalignedBusSize".toList :: ·)
    else if here + size ≤ 2 ^ 32 then
      (fates pf (k + 1) (here + size) (some (first.getD ("Mapping { aux_id: ".toList ++ Nat.toDigits 10 k ++
        ", aux_hw_id: ".toList ++ Nat.toDigits 10 hw ++ ", addr: 0, size: ".toList ++ Nat.toDigits 10 size ++ " }".toList)))
        rest).map (.placed here (here + size - 4) :: ·)
    else if here = 2 ^ 32 then
      (fates pf (k + 1) here first rest).map (.refused ("AddressOverlaps(".toList ++ first.getD [] ++ ")".toList) :: ·)
    else (fates pf (k + 1) here first rest).map (.refused "NullOrNegAddressRange".toList :: ·)

/-- Two hexadecimal digits. -/
def pair (n : Nat) : Text := zeroes 2 ((Nat.toDigits 16 (n % 256)).map Char.toUpper)

/-- The eight bytes of a hardware identifier, strongest first. -/
def hwText (hw : Nat) : Text :=
  pair (hw / 256 ^ 7) ++ ' ' :: pair (hw / 256 ^ 6) ++ ' ' :: pair (hw / 256 ^ 5) ++ ' ' :: pair (hw / 256 ^ 4) ++
    ' ' :: pair (hw / 256 ^ 3) ++ ' ' :: pair (hw / 256 ^ 2) ++ ' ' :: pair (hw / 256) ++ ' ' :: pair hw

/-- A tick and the addresses, or a cross and the reason. -/
def fateText : Fate → Text
  | .placed first last => "✓ ".toList ++ hex 8 first ++ " -> ".toList ++ hex 8 last
  | .refused reason => "✗ ".toList ++ reason

/-- The line of component number `k`. -/
def line (k : Nat) (name : Text) (hw : Nat) (f : Fate) : Text :=
  "=> Component ".toList ++ zeroes 4 (Nat.toDigits 10 k) ++ " '".toList ++ name ++ List.replicate (32 - name.length) ' ' ++
    "': ".toList ++ fateText f ++ " (HW ID: 0x".toList ++ hwText hw ++ ")".toList

/-- The message when `n` components were refused. -/
def message (n : Nat) : Text :=
  "Failed to map ".toList ++ Nat.toDigits 10 n ++ (if n = 1 then " component!" else " components!").toList

/-- A component's hardware identifier and size, from its metadata. -/
def Is [Bus D] (pf : Profile) (d : D) (hw size : Nat) : Prop :=
  ∃ md : Metadata, Bus.metadata pf d = some md ∧ md[0].toNat * 2 ^ 32 + md[1].toNat = hw ∧ md[2].toNat = size

end Lrvm.Spec.Prepare
