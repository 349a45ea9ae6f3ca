import Verif.Spec.Memory
import Verif.Spec.Alike
import Verif.Model.Devices.Memory

/-!
# Vocabulary: a userland program and the memory its translation table refuses it
-/

namespace Lrvm.Spec

/-- Address of the entry of the translation table the processor consults for an access at `a` (`mmu.rs:68-73`). -/
def tableEntry (pda : Word) (a : Nat) : Nat := pda.toNat + a % 1024 * 4

/-- The word at address `a` of the RAM mapped by `m`. -/
def ramWord (m : Mapping) (ram : Ram) (a : Nat) : Option Word := ram.storage[(a - m.addr.toNat) / 4]?

/-- The table, in the RAM, refuses address `a` to userland: bit 1 (from the strongest) of the entry is set. -/
def Refused (m : Mapping) (ram : Ram) (pda : Word) (a : Nat) : Prop :=
  ∃ e, ramWord m ram (tableEntry pda a) = some e ∧ entryBit e 1 = true

/-- The address is one of a table entry. -/
def InTable (pda : Word) (a : Nat) : Prop := ∃ b, b % 4 = 0 ∧ a = tableEntry pda b

section
variable {E : Type} [Bus E]

/-- The MMU is on, and its table lies in the RAM mapped by `m`, which is in state `ram`; every entry that refuses an address is itself
at a refused address. -/
structure Guarded (pf : Profile) (s : Machine (E ⊕ Ram)) (m : Mapping) (ram : Ram) : Prop where
  table : TableOk pf s.mappings
  mapped : m ∈ s.mappings
  dev : s.devs[m.auxId]? = some (.inr ram)
  served : m.size.toNat ≤ 4 * ram.storage.length
  mmuOn : s.regs.mtt ≠ 0
  aligned : s.regs.pda.toNat % 4 = 0
  above : m.addr.toNat ≤ s.regs.pda.toNat
  below : s.regs.pda.toNat + 4084 ≤ m.addr.toNat + m.size.toNat
  closed : ∀ a, a % 4 = 0 → Refused m ram s.regs.pda a → Refused m ram s.regs.pda (tableEntry s.regs.pda a)

/-- The components are the same, except for the words of the RAM mapped by `m` whose address satisfies `hidden`. -/
def SameBut (m : Mapping) (hidden : Nat → Prop) (ds es : List (E ⊕ Ram)) : Prop :=
  ds.length = es.length ∧ (∀ j, j ≠ m.auxId → ds[j]? = es[j]?) ∧
  ∃ x y : Ram, ds[m.auxId]? = some (.inr x) ∧ es[m.auxId]? = some (.inr y) ∧ y = { x with storage := y.storage } ∧
    x.storage.length = y.storage.length ∧ ∀ i, ¬ hidden (m.addr.toNat + 4 * i) → x.storage[i]? = y.storage[i]?

end

/-- `n` steps, each starting in userland and none executing RESET. -/
inductive UserRun [Bus D] (pf : Profile) : Machine D → Nat → Machine D → Prop
  | done (s : Machine D) : UserRun pf s 0 s
  | step {s t u : Machine D} {n : Nat} (hu : supervisor s.regs = false)
      (hr : ∀ w devs, Fetches pf s w devs → opcode w ≠ 0x1F) (hn : next pf s = some t) (h : UserRun pf t n u) :
      UserRun pf s (n + 1) u

end Lrvm.Spec
