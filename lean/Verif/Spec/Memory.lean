import Verif.Spec.Isa

/-!
# Specification vocabulary for mapped memory

Address ranges are sets of natural numbers; nothing here uses the model's search functions.
-/

namespace Lrvm.Spec

/-- The mapping's range contains the address. -/
def covers (m : Mapping) (a : Word) : Prop :=
  m.addr.toNat ≤ a.toNat ∧ a.toNat < m.addr.toNat + m.size.toNat

instance (m : Mapping) (a : Word) : Decidable (covers m a) := by unfold covers; infer_instance

/-- Upper limit of the address space: a build with overflow checks cannot use the last byte as the end of a
range (the plain `addr + size` overflows). -/
def room : Profile → Nat
  | .debug => 2 ^ 32 - 1
  | .release => 2 ^ 32

/-- The mapping occupies a non-empty aligned range of the address space. -/
structure RangeOk (pf : Profile) (m : Mapping) : Prop where
  nonempty : 0 < m.size.toNat
  fits : m.addr.toNat + m.size.toNat ≤ room pf
  addrAligned : m.addr.toNat % 4 = 0
  sizeAligned : m.size.toNat % 4 = 0

/-- No address belongs to both ranges. -/
def Disjoint (m n : Mapping) : Prop := ∀ a, ¬ (covers m a ∧ covers n a)

/-- A mapping table as the documentation describes it: each range lies in the address space, no two
overlap, no component appears twice. -/
structure TableOk (pf : Profile) (maps : List Mapping) : Prop where
  ranges : ∀ m ∈ maps, RangeOk pf m
  disjoint : maps.Pairwise Disjoint
  once : maps.Pairwise (fun m n => m.auxId ≠ n.auxId)

/-- What the processor wants to do at an address. -/
abbrev Action := MemAction

/-- Bit `i` of an entry of the translation tables, 0 being the strongest (`docs/Architecture.md`, "Physical
address pages"). -/
def entryBit (e : Word) (i : Nat) : Bool := e.toNat / 2 ^ (31 - i) % 2 == 1

/-- Documented pass-through bit of an entry for the given mode: bit 0 in supervisor mode, bit 1 in
userland. -/
def docPass (sv : Bool) (e : Word) : Bool := entryBit e (if sv then 0 else 1)

/-- Documented permission bit of an entry: bits 2, 3, 4 are READ, WRITE, EXEC in supervisor mode, bits 5, 6,
7 in userland. -/
def docPermits (sv : Bool) (act : Action) (e : Word) : Bool :=
  entryBit e ((if sv then 2 else 5) + match act with | .read => 0 | .write => 1 | .exec => 2)

/-- The documented translation of virtual address `v`, where `mem a` is the word at physical address `a`:
`none` if the access is refused. The first table is indexed by the 10 strongest bits of `v`, the second by
the 12 bits that follow. -/
def docTranslate (mem : Nat → Word) (pda : Word) (sv : Bool) (act : Action) (v : Word) : Option Nat :=
  let e1 := mem (pda.toNat + v.toNat / 2 ^ 22 * 4)
  if docPass sv e1 then some v.toNat
  else if docPermits sv act e1 = false then none
  else
    let e2 := mem (e1.toNat % 2 ^ 24 * 16384 + v.toNat / 2 ^ 10 % 2 ^ 12 * 4)
    if docPass sv e2 then some v.toNat
    else if docPermits sv act e2 = false then none
    else some (e2.toNat % 2 ^ 24 * 1024 + v.toNat % 2 ^ 10)

/-- The range a component of the given size occupies when mapped at an address. -/
def rangeAt (id : Nat) (hwId : U64) (addr size : Word) : Mapping := ⟨id, hwId, addr, size⟩

/-- The conditions under which a component may be mapped at an address: it exists (`cache` is what the board
remembers of it), its size is a non-zero multiple of 4, the address is aligned, the range fits in the address
space, the component is not mapped yet and no address of the range is taken. -/
structure Mappable (pf : Profile) (s : Machine D) (addr : Word) (id : Nat) (cache : AuxCache) : Prop where
  known : s.memCache[id]? = some cache
  sizePos : 0 < cache.size.toNat
  sizeAligned : cache.size.toNat % 4 = 0
  addrAligned : addr.toNat % 4 = 0
  fits : addr.toNat + cache.size.toNat ≤ room pf
  unmapped : ∀ m ∈ s.mappings, m.auxId ≠ id
  free : ∀ m ∈ s.mappings, Disjoint (rangeAt id cache.hwId addr cache.size) m

variable {D : Type} [Bus D]

/-- A bus read at physical address `a` (a request with an empty exception variable) yields `w`, with
exception `ex` (0 if none), leaving the components in state `devs'`. -/
def BusRead (pf : Profile) (s : Machine D) (devs : List D) (a w : Word) (ex : U16) (devs' : List D) : Prop :=
  memRead pf { s with devs := devs } a 0 = some (w, ex, { s with devs := devs' })

/-- A bus write at physical address `a`. -/
def BusWrite (pf : Profile) (s : Machine D) (devs : List D) (a w : Word) (ex : U16) (devs' : List D) : Prop :=
  memWrite pf { s with devs := devs } a w 0 = some (ex, { s with devs := devs' })

end Lrvm.Spec
