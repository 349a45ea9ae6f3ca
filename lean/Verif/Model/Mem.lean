import Verif.Model.Regs
import Verif.Model.Bus

/-!
# Machine state and mapped memory (`lrvm/src/mem/*.rs`)
-/

namespace Lrvm

/-- `Mapping`, `lrvm/src/mem/mappings.rs:3-12`. -/
structure Mapping where
  auxId : Nat
  auxHwId : U64
  addr : Word
  size : Word
  deriving DecidableEq, Repr

/-- `Mapping::end_addr`, `lrvm/src/mem/mappings.rs:16-18` (plain `+` and `-`). -/
def Mapping.endAddr (pf : Profile) (m : Mapping) : Res Word := do
  let t ← pf.add m.addr m.size
  pf.sub t 1

/-- `MappingError`, `lrvm/src/mem/mappings.rs:23-33`. -/
inductive MappingError
  | unknownComponent
  | unalignedStartAddress
  | unalignedBusSize
  | unalignedEndAddress
  | nullOrNegAddressRange
  | alreadyMapped
  | nullBusSize
  | addressOverlaps (m : Mapping)
  | mappingTooLarge (auxSize : Word)
  deriving DecidableEq, Repr

/-- `MappingRange`, `lrvm/src/mem/mappings.rs:37-42`. -/
structure MappingRange where
  startAddr : Word
  endAddr : Word
  deriving DecidableEq, Repr

/-- The whole virtual machine: `MotherBoard` (`lrvm/src/board/board.rs:13-18`) with its `Cpu`
(`lrvm/src/cpu/cpu.rs:10-25`), the CPU's `MappedMemory` (`lrvm/src/mem/mem.rs:6-11`) and the
components, which the Rust code shares between the three through `Rc<RefCell<..>>`.
`hwbCache` is the cache of the CPU's hardware bridge and `memCache` the one of the memory's.
`changedPc` is `_cycle_changed_pc`. -/
structure Machine (D : Type u) where
  regs : Regs
  devs : List D
  hwbCache : List AuxCache
  memCache : List AuxCache
  mappings : List Mapping
  cycles : U128
  halted : Bool
  changedPc : Bool

/-- The search `mappings.iter().find(|m| m.addr <= addr && addr <= m.end_addr())` of
`MappedMemory::read`/`write`, `lrvm/src/mem/mem.rs:100-104,130-134` (`&&` short-circuits, so
`end_addr` is only computed, and can only panic, when the first test holds). -/
def findMapping (pf : Profile) : List Mapping → Word → Res (Option Mapping)
  | [], _ => some none
  | m :: ms, addr =>
    if m.addr ≤ addr then do
      let e ← m.endAddr pf
      if addr ≤ e then some (some m) else findMapping pf ms addr
    else findMapping pf ms addr

/-- `MappedMemory::read`, `lrvm/src/mem/mem.rs:94-118` (the warning on stderr: `Model/Warnings.lean`).
Returns the value, the exception variable and the machine after the call. -/
def memRead [Bus D] (pf : Profile) (s : Machine D) (addr : Word) (ex : U16) :
    Res (Word × U16 × Machine D) := do
  assert (addr % 4 == 0)
  match ← findMapping pf s.mappings addr with
  | some m => do
    let off ← pf.sub addr m.addr
    match ← bridgeRead s.devs m.auxId off ex with
    | none => panicked
    | some (w, ex', devs') => some (w, ex', { s with devs := devs' })
  | none => some (0, ex, s)

/-- `MappedMemory::write`, `lrvm/src/mem/mem.rs:124-144` (the warning on stderr: `Model/Warnings.lean`). -/
def memWrite [Bus D] (pf : Profile) (s : Machine D) (addr : Word) (word : Word) (ex : U16) :
    Res (U16 × Machine D) := do
  assert (addr % 4 == 0)
  match ← findMapping pf s.mappings addr with
  | some m => do
    let off ← pf.sub addr m.addr
    match ← bridgeWrite s.devs m.auxId off word ex with
    | none => panicked
    | some (ex', devs') => some (ex', { s with devs := devs' })
  | none => some (ex, s)

/-- `MappedMemory::get_mapping`, `lrvm/src/mem/mem.rs:147-151`. -/
def Machine.getMapping (s : Machine D) (auxId : Nat) : Option Mapping :=
  s.mappings.find? (fun m => m.auxId == auxId)

/-- The overlap search of `internal_map`, `lrvm/src/mem/mem.rs:196-199`. -/
def findOverlap (pf : Profile) (start stop : Word) : List Mapping → Res (Option Mapping)
  | [] => some none
  | m :: ms =>
    if m.addr ≤ stop then do
      let e ← m.endAddr pf
      if start ≤ e then some (some m) else findOverlap pf start stop ms
    else findOverlap pf start stop ms

/-- `MappedMemory::internal_map`, `lrvm/src/mem/mem.rs:154-219`. The default end address is computed
before it is known to be needed (`unwrap_or` takes its argument by value). -/
def internalMap (pf : Profile) (s : Machine D) (start : Word) (stop? : Option Word) (auxId : Nat) :
    Res (Except MappingError MappingRange × Machine D) :=
  match s.memCache[auxId]? with
  | none => some (.error .unknownComponent, s)
  | some cache => do
    let auxSize := cache.size
    let t ← pf.add start auxSize
    let dflt ← pf.sub t 4
    let stop := stop?.getD dflt
    if start % 4 ≠ 0 then some (.error .unalignedStartAddress, s)
    else if auxSize = 0 then some (.error .nullBusSize, s)
    else if auxSize % 4 ≠ 0 then some (.error .unalignedBusSize, s)
    else if stop % 4 ≠ 0 then some (.error .unalignedEndAddress, s)
    else do
      let stop4 ← pf.add stop 4
      if start = stop4 ∨ stop < start then some (.error .nullOrNegAddressRange, s)
      else do
        let len ← pf.sub stop start
        if auxSize < len then some (.error (.mappingTooLarge auxSize), s)
        else if s.mappings.any (fun m => m.auxId == auxId) then some (.error .alreadyMapped, s)
        else do
          match ← findOverlap pf start stop s.mappings with
          | some m => some (.error (.addressOverlaps m), s)
          | none =>
            let m : Mapping := { auxId, auxHwId := cache.hwId, addr := start, size := auxSize }
            some (.ok ⟨start, stop⟩, { s with mappings := s.mappings ++ [m] })

/-- `MappedMemory::map`, `lrvm/src/mem/mem.rs:24-26`. -/
def map (pf : Profile) (s : Machine D) (addr : Word) (auxId : Nat) :
    Res (Except MappingError MappingRange × Machine D) :=
  internalMap pf s addr none auxId

/-- `MappedMemory::map_abs`, `lrvm/src/mem/mem.rs:30-37`. -/
def mapAbs (pf : Profile) (s : Machine D) (addr stop : Word) (auxId : Nat) :
    Res (Except MappingError MappingRange × Machine D) :=
  internalMap pf s addr (some stop) auxId

/-- `AuxMappingStatus`, `lrvm/src/mem/mappings.rs:55-64`. -/
structure AuxMappingStatus where
  auxId : Nat
  auxHwId : U64
  auxName : List Char
  auxMapping : Except MappingError MappingRange

/-- `ContiguousMappingResult`, `lrvm/src/mem/mappings.rs:46-51`. -/
structure ContiguousMappingResult where
  mapping : Except (List (Nat × MappingError)) MappingRange
  auxMapping : List AuxMappingStatus

/-- The accumulators of the loop of `map_contiguous`, `lrvm/src/mem/mem.rs:45-48`. -/
structure ContigAcc where
  auxMapping : List AuxMappingStatus
  failed : List (Nat × MappingError)
  lastAddr : Word
  maxAddr : Word

/-- One iteration of the loop of `map_contiguous`, `lrvm/src/mem/mem.rs:50-75`. The two `unwrap`s of
lines 71-72 panic when the component does not exist. -/
def contigStep (pf : Profile) (acc : ContigAcc) (s : Machine D) (auxId : Nat) :
    Res (ContigAcc × Machine D) := do
  let (result, s') ← map pf s acc.lastAddr auxId
  let acc' ← (match result with
    | .ok r => do
      let last ← pf.add r.endAddr 4
      some { acc with maxAddr := if acc.maxAddr < r.endAddr then r.endAddr else acc.maxAddr,
                      lastAddr := last }
    | .error e => some { acc with failed := acc.failed ++ [(auxId, e)] } : Res ContigAcc)
  match s'.memCache[auxId]? with
  | none => panicked
  | some cache =>
    some ({ acc' with auxMapping := acc'.auxMapping ++ [⟨auxId, cache.hwId, cache.name, result⟩] }, s')

/-- The loop of `map_contiguous`, `lrvm/src/mem/mem.rs:50-75`. -/
def contigLoop (pf : Profile) : ContigAcc → Machine D → List Nat → Res (ContigAcc × Machine D)
  | acc, s, [] => some (acc, s)
  | acc, s, id :: ids => do
    let (acc', s') ← contigStep pf acc s id
    contigLoop pf acc' s' ids

/-- `MappedMemory::map_contiguous`, `lrvm/src/mem/mem.rs:40-88`. -/
def mapContiguous (pf : Profile) (s : Machine D) (addr : Word) (auxIds : List Nat) :
    Res (ContiguousMappingResult × Machine D) := do
  let (acc, s') ← contigLoop pf ⟨[], [], addr, addr⟩ s auxIds
  some ({ mapping := if acc.failed.isEmpty then .ok ⟨addr, acc.maxAddr⟩ else .error acc.failed,
          auxMapping := acc.auxMapping }, s')

end Lrvm
