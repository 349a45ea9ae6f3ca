import Verif.Model.Mem

/-!
# Memory management unit (`lrvm/src/mmu/mmu.rs`)
-/

namespace Lrvm

/-- `MemAction`, `lrvm/src/mmu/mmu.rs:109-113`. -/
inductive MemAction
  | read
  | write
  | exec
  deriving DecidableEq, Repr

/-- `EntryDecodingResult`, `lrvm/src/mmu/mmu.rs:7-12`. -/
inductive EntryDecodingResult
  | decoded (v : Word)
  | passThrough
  | permissionNotSet
  | hwException (ex : U16)
  deriving DecidableEq, Repr

/-- Lines 37-59 of `Mmu::decode_entry`, `lrvm/src/mmu/mmu.rs:19-60`: the decision on an entry already
read. The comparison with `1` is the one in the source. -/
def decodeEntryWord (regs : Regs) (vEntry : Word) (action : MemAction) : EntryDecodingResult :=
  if vEntry &&& (1#32 <<< (if regs.smt ≠ 0 then 31 else 30)) = 0 then .passThrough
  else
    let modeShift := if regs.smt ≠ 0 then 3 else 0
    let actionShift := match action with | .read => 2 | .write => 1 | .exec => 0
    if vEntry &&& (1#32 <<< (24 + actionShift + modeShift)) = 1
    then .decoded (vEntry &&& 0xFFFFFF#32)
    else .permissionNotSet

/-- `Mmu::decode_entry`, `lrvm/src/mmu/mmu.rs:19-60`. -/
def decodeEntry [Bus D] (pf : Profile) (s : Machine D) (entryAddr : Word) (action : MemAction) :
    Res (EntryDecodingResult × Machine D) := do
  let (vEntry, ex, s') ← memRead pf s entryAddr 0
  if ex ≠ 0 then some (.hwException ex, s')
  else some (decodeEntryWord s.regs vEntry action, s')

/-- `Mmu::translate`, `lrvm/src/mmu/mmu.rs:62-104`. `.error none` is `Err(None)` (refused),
`.error (some ex)` a component exception. -/
def translate [Bus D] (pf : Profile) (s : Machine D) (vAddr : Word) (action : MemAction) :
    Res (Except (Option U16) Word × Machine D) :=
  if s.regs.mtt = 0 then some (.ok vAddr, s)
  else do
    let vpiEntryNumber := vAddr &&& 0x3FF#32
    let t ← pf.mul vpiEntryNumber 4
    let vpiEntryAddr ← pf.add s.regs.pda t
    let (r, s1) ← decodeEntry pf s vpiEntryAddr action
    match r with
    | .passThrough => some (.ok vAddr, s1)
    | .permissionNotSet => some (.error none, s1)
    | .hwException ex => some (.error (some ex), s1)
    | .decoded vPageNumber => do
      let vPageAddr ← pf.mul vPageNumber 16384
      let u ← pf.mul ((vAddr <<< 10) >>> 22) 4
      let vPageEntryAddr ← pf.add vPageAddr u
      let (r2, s2) ← decodeEntry pf s1 vPageEntryAddr action
      match r2 with
      | .passThrough => some (.ok vAddr, s2)
      | .permissionNotSet => some (.error none, s2)
      | .hwException ex => some (.error (some ex), s2)
      | .decoded pPageNumber => do
        let v ← pf.mul pPageNumber 1024
        let pAddr ← pf.add v (vAddr &&& 0x3FF#32)
        some (.ok pAddr, s2)

end Lrvm
