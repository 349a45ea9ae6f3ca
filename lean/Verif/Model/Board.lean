import Verif.Model.Cpu

/-!
# The motherboard (`lrvm/src/board/board.rs`) and its histories
-/

namespace Lrvm

/-- `MotherBoard::new`, `lrvm/src/board/board.rs:22-40`, with `MappedMemory::new`
(`lrvm/src/mem/mem.rs:15-20`), `HardwareBridge::new` (`lrvm/src/board/hwb.rs:66-81`) and `Cpu::new`
(`lrvm/src/cpu/cpu.rs:29-44`). -/
def newBoard [Bus D] (pf : Profile) (devs : List D) : Res (Machine D) := do
  assert (decide (devs.length ≤ 4294967295))
  let memCache ← createCaches pf 0 devs
  let hwbCache ← createCaches pf 0 devs
  pure {
    regs := { Regs.zero with smt := 1 }
    devs, hwbCache, memCache
    mappings := []
    cycles := 0
    halted := true
    changedPc := false }

/-- The loop `for aux in self.aux.iter() { aux.borrow_mut().reset(); }`,
`lrvm/src/board/board.rs:64-66`. -/
def resetAll [Bus D] : List D → Res (List D)
  | [] => some []
  | d :: ds => do
    let d' ← Bus.reset d
    let ds' ← resetAll ds
    pure (d' :: ds')

/-- `MotherBoard::reset`, `lrvm/src/board/board.rs:61-67`. -/
def boardReset [Bus D] (s : Machine D) : Res (Machine D) := do
  let s := s.cpuReset
  let devs ← resetAll s.devs
  pure { s with devs := devs }

/-- The calls a host program can make on a motherboard: `Cpu::next`, `Cpu::reset` (through
`MotherBoard::cpu`), `MotherBoard::reset`, and through `MotherBoard::map` the public methods of
`MappedMemory` (`lrvm/src/board/board.rs:49-67`, `lrvm/src/mem/mem.rs:24-151`). -/
inductive HostOp
  | next
  | cpuReset
  | reset
  | map (addr : Word) (auxId : Nat)
  | mapAbs (addr stop : Word) (auxId : Nat)
  | mapContiguous (addr : Word) (auxIds : List Nat)
  | memRead (addr : Word) (ex : U16)
  | memWrite (addr word : Word) (ex : U16)
  /-- `cpu().regs` is a public field: the host may store any value in any register. -/
  | setRegs (f : Regs → Regs)

/-- Effect of one host call on the machine (its answer is dropped). -/
def hostStep [Bus D] (pf : Profile) (s : Machine D) : HostOp → Res (Machine D)
  | .next => Lrvm.next pf s
  | .cpuReset => some s.cpuReset
  | .reset => boardReset s
  | .map a i => (Lrvm.map pf s a i).map (·.2)
  | .mapAbs a e i => (Lrvm.mapAbs pf s a e i).map (·.2)
  | .mapContiguous a is => (Lrvm.mapContiguous pf s a is).map (·.2)
  | .memRead a ex => (Lrvm.memRead pf s a ex).map (·.2.2)
  | .memWrite a w ex => (Lrvm.memWrite pf s a w ex).map (·.2)
  | .setRegs f => some { s with regs := f s.regs }

/-- A sequence of host calls. -/
def hostRun [Bus D] (pf : Profile) : List HostOp → Machine D → Res (Machine D)
  | [], s => some s
  | op :: ops, s => do
    let s' ← hostStep pf s op
    hostRun pf ops s'

end Lrvm
