import Verif.Props.Devices.History
import Verif.Props.Steps

/-!
# Code written by programs: C116
-/

namespace Lrvm

open Spec

variable {D : Type} [Bus D] {pf : Profile}

/-- **C116**. Take a board built with any components, of which component `id` is an array of words, and any history of
host calls: steps of whatever program, resets, mapping calls, direct accesses. If the CPU then runs with the MMU off and
`pc` is an aligned address that the component covers, the instruction the next step executes is the last word the history
wrote there since the component's last reset, 0 if there is none since that reset, or the initial word: code may be written
and run at once, whoever wrote it. -/
theorem C116 {devs : List D} {s0 s' : Machine (Taped D)} {ops : List HostOp}
    (hb : newBoard pf (devs.map blank) = some s0) (h : hostRun pf ops s0 = some s')
    {id : Nat} {d0 : D} (hd0 : devs[id]? = some d0) {size : Nat} {init : Nat → Word} (hm : WordMemory pf d0 size init)
    {d : Taped D} (hd : s'.devs[id]? = some d) (ht : TableOk pf s'.mappings) {m : Mapping} (hmm : m ∈ s'.mappings)
    (hmid : m.auxId = id) (hc : covers m s'.regs.pc) (ha : s'.regs.pc.toNat % 4 = 0) (hh : s'.halted = false)
    (hmtt : s'.regs.mtt = 0) :
    ∃ d', Fetches pf s' (wordAfter init d.tape (s'.regs.pc - m.addr)) (s'.devs.set id d') := by
  obtain ⟨s'', hr⟩ := C105_next hb h hd0 hm hd ht hmm hmid hc ha 0
  obtain ⟨_, hr'⟩ := C37_read (ex := 0) ht hmm hc ha (hmid ▸ hd)
  obtain ⟨⟨d', w, ex⟩, _, h2⟩ := Option.map_eq_some_iff.mp (hr'.symm.trans hr)
  injection h2 with h2 h3
  injection h3 with h3 h4
  exact ⟨d', (C04_fetch_is_word_at_pc hmtt).2 ⟨hh, ha, hr.trans (by rw [← h4, hmid])⟩⟩

/-- `cpy a0, 0xF000`, `shl a0, 16`, `wsa 0x40, 0, a0`, `jp 0x40`. -/
def Demo.writesCode : List Word :=
  [instrWord 0x01 false false false 0 0xF0 0x00, instrWord 0x0B false false false 0 16 0,
   instrWord 0x16 false false true 0x40 0 0, instrWord 0x01 false false false 0x16 0 0x40]

/-- A program that computes the word of HALT, stores it at 0x40 in the RAM and jumps there: the RAM's tape; the next step
executes the stored word. -/
example : ∃ (s0 s' : Machine (Taped Demo.Dev)) (d : Taped Demo.Dev) (e : Ram),
    Ram.fromWithSize [] 0x40 0x22 = some e ∧
    (Demo.devices Demo.writesCode)[1]? = some (.inr e) ∧
    newBoard .debug ((Demo.devices Demo.writesCode).map blank) = some s0 ∧
    hostRun .debug [.mapContiguous 0 [0, 1], .cpuReset, .next, .next, .next, .next] s0 = some s' ∧
    s'.devs[1]? = some d ∧ d.tape = [(.write 0 0xF0000000 0, .wrote 0)] ∧
    wordAfter (fun _ => 0) d.tape 0 = instrWord 0x1E false false false 0 0 0 ∧
    s'.mappings = [⟨0, 0x11, 0, 0x40⟩, ⟨1, 0x22, 0x40, 0x40⟩] ∧ s'.regs.pc = 0x40 ∧ s'.regs.mtt = 0 ∧ s'.halted = false ∧
    (next .debug s').map (·.halted) = some true := ⟨_, _, _, _, rfl, rfl, rfl, rfl, rfl, rfl, rfl, rfl, rfl, rfl, rfl, rfl⟩

end Lrvm
