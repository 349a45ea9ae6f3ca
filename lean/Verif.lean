import Verif.Demo.Machines
import Verif.Demo.RepoTests
import Verif.Lemmas.Access
import Verif.Lemmas.Alike
import Verif.Lemmas.Alu
import Verif.Lemmas.Asm
import Verif.Lemmas.BrainfuckAsm
import Verif.Lemmas.BrainfuckBlocks
import Verif.Lemmas.BrainfuckRun
import Verif.Lemmas.BrainfuckSim
import Verif.Lemmas.BrainfuckStd
import Verif.Lemmas.BrainfuckStep
import Verif.Lemmas.BrainfuckWhole
import Verif.Lemmas.Builds
import Verif.Lemmas.Bytes
import Verif.Lemmas.Causes
import Verif.Lemmas.CausesInv
import Verif.Lemmas.ClearTable
import Verif.Lemmas.Component
import Verif.Lemmas.Confine
import Verif.Lemmas.Devices
import Verif.Lemmas.Effects
import Verif.Lemmas.Eval
import Verif.Lemmas.Frame
import Verif.Lemmas.HelloAsm
import Verif.Lemmas.Hidden
import Verif.Lemmas.HwDetectAsm
import Verif.Lemmas.Labels
import Verif.Lemmas.Lasm
import Verif.Lemmas.LasmAppend
import Verif.Lemmas.LasmRules
import Verif.Lemmas.LasmSource
import Verif.Lemmas.LasmTable
import Verif.Lemmas.LastException
import Verif.Lemmas.MapCall
import Verif.Lemmas.Mapping
import Verif.Lemmas.Monad
import Verif.Lemmas.Next
import Verif.Lemmas.Perform
import Verif.Lemmas.Position
import Verif.Lemmas.ProgramCalls
import Verif.Lemmas.ProgramLoops
import Verif.Lemmas.ProgramMem
import Verif.Lemmas.ProgramRuns
import Verif.Lemmas.Programs
import Verif.Lemmas.Reassembly
import Verif.Lemmas.RegFile
import Verif.Lemmas.Renaming
import Verif.Lemmas.Replay
import Verif.Lemmas.Replug
import Verif.Lemmas.Reset
import Verif.Lemmas.SameMemory
import Verif.Lemmas.Step
import Verif.Lemmas.Table
import Verif.Lemmas.Tally
import Verif.Lemmas.Text
import Verif.Lemmas.Timeless
import Verif.Lemmas.Total
import Verif.Lemmas.Unmapped
import Verif.Lemmas.Unplug
import Verif.Model.Board
import Verif.Model.Bus
import Verif.Model.Cpu
import Verif.Model.Devices.Clock
import Verif.Model.Devices.Counter
import Verif.Model.Devices.Display
import Verif.Model.Devices.FileBacked
import Verif.Model.Devices.FileCrash
import Verif.Model.Devices.Keyboard
import Verif.Model.Devices.Memory
import Verif.Model.Devices.Printing
import Verif.Model.Examples.AsyncHw
import Verif.Model.Examples.Benchmark
import Verif.Model.Examples.Brainfuck
import Verif.Model.Examples.Disassemble
import Verif.Model.Examples.ElapsedTime
import Verif.Model.Examples.HelloWorld
import Verif.Model.Examples.HwDetect
import Verif.Model.Mem
import Verif.Model.Mmu
import Verif.Model.Prelude
import Verif.Model.Regs
import Verif.Model.Text
import Verif.Model.Tools.Asm
import Verif.Model.Tools.Builders
import Verif.Model.Tools.Bytes
import Verif.Model.Tools.Describe
import Verif.Model.Tools.Display
import Verif.Model.Tools.Exceptions
import Verif.Model.Tools.Ids
import Verif.Model.Tools.Lasm
import Verif.Model.Tools.LasmRules
import Verif.Model.Tools.Metadata
import Verif.Model.Tools.Prepare
import Verif.Model.Tools.Run
import Verif.Model.Warnings
import Verif.Props.Arith
import Verif.Props.Builds
import Verif.Props.Causes
import Verif.Props.ClearTable
import Verif.Props.Confinement
import Verif.Props.Contiguous
import Verif.Props.Control
import Verif.Props.Counting
import Verif.Props.Data
import Verif.Props.Destinations
import Verif.Props.Devices.Clock
import Verif.Props.Devices.Code
import Verif.Props.Devices.Counter
import Verif.Props.Devices.Crashes
import Verif.Props.Devices.Cut
import Verif.Props.Devices.Displays
import Verif.Props.Devices.FileBacked
import Verif.Props.Devices.History
import Verif.Props.Devices.Interchange
import Verif.Props.Devices.Keyboards
import Verif.Props.Devices.Memories
import Verif.Props.Devices.Peek
import Verif.Props.Devices.Printing
import Verif.Props.Devices.ReadOnly
import Verif.Props.Devices.Reboot
import Verif.Props.Devices.Replay
import Verif.Props.Devices.SaveState
import Verif.Props.Devices.Sessions
import Verif.Props.Devices.Storages
import Verif.Props.Devices.Unread
import Verif.Props.Examples.AsyncHw
import Verif.Props.Examples.Benchmark
import Verif.Props.Examples.Brainfuck
import Verif.Props.Examples.Disassemble
import Verif.Props.Examples.ElapsedTime
import Verif.Props.Examples.HelloWorld
import Verif.Props.Examples.HwDetect
import Verif.Props.Footprint
import Verif.Props.Forward
import Verif.Props.Hardware
import Verif.Props.Labels
import Verif.Props.Mapping
import Verif.Props.MappingErrors
import Verif.Props.Memory
import Verif.Props.Modes
import Verif.Props.Observation
import Verif.Props.Panics
import Verif.Props.Position
import Verif.Props.Renaming
import Verif.Props.Requests
import Verif.Props.Resume
import Verif.Props.Signed
import Verif.Props.Stack
import Verif.Props.Steps
import Verif.Props.Tally
import Verif.Props.Timeless
import Verif.Props.Tools.Assembler
import Verif.Props.Tools.Builders
import Verif.Props.Tools.DecodeErrors
import Verif.Props.Tools.Encodings
import Verif.Props.Tools.Extended
import Verif.Props.Tools.ExtendedText
import Verif.Props.Tools.Idle
import Verif.Props.Tools.Ids
import Verif.Props.Tools.Lasm
import Verif.Props.Tools.LasmLabels
import Verif.Props.Tools.LasmSource
import Verif.Props.Tools.Messages
import Verif.Props.Tools.Prepare
import Verif.Props.Tools.PrepareEdge
import Verif.Props.Tools.PrepareReport
import Verif.Props.Tools.Programs
import Verif.Props.Tools.Reassembled
import Verif.Props.Tools.Run
import Verif.Props.Tools.RunAgain
import Verif.Props.Tools.RunLines
import Verif.Props.Tools.RunOptions
import Verif.Props.Tools.SignedLit
import Verif.Props.Tools.Tables
import Verif.Props.Tools.Words
import Verif.Props.Unmapped
import Verif.Props.Unused
import Verif.Props.Warnings
import Verif.Props.Wiring
import Verif.Spec.Alike
import Verif.Spec.Asm
import Verif.Spec.Brainfuck
import Verif.Spec.Buffers
import Verif.Spec.Builds
import Verif.Spec.Causes
import Verif.Spec.ClearTable
import Verif.Spec.Component
import Verif.Spec.Confine
import Verif.Spec.Crashes
import Verif.Spec.Decoding
import Verif.Spec.Exceptions
import Verif.Spec.Forward
import Verif.Spec.Hidden
import Verif.Spec.Hw
import Verif.Spec.Isa
import Verif.Spec.Labels
import Verif.Spec.Lasm
import Verif.Spec.LasmLabels
import Verif.Spec.LasmSource
import Verif.Spec.Log
import Verif.Spec.MappingErrors
import Verif.Spec.Memory
import Verif.Spec.Panic
import Verif.Spec.Position
import Verif.Spec.Prepare
import Verif.Spec.Printing
import Verif.Spec.Renaming
import Verif.Spec.Replay
import Verif.Spec.Resets
import Verif.Spec.Run
import Verif.Spec.RunLines
import Verif.Spec.RunOptions
import Verif.Spec.SameMemory
import Verif.Spec.SaveState
import Verif.Spec.Sessions
import Verif.Spec.SignedLit
import Verif.Spec.Tape
import Verif.Spec.Text
import Verif.Spec.Timeless
import Verif.Spec.Unused
import Verif.Spec.Wiring
