# Formal model of LRVM in Lean 4 — design

Subject: ClementNerma/LRVM (`/repo`, Rust). The crates modelled are `lrvm` (CPU, MMU, mapped
memory, hardware bridge, motherboard), `lrvm_tools` (assembler data types, exceptions, byte
utilities, metadata, `prepare_vm`/`run_vm`/`exec_vm`, the assembler with its `customasm.def`) and
`lrvm_aux` (the bundled components), plus the examples: the threaded component of `async_hw`, and the
programs of `hello_world`, `benchmark`, `hw_detect`, `elapsed_time`, `async_hw`, `disassemble` and `brainfuck`
assembled and run whole.

## Layout

| Directory | Content |
| --- | --- |
| `lean/Verif/Model/` | the model: one Lean definition per Rust function, each citing file and lines |
| `lean/Verif/Spec/`  | small independent specifications (documented instruction effects, array memories, stacks, encodings) that never mention the model's helpers |
| `lean/Verif/Lemmas/` | proof machinery (monad logic, frame lemmas, evaluation lemmas) |
| `lean/Verif/Demo/` | concrete machines used by non-vacuity examples |
| `lean/Verif/Props/` | the property theorems, one file per topic, with non-vacuity examples beside them |

## How the code is modelled

* **Numbers.** `u8/u16/u32/u64/u128` are `BitVec 8/16/32/64/128`. `usize` is taken to be 64 bits
  (the project targets 32- and 64-bit hosts; on 64-bit `usize::try_from(u32)` never fails); indices are
  `Nat`. `i8/i16/i32` are the same bit vectors read through `BitVec.toInt`.
* **Build profile.** Rust's plain `+ - *` and `<<` panic on overflow in debug builds and wrap in
  release builds (`Cargo.toml` only sets `lto`), so the model takes a `Profile` (`debug`/`release`),
  and every unchecked arithmetic operation of the source is a `Profile`-dependent operation. Theorems
  are for both profiles unless they name one.
* **Panics** are an explicit outcome, never a default value. `unreachable!`, `assert!`, failed
  `unwrap`, out-of-range indexing and debug overflow all produce it.
* **The CPU's `Result<T, ()>`** ("an exception was raised") is the outcome `ex s` carrying the state
  in which the exception has been entered; `?` is the monadic bind that stops there.
* **Components** (`dyn Bus`) are any type with a `Bus` instance: `name`, `metadata`, `read`, `write`,
  `reset` as total functions which may return "panic". CPU theorems quantify over *every* such type
  and instance, so over every component behaviour, deterministic in the component's own state.
  Input from the outside world (keyboard, clock) is in the component's state as an input stream.
  Output to handlers (displays, debug) is a log in the component's state.
* **Sharing.** The motherboard's, CPU's and memory's `Rc<RefCell<Box<dyn Bus>>>` clones are one list
  of components in the machine state. `RefCell` borrow failures cannot occur: each borrow in the source
  lasts for one call and components have no access to the board.
* **Caches.** Each hardware bridge caches name and metadata at creation. The two caches are separate
  fields of the machine.
* **Printing** (`println!`) of `run_vm`, of the printing displays and of the debug interface is modelled as the
  text printed (C95–C99); failures of the standard output are not.

## Evidence that the model is faithful

The code cannot be run here, so the model rests on the reading of `/repo`. As a check, `Demo/RepoTests` replays the repository's
own unit tests (`lrvm_tools/src/tests`, `lrvm_aux/src/tests`) on the model, through the modelled `exec_vm`: instruction encoding,
decoding and text, assembling, boot ROM, persistent memory, RAM, displays and keyboards (that of `examples/disassemble` is in
C91). These are tests of the model, not proofs of properties. `seeded/LOG.jsonl` records the wrong models tried against the
theorems.

## Where the documentation and the code disagree

Besides the refuted claims (theorems named `_refuted`, each with a concrete machine), the reading found these sentences of
`docs/Tutorial.md` to be false of the model; they are not claims of `properties.jsonl` by themselves:

* line 426, the VM of an empty boot ROM "will run undefinitely": the word 0 indeed raises an exception at every cycle (C112), but
  the example's own loop stops at the first one, because of its `assert_eq!(cpu.regs.et, 0)`.
* line 849, userland "can be enabled by setting the `smt` register to `1`": it is 0 that means userland (C09, C15).
* lines 861-863, a push at `0x2000` moves the stack pointer to `0x1FFD`: it moves to `0x1FFC` (C33).
* line 873, "resetting the CPU will simply halt it": it makes it run (C05).

## Trusted base

* Lean's kernel (4.33.0), and the three standard axioms `propext`, `Classical.choice`, `Quot.sound`
  (`#print axioms` on each property theorem shows no others; several need fewer). No axiom is added,
  no `native_decide`/`bv_decide`.
* The reading of `/repo` recorded in the citations. The Rust code is not compiled or run here.
* `customasm` (a dependency, not in `/repo`) is modelled only as far as the rules of `customasm.def` need:
  a line is a label followed by a colon and nothing else, or a mnemonic and comma-separated operands (registers,
  names of the rule set, sums and differences of numbers and labels), a rule applies if every operand is accepted
  by its parameter type, a line assembles if exactly one rule applies, and a rule's fields are concatenated. The
  white space of a line is spaces only; a comment begins at the first semicolon (so no semicolon in a string);
  `#d` takes one string, `#d32` one value; an operand may be a string of one character (`"x"`, its code), commas
  inside strings do not separate operands, and operands have no escaped quotes. Labels are aligned to 4 bytes (`#labelalign 32`), a label that begins
  with a dot belongs to the last one that does not, and a label may be defined once. This reading of `customasm`
  is trusted.
* The standard library's `DefaultHasher`, used by `gen_aux_id`, is modelled as SipHash-1-3 with zero keys (its current
  implementation; the library does not promise it).
* Not modelled: memory allocation failure, stack overflow, other directives and expressions of `customasm`, real time (clock and sleeps are events),
  the file system beyond a byte array with a size and a success flag per operation, and the bytes of a write reaching it in order
  when the process stops in the meantime (C136; losses of the operating system itself, such as a power cut, are not modelled).

## Properties: model and proof plan

* **C01 A halted CPU does nothing** — `next` on a halted machine is the identity; iterate by induction on the number of calls.
* **C02 The cycle counter counts executed cycles** — frame lemma on the cycle field over all 32 opcodes, then induction on run length.
* **C03 Program counter advances by one word** — pc-frame logic: relation between state before and after each instruction body, for every opcode.
* **C04 Instruction fetch is a checked big-endian word read at pc** — definition of `next` related to a spec of fetch in terms of the physical memory read.
* **C05 Reset puts the machine in the documented startup state** — direct computation on arbitrary prior state; component resets counted with a logging component.
* **C06 Exception entry is exactly the documented one** — computation, plus bit-level lemma that the packed `et` splits back in mode, code, data.
* **C07 et always describes a real exception** — frame relation over all opcodes and memory operations.
* **C08 era gives the address that raised the last exception** — false of the code: invariant `era = 0` over all histories and a concrete witness; partial none.
* **C09 af, et and era cannot be written by a program** — frame relations plus exact evaluation of `write_reg`.
* **C10 Register access follows the documented permission table** — read/write evaluated against the documented table for all 256 codes by case analysis on ranges; false for codes above 0x1F in userland (witness), rest `_partial`.
* **C11 Userland cannot alter supervisor state** — frame relation in userland over all instructions but RESET with processor mode 0 (false for it: witness; what it does exactly: `C11_reset_does`) `_partial`.
* **C12 Supervisor mode is entered only through the exception vector** — same, `_partial`, with RESET witness.
* **C13 Userland cannot observe supervisor registers** — relational (two-run) logic closed under bind, for all opcodes; RESET included if it does not reset the CPU.
* **C14 Supervisor-only instructions are refused in userland** — LSM proved; HALT, RESET, CYCLES refuted by theorems for all states.
* **C15 LSM jumps to the given address in userland mode** — false: LSM lands at addr+4; the exact theorem and the refutation.
* **C16 Add, subtract, multiply and bitwise results are the mathematical ones** — `compute` against `Int` arithmetic through `BitVec` lemmas.
* **C17 DIV and MOD follow their mode byte** — `compute` against `Int.tdiv`/`Int.tmod` and `Nat` division; overflow modes refuted (`_partial`).
* **C18 Shifts move the documented number of bits** — `compute` against powers of two.
* **C19 The flag register encodes the documented flags** — bit-by-bit characterisation of `af`; ZLF refuted, others `_partial`; frame lemma for 'no other instruction'.
* **C20 Compare-and-branch idioms decide unsigned order** — two-step execution evaluated symbolically for any machine whose fetch yields the two words.
* **C21 IF and IFN skip exactly one instruction** — exact evaluation; flag 7 refuted (`_partial`).
* **C22 IF2 evaluates its condition on both flags** — exact evaluation; unknown flags refuted (`_partial`).
* **C23 Alias instructions do what they say** — exact evaluation for every register.
* **C24 JPR jumps by a signed 16-bit byte offset** — exact evaluation, offset as `Int` modulo 2^32.
* **C25 Unaligned accesses never reach the bus** — exact evaluation of the memory access.
* **C26 With the MMU off a virtual address is a physical address** — exact evaluation of the memory access.
* **C27 With the MMU on addresses are translated through the two-level tables** — false: every permitted translation is the identity; refutation plus characterisation.
* **C28 Refused accesses raise the exception of their kind** — false: always 0x06; `_partial` for reads, refuted otherwise.
* **C29 Loads and stores use the documented effective address** — exact evaluation of each instruction.
* **C30 SRM swaps a register and a memory word** — exact evaluation on success; refuted for a read-only register (memory written, register not) `_partial`.
* **C31 EX swaps two registers, all or nothing** — exact evaluation on success; refuted for a read-only second register `_partial`.
* **C32 The stack is last-in first-out** — refinement of the machine stack to `List` over RAM, induction over the operation sequence.
* **C33 Failed stack operations leave the stack pointer unchanged** — evaluation on the failing memory access.
* **C34 CALL and RET nest** — evaluation of CALL then RET, induction over nesting.
* **C35 Supervisor and userland stacks are separate** — frame relation.
* **C36 Components only receive requests in their contract** — instrumented component logging its requests; invariant over all histories of host calls (map, map_abs, map_contiguous, bus access, steps, resets).
* **C37 An access reaches only the component mapped there** — dispatch theorem over an arbitrary mapping table with disjoint ranges.
* **C38 Programs cannot change the hardware configuration** — frame relation over all opcodes, induction over steps.
* **C39 HWD reports the true hardware information without side effects** — exact evaluation against a specification of the information table.
* **C40 Component names are cut to the longest 32-byte whole-character prefix** — list induction on characters.
* **C41 RESET resets exactly the selected components** — evaluation of the reset loops; <=/>= modes refuted (`_partial`).
* **C42 A guest program cannot crash the host** — panic-freedom logic; refuted in both profiles by witnesses; `_partial` under exact conditions.
* **C43 Mapped ranges never overlap** — invariant by induction over mapping histories; refuted with map_abs, `_partial` for map/map_contiguous.
* **C44 map succeeds exactly when it should and reports the range** — iff characterisation of success.
* **C45 A failed mapping changes nothing** — evaluation of the error branches.
* **C46 Mapping order does not matter** — permutation invariance of first-match lookup on disjoint ranges.
* **C47 map_contiguous packs components without gaps** — induction over the component list.
* **C48 map_abs maps exactly the requested range** — false: three witnesses; `_partial` for the case end = start+size-4.
* **C49 Mapping calls report errors rather than panic** — release: no panic theorem; debug and unknown id refuted.
* **C50 Instruction encoding round-trips** — false for 2-byte operand registers other than code 0; `_partial` otherwise, by cases over all constructors.
* **C51 The CPU executes what the decoder shows** — refinement: CPU on bytes = semantics on decoded instruction, all opcodes.
* **C52 Assembled instructions execute as written** — composition of C50 and C51.
* **C53 Symbol tables are bijective with their codes** — whole-table case analysis.
* **C54 Division modes round-trip and drive the CPU** — false for DIV_ZRO_MAX; `_partial`.
* **C55 Program encoding is lossless** — list induction.
* **C56 Program editing puts words where it says** — list reasoning; prepend_all refuted, `_partial`.
* **C57 Byte/word conversions are inverse and big-endian** — list induction; unaligned tail refuted, `_partial`.
* **C58 Exceptions decode to what the CPU raised** — case analysis plus bit-level lemma; composed with C06.
* **C59 Component exceptions survive the bus** — case analysis; UnknownError refuted, `_partial`.
* **C60 Extended instructions have their documented effect** — multi-step execution; two forms refuted, `_partial`.
* **C61 run_vm stops exactly when it should** — `run_vm` as bounded iteration; characterised by least stopping index; termination by cycle count.
* **C62 prepare_vm gives a ready machine with packed components** — composition of C47 and C05. The condition for success is exact (C62_succeeds_iff); a debug build refuses components that fill the address space to its last byte.
* **C63 Device metadata encodes losslessly** — case analysis.
* **C64 RAM is a word array** — refinement to a function `offset -> word` over histories.
* **C65 Boot ROM is immutable** — invariant over histories.
* **C66 Persistent memory keeps its content** — as C64; survival across reset refuted.
* **C67 File-backed memory mirrors its file** — byte-array file model, I/O always succeeding; size refuted.
* **C68 The buffered display shows what was written** — refinement to a byte buffer; clearing after display refuted.
* **C69 Character and number displays show each written value** — evaluation.
* **C70 The synchronous character keyboard returns the requested character** — history refinement.
* **C71 The synchronous line keyboard returns the requested line** — list induction over the line's bytes; stale-buffer refutation.
* **C72 The realtime clock reports consistent time words** — evaluation with the time as input; word 3 refuted.
* **C73 Bundled components never panic within their contract** — invariants per component.
* **C74 A boot ROM program survives any program** — composition of C36/C38/C65: invariant over whole-machine histories.
* **C75 The asynchronous counter's thread protocol is sound** — interleaving model of the counter thread with sequentially consistent atomics; invariants over all schedules.
* **C76 Display commands clear the buffer afterwards** — case analysis; false for the display commands, `_partial` for the clear command.
* **C77 The basic debug interface reports every written word** — case analysis over the sixteen indexes; overflow of the string length in debug builds as a separate statement.
* **C78 The line keyboard's buffer is always valid UTF-8** — false (a write can be truncated inside a character); refuted with a witness, `_partial` otherwise.
* **C79 The asynchronous counter is incremented once per second** — interleaving model; the waiting time is part of the trace.
* **C80 Disassembling shows every word, in order** — list induction over the words; crash on `jpr -0x8000` in debug builds refuted, `_partial` for the rest.
* **C81 Assembling a disassembled program gives the program back** — every line the disassembler can print is assembled symbolically with the rules of `customasm.def`; false for several instructions (refuted), exact characterisation as `_partial`.
* **C82 Documented assembly assembles to what it says** — the documented syntax is a relation between texts and instructions (`Spec/LasmSource.lean`); every documented form is assembled symbolically; `Misassembled` lists the forms for which the rules disagree with the documentation, each refuted in general.
* **C83 Memory offsets and factors are signed** — false for negative constants (zero-extended) and for negative registers in SRM in debug builds; `_partial` otherwise, from C29 and C30.
* **C84 Labels stand for addresses** — sources with labels are a relation (`Spec/LasmLabels.lean`) between lines, words and the table of labels that they define; induction over the lines shows that the layout of the assembler is that table.
* **C85 The hello_world example displays its message** — `Model/Examples/HelloWorld.lean` models `main` (the source with a message as a parameter, `setup`, the loop as a relation). The source is assembled symbolically (`Lemmas/HelloAsm.lean`), the machine is built with C62, and the program is followed with the rules of `Lemmas/Programs.lean`, with an induction over the words of the message.
* **C86 The benchmark and minimal examples run to their end** — `Model/Examples/Benchmark.lean`. The programs are followed with the rules of `Lemmas/Programs.lean`, with an induction over the turns of the loop; `Lemmas/ProgramRuns.lean` turns the end of a program into the only result of `exec_vm`.
* **C87 The hw_detect example shows every component** — `Model/Examples/HwDetect.lean` models `main`: the source (assembled in chunks by the kernel, `Lemmas/HwDetectAsm.lean`), the board, and the host's decoding of the records. The program is followed with `Lemmas/Programs.lean` and `Lemmas/ProgramCalls.lean` (HWD by C39, CALL and RET); the straight part of `extract_infos` is handled by an induction over its instructions, the loop by an induction over the components.
* **C88 The elapsed_time example shows each new second once** — `Model/Examples/ElapsedTime.lean`: the source, the board and the handler; the clock is the sequence of its readings. One turn of the loop is followed instruction by instruction (`Lemmas/ProgramLoops.lean`: `Goes`, a run of `n` cycles without exceptions; IF2), then induction on the number of readings. `highs` (the record values of a list) is the specification; a run that can always go on has no result (`no_result`).
* **C89 The async_hw example counts to 5 and stops** — `Model/Examples/AsyncHw.lean`: the counter is seen from the processor as any sequence of readings; `C89_readings` links it to the transition system of `Model/Devices/Counter.lean` (C75). The program is followed instruction by instruction, then induction on the number of readings. The stop is false for counters that jump over 5 between two readings.
* **C90 HALT stops the processor and CYCLES measures time** — `C90_halt`, `C90_only_halt`, `C90_stopped_by_halt`, `C90_cycles`, `C90_cycles_refused`, `C90_elapsed`: step equations plus induction over the effects of an instruction and over the history.
* **C91 The disassemble example puts a source in a normal form** — `C91_documented`, `C91_settles`, `C91_idempotent_partial`, `C91_accepted_iff`, `C91_example`, `C91_example_settled`, `C91_refuted`: on top of C81's table and C84; the example's source is assembled by the kernel.
* **C92 The Brainfuck example runs the program typed** — `Model/Examples/Brainfuck.lean`: the source assembled by the model of the assembler and run by the model of the processor. `Spec/Brainfuck.lean` has two semantics: `Lang` (one step per character, what the source's interpreter does, with each way to end) and `Std` (structured Brainfuck). `C92_ends_partial`, `C92_misaligned_partial`, `C92_diverges_partial`: every ending and every endless run of `Lang` is what the machine does (block by block symbolic execution, then simulation). `C92_brainfuck_partial`: structured programs, moves written four times. False in general: `C92_move_refuted`, `C92_skip_refuted`.
* **C93 A word that is not an instruction is refused with the right reason** — `Spec/Decoding.lean`: a table of operand kinds by opcode and what a bad operand is, in plain numbers; `C93_decoding_errors` (equivalence for each error), `C93_accepted`.
* **C94 An instruction changes only what it is documented to change** — `footprint` lists the documented registers from the instruction word; `Received` compares request logs before and after; both proved from the effect summary of every instruction (`Lemmas/Effects`).
* **C95 run_vm prints exactly the announced lines** — `Spec/RunLines` gives the lines from the sequence of machines, with Lean's own `Nat.toDigits` and a text table indexed by code and data; induction over the loop.
* **C96 An exception is reported once, when it occurs** — False: et stays non-zero until the processor is reset. Refuted with a program that handles its exception; exact behaviour proved for both kinds of configuration.
* **C97 What run_vm prints has no influence on the run** — The stopping cycle and the report are determined by limit and halt_on_exception (C61); uniqueness.
* **C98 A paused run can be resumed** — Composition of the stopping conditions of C61 and the lines of C95.
* **C99 Printing displays and the debug interface print exactly what was written** — the printing handlers are modelled as texts (`Model/Devices/Printing`), the expected texts are written with Lean's `Nat.toDigits` (`Spec/Printing`), and the calls of C68/C69/C77 are mapped through both. The last sentence is false: refutation and exact partial theorem.
* **C100 prepare_vm reports on every component before it gives up** — `Spec/Prepare.fates` says what happens to each component in natural numbers (placed, refused with a reason, or an overflow in debug builds) and what the lines are; induction over the components with the invariant that the table lies below the next address and starts at 0.
* **C101 A run configuration does what its calls ask for** — an independent specification finds the last call that concerns an option (`Spec/RunOptions`); induction over the sequence from its end. The last sentence is false without the final message.
* **C102 A signed literal keeps its value** — `Spec/SignedLit`, `Props/Tools/SignedLit`. On Lean integers. False of negative literals, which the processor extends with zeroes: they count as themselves plus 2¹⁶ (2⁸ for a divisor). True of literals ≥ 0 and of the relative jump.
* **C103 The text of an instruction does what the instruction does** — `Props/Tools/Reassembled`. C81 gives the word that comes back; its effect (`Spec.perform`) is compared with the original one in all states. `mul r, 0` and `and r, 0` are shown as `zro r`, which comes back as `xor r, r`: another word, the same effect. False of four families (`Altered`).
* **C104 A message identifies its cause** — `Model/Tools/Display`, `Props/Tools/Messages`. The beginning of a text gives the constructor, the digits give back the number (`digitsVal_digits`), so the texts are injective.
* **C105 In any history, memory returns the last word written** — components are wrapped with a tape of requests and answers (`Spec/Tape`); an invariant of the tape along histories (`DevInv`) with `WordMemory` (C64, C66) and C36's bounds.
* **C106 Components with the same answers are interchangeable** — two machines over two component types are related by a relation `Alike`; every function of the model (memory, mappings, all instructions, resets, host calls) is shown to preserve it (parametricity, `Lemmas/Alike.lean`), then the relation "reached by the same history" is an instance.
* **C107 A reset machine runs as on its first boot** — two runs from two states of the same board are related after the reset by "each component went through the same requests since the reset"; parametricity (Lemmas/Alike.lean) carries the relation through every host call; per component, a key that determines the answers and is fixed by reset.
* **C108 Resetting a component puts it in the state it was created in** — components are reduced to a key that determines all their answers; reset is shown to give the key of a new component (or of one with the remaining input).
* **C109 Memory the translation table refuses to userland is not changed by userland** — Relational framework (Lemmas/Confine.lean) over all opcodes: two machines whose components are related by a relation userland accesses preserve stay so; instance: RAM words at refused addresses keep their initial values (Spec/Confine.lean: Guarded, Refused, UserRun). RESET refutes the full claim.
* **C110 Memory the translation table refuses to userland is secret** — Same framework as C109 with two different initial memories: the runs stay twins. RESET refutes the full claim.
* **C111 An interrupted program can be resumed** — CPU model. The two machines that run the same interruption at two addresses are equal afterwards, so no handler can serve both (induction-free: the runs coincide); a calling convention that works is proved from the step theorems of CALL, ITR, LSM and POP.
* **C112 A machine without a program does nothing, forever** — CPU, board and runner models. Induction on the number of cycles: each one raises exception 0x01 (or 0x05) with the same registers up to et, so that the fetch is the same again; then the characterisation of run_vm (C61).
* **C113 The exception register tells the cause** — Spec/Causes lists the reasons as an inductive relation over the fields of the word, without decoding or register functions of the model. Lemmas/Causes turns each instruction into "first refused operand, else the rest"; Lemmas/CausesInv inverts exceptions; Props/Causes proves both directions by cases on the 32 operation codes.
* **C114 Where a component is plugged in does not matter** — `Spec/Wiring`: a renaming of positions, injective, under which components and mapping tables correspond. `Lemmas/Replug`: a relational proof over all opcodes with two mapping tables; reads and writes are dispatched to corresponding components because tables without overlaps find the same range in any order. `C114_boards` (from the creation), `C114_reset`, `C114_step`, `C114_run`, and `C114_hwd_differs` for the need of the restriction.
* **C115 What a program stores in a file outlives the machine** — `Spec/Sessions`: one machine's use of a file, and chains of them. `Props/Devices/Sessions`: a component on a board is exactly the component that served the requests of its tape (`board_served`, through `hostRun_devInv`); invariant `Stores` of the file under requests with arbitrary I/O refusals; induction over machines.
* **C116 Code can be written and run at once** — Corollary of C105_next (history of the memory) and C04 (the fetch is a read at pc).
* **C117 Position-independent code** — A relation between two runs of the instruction (same outcome, machines apart by a distance or equal) proved by going through the 32 instructions (Lemmas/Position), then induction on the number of steps; the fetches come from C74.
* **C118 Code that only goes forward ends** — Every step that raises nothing increases pc (C03, C24, the conditional instructions) and keeps the MMU off (C94); strong induction on the distance to the end of the ROM, whose words are those of the program by C74.
* **C119 Looking at memory disturbs nothing** — Each component model returns itself from a read; one read, then induction on the two lists of calls.
* **C120 Mapping a component does not disturb a program that does not use it** — Components record the requests they receive (Spec/Log). Every action of the processor with the longer table either ends with the component reached (and it stays so) or is the action with the shorter table (Lemmas/Unplug); HWD is treated too, as only its informations 0xA0, 0xA1 and 0xA2 about this component (Spec/Unused) depend on the added mapping; induction on the steps.
* **C121 A translation table that refuses nothing is transparent** — Each action of the processor, run with two values of mtt on machines with a clear table, gives corresponding outcomes (Lemmas/ClearTable); one step; induction on the number of steps. Unmapped tables: unmapped reads give 0.
* **C122 Debug builds and release builds agree** — Each function of the model taking a build profile is compared under both, the plain arithmetic operations being equal where the checked ones succeed (Lemmas/Builds); induction on histories and runs.
* **C123 Names and identifiers of components are only labels** — A relation between the two boards (same processor, mappings with the same places, components answering alike), kept by every host call and every instruction but an HWD for a label (Lemmas/Labels); the bundled components by cases on their requests.
* **C124 gen_aux_id gives different identifiers to different names** — gen_aux_id is modelled with the hash function of the standard library (SipHash-1-3 with zero keys, checked against reference vectors); the claim is refuted by the pigeonhole principle. What holds is the injectivity of what is hashed.
* **C125 Only CYCLES shows how long a machine has been running** — Every action of the processor but CYCLES maps machines that differ by the cycle count to such machines (Lemmas/Timeless, by composition); the jump note is cleared at each instruction; induction on histories.
* **C126 A memory made from a storage contains it, and tells its size in bytes** — False: from_with_size and with_size compare the number of words of the storage with the number of bytes of the component, from rounds the number of words to a number of bytes, and size() counts words. The exact sizes accepted, and when the storage is contained, follow from the word-memory theorems C64, C65, C66 and C73.
* **C127 The general registers are interchangeable** — Spec/Renaming: the renaming, the renamed instruction (by the documented operand table) and the renamed machine. A relation between two actions (both panic, or both return in renamed machines) is closed under sequencing and holds of every instruction; then induction on the number of steps. The board theorem puts the two programs in two boot ROMs, so the distance between them appears in pc only.
* **C128 A run can be replayed from its components' answers** — Spec/Replay: players. Lemmas/Replay: a simulation whose hypothesis is a property of the components at the end of the first run (the second component can answer the tape), which is then true all along; closed under sequencing, every instruction, every host call; induction on the host calls.
* **C129 Words that are not read do not matter** — From C128: the component with the other contents gives the recorded answers, by induction on the session (C105 for arrays of words, directly for a boot ROM).
* **C130 A program sees memory only through its answers** — Spec/SameMemory: sequences of accesses and their answers. Same answers is the largest relation direct accesses keep; the relation of two processors over such memories (Lemmas/Replug) is kept by every instruction but HWD and RESET. The cut: the relation "same words" is kept by accesses.
* **C131 A running machine can be saved and restored** — Spec/SaveState: save reads the words, restore is a list of host operations. Each written word makes one more answer equal (mapped ranges do not overlap); at the end the memories are the same arrays, so C130 applies; the cycle counter, which the host cannot set, is not seen without CYCLES (C125).
* **C132 Extended instructions assembled from their text have their documented effect** — C81_table_partial gives the instructions that come back from the text; C51 says that a word that decodes to an instruction does what it says; then as C60, with xor r,r in the place of cpy r,0.
* **C133 A component that is not mapped receives nothing but resets** — Components are wrapped with a log of requests (Spec/Log). Mappings are never removed, so a component in no mapping at the end never was; the component invariant of C36 is instantiated with a size 0 for it, so that no request is in range.
* **C134 An instruction contacts components no more often than documented** — A cost logic on the actions of the CPU model (reads, writes, translation on or off), applied to each memory instruction; the other instructions by their effect summary; induction on the number of steps.
* **C135 A mapping error tells what is wrong with the request** — The problems are stated on plain integers in Spec/MappingErrors, independently of the order of the checks; a walk through the checks shows that the answer is the problem of least rank; problems of equal rank are equal.
* **C136 A crash damages at most the word being written** — The states in which `write` can stop are a relation next to its model (Model/Devices/FileCrash: before `write_all`, or after its first k bytes). A wrapper (Spec/Crashes) freezes a component at its n-th request, so a run of the board with it, n arbitrary, gives the component at every crash point; the invariant of C115 holds there, and one cut write of an aligned word touches that word only.
* **C137 What is lost is warned about** — The lines printed by the four functions are a second model of them (Model/Warnings), with the same control flow; the table invariant of C43 gives the lookup, an induction on the bytes gives the loop of the keyboard, and C71/C67 say what is kept.
