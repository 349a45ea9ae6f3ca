{"id": "C01", "title": "A halted CPU does nothing", "statement": "Once the CPU is halted, any number of calls to Cpu::next changes nothing at all: registers, cycle counter, mappings and every component stay as they are, and no component is contacted, until Cpu::reset or MotherBoard::reset is called.", "quantifier": "every machine state with halted = true, every device type, every number of calls", "why_tests_cant": "the state space and the number of calls are unbounded; a test only samples a few", "anchors": ["lrvm/src/cpu/cpu.rs:Cpu::next", "lrvm/src/cpu/cpu.rs:Cpu::halted"]}
{"id": "C02", "title": "The cycle counter counts executed cycles", "statement": "Each call to next on a running CPU advances cycles() by exactly one modulo 2^128, including calls whose fetch or execution raised an exception; the only instruction that does otherwise is a RESET with processor mode 0, after which it is 0.", "quantifier": "every running machine state, every fetched word, every device behaviour, every run length", "why_tests_cant": "needs every instruction word and every failure point, and the wrap at 2^128 cannot be reached by running", "anchors": ["lrvm/src/cpu/cpu.rs:Cpu::next", "lrvm/src/cpu/cpu.rs:Cpu::cycles", "lrvm/src/cpu/cpu.rs:run_instr CYCLES/RESET"]}
{"id": "C03", "title": "Program counter advances by one word", "statement": "After any instruction that completes without an exception and neither writes pc nor is a jump, a taken skip, LSM, ITR or a CPU reset, pc is the old pc plus 4 modulo 2^32; an instruction that writes pc leaves exactly the written value.", "quantifier": "every instruction word, every machine state, both modes", "why_tests_cant": "2^32 words times all register states", "anchors": ["lrvm/src/cpu/cpu.rs:Cpu::next", "lrvm/src/cpu/cpu.rs:write_reg"]}
{"id": "C04", "title": "Instruction fetch is a checked big-endian word read at pc", "statement": "The executed instruction is the word at pc read through the MMU with execute access, most significant byte first (5-bit opcode, 3 register flags, 3 parameter bytes); if the fetch is refused the only effect is the exception.", "quantifier": "every pc, memory contents, MMU state", "why_tests_cant": "all addresses, all words, all failure sources", "anchors": ["lrvm/src/cpu/cpu.rs:Cpu::next", "lrvm/src/cpu/cpu.rs:mem_exec"]}
{"id": "C05", "title": "Reset puts the machine in the documented startup state", "statement": "After MotherBoard::reset, whatever the previous state, every register is 0 except smt = 1, the cycle counter is 0, the CPU runs, the mappings are untouched and each component received exactly one reset, in order; a freshly created board stays halted until then.", "quantifier": "every prior state and history, every list of components", "why_tests_cant": "every prior history", "anchors": ["lrvm/src/board/board.rs:MotherBoard::reset", "lrvm/src/board/board.rs:MotherBoard::new", "lrvm/src/cpu/cpu.rs:Cpu::reset", "lrvm/src/cpu/regs.rs:Registers::reset"]}
{"id": "C06", "title": "Exception entry is exactly the documented one", "statement": "When an instruction or fetch raises an exception with code c and data d, et becomes mode byte, c, d packed as documented, pc becomes ev, smt becomes 1.", "quantifier": "every state, every code and data", "why_tests_cant": "all states", "anchors": ["lrvm/src/cpu/cpu.rs:exception"]}
{"id": "C07", "title": "et always describes a real exception", "statement": "In every step, either et is unchanged, or the CPU was reset, or et is mode*2^24 + code*2^16 + data with a code of the documented table and pc = ev and smt = 1 afterwards.", "quantifier": "every step of every program on every device set", "why_tests_cant": "needs all instruction words and device behaviours", "anchors": ["lrvm/src/cpu/cpu.rs:exception", "lrvm/src/cpu/cpu.rs:run_instr"]}
{"id": "C08", "title": "era gives the address that raised the last exception", "statement": "After an exception raised at address p, the era register holds p (documented: 'Know the address that raised an exception').", "quantifier": "every exception in every program", "why_tests_cant": "needs all exception sources; (it is false of the code: era is 0 in every reachable state)", "anchors": ["lrvm/src/cpu/cpu.rs:exception", "docs/Architecture.md:Registers"]}
{"id": "C09", "title": "af, et and era cannot be written by a program", "statement": "No instruction writes a program-chosen value to af, et or era: an instruction that names one of them as destination never completes, in either mode: it ends in an exception (0x04 with the register code, unless an operand, a memory access, the division or the hardware information is refused before) and leaves that register's previous value untouched (apart from et receiving the exception and af the flags of an arithmetic instruction).", "quantifier": "every state, both modes, every value", "why_tests_cant": "all values and states", "anchors": ["lrvm/src/cpu/cpu.rs:write_reg"]}
{"id": "C10", "title": "Register access follows the documented permission table", "statement": "For each of the 256 register codes and both modes, reading and writing a register named by an instruction succeeds exactly when the register table says so; otherwise the exception is 0x03 for a read and 0x04 for a write refused to the current mode (in userland an unknown code is refused the same way), and 0x02 for an unknown code in supervisor mode, and reads return the last value written.", "quantifier": "all 256 codes, both modes, all register contents, all values", "why_tests_cant": "value space is unbounded for a test; table times values", "anchors": ["lrvm/src/cpu/cpu.rs:read_reg", "lrvm/src/cpu/cpu.rs:write_reg"]}
{"id": "C11", "title": "Userland cannot alter supervisor state", "statement": "A step started in userland mode never changes ssp, ev, mtt, pda or era, and never changes usp except through the stack instructions.", "quantifier": "every userland state, every word, every device", "why_tests_cant": "every program", "anchors": ["lrvm/src/cpu/cpu.rs:write_reg", "lrvm/src/cpu/cpu.rs:run_instr"]}
{"id": "C12", "title": "Supervisor mode is entered only through the exception vector", "statement": "If a step starts in userland and ends in supervisor mode then the CPU is at ev and et records a userland exception.", "quantifier": "every userland state, every word, every device", "why_tests_cant": "every program", "anchors": ["lrvm/src/cpu/cpu.rs:exception", "lrvm/src/cpu/cpu.rs:run_instr RESET"]}
{"id": "C13", "title": "Userland cannot observe supervisor registers", "statement": "Two machines in userland that differ only in ssp, et, era and ev make the same step: same component effects, same visible registers, same mode, as long as no exception is raised; and whether one is raised is the same in both.", "quantifier": "all pairs of states, every word, every device, any number of userland steps", "why_tests_cant": "a two-run property over all programs", "anchors": ["lrvm/src/cpu/cpu.rs:read_reg", "lrvm/src/cpu/cpu.rs:run_instr"]}
{"id": "C14", "title": "Supervisor-only instructions are refused in userland", "statement": "LSM, CYCLES, HALT and RESET executed in userland raise exception 0x09 with the opcode and have no other effect.", "quantifier": "every userland state and operand", "why_tests_cant": "all states", "anchors": ["lrvm/src/cpu/cpu.rs:run_instr LSM/CYCLES/HALT/RESET", "docs/Architecture.md:Processor control instructions"]}
{"id": "C15", "title": "LSM jumps to the given address in userland mode", "statement": "In supervisor mode LSM addr leaves pc = addr and smt = 0.", "quantifier": "every state, every operand", "why_tests_cant": "all operands", "anchors": ["lrvm/src/cpu/cpu.rs:run_instr LSM"]}
{"id": "C16", "title": "Add, subtract, multiply and bitwise results are the mathematical ones", "statement": "ADD, SUB and MUL leave the true integer result modulo 2^32, and AND, BOR, XOR the bitwise one; for ADD and SUB the carry flag is set exactly when the unsigned result does not fit and the overflow flag exactly when the signed result does not fit.", "quantifier": "all pairs of 32-bit operands", "why_tests_cant": "2^64 operand pairs per operation", "anchors": ["lrvm/src/cpu/cpu.rs:compute"]}
{"id": "C17", "title": "DIV and MOD follow their mode byte", "statement": "With a non-zero divisor DIV and MOD give the unsigned quotient/remainder, or the truncating signed ones when bit 4 is set; division by zero and MIN/-1 raise 0x0A/0x0B or give MIN, 0 or MAX with carry and overflow set, as the mode says.", "quantifier": "all operand pairs, all 256 modes", "why_tests_cant": "2^64 operand pairs times 256 modes", "anchors": ["lrvm/src/cpu/cpu.rs:compute Div/Mod"]}
{"id": "C18", "title": "Shifts move the documented number of bits", "statement": "SHL and SHR by k < 32 multiply by 2^k modulo 2^32 and divide by 2^k, with carry and overflow clear; amounts of 32 or more set carry and overflow and shift by k modulo 32; a literal amount is the second parameter byte.", "quantifier": "all values and amounts", "why_tests_cant": "2^64 pairs", "anchors": ["lrvm/src/cpu/cpu.rs:compute Shl/Shr", "lrvm/src/cpu/cpu.rs:run_instr 0x03..0x0C"]}
{"id": "C19", "title": "The flag register encodes the documented flags", "statement": "After every arithmetic, bitwise or compare instruction af has ZF, CF, OF, SF, EF, ZUF, ZLF in bits 7 to 1 with their documented meaning for the result, and every other bit 0; no other instruction changes af except a CPU reset.", "quantifier": "all results, every instruction word", "why_tests_cant": "2^32 results", "anchors": ["lrvm/src/cpu/cpu.rs:compute"]}
{"id": "C20", "title": "Compare-and-branch idioms decide unsigned order", "statement": "After CMP x, y the next instruction is run by IFEQ iff x = y, IFNQ iff x != y, IFLS iff x < y, IFGE iff x >= y, IFGT iff x > y, IFLE iff x <= y, as unsigned numbers.", "quantifier": "all operand pairs, all machine states", "why_tests_cant": "2^64 operand pairs", "anchors": ["lrvm/src/cpu/cpu.rs:run_instr CMP/IF/IFN/IF2", "docs/Architecture.md:Alias instructions"]}
{"id": "C21", "title": "IF and IFN skip exactly one instruction", "statement": "IF f runs the next instruction iff flag f is set, IFN iff it is clear, otherwise pc advances by 8; a flag number that does not exist (documented flags are 0 to 6) raises 0x0C.", "quantifier": "all af values, all flag operands", "why_tests_cant": "all operand values", "anchors": ["lrvm/src/cpu/cpu.rs:run_instr IF/IFN"]}
{"id": "C22", "title": "IF2 evaluates its condition on both flags", "statement": "For existing flags, IF2 runs the next instruction iff the condition code's boolean function of the two flags holds; an unknown flag raises 0x0C and an unknown condition 0x0D.", "quantifier": "all af values, flag and condition operands", "why_tests_cant": "all operand values in registers", "anchors": ["lrvm/src/cpu/cpu.rs:run_instr IF2"]}
{"id": "C23", "title": "Alias instructions do what they say", "statement": "ZRO r (XOR r,r) makes r zero, INC/DEC add/subtract one, JP jumps to the address, RET pops pc, for every writable register and value.", "quantifier": "all registers, values, states", "why_tests_cant": "all values", "anchors": ["lrvm/src/cpu/cpu.rs:run_instr", "docs/Architecture.md:Alias instructions"]}
{"id": "C24", "title": "JPR jumps by a signed 16-bit byte offset", "statement": "JPR moves pc by the operand's low 16 bits read as two's complement, modulo 2^32, and by nothing else.", "quantifier": "all pcs, all operands", "why_tests_cant": "2^48 cases", "anchors": ["lrvm/src/cpu/cpu.rs:run_instr JPR"]}
{"id": "C25", "title": "Unaligned accesses never reach the bus", "statement": "A memory access to an address not divisible by 4 raises 0x05 with address mod 4 and contacts no component, whatever the instruction, mode or MMU state.", "quantifier": "every address, instruction and state", "why_tests_cant": "all addresses", "anchors": ["lrvm/src/cpu/cpu.rs:ensure_aligned", "lrvm/src/cpu/cpu.rs:mem_do"]}
{"id": "C26", "title": "With the MMU off a virtual address is a physical address", "statement": "If mtt = 0, reading or writing aligned address v through the CPU is exactly reading or writing physical address v of the mapped memory, and a component exception x raises 0xA0 with data x.", "quantifier": "every address, memory, mode", "why_tests_cant": "all addresses and device behaviours", "anchors": ["lrvm/src/cpu/cpu.rs:mem_do", "lrvm/src/mmu/mmu.rs:translate"]}
{"id": "C27", "title": "With the MMU on addresses are translated through the two-level tables", "statement": "If mtt != 0 the physical address used is the one the documented two-level table walk gives, with pass-through and permission bits honoured for the current mode and action.", "quantifier": "every address, table contents, mode and action", "why_tests_cant": "2^32 addresses times table contents", "anchors": ["lrvm/src/mmu/mmu.rs:translate", "lrvm/src/mmu/mmu.rs:decode_entry", "docs/Architecture.md:Physical address pages"]}
{"id": "C28", "title": "Refused accesses raise the exception of their kind", "statement": "When the MMU refuses a read, write or execute access, the exception code is 0x06, 0x07 or 0x08 respectively with the address's low 16 bits, and the target component is not contacted.", "quantifier": "every refused access", "why_tests_cant": "all table contents", "anchors": ["lrvm/src/cpu/cpu.rs:mem_do", "lrvm/src/mmu/mmu.rs:translate"]}
{"id": "C29", "title": "Loads and stores use the documented effective address", "statement": "LSA/WSA access addr + add, LEA/WEA access addr + add*mul modulo 2^32; loads put the word read in the destination (avr for LEA), stores write the given value (avr for WEA), and nothing else changes besides pc.", "quantifier": "all operand values and states, any device", "why_tests_cant": "all operands", "anchors": ["lrvm/src/cpu/cpu.rs:run_instr LSA/LEA/WSA/WEA"]}
{"id": "C30", "title": "SRM swaps a register and a memory word", "statement": "SRM leaves the old memory word in the register and the old register value in memory; it never leaves only one of the two updated.", "quantifier": "all addresses, registers, values; every failure point", "why_tests_cant": "every failure point of a two-step update", "anchors": ["lrvm/src/cpu/cpu.rs:run_instr SRM"]}
{"id": "C31", "title": "EX swaps two registers, all or nothing", "statement": "EX a, b exchanges the two registers' values; if it raises an exception neither register is changed.", "quantifier": "all register pairs and values, both modes", "why_tests_cant": "all values", "anchors": ["lrvm/src/cpu/cpu.rs:run_instr EX"]}
{"id": "C32", "title": "The stack is last-in first-out", "statement": "Any well-bracketed sequence of PUSH and POP on mapped RAM returns values in reverse order of pushing and restores the stack pointer, as a list-based stack would.", "quantifier": "every sequence of pushes and pops, all values, any depth that fits the memory", "why_tests_cant": "unbounded sequences", "anchors": ["lrvm/src/cpu/cpu.rs:run_instr PUSH/POP", "docs/Architecture.md:The stack"]}
{"id": "C33", "title": "Failed stack operations leave the stack pointer unchanged", "statement": "If the memory access of PUSH, POP or CALL fails, the stack pointer of the current mode is unchanged.", "quantifier": "every failure point, both modes", "why_tests_cant": "all failure points", "anchors": ["lrvm/src/cpu/cpu.rs:run_instr PUSH/POP/CALL"]}
{"id": "C34", "title": "CALL and RET nest", "statement": "CALL pushes the address of the following instruction and jumps; a RET with the same stack pointer returns there with the stack pointer restored, for every nesting depth.", "quantifier": "all call targets, return addresses, any nesting", "why_tests_cant": "unbounded nesting", "anchors": ["lrvm/src/cpu/cpu.rs:run_instr CALL/POP"]}
{"id": "C35", "title": "Supervisor and userland stacks are separate", "statement": "A stack instruction (PUSH, POP, CALL) changes only the stack pointer of the mode it was executed in, besides the register POP names: in userland none of them changes ssp, in supervisor mode PUSH, CALL and POP to a register other than usp never change usp.", "quantifier": "every state and word", "why_tests_cant": "every program", "anchors": ["lrvm/src/cpu/cpu.rs:run_instr PUSH/POP/CALL"]}
{"id": "C36", "title": "Components only receive requests in their contract", "statement": "Every read or write request a component receives has an address divisible by 4 and strictly below the size in its metadata, in every execution of any program on a board mapped with map/map_contiguous/map_abs.", "quantifier": "every program, every history of mapping and execution, every component set", "why_tests_cant": "every program and history", "anchors": ["lrvm/src/board/bus.rs:Bus::read", "lrvm/src/board/bus.rs:Bus::write", "lrvm/src/mem/mem.rs:read", "lrvm/src/mem/mem.rs:write", "lrvm/src/mem/mem.rs:internal_map"]}
{"id": "C37", "title": "An access reaches only the component mapped there", "statement": "A read or write to an address contacts exactly the one component whose range contains it, at offset address - start, and leaves all other components untouched; an unmapped read yields 0 and an unmapped write is ignored.", "quantifier": "every mapping table, address and component set", "why_tests_cant": "all addresses and tables", "anchors": ["lrvm/src/mem/mem.rs:read", "lrvm/src/mem/mem.rs:write", "lrvm/src/board/hwb.rs:read", "lrvm/src/board/hwb.rs:write"]}
{"id": "C38", "title": "Programs cannot change the hardware configuration", "statement": "No sequence of instructions changes the number of components, the mapping table or the cached names, identifiers and metadata.", "quantifier": "every program, any number of steps", "why_tests_cant": "every program", "anchors": ["lrvm/src/cpu/cpu.rs:Cpu::next", "lrvm/src/board/hwb.rs:HardwareBridge"]}
{"id": "C39", "title": "HWD reports the true hardware information without side effects", "statement": "HWD id, info writes the documented information of component id (count, identifier halves, name length and bytes, metadata words, mapping state and range), raising 0x10, 0x11, 0x12 for unknown id, unknown code, unmapped component; it contacts no component.", "quantifier": "all ids, info codes, component sets, mapping tables", "why_tests_cant": "all names and tables", "anchors": ["lrvm/src/cpu/cpu.rs:get_hw_info", "lrvm/src/cpu/cpu.rs:run_instr HWD"]}
{"id": "C40", "title": "Component names are cut to the longest 32-byte whole-character prefix", "statement": "The name reported for a component is the longest prefix of its name made of whole characters whose UTF-8 encoding is at most 32 bytes.", "quantifier": "every Unicode name", "why_tests_cant": "all strings", "anchors": ["lrvm/src/board/hwb.rs:create_from_aux", "lrvm/src/board/bus.rs:Bus::name"]}
{"id": "C41", "title": "RESET resets exactly the selected components", "statement": "RESET with component mode 0..4 resets exactly once, in order of id: all, only avr, all but avr, ids at most avr, ids at least avr; other modes none; and the processor afterwards iff the upper half of the mode is 0.", "quantifier": "all modes, avr values and component sets", "why_tests_cant": "all avr values and component sets", "anchors": ["lrvm/src/cpu/cpu.rs:run_instr RESET"]}
{"id": "C42", "title": "A guest program cannot crash the host", "statement": "Whatever the program and memory contents, Cpu::next never panics when every component honours its contract.", "quantifier": "every program, state, component set, both build profiles", "why_tests_cant": "every program", "anchors": ["lrvm/src/cpu/cpu.rs:run_instr", "lrvm/src/mmu/mmu.rs:translate", "lrvm/src/mem/mem.rs:read", "lrvm/src/mem/mem.rs:write"]}
{"id": "C43", "title": "Mapped ranges never overlap", "statement": "After any history of mapping calls, successful or not, the address ranges of the mapped components are pairwise disjoint and each component is mapped at most once.", "quantifier": "every history of map, map_abs and map_contiguous calls", "why_tests_cant": "every history", "anchors": ["lrvm/src/mem/mem.rs:internal_map"]}
{"id": "C44", "title": "map succeeds exactly when it should and reports the range", "statement": "map(addr, id) succeeds iff id exists, its size is a non-zero multiple of 4, addr is aligned, the range fits the address space, the component is unmapped and the range is free; it then reports [addr, addr+size-4] and that range is what is mapped.", "quantifier": "all addresses, ids, prior tables", "why_tests_cant": "all tables and addresses", "anchors": ["lrvm/src/mem/mem.rs:map", "lrvm/src/mem/mem.rs:internal_map"]}
{"id": "C45", "title": "A failed mapping changes nothing", "statement": "When map or map_abs returns an error the mapping table, and so every later read, write or mapping result, is as if it had not been made.", "quantifier": "every call and prior table", "why_tests_cant": "every history", "anchors": ["lrvm/src/mem/mem.rs:internal_map"]}
{"id": "C46", "title": "Mapping order does not matter", "statement": "Performing the same set of successful map calls in any order gives the same address decoding for every address.", "quantifier": "every permutation of every set of calls, every address", "why_tests_cant": "all permutations", "anchors": ["lrvm/src/mem/mem.rs:map", "lrvm/src/mem/mem.rs:read"]}
{"id": "C47", "title": "map_contiguous packs components without gaps", "statement": "On success the components occupy consecutive ranges from the start address in the given order, ending at the reported end; on failure the reported list is exactly the ids that failed, and the others are mapped.", "quantifier": "all component lists and start addresses", "why_tests_cant": "unbounded lists", "anchors": ["lrvm/src/mem/mem.rs:map_contiguous"]}
{"id": "C48", "title": "map_abs maps exactly the requested range", "statement": "map_abs(start, end, id) makes exactly the addresses from start to end+3 reach the component, never more than its size.", "quantifier": "all ranges, components, tables", "why_tests_cant": "all ranges", "anchors": ["lrvm/src/mem/mem.rs:map_abs", "lrvm/src/mem/mem.rs:internal_map", "lrvm/src/mem/mappings.rs:Mapping::end_addr"]}
{"id": "C49", "title": "Mapping calls report errors rather than panic", "statement": "map, map_abs and map_contiguous return a MappingError for every bad input and never panic.", "quantifier": "all addresses, ids, tables, both build profiles", "why_tests_cant": "all inputs", "anchors": ["lrvm/src/mem/mem.rs:internal_map", "lrvm/src/mem/mem.rs:map_contiguous"]}
{"id": "C50", "title": "Instruction encoding round-trips", "statement": "Instr::decode(i.encode()) = Ok(i) for every instruction.", "quantifier": "all instructions with all operands", "why_tests_cant": "2^29 instructions", "anchors": ["lrvm_tools/src/asm/instr.rs:Instr::encode", "lrvm_tools/src/asm/instr.rs:Instr::decode"]}
{"id": "C51", "title": "The CPU executes what the decoder shows", "statement": "For every 4-byte word, if Instr::decode gives i then the CPU's step on that word is the documented effect of i; if it gives an error the CPU raises an exception instead of completing.", "quantifier": "all 2^32 words, all states", "why_tests_cant": "2^32 words times all states", "anchors": ["lrvm_tools/src/asm/instr.rs:Instr::decode", "lrvm/src/cpu/cpu.rs:run_instr"]}
{"id": "C52", "title": "Assembled instructions execute as written", "statement": "For every instruction value, the CPU's step on i.encode() is the documented effect of i.", "quantifier": "all instructions, all states", "why_tests_cant": "all instructions times all states", "anchors": ["lrvm_tools/src/asm/instr.rs:Instr::encode", "lrvm/src/cpu/cpu.rs:run_instr", "lrvm_tools/src/asm/val.rs:RegOrLit2"]}
{"id": "C53", "title": "Symbol tables are bijective with their codes", "statement": "Register, flag, IF2 condition and hardware-information codes decode back to the value they came from, and decoding succeeds exactly on the codes of the table.", "quantifier": "all values and all 256 codes", "why_tests_cant": "finite but stated for the whole table, lifted to the operand encoders", "anchors": ["lrvm_tools/src/asm/reg.rs", "lrvm_tools/src/asm/arflag.rs", "lrvm_tools/src/asm/cond.rs", "lrvm_tools/src/asm/hw_infos.rs"]}
{"id": "C54", "title": "Division modes round-trip and drive the CPU", "statement": "DivMode::decode(m.encode()) = Ok(m) and the CPU interprets m.encode() as m says.", "quantifier": "all division modes", "why_tests_cant": "whole table times operands", "anchors": ["lrvm_tools/src/asm/div_modes.rs", "lrvm/src/cpu/cpu.rs:compute"]}
{"id": "C55", "title": "Program encoding is lossless", "statement": "Program::encode yields 4 bytes per word and Program::decode of it gives the program back; decode in raw mode never fails on aligned input and encode gives the bytes back; decode in strict mode fails iff some word does not decode, with the first such index.", "quantifier": "all programs, all byte strings", "why_tests_cant": "unbounded length", "anchors": ["lrvm_tools/src/asm/prog.rs:Program::encode", "lrvm_tools/src/asm/prog.rs:Program::decode", "lrvm_tools/src/asm/prog_word.rs"]}
{"id": "C56", "title": "Program editing puts words where it says", "statement": "append, append_all, prepend and prepend_all give the concatenation of the two word lists in the stated order.", "quantifier": "all programs and word lists", "why_tests_cant": "unbounded length", "anchors": ["lrvm_tools/src/asm/prog.rs:prepend_all", "lrvm_tools/src/asm/prog.rs:append_all"]}
{"id": "C57", "title": "Byte/word conversions are inverse and big-endian", "statement": "bytes_to_words(words_to_bytes(ws)) = ws, and bytes_to_words(bs) keeps every byte of bs in big-endian position with zero padding.", "quantifier": "all word and byte lists", "why_tests_cant": "unbounded length", "anchors": ["lrvm_tools/src/bytes/mod.rs"]}
{"id": "C58", "title": "Exceptions decode to what the CPU raised", "statement": "NativeException encode/decode round-trips, and decoding the et set by the CPU gives the exception, code and data raised.", "quantifier": "all exceptions and et values", "why_tests_cant": "all et values", "anchors": ["lrvm_tools/src/exceptions/native.rs", "lrvm/src/cpu/cpu.rs:exception"]}
{"id": "C59", "title": "Component exceptions survive the bus", "statement": "AuxHwException encode/decode round-trips and each is seen by the CPU as a hardware exception carrying it.", "quantifier": "all component exceptions", "why_tests_cant": "all codes and data", "anchors": ["lrvm_tools/src/exceptions/auxhw.rs", "lrvm/src/cpu/cpu.rs:mem_do"]}
{"id": "C60", "title": "Extended instructions have their documented effect", "statement": "Running the machine code of SetReg(r,v), ReadAddr(a), ReadAddrTo(r,a), WriteAddr(a,r), WriteAddrLit(a,v) leaves v in r, the word at a in avr or r, and r or v at address a.", "quantifier": "all registers, 32-bit constants, machine states", "why_tests_cant": "2^32 constants times all states", "anchors": ["lrvm_tools/src/asm/extinstr.rs", "lrvm/src/cpu/cpu.rs:run_instr"]}
{"id": "C61", "title": "run_vm stops exactly when it should", "statement": "run_vm returns as soon as, and only when, the CPU is halted, an exception is pending and halting on exceptions is on, or the cycle limit is exceeded; the reported cycle count, address and exception are those of the last executed step; with a limit it always returns.", "quantifier": "every program, configuration and state", "why_tests_cant": "unbounded runs", "anchors": ["lrvm_tools/src/debug/run.rs:run_vm", "lrvm_tools/src/debug/run_config.rs"]}
{"id": "C62", "title": "prepare_vm gives a ready machine with packed components", "statement": "prepare_vm(cs) either panics because some component cannot be mapped or returns a running machine in the startup state whose components are mapped contiguously from address 0 in order. It succeeds whenever every component advertises a positive multiple of 4 bytes and the total fits in the address space.", "quantifier": "all component lists", "why_tests_cant": "unbounded lists", "anchors": ["lrvm_tools/src/debug/prepare.rs:prepare_vm"]}
{"id": "C63", "title": "Device metadata encodes losslessly", "statement": "DeviceMetadata::encode puts identifier, size, category, type, model and data in the documented words, and the category/type pair decodes back to the category.", "quantifier": "all metadata", "why_tests_cant": "all field values", "anchors": ["lrvm_tools/src/metadata/metadata.rs", "lrvm_tools/src/metadata/category.rs", "lrvm_tools/src/metadata/types.rs"]}
{"id": "C64", "title": "RAM is a word array", "statement": "After any sequence of in-range reads, writes and resets, a RAM read returns the last word written at that offset since the last reset (or the initial content, or 0 after a reset), raises no exception and never panics.", "quantifier": "all sequences of operations, all sizes", "why_tests_cant": "unbounded histories", "anchors": ["lrvm_aux/src/volatile_mem/ram.rs"]}
{"id": "C65", "title": "Boot ROM is immutable", "statement": "After any history a boot ROM read returns the initial program word (0 past its end) and every write raises MemoryNotWritable and changes nothing.", "quantifier": "all histories, all contents", "why_tests_cant": "unbounded histories", "anchors": ["lrvm_aux/src/storage/bootrom.rs"]}
{"id": "C66", "title": "Persistent memory keeps its content", "statement": "A persistent memory read returns the last word written there (its initial content if none), across resets, without exception nor panic.", "quantifier": "all histories with resets", "why_tests_cant": "unbounded histories", "anchors": ["lrvm_aux/src/storage/persistent.rs"]}
{"id": "C67", "title": "File-backed memory mirrors its file", "statement": "A read returns the big-endian word stored in the file at that offset, a write in writable mode changes exactly those four bytes and is read back, and the size reported is the size of the backing storage.", "quantifier": "all file contents and histories", "why_tests_cant": "unbounded histories", "anchors": ["lrvm_aux/src/storage/file_backed.rs"]}
{"id": "C68", "title": "The buffered display shows what was written", "statement": "After a display command the handler receives the text formed by the buffer's bytes in order, for any history of writes, commands and resets.", "quantifier": "all histories and capacities", "why_tests_cant": "unbounded histories", "anchors": ["lrvm_aux/src/display/buffered.rs"]}
{"id": "C69", "title": "Character and number displays show each written value", "statement": "A write to the character display sends that character (or U+FFFD handling) to the handler, one call per write; a number display write shows the word in the format selected by the address.", "quantifier": "all words and addresses", "why_tests_cant": "all words", "anchors": ["lrvm_aux/src/display/character.rs", "lrvm_aux/src/display/number.rs"]}
{"id": "C70", "title": "The synchronous character keyboard returns the requested character", "statement": "After a read request the next read returns the character code the input handler gave, until the next request or reset.", "quantifier": "all histories and inputs", "why_tests_cant": "unbounded histories", "anchors": ["lrvm_aux/src/keyboard/sync_char.rs"]}
{"id": "C71", "title": "The synchronous line keyboard returns the requested line", "statement": "After a line request the buffer holds exactly the line's bytes, big-endian, zero padded.", "quantifier": "all lines, capacities, histories", "why_tests_cant": "all strings", "anchors": ["lrvm_aux/src/keyboard/sync_line.rs"]}
{"id": "C72", "title": "The realtime clock reports consistent time words", "statement": "Each register of the clock returns the documented word of the system or start-relative time.", "quantifier": "all times, all addresses", "why_tests_cant": "all times", "anchors": ["lrvm_aux/src/time/realtime.rs"]}
{"id": "C73", "title": "Bundled components never panic within their contract", "statement": "Every read, write or reset of a lrvm_aux component at an aligned address below its advertised size returns normally, in every reachable component state.", "quantifier": "every component, state, in-contract request", "why_tests_cant": "unbounded histories", "anchors": ["lrvm_aux/src/lib.rs"]}
{"id": "C74", "title": "A boot ROM program survives any program", "statement": "On a board with a boot ROM, no program, whatever it does to memory, changes the words later read from the ROM's range.", "quantifier": "every program, any number of steps, any other components", "why_tests_cant": "every program", "anchors": ["lrvm_aux/src/storage/bootrom.rs", "lrvm/src/cpu/cpu.rs:Cpu::next", "lrvm/src/mem/mem.rs:write"]}
{"id": "C75", "title": "The asynchronous counter's thread protocol is sound", "statement": "Under every interleaving of the counter thread with bus requests: a reset always stops and joins the old thread before a new one starts (never two incrementing threads), and a read after reset counts only ticks since that reset.", "quantifier": "every interleaving of the counter thread and the CPU thread", "why_tests_cant": "every schedule", "anchors": ["examples/async_hw/src/counter.rs"]}
{"id": "C76", "title": "Display commands clear the buffer afterwards", "statement": "As the documentation of the buffered display says, the buffer is cleared after a display command (0xAA, 0xBB) and by the clear command (0xFF).", "quantifier": "every capacity and every history of in-range writes", "why_tests_cant": "unbounded write histories", "anchors": ["lrvm_aux/src/display/buffered.rs"]}
{"id": "C77", "title": "The basic debug interface reports every written word as documented for its index", "statement": "For every word written at each of the sixteen documented word indexes, the debug interface hands its handler exactly one report: the low bits of the word in the type documented for that index.", "quantifier": "every history of writes, all words and all documented indexes", "why_tests_cant": "2^32 words at sixteen indexes, unbounded histories", "anchors": ["lrvm_aux/src/debug/basic.rs"]}
{"id": "C78", "title": "The line keyboard's buffer is always valid UTF-8", "statement": "As its documentation guarantees, the buffer of the synchronous line keyboard always contains valid UTF-8 data.", "quantifier": "every capacity, every sequence of typed lines, every history of commands", "why_tests_cant": "all strings and unbounded histories", "anchors": ["lrvm_aux/src/keyboard/sync_line.rs"]}
{"id": "C79", "title": "The asynchronous counter is incremented once per second", "statement": "As documented, between two increments the counting thread waits for one second.", "quantifier": "every execution and schedule", "why_tests_cant": "every schedule, unbounded time", "anchors": ["examples/async_hw/src/counter.rs"]}
{"id": "C80", "title": "Disassembling shows every word, in order", "statement": "Disassembling a byte string whose length is a multiple of 4 succeeds and gives exactly one line per word, in order: the text of the instruction it encodes, or its four bytes as data if it encodes none; annotated output is the same lines, each after its address. Other lengths are refused.", "quantifier": "every byte string and every word list, annotated or not, in debug and release builds", "why_tests_cant": "all programs", "anchors": ["lrvm_tools/src/lasm/mod.rs", "lrvm_tools/src/asm/prog.rs", "lrvm_tools/src/asm/instr.rs", "lrvm_tools/src/asm/val.rs"]}
{"id": "C81", "title": "Assembling a disassembled program gives the program back", "statement": "As the documentation says of the assembly language, its translation is 1:1: assembling the text that disassembling a program gives yields the same program.", "quantifier": "every program (instructions and raw data)", "why_tests_cant": "all programs", "anchors": ["lrvm_tools/src/lasm/mod.rs", "lrvm_tools/src/lasm/customasm.def", "lrvm_tools/src/asm/instr.rs", "docs/Architecture.md"]}
{"id": "C82", "title": "Documented assembly assembles to what it says", "statement": "A source made of blank lines, comments, data words and instructions written as the documentation describes (mnemonics, registers, constants, numbers in decimal, hexadecimal or binary, documented default operands) assembles to exactly those instructions and words, in order.", "quantifier": "every source in the documented syntax (any number of lines, any spelling of numbers)", "why_tests_cant": "infinitely many sources", "anchors": ["lrvm_tools/src/lasm/customasm.def", "lrvm_tools/src/lasm/mod.rs:assemble_prog", "docs/Architecture.md:Instructions"]}
{"id": "C83", "title": "Memory offsets and factors are signed", "statement": "As documented, the offset of LSA, LEA, WSA, WEA and SRM and the factor of LEA and WEA are signed: a negative offset, given by a constant or by a register, accesses memory below the address.", "quantifier": "all offsets and factors (constants and registers), all addresses, all machine states", "why_tests_cant": "all operand values and states", "anchors": ["lrvm/src/cpu/cpu.rs:run_instr LSA/LEA/WSA/WEA/SRM", "docs/Architecture.md:Memory instructions"]}
{"id": "C84", "title": "Labels stand for addresses", "statement": "In a source with labels (global, and local ones that begin with a dot) whose instructions are those that assemble as documented (C82), every use of a label in an operand or a data word, alone or in a sum or a difference, stands for the byte address of what follows the label, wherever it is used before or after. A source that defines a label twice is refused.", "quantifier": "every source in the documented syntax with any number of labels and uses", "why_tests_cant": "infinitely many sources", "anchors": ["lrvm_tools/src/lasm/customasm.def", "lrvm_tools/src/lasm/mod.rs:assemble_prog", "examples/hello_world/src/display.lasm"]}
{"id": "C85", "title": "The hello_world example displays its message", "statement": "Whatever message without a NUL character is written between the quotes of the source of the hello_world example: if it takes at most 252 bytes, the source assembles, the machine is built, the loop of main ends without a panic, and the display's handler was called exactly once, with the message followed by NUL characters up to 252 bytes. If it takes more, the machine cannot be built or the loop panics.", "quantifier": "all messages (any length, any characters, any escapes), both build profiles, all hardware identifiers", "why_tests_cant": "infinitely many messages; unbounded runs of the whole stack (assembler, board, CPU, components)", "anchors": ["examples/hello_world/src/main.rs", "examples/hello_world/src/display.lasm"]}
{"id": "C86", "title": "The benchmark and minimal examples run to their end", "statement": "The program of the benchmark example, for a shift n below 32, executes exactly 6·2^n cycles of the processor and then halts without an exception, with the loop counter equal to 2^n and nothing displayed. The program of the minimal example halts at once. For each of them, the call that runs the machine has exactly one result.", "quantifier": "all shifts from 0 to 31 (the repository uses 24), both build profiles, all hardware identifiers", "why_tests_cant": "up to thirteen billion cycles; the run is characterised for every shift and every outcome of the run relation", "anchors": ["examples/benchmark/src/main.rs", "examples/minimal/src/main.rs", "lrvm_tools/src/debug/exec.rs"]}
{"id": "C87", "title": "The hw_detect example shows every component", "statement": "The hw_detect example, on its own board or with up to 50 other components (each with a positive size that is a multiple of 4, all fitting in the address space - in debug builds, short of its last byte - and each accepting a reset), ends without a panic in exactly one way. It shows one entry per component, in order, with the identifier, the name (cut to 32 bytes, padded with NUL characters), the size, the category, the model and the data this component declares, and the range of addresses it is mapped to.", "quantifier": "all lists of at most 50 other components of any kind, all identifiers, both build profiles", "why_tests_cant": "infinitely many boards; the whole stack is involved (assembler, board, hardware bridge, CPU with calls and returns, host reads)", "anchors": ["examples/hw_detect/src/main.rs", "examples/hw_detect/src/source.lasm", "lrvm/src/board/hwb.rs"]}
{"id": "C88", "title": "The elapsed_time example shows each new second once", "statement": "The elapsed_time example starts without a panic whatever the clock gives, then never ends and never raises an exception. It reads the clock again and again; at any time it has printed exactly one line for each reading (after the first one) that is greater than all those before it. When the clock goes forward these are the numbers of seconds read since the start, once each, in increasing order.", "quantifier": "all sequences of readings of the system and of the monotonic clock, all numbers of cycles, both build profiles", "why_tests_cant": "the run is infinite and depends on an unbounded sequence of clock readings", "anchors": ["examples/elapsed_time/src/main.rs", "lrvm_aux/src/time/realtime.rs", "lrvm_aux/src/display/number.rs"]}
{"id": "C89", "title": "The async_hw example counts to 5 and stops", "statement": "The async_hw example displays each new value of the asynchronous counter once and stops once the counter has reached 5, whatever the speed of the counting thread. It never panics and never raises an exception.", "quantifier": "all sequences of values read from the counter (all schedules of its thread), all identifiers, both build profiles", "why_tests_cant": "the run depends on the schedule of a concurrent thread, and may be infinite", "anchors": ["examples/async_hw/src/main.rs", "examples/async_hw/src/source.lasm", "examples/async_hw/src/counter.rs"]}
{"id": "C90", "title": "HALT stops the processor and CYCLES measures time", "statement": "HALT stops the processor for good: the cycle is counted, pc is left on the following instruction and no further cycle changes anything; nothing else ever stops a running processor. CYCLES puts the number of cycles counted, its own included, in its register modulo 2^32, so the difference of two readings is the number of cycles in between; if the register cannot be written it raises the register exception and does nothing else.", "quantifier": "every machine, mode and instruction parameters; every number of cycles before, between and after", "why_tests_cant": "A test runs a few cycles; that the processor never restarts, and that readings differ by the elapsed count for every history, including a counter beyond 2^32, are statements about all histories.", "anchors": ["lrvm/src/cpu/cpu.rs:Cpu::next", "lrvm/src/cpu/cpu.rs:Cpu::run_instr (CYCLES, HALT)", "docs/Architecture.md"]}
{"id": "C91", "title": "The disassemble example puts a source in a normal form", "statement": "re_assemble (examples/disassemble) gives, for a documented source with labels, the text of its instructions, one per line; on the example's own source it gives exactly the text its test expects; re-assembling the text obtained gives that text back, and a text re-assembled twice never changes again.", "quantifier": "every source text, every documented source with labels, both kinds of build", "why_tests_cant": "The example's test checks one source; that the text obtained is stable under re-assembly is a statement about every program the assembler can produce.", "anchors": ["examples/disassemble/src/main.rs:re_assemble", "examples/disassemble/src/source.lasm", "examples/disassemble/src/tests.rs", "lrvm_tools/src/lasm/mod.rs:assemble", "lrvm_tools/src/asm/prog.rs:Program::decode", "lrvm_tools/src/asm/instr.rs:Instr::to_lasm"]}
{"id": "C92", "title": "The Brainfuck example runs the program typed", "statement": "The brainfuck example, given a line that contains a Brainfuck program (a pointer in 1024 cells of 32 bits, + - . , < > [ ]), displays its greeting, then exactly what the program displays, reads exactly as many keys as the program, leaves its cells as the program does, displays its goodbye and halts; it never ends if the program never ends; an unknown symbol, a closing bracket without an opening one or an unclosed loop are reported with the right position.", "quantifier": "every line typed, every sequence of keys, every Brainfuck program (any length the buffer holds, any run, terminating or not), all component identifiers, both kinds of build", "why_tests_cant": "A test runs one program with one sequence of keys; that the interpreter, 1156 bytes of machine code run by the processor, follows the meaning of every program, including those that never end, is an induction over the program's execution.", "anchors": ["examples/brainfuck/src/source.lasm", "examples/brainfuck/src/main.rs:main", "lrvm/src/cpu/cpu.rs:Cpu::next", "lrvm_tools/src/debug/exec.rs:exec_vm", "lrvm_aux/src/keyboard/sync_line.rs", "lrvm_aux/src/keyboard/sync_char.rs", "lrvm_aux/src/display/buffered.rs"]}
{"id": "C93", "title": "A word that is not an instruction is refused with the right reason", "statement": "Instr::decode refuses a word exactly when its opcode is not in the documented table or one of its operands designates a register that does not exist; the error names the opcode, or the first such operand (numbered from 0) with the code found there.", "quantifier": "all 2^32 words, all errors", "why_tests_cant": "2^32 words, and the equivalence is needed in both directions", "anchors": ["lrvm_tools/src/asm/instr.rs:Instr::decode", "lrvm_tools/src/asm/instr.rs:InstrDecodingError", "docs/Architecture.md"]}
{"id": "C94", "title": "An instruction changes only what it is documented to change", "statement": "One step of the processor, whatever word it fetches, leaves alone every register that is neither the program counter nor one the fetched instruction is documented to change (its destinations, the flags, avr for LEA, the mode for LSM, the stack pointer of the current mode for PUSH/POP/CALL), exceptions changing et and smt besides; and the components only receive reads, unless the instruction is a store, PUSH or CALL (writes) or RESET (resets); an instruction that is neither a memory instruction nor RESET makes no request besides its fetch.", "quantifier": "every profile, board, component behaviour, register file, fetched 32-bit word and register number (RESET excluded for the registers)", "why_tests_cant": "2^32 words times every register file and component: tests check what changes, rarely everything that must not.", "anchors": ["lrvm/src/cpu/cpu.rs::CPU::next", "lrvm/src/cpu/cpu.rs::CPU::exec", "docs/Architecture.md"]}
{"id": "C95", "title": "run_vm prints exactly the announced lines", "statement": "When run_vm returns, its output consists, for each cycle run and in order, of the cycle line if cycles are printed (cycle count and address before the cycle, upper-case hexadecimal, at least 8 digits) and of the exception line if et is not zero after it and exceptions are printed and not left to the last line, with the text that the code and data of et stand for; then of the last line(s) if asked for. A quiet run prints nothing.", "quantifier": "every profile, configuration, machine, component behaviour and number of cycles", "why_tests_cant": "The output depends on the whole history of machine states.", "anchors": ["lrvm_tools/src/debug/run.rs::run_vm", "lrvm_tools/src/debug/run.rs::prettify_stop", "lrvm_tools/src/exceptions/native.rs", "lrvm_tools/src/debug/run_config.rs"]}
{"id": "C96", "title": "An exception is reported once, when it occurs", "statement": "With print_exceptions, run_vm prints one exception line per exception raised, after the cycle that raised it.", "quantifier": "every configuration, machine and number of cycles", "why_tests_cant": "Depends on the whole history.", "anchors": ["lrvm_tools/src/debug/run.rs::run_vm", "lrvm_tools/src/debug/run.rs::prettify_stop", "lrvm_tools/src/exceptions/native.rs", "lrvm_tools/src/debug/run_config.rs"]}
{"id": "C97", "title": "What run_vm prints has no influence on the run", "statement": "Two calls of run_vm from the same machine with configurations that differ only in what is printed leave the same machine and components and return the same state; if one returns, so does the other.", "quantifier": "every machine, component behaviour and pair of configurations with the same limit and halt_on_exception", "why_tests_cant": "Quantifies over pairs of unbounded runs.", "anchors": ["lrvm_tools/src/debug/run.rs::run_vm", "lrvm_tools/src/debug/run.rs::prettify_stop", "lrvm_tools/src/exceptions/native.rs", "lrvm_tools/src/debug/run_config.rs"]}
{"id": "C98", "title": "A paused run can be resumed", "statement": "If run_vm was stopped by its cycle limit and is called again with a larger limit or none, the two runs together do what one run does: same machine, cycle count, exception, address and (without last line) output. A machine stopped by an exception can be resumed too.", "quantifier": "every machine, component behaviour, pair of configurations and pause point", "why_tests_cant": "Every pause point of every run.", "anchors": ["lrvm_tools/src/debug/run.rs::run_vm", "lrvm_tools/src/debug/run.rs::prettify_stop", "lrvm_tools/src/exceptions/native.rs", "lrvm_tools/src/debug/run_config.rs"]}
{"id": "C99", "title": "Printing displays and the debug interface print exactly what was written", "statement": "The printing number display prints every number written to it, in order and nothing else, in the format of the address (hexadecimal, hexadecimal on eight digits, decimal, decimal on ten digits; with a newline for the first four words). The lossy printing character display prints the character of each code, or U+FFFD. The lossy printing buffered display prints its buffer at each display command, with U+FFFD for each broken piece, and nothing else. The printing debug interface prints one line per write with the number in the format documented for the word, signed ones with a minus sign — and never crashes the virtual machine.", "quantifier": "every history of requests inside the component, every word written, debug and release builds", "why_tests_cant": "2^32 words times 16 addresses, in any order; the crash needs one value per signed type", "anchors": ["lrvm_aux/src/display/number.rs: NumberDisplay::new_print", "lrvm_aux/src/display/character.rs: CharDisplay::new_print_lossy", "lrvm_aux/src/display/buffered.rs: BufferedDisplay::new_print_lossy", "lrvm_aux/src/debug/basic.rs: BasicDebug::new_println"]}
{"id": "C100", "title": "prepare_vm reports on every component before it gives up", "statement": "Preparing a machine prints one line per component, in order, with the component's number, name and hardware identifier and either a tick with the addresses of its first and last words or a cross with the reason of the refusal. If all components could be mapped, each is mapped exactly where its line says; otherwise preparing panics, after printing, with the number of components that were not.", "quantifier": "every list of components (fewer than 2^32), every advertised size and hardware identifier, every name, debug and release builds", "why_tests_cant": "unbounded lists and 2^32 sizes per component; the outcome of one component depends on all the previous ones", "anchors": ["lrvm_tools/src/debug/prepare.rs: prepare_vm", "lrvm/src/mem/mem.rs: map_contiguous, internal_map", "lrvm/src/mem/mappings.rs: MappingError, Mapping"]}
{"id": "C101", "title": "A run configuration does what its calls ask for", "statement": "A run configuration created in any of the four ways and changed by any sequence of builder calls has each option as the last call that concerns it says, or as documented for its creation. In particular asking for a newline on finish prints one when the machine stops.", "quantifier": "every way of creation, every sequence of builder calls of any length, every run", "why_tests_cant": "unbounded sequences of eight kinds of calls that overlap (verbose and quiet set three options each)", "anchors": ["lrvm_tools/src/debug/run_config.rs: RunConfig", "lrvm_tools/src/debug/run.rs: run_vm"]}
{"id": "C102", "title": "A signed literal keeps its value", "statement": "An instruction assembled with a signed literal (`signed_lit`, or an `i8`/`i16` given as an operand) computes with that number: copying it gives that number, adding, subtracting, multiplying, dividing and taking the remainder (signed mode) do so with it, a relative jump goes that far, and its text shows that offset.", "quantifier": "every literal of the type, every register but pc that the mode may write, every machine state that fetches the instruction, debug and release builds", "why_tests_cant": "all literals and all register contents", "anchors": ["lrvm_tools/src/asm/val.rs:signed_lit", "lrvm_tools/src/asm/val.rs:to_lasm_signed", "lrvm_tools/src/asm/instr.rs:encode", "lrvm/src/cpu/cpu.rs:next"]}
{"id": "C103", "title": "The text of an instruction does what the instruction does", "statement": "If the disassembly of some code assembles, the result has the same length, and each of its instructions does, in every machine state, exactly what the original instruction at that place does (even where the text is a shorthand that assembles to another word); other data are unchanged.", "quantifier": "all code, all positions, all machine states that fetch the new word, debug and release builds", "why_tests_cant": "all programs and all machine states", "anchors": ["lrvm_tools/src/lasm/mod.rs:disassemble", "lrvm_tools/src/lasm/mod.rs:assemble", "lrvm_tools/src/lasm/customasm.def", "lrvm_tools/src/asm/instr.rs:to_lasm", "lrvm/src/cpu/cpu.rs:next"]}
{"id": "C104", "title": "A message identifies its cause", "statement": "Two native exceptions displayed by the same text are the same exception with the same data; so are two component categories, two decoding errors and two refusals of a mapping. The message for a word that is not an instruction gives its opcode, or the position (counted from 1) and the byte of its first operand that names no register.", "quantifier": "all pairs of exceptions (with any data), categories, decoding errors and mapping errors; all words", "why_tests_cant": "all pairs of values, including all data", "anchors": ["lrvm_tools/src/exceptions/native.rs:Display", "lrvm_tools/src/exceptions/auxhw.rs:Display", "lrvm_tools/src/metadata/category.rs:Display", "lrvm_tools/src/metadata/types.rs:Display", "lrvm_tools/src/asm/instr.rs:InstrDecodingError", "lrvm/src/mem/mappings.rs:MappingError"]}
{"id": "C105", "title": "In any history, memory returns the last word written", "statement": "On a board built with any components, a RAM or persistent memory answers every request it receives without exception, and every read it receives gets the last word written at that address of the component since the component's last reset, 0 if there is none since that reset, or its initial word — whatever program runs, and whatever resets, mapping calls, direct accesses and register changes the host makes. A direct read of the board at an address the memory covers gives that word too.", "quantifier": "all boards, component kinds, memory sizes and initial contents, histories of host calls and programs; every request of the history", "why_tests_cant": "histories of any length with any program and any other components", "anchors": ["lrvm/src/board/hwb.rs:HardwareBridge", "lrvm/src/mem/mem.rs:MappedMemory", "lrvm_aux/src/volatile_mem/ram.rs:Ram", "lrvm_aux/src/storage/persistent.rs:PersistentMem"]}
{"id": "C106", "title": "Components with the same answers are interchangeable", "statement": "If two lists of components have, one by one, the same name, the same metadata and the same answers to every history of word-aligned, in-range reads, writes and resets, then a board built with the first and a board built with the second cannot be told apart: every sequence of host calls (mapping, reset, cycles, direct reads and writes) panics on both or on neither, and leaves the same registers, mappings, cycle count, halted state and the same answer to every direct memory read. In particular two memories with the same size and initial words are interchangeable whatever their host buffers.", "quantifier": "all pairs of lists of components of any types, all histories of requests, all sequences of host calls, both build profiles", "why_tests_cant": "It compares two machines over every possible component implementation and every run; tests can only swap one component for another in one program.", "anchors": ["lrvm/src/board/board.rs: MotherBoard", "lrvm/src/board/bus.rs: Bus", "lrvm/src/mem/mem.rs: MappedMemory", "lrvm/src/cpu/cpu.rs: CPU::next", "lrvm/src/board/hwb.rs: HardwareBridge", "lrvm_aux/src/volatile_mem/ram.rs: Ram"]}
{"id": "C107", "title": "A reset machine runs as on its first boot", "statement": "On a board whose components answer, once reset, as if they had been reset when new (all memories of any initial content, boot ROMs, displays and the debug interface do): whatever the host and the programs did since the components were mapped — short of mapping again — resetting the board and going on gives, call by call, the same panics, registers, mappings, cycle counts, halted state and memory as the first boot; the components receive the very same requests and the displays show the same.", "quantifier": "all lists of such components, all setups, all histories of host calls and programs in between, all continuations, both build profiles", "why_tests_cant": "A test compares two boots of one program after one history; the claim is over every history and every continuation.", "anchors": ["lrvm/src/board/board.rs: MotherBoard::reset", "lrvm/src/cpu/cpu.rs: CPU::reset", "lrvm/src/board/bus.rs: Bus::reset", "lrvm/src/mem/mem.rs: MappedMemory", "lrvm_aux/src/volatile_mem/ram.rs: reset", "lrvm_aux/src/display/buffered.rs: reset"]}
{"id": "C108", "title": "Resetting a component puts it in the state it was created in", "statement": "After a reset, whatever requests came before, a component answers every further history of requests as when it was created (Tutorial, Resetting; Hardware guide, reset).", "quantifier": "all components of lrvm_aux with any construction arguments, all histories before and after the reset", "why_tests_cant": "It quantifies over every history before the reset and every one after.", "anchors": ["lrvm_aux/src/volatile_mem/ram.rs: reset", "lrvm_aux/src/storage/persistent.rs: reset", "lrvm_aux/src/storage/file_backed.rs: reset", "lrvm_aux/src/storage/bootrom.rs: reset", "lrvm_aux/src/keyboard/sync_char.rs: reset", "lrvm_aux/src/keyboard/sync_line.rs: reset", "lrvm_aux/src/time/realtime.rs: reset", "lrvm_aux/src/display/buffered.rs: reset", "docs/Tutorial.md: Resetting"]}
{"id": "C109", "title": "Memory the translation table refuses to userland is not changed by userland", "statement": "With the MMU on, a userland program, whatever it is and however long it runs, cannot change a word of memory at an address its translation table refuses it, nor the table entries that refuse, provided those entries are themselves at refused addresses.", "quantifier": "all boards with a RAM holding the table, all memory contents and tables, all userland runs of any length, both build profiles", "why_tests_cant": "It ranges over every program and every length of run; a test runs one program.", "anchors": ["lrvm/src/mmu/mmu.rs: Mmu::translate, Mmu::decode_entry", "lrvm/src/cpu/cpu.rs: Cpu::next, Cpu::mem_do, Cpu::run_instr (RESET)", "lrvm_aux/src/volatile_mem/ram.rs"]}
{"id": "C110", "title": "Memory the translation table refuses to userland is secret", "statement": "With the MMU on, a userland program learns nothing about the words its translation table refuses it: on two machines that differ only in such words it makes the same steps, with the same registers, cycles, exceptions, panics, and effects on every component and every other word.", "quantifier": "all pairs of boards differing in refused words outside the table, all programs, all userland runs of any length, both build profiles", "why_tests_cant": "Non-interference is a property of pairs of runs over all programs and secrets; no test compares them all.", "anchors": ["lrvm/src/mmu/mmu.rs: Mmu::translate, Mmu::decode_entry", "lrvm/src/cpu/cpu.rs: Cpu::next, Cpu::mem_do, Cpu::run_instr (RESET)", "lrvm_aux/src/volatile_mem/ram.rs"]}
{"id": "C111", "title": "An interrupted program can be resumed", "statement": "After an interruption raised by a userland program, the handler can give control back to that program at the instruction that follows the interruption (the documentation gives the register era, 'Know the address that raised an exception', for it).", "quantifier": "every machine, every handler, every two places of the program, every number of cycles", "why_tests_cant": "a statement about all handlers and about all runs after the interruption; a test shows one handler", "anchors": ["lrvm/src/cpu/cpu.rs:exception", "docs/Architecture.md:Exceptions", "docs/Architecture.md:Registers"]}
{"id": "C112", "title": "A machine without a program does nothing, forever", "statement": "A machine whose first word is not an instruction (an empty boot ROM, a memory, no component at all) stays running at address 0: every cycle raises the same exception and comes back to the exception vector, no component and no register other than et changes, and run_vm never returns unless it is given a limit of cycles or told to stop on exceptions. More generally a processor whose exception vector does not lead to an instruction never leaves it.", "quantifier": "every list of components that prepare_vm accepts whose first one has opcode 0 at offset 0, every number of cycles, every run configuration", "why_tests_cant": "non-termination and absence of effect cannot be observed by running for a while", "anchors": ["lrvm/src/cpu/cpu.rs:next", "lrvm/src/cpu/cpu.rs:exception", "lrvm_tools/src/debug/run.rs:run_vm", "docs/Tutorial.md:Preparing the BootROM"]}
{"id": "C113", "title": "The exception register tells the cause", "statement": "An instruction looks at its operands in a fixed order, and the first documented reason to refuse it is the one reported: after a fetch, the exception register is written if and only if there is such a reason (an operand or a destination that may not be used in this mode, an address that is refused, a forbidden division, an unknown flag, condition, component or information, an interruption), and it then holds the code of this reason and the data that describes it, such as the number of the refused register (also for the numbers 32 to 255, which name no register).", "quantifier": "every instruction word, operand values, mode, memory map, component behaviour, build profile", "why_tests_cant": "every pair of reasons that can meet in one instruction would have to be tried with every register number", "anchors": ["lrvm/src/cpu/cpu.rs:run_instr", "lrvm/src/cpu/cpu.rs:read_reg", "lrvm/src/cpu/cpu.rs:write_reg", "lrvm/src/cpu/cpu.rs:exception", "docs/Architecture.md:Exceptions"]}
{"id": "C114", "title": "Where a component is plugged in does not matter", "statement": "Take the components of a board, and possibly others, and plug them in another board in another order; map them at the same addresses (the map calls, with the new numbers and in any order, succeed as well). After a reset, a program that executes neither HWD nor RESET runs the same on both boards: same registers, cycles, halting and panics at every step, same state of each component; the further components are not touched. A program that uses HWD can tell the boards apart.", "quantifier": "every component behaviour, every board and order, every set of further components, every program without HWD and RESET, any number of steps, debug and release builds", "why_tests_cant": "all orders of all components and all programs; a wrong index would show on some boards only", "anchors": ["lrvm/src/board/board.rs: MotherBoard::new, reset", "lrvm/src/mem/mem.rs: MappedMemory::map, read, write", "lrvm/src/board/hwb.rs: HardwareBridge", "lrvm/src/cpu/cpu.rs: Cpu::next"]}
{"id": "C115", "title": "What a program stores in a file outlives the machine", "statement": "A file is opened with FileBackedMem on a board, any program and host calls use the machine, which is stopped between any two of them; then another machine opens the file, and so on. Each word of the file is then the last one any of these machines wrote there, or the original one, the length and the bytes after the last whole word are the original ones, and every read a program makes inside the file gets that word. Resets erase nothing, read-only machines change nothing, and refused I/O calls lose no write that the machine survived: a refused read gives 0 and the exception GenericPhysicalReadError.", "quantifier": "every file below 4 GB, any number of machines with any other components, every history of host calls and every stopping point, every pattern of refused I/O calls, debug and release builds", "why_tests_cant": "histories and stopping points are unbounded and cross several machines", "anchors": ["lrvm_aux/src/storage/file_backed.rs: FileBackedMem", "lrvm/src/board/board.rs: MotherBoard", "lrvm/src/mem/mem.rs: MappedMemory"]}
{"id": "C116", "title": "Code can be written and run at once", "statement": "On a board with any components, whatever happened before (programs, resets, mappings, direct accesses), when the CPU runs with the MMU off and pc is an aligned address covered by a memory component, the instruction the next step executes is the last word written there since the component's last reset (0 if there is none since that reset, the initial word if there was neither): nothing is cached between a write and the execution of the written code.", "quantifier": "every board, every history of host calls and program steps, every program counter covered by a memory, debug and release builds", "why_tests_cant": "a stale instruction would only show in programs that modify themselves, after some histories", "anchors": ["lrvm/src/cpu/cpu.rs: Cpu::next, mem_exec", "lrvm/src/mem/mem.rs: MappedMemory::read", "lrvm_aux/src/volatile_mem/ram.rs: Ram"]}
{"id": "C117", "title": "Position-independent code", "statement": "Two machines that differ only by their pc, and that find the same instructions where they run (the same program in two boot ROMs of a board), behave the same as long as no instruction reads pc or is CALL: after any number of steps either both panicked, or they still differ only by pc and by the same distance, or they have become the same machine (absolute jump, exception, reset of the CPU). Relative jumps and conditional instructions move with the code. With CALL or an instruction that reads pc the two runs can be told apart.", "quantifier": "every board with two boot ROMs of the same size and program, every history before, every number of steps while pc is in the ROM with the MMU off, debug and release builds; in general every pair of machines that fetch the same instructions", "why_tests_cant": "it relates two whole runs at two places, for every program", "anchors": ["lrvm/src/cpu/cpu.rs: Cpu::next, run_instruction", "lrvm_aux/src/storage/bootrom.rs: BootROM"]}
{"id": "C118", "title": "Code that only goes forward ends", "statement": "A program in a boot ROM whose instructions write neither pc nor mtt and are not LSM, ITR, CALL, RESET or jumps, except JPR by a positive number of words (conditional instructions are allowed), cannot run forever: from any address of the ROM, with the MMU off and whatever the state of the machine, within as many calls to next as there are words up to the end of the ROM the processor halts, raises an exception or leaves the ROM.", "quantifier": "every board with such a boot ROM, every history before, every starting address in the ROM, every content of registers and memory, debug and release builds", "why_tests_cant": "termination for every program and every state is not a finite check", "anchors": ["lrvm/src/cpu/cpu.rs: Cpu::next, run_instruction", "lrvm_aux/src/storage/bootrom.rs: BootROM"]}
{"id": "C119", "title": "Looking at memory disturbs nothing", "statement": "On a board made of memories (RAM, persistent memory, boot ROM), displays, keyboards and debug interfaces, a direct read of memory by the host (MappedMemory::read), at any address and whatever is mapped, leaves the machine exactly as it was. So in any history of host calls (steps, resets, mappings, accesses), adding such reads anywhere does not change the final state, unless an added read itself panics (unaligned address).", "quantifier": "every board of such components, every history of host calls, every place and address of the added reads, debug and release builds", "why_tests_cant": "it compares all histories with all ways to add reads to them", "anchors": ["lrvm/src/mem/mem.rs: MappedMemory::read", "lrvm/src/board/hwb.rs: HardwareBridge::read", "lrvm_aux/src/volatile_mem/ram.rs: Ram", "lrvm_aux/src/keyboard/sync_line.rs: SyncLineKeyboard"]}
{"id": "C120", "title": "Mapping a component does not disturb a program that does not use it", "statement": "After MotherBoard::map (or MappedMemory::map) has mapped a component, take any run of the processor that never asks, with HWD, whether or where this component is mapped (it may ask for anything else, also about other components' places) and during which the component receives neither a read nor a write (it may be reset). The same steps on the machine as it was before the mapping succeed and end in exactly the same processor state, cycle count and components. Likewise a direct access by the host either reaches the new component or does exactly what it did before. That question must be excluded: HWD answers it differently with and without the mapping.", "quantifier": "every machine with a well-formed mapping table, every component and address accepted by map, every program, every number of steps, MMU on or off, debug and release builds", "why_tests_cant": "it compares all runs of two machines whose mapping tables differ", "anchors": ["lrvm/src/mem/mem.rs: MappedMemory::map, read, write", "lrvm/src/cpu/cpu.rs: Cpu::next", "lrvm/src/mmu/mmu.rs: Mmu::translate"]}
{"id": "C121", "title": "A translation table that refuses nothing is transparent", "statement": "On a board whose components are not changed by reads (C119 lists them), if every entry of the translation table at pda says \"pass through\" for both modes, it makes no difference whether the MMU is on or off: the same program, as long as it does not read register mtt and the table stays so, does the same steps, with the same results, exceptions and accesses, and ends in the same state but for mtt. In particular a table placed at addresses where no component is mapped is such a table.", "quantifier": "every machine, program and number of steps, every value of mtt, both modes, debug and release builds", "why_tests_cant": "it compares all runs with the MMU on and off", "anchors": ["lrvm/src/mmu/mmu.rs: Mmu::translate, Mmu::decode_entry", "lrvm/src/cpu/cpu.rs: Cpu::next, mem_do"]}
{"id": "C122", "title": "Debug builds and release builds agree", "statement": "A build with overflow checks (cargo build) and a build without (cargo build --release) behave in the same way as long as the first does not panic: making a board, mapping components, running instructions and accessing memory give the same results and the same states, exec_vm returns the same state and prints the same lines, and disassembly and debug messages are the same texts. Whatever a release build does, the debug build does the same or panics; a run that never ends in a debug build never ends in a release build. The bundled components meet the condition on components: they describe themselves in the same way in both builds.", "quantifier": "every board, component list, history of host calls, program, run configuration, byte string and text", "why_tests_cant": "it compares two builds of the program on all inputs; tests are run on one build", "anchors": ["lrvm/src/cpu/cpu.rs: Cpu::next", "lrvm/src/mem/mem.rs: MappedMemory", "lrvm/src/mmu/mmu.rs: Mmu::translate", "lrvm/src/board/hwb.rs: AuxWithCache::create_from_aux", "lrvm_tools/src/debug/run.rs: run_vm", "lrvm_tools/src/asm/val.rs: to_lasm_signed", "lrvm_aux/src/debug/basic.rs: new_println"]}
{"id": "C123", "title": "Names and identifiers of components are only labels", "statement": "The board never uses the names, identifiers, categories, models and data that components give of themselves, except to answer HWD: replace the components of a board by others with the same sizes and the same answers but other labels, for instance with the same identifier everywhere, and no history of host calls during which no program asks for a label tells the two boards apart. It panics on both or on none, leaves the same registers, cycle count and halting state, the same ranges mapped to the same component numbers, the same memory, and mapping calls then give the same ranges and the same errors. So duplicate identifiers never crash the machine and never make a mapping fail. The bundled components meet the condition whatever the identifier they are given.", "quantifier": "every pair of lists of components differing by labels only, every history of host calls (mapping, unmapping, instructions, resets, memory accesses)", "why_tests_cant": "it compares all pairs of boards over all histories; a test tries one board with one set of identifiers", "anchors": ["lrvm/src/board/hwb.rs: AuxWithCache", "lrvm/src/mem/mem.rs: internal_map", "lrvm/src/cpu/cpu.rs: get_hw_info", "docs/Hardware.md: hw_id", "docs/Tutorial.md: hardware identifier"]}
{"id": "C124", "title": "gen_aux_id gives different identifiers to different names", "statement": "gen_aux_id, which the tutorial recommends to choose identifiers that must not have duplicates, gives different identifiers to different names.", "quantifier": "every pair of names", "why_tests_cant": "the repository compares three names; there are infinitely many", "anchors": ["lrvm_tools/src/ids/mod.rs: gen_aux_id", "docs/Tutorial.md: hardware identifier"]}
{"id": "C125", "title": "Only CYCLES shows how long a machine has been running", "statement": "The behaviour of a machine depends on its registers, its components, its mappings and on whether it is halted, and on nothing else: two machines that agree on these, whatever the numbers of cycles they have counted and whatever instruction they ran last, are told apart by no history of instructions and host calls, except by the instruction CYCLES. Both panic or none, and they keep the same registers, components, mappings and halting state; direct accesses and mapping calls give the same answers. So a saved machine can be restored without its cycle count.", "quantifier": "every pair of machines, every program and every history of host calls in which no CYCLES is run", "why_tests_cant": "it compares all pairs of machines over all histories", "anchors": ["lrvm/src/cpu/cpu.rs: Cpu::next, Cpu::run_instr", "lrvm/src/board/board.rs: MotherBoard", "lrvm/src/mem/mem.rs: MappedMemory"]}
{"id": "C126", "title": "A memory made from a storage contains it, and tells its size in bytes", "statement": "A RAM, a persistent memory or a boot ROM made from a storage (from, from_with_size, with_size, BootRom::new) advertises a size that includes the whole storage, and every word of the storage is read at its place; a storage that does not fit in the given size is refused; and size() gives the size in bytes the component was made with.", "quantifier": "every storage, every size and every hardware identifier", "why_tests_cant": "it ranges over all storages and sizes", "anchors": ["lrvm_aux/src/volatile_mem/ram.rs: from, from_with_size", "lrvm_aux/src/storage/persistent.rs: from, from_with_size", "lrvm_aux/src/storage/bootrom.rs: new, with_size"]}
{"id": "C127", "title": "The general registers are interchangeable", "statement": "The registers a0 to a7, c0, c1, ac0 to ac2 and rr0 to rr7 have no special role: a program of instructions that do not look at where they are (no CALL, pc is not read), put at another place with these registers renamed in any one-to-one way, does the same thing, every register having at every step the value its counterpart has in the original program, and the memory, the components, the counters, the exceptions and the panics being the same.", "quantifier": "every renaming of the 21 general registers, every program of instructions that do not look at where they are, every board with the two programs in two boot ROMs, every state of the machine, every number of steps, both build profiles", "why_tests_cant": "it ranges over all renamings, all programs and all runs", "anchors": ["lrvm/src/cpu/cpu.rs: run_instr, read_reg, write_reg, compute"]}
{"id": "C128", "title": "A run can be replayed from its components' answers", "statement": "A run of a board depends on its components through their answers only, and only through the answers they gave: if the components are replaced by others with the same names and metadata which give the recorded answers to the recorded requests (whatever they would answer to other requests), the same host calls end without panic, with the same registers, mappings, cycle count and state of the CPU, and the new components receive exactly the recorded requests. In particular any run is repeated by a board of players, which know nothing but the recorded sessions and panic at any other request.", "quantifier": "every list of components of any kind, every sequence of host calls (steps of any program, resets, mapping calls, direct accesses, register changes) that ends without panic, every replacement, both build profiles", "why_tests_cant": "it ranges over all components, all runs and all replacements", "anchors": ["lrvm/src/board/hwb.rs: HardwareBridge", "lrvm/src/board/bus.rs: Bus", "lrvm/src/mem/mem.rs: MappedMemory", "lrvm/src/cpu/cpu.rs: Cpu"]}
{"id": "C129", "title": "Words that are not read do not matter", "statement": "Changing words of a memory that a run does not read changes nothing in the run. For a RAM or a persistent memory: if every read of the component is of a word written before, or after a reset of the component, or of a word which is initially the same, then the run with the other initial contents is the same (registers, mappings, cycle count, state of the CPU, all other components). For a boot ROM: if all words the run reads are the same in both programs, so is the run.", "quantifier": "every board, every array of words or boot ROM in it, every pair of initial contents, every sequence of host calls that ends without panic, both build profiles", "why_tests_cant": "it ranges over all contents, all programs and all runs", "anchors": ["lrvm_aux/src/volatile_mem/ram.rs: Ram", "lrvm_aux/src/storage/bootrom.rs: BootRom", "lrvm_aux/src/storage/persistent.rs: PersistentMem", "lrvm/src/board/hwb.rs: HardwareBridge"]}
{"id": "C130", "title": "A program sees memory only through its answers", "statement": "A program that executes neither HWD nor RESET knows the board only as an address space: on two machines in the same processor state whose memories give the same answers to every sequence of direct accesses, whatever their components and mappings, it does the same, for ever, and the memories go on giving the same answers. In particular how a memory is cut into components does not matter: one array of words, or two mapped one after the other in its range with its contents, are the same memory.", "quantifier": "every pair of boards with any components and mapping tables, every program without HWD and RESET, every number of steps, every memory and every place to cut it, both build profiles", "why_tests_cant": "it ranges over all boards, all programs and all sequences of accesses", "anchors": ["lrvm/src/mem/mem.rs: MappedMemory::read, write", "lrvm/src/cpu/cpu.rs: Cpu::next", "lrvm/src/mmu/mmu.rs: MMU", "lrvm/src/board/hwb.rs: HardwareBridge"]}
{"id": "C131", "title": "A running machine can be saved and restored", "statement": "A host can save a running machine by reading the registers and the words of its memories, which changes nothing, and restore it on another board with the same mapping table and the same components except for the contents of the memories: setting the registers and writing the words succeeds, after which the registers are the same and the memory gives the same answers to every sequence of accesses. From then on the restored machine does what the saved one does, for ever, as long as the program executes no HWD, RESET or CYCLES.", "quantifier": "every machine at every point of its run, every board with the same mapping table and the same components apart from the contents of memories, every list of the addresses of their words, every number of steps, both build profiles", "why_tests_cant": "it ranges over all machine states, memory contents, mapping tables and run lengths", "anchors": ["lrvm/src/mem/mem.rs: MappedMemory::read, write", "lrvm/src/cpu/cpu.rs: Cpu::next, regs", "lrvm/src/board/board.rs: MotherBoard"]}
{"id": "C132", "title": "Extended instructions assembled from their text have their documented effect", "statement": "Every extended instruction has a text, which assembles; running the machine code of the text of SetReg(r,v), ReadAddr(a), ReadAddrTo(r,a), WriteAddr(a,r), WriteAddrLit(a,v) leaves v in r, the word at a in avr or r, and r or v at address a.", "quantifier": "all extended instructions, registers and 32-bit constants, all machine states and boards, both build profiles", "why_tests_cant": "2^32 constants times all registers and states; it composes the disassembler, the assembler and the processor", "anchors": ["lrvm_tools/src/asm/extinstr.rs: ExtInstr::to_lasm", "lrvm_tools/src/asm/prog.rs: Program::to_lasm", "lrvm_tools/src/lasm/customasm.def", "lrvm/src/cpu/cpu.rs: run_instr"]}
{"id": "C133", "title": "A component that is not mapped receives nothing but resets", "statement": "In every history of a board, a component that is in no mapping (in particular one named by no mapping call, or whose announced size is 0 or not a multiple of 4, which no mapping call accepts) receives no read and no write, only resets.", "quantifier": "all components, all histories of host calls and program steps, both build profiles", "why_tests_cant": "it must hold for every program and every sequence of calls, including refused mappings and unmapped accesses", "anchors": ["lrvm/src/mem/mem.rs: MappedMemory::internal_map, mem_do", "lrvm/src/board/hwb.rs: HardwareBridge", "lrvm_tools/src/metadata/metadata.rs: DeviceMetadata::new, set_size"]}
{"id": "C134", "title": "An instruction contacts components no more often than documented", "statement": "In one step the components receive together one read for the fetch, at most one more read for a load instruction, at most one write for a store instruction, and, with address translation on, at most one table read for each of these accesses; nothing else. So n steps make at most 5n reads and n writes.", "quantifier": "all instructions (and words that are none), all machine states and components, completed and refused steps, both build profiles", "why_tests_cant": "reads of keyboards, clocks and other components have side effects: one access too many in some state is lost input", "anchors": ["lrvm/src/cpu/cpu.rs: next, run_instr, mem_do", "lrvm/src/mmu/mmu.rs: translate", "lrvm/src/mem/mem.rs: read, write"]}
{"id": "C135", "title": "A mapping error tells what is wrong with the request", "statement": "When map or map_abs returns, it returns an error iff the request has one of the documented problems (unknown component, unaligned start, size or end, empty component, empty or inverted range or one past the address space, range larger than the component, component already mapped, range shared with a mapped one); the error names a problem the request really has, the first one in the order of the checks, and an overlap names the first mapped range that meets the request. With no problem the answer is the range.", "quantifier": "all machines with well-formed ranges, all addresses, identifiers, component sizes and tables, both build profiles", "why_tests_cant": "hosts react to the error value (for instance by choosing another address): the value must be right for every combination of address, size and table", "anchors": ["lrvm/src/mem/mem.rs: map, map_abs, internal_map", "lrvm/src/mem/mappings.rs: MappingError, AddressOverlaps"]}
{"id": "C136", "title": "A crash damages at most the word being written", "statement": "A process that uses a FileBackedMem is stopped at any point, even in the middle of a write (killed, or panicking because the operating system refused the write). The file keeps its length and its bytes after the last whole word; every word other than the one being written holds the last value whose write was answered (by this machine or by earlier ones), or its original value; the word being written has some of its first bytes new and the others as they were; a file opened read-only is unchanged. This goes on through any number of machines and crashes, and the next machine reads those words without error.", "quantifier": "every file below 4 GB, every crash point of every request, every number of bytes written at that point, any number of machines and crashes, every program, host history and set of other components, every pattern of refused I/O calls", "why_tests_cant": "crash points inside a request cannot be reached by a test of the API, and histories of crashes are unbounded", "anchors": ["lrvm_aux/src/storage/file_backed.rs: FileBackedMem::write", "lrvm_aux/src/storage/file_backed.rs: FileBackedMem::read", "lrvm/src/board/board.rs: MotherBoard"]}
{"id": "C137", "title": "What is lost is warned about", "statement": "In a build with debug assertions, each access through the mapped memory to an address where there is no component prints one warning, which tells the address and whether it is a read or a write; other accesses, and builds without debug assertions, print none. A synchronous line keyboard asked for a line prints one warning, with the size of its buffer, exactly when the line does not fit in it; a line it does not warn about is wholly in the buffer. Opening a file as memory prints a warning exactly when the last bytes of the file are out of the reach of the machine.", "quantifier": "every board, every history of host calls without map_abs, every address; every line, capacity and history of requests; every file below 4 GB", "why_tests_cant": "a test can check a few addresses and lines; that no loss is silent and no warning is unfounded concerns all of them, after any history", "anchors": ["lrvm/src/mem/mem.rs: MappedMemory::read", "lrvm/src/mem/mem.rs: MappedMemory::write", "lrvm_aux/src/keyboard/sync_line.rs: SyncLineKeyboard::write", "lrvm_aux/src/storage/file_backed.rs: FileBackedMem::open"]}
