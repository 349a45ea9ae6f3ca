{
 "C08": {
  "note": "False of the code: era is never written, so it is 0 after every history (C08_era_always_zero_partial); C08_era_refuted gives a machine whose exception was raised at another address. Proved: exactly what era is."
 },
 "C11": {
  "note": "Proved for every instruction other than RESET with processor mode 0. Missing: that RESET, which is not refused in userland and changes supervisor registers (C11_reset_refuted); C11_reset_does says exactly what it does."
 },
 "C12": {
  "note": "Proved for every instruction other than RESET with processor mode 0; that userland RESET enters supervisor mode without the vector (C12_reset_refuted, C11_reset_does)."
 },
 "C14": {
  "note": "Proved for LSM. False for HALT, CYCLES and RESET, which the code never refuses: refuted for every state."
 },
 "C15": {
  "note": "Proved that LSM leaves supervisor mode and continues at addr + 4. The documented target (addr) is refuted."
 },
 "C17": {
  "note": "Unsigned, signed and by-zero results are proved in full; the overflow modes of MIN / -1 are ignored by the code (always 0x0B): proved as _partial, the documented choice refuted."
 },
 "C19": {
  "note": "All flags but ZLF are proved; ZLF tells whether bit 16 is set, and MUL's carry tells signed overflow: both refuted against the documentation."
 },
 "C21": {
  "note": "Proved for flags 0-6 and for flag numbers above 7; flag 7, which does not exist, is accepted (refuted)."
 },
 "C22": {
  "note": "Proved for existing flags and all conditions; IF2 does not check flag numbers (refuted)."
 },
 "C27": {
  "note": "False of the code: the permission test compares a shifted bit with 1, so that no entry ever translates. Proved: with the MMU on every access is the identity or refused; two-level translation and documented pass-through are refuted."
 },
 "C28": {
  "note": "Proved for reads; refused writes and fetches raise the code of reads (refuted)."
 },
 "C30": {
  "note": "Proved when the register may be written and (debug builds) the sum fits; otherwise memory is changed although an exception is raised (refuted)."
 },
 "C31": {
  "note": "Proved when both registers may be read and written; if the second write is refused the first stays changed (refuted)."
 },
 "C41": {
  "note": "Proved: which components each mode resets. Modes 3 and 4 are strict where the documentation says inclusive (refuted)."
 },
 "C42": {
  "note": "Proved: no step panics unless one of the listed causes holds (IF2 with a flag number above 7 and SRM overflow in debug builds, translation tables unaligned or too high, a component that panics). Each cause is shown to be real by a refutation."
 },
 "C43": {
  "note": "Proved for histories without map_abs; map_abs records the component's size instead of the requested range, which lets ranges overlap (refuted)."
 },
 "C44": {
  "note": "Proved: exact success condition and result, in both profiles. The documented condition is refuted for debug builds at the last word of the address space."
 },
 "C47": {
  "note": "Layout is proved in full; the reported range is proved unless the address space wraps in release builds (refuted)."
 },
 "C48": {
  "note": "Proved for ranges of exactly the component's size, and that never more than the component's size is mapped; smaller ranges map more than requested and a range one word too large is accepted (both refuted)."
 },
 "C49": {
  "note": "Proved: release builds never panic with known identifiers, and the exact debug condition; overflow in debug builds and unknown identifiers in map_contiguous panic (refuted)."
 },
 "C50": {
  "note": "Exact: an instruction survives encoding and decoding iff it has no register other than a0 as a two-byte operand (C50_partial is an equivalence); the full claim is refuted."
 },
 "C52": {
  "note": "Exact: assembled instructions run as written, except that a register given as a two-byte operand is replaced with a0."
 },
 "C54": {
  "note": "Encoding proved in full; decoding proved for all modes but ZRO_MAX (decoded as EqToMin); the processor ignores overflow modes (refuted). Builders: any chain of with_* calls gives the last choice of each kind (C54_builders); result() is what a division by zero gives (C54_result_partial), not what an overflow gives (C54_result_refuted)."
 },
 "C55": {
  "note": "Encoding and strict/raw decoding proved in full. Round trip of programs is exact up to C50's loss and data that happen to encode instructions; both refuted in the full claim."
 },
 "C56": {
  "note": "Append and prepend are proved; prepend_all inserts in the middle or crashes: exact conditions proved, the claim refuted."
 },
 "C57": {
  "note": "Proved in full for whole words; one or two bytes of an incomplete last word are lost (refuted)."
 },
 "C58": {
  "note": "Round trip proved in full; what a step raises decodes correctly unless the data do not fit a byte or a component uses an unknown code (refuted)."
 },
 "C59": {
  "note": "Round trip proved in full; UnknownError does not survive (refuted)."
 },
 "C60": {
  "note": "Proved for literals and for the registers that survive encoding; the forms that use a register as a two-byte operand are refuted."
 },
 "C61": {
  "note": "Stopping conditions, determinism and panics are exact; a program that runs RESET never reaches the cycle limit, and describing some exceptions panics (both refuted)."
 },
 "C66": {
  "note": "Proved without resets; reset erases the content (refuted)."
 },
 "C67": {
  "note": "Reads, writes, refusals and histories mirror the file; the advertised size is four times too large and the file can grow (refuted)."
 },
 "C71": {
  "note": "Proved when the buffer was cleared before the request; otherwise the remains of a longer previous line stay (refuted)."
 },
 "C72": {
  "note": "System and elapsed seconds proved; the fraction word and word 3 are refuted, with what they are as _partial."
 },
 "C73": {
  "note": "Proved in full for every component but the file-backed memory (I/O errors and sizes can panic: refuted, _partial under I/O success)."
 },
 "C76": {
  "note": "Proved for the clear command; display commands do not clear the buffer (refuted)."
 },
 "C77": {
  "note": "Proved for the words inside the advertised 32 bytes; the interface advertises half of the documented range (refuted)."
 },
 "C78": {
  "note": "Proved when the line fits; a line cut inside a character leaves invalid UTF-8 (refuted)."
 },
 "C79": {
  "note": "Proved: exactly 99 sleeps of 10 ms between two increments; the documented second is refuted."
 },
 "C80": {
  "note": "Proved for all programs, except that one instruction (jpr -0x8000) crashes the disassembler in debug builds (refuted)."
 },
 "C81": {
  "note": "Exact characterisation of the programs that come back (C81_program_partial); others are refuted."
 },
 "C82": {
  "note": "Proved for all documented forms but those of Misassembled, each of which is refuted for all its operands (or shown equivalent: C82_address_only_partial). Labels are in C84."
 },
 "C83": {
  "note": "Proved for registers and non-negative constants; negative constants are zero-extended (refuted; for LSA in general), and a negative register makes SRM crash in debug builds."
 },
 "C84": {
  "note": "For the forms of C82 that are not misassembled. Relative to the reading of customasm stated in DESIGN.md."
 },
 "C85": {
  "note": "The whole stack: assembler (relative to the reading of customasm stated in DESIGN.md), motherboard, CPU, BootRom, Ram, BufferedDisplay, the loop of main. For all messages, not only the one of the repository."
 },
 "C86": {
  "note": "For every shift below 32 and both build profiles, with the exact number of cycles. Relative to the reading of customasm stated in DESIGN.md."
 },
 "C87": {
  "note": "For any other components of any kind (at most 50 of them), not only the three of the repository; C87_repository gives the exact entries shown there. The formatting of the printed lines is not modelled. Relative to the reading of customasm stated in DESIGN.md."
 },
 "C88": {
  "note": "For every sequence of clock readings; C88_monotone restates it for clocks that go forward. Relative to the reading of customasm stated in DESIGN.md."
 },
 "C89": {
  "note": "False if the counter jumps over 5 between two readings (C89_missed_refuted: the program compares for equality, and then never stops). Proved: it ends exactly when some reading is 5, with the exact lines, cycles and address (C89_ends_partial); otherwise it runs forever without exception, and displays exactly the readings that differ from the one before (C89_runs_partial); a counter read often enough displays 1 to 5 (C89_slow_counter_partial)."
 },
 "C90": {
  "note": "The supervisor check the documentation asks for is C14's claim and is refuted there; C90 is about what the two instructions do."
 },
 "C91": {
  "note": "Idempotence holds for every source without `srm` whose text assembles; `srm` (which can only come from data) is shown as `srm` and then read as `wea` (`C91_refuted`); exactly which texts cannot be re-assembled is `C91_accepted_iff`."
 },
 "C92": {
  "note": "Proved: for every typed line, the machine follows the character-by-character semantics Lang (C92_ends, C92_misaligned, C92_diverges), and for every structured Brainfuck program with moves written four times, at most 1021 nested loops, and no non-empty loop reached with a zero cell, it displays what Brainfuck says. False in general (proved): `>` moves one byte while cells are four bytes wide, so `>+` raises exception 5 (C92_move_refuted); a non-empty loop reached with a zero cell is reported as unclosed, at a position that is an address in the example's memory (C92_skip_refuted). Missing: what happens once the pointer leaves the cells (it then reads and writes other components) and after 1021 nested loops."
 },
 "C93": {
  "note": "Proved in both directions for every word."
 },
 "C94": {
  "note": "C94_registers, C94_requests, C94_requests_fault, C94_no_request. RESET is excluded from the register part (its effect on the registers is C-claims on reset)."
 },
 "C95": {
  "note": "C95_lines, C95_quiet."
 },
 "C96": {
  "note": "False of the code. C96_once_refuted: after one handled exception every later cycle is reported as an exception. Proved instead: C96_halting_partial (a run that stops on exceptions reports exactly the one that stopped it) and C96_every_cycle_partial (otherwise every later cycle is reported)."
 },
 "C97": {
  "note": "The second half is false of the code (C97_panic_refuted: an et without text makes the printing run panic). C97_same and C97_quiet_returns hold in full; C97_returns_partial for machines whose et always has a text."
 },
 "C98": {
  "note": "C98_resume, C98_resume_returns and C98_lines prove the cycle-limit half. The exception half is false of the code (C98_exception_refuted): with halt_on_exception every further call runs exactly one cycle (C98_exception_partial)."
 },
 "C99": {
  "note": "False for the debug interface in debug builds: `-n` overflows on the least number of each signed type, so a program can crash the virtual machine by writing 0x80 to word 3 (C99_debug_refuted); the partial theorem covers release builds and all other words, all sixteen words. C99_number, C99_char and C99_buffered hold without restriction."
 },
 "C100": {
  "note": "False in debug builds: the default end address is computed before the size is checked, so a first component of fewer than 4 bytes or components that do not fit panic without any report (C100_overflow_refuted). The partial theorem is exact for all lists: it says when that happens, and all lines, the result and the mapped ranges otherwise (always in release builds)."
 },
 "C101": {
  "note": "C101_options is proved for all sequences. The newline is only printed together with the final message: C101_newline_refuted (all quiet configurations), C101_newline_partial (with the message)."
 },
 "C102": {
  "note": "Full claim false for every negative literal in cpy/add/sub (C102_refuted, all states). Exact: C102_partial (literals >= 0), C102_negative_partial (what happens instead); C102_jpr and C102_widened hold for every literal; C102_text_partial: all but i16::MIN, which panics in debug builds."
 },
 "C103": {
  "note": "Full claim false: cpy r,0 (text also sets the flags), xor a,b (text zeroes b), srm (assembled as wea), division mode ZRO_MAX (text says MIN): C103_refuted. C103_partial covers every other instruction of every code that disassembles to an assemblable text; C103_zero_partial says exactly what cpy r,0 becomes."
 },
 "C104": {
  "note": "Exceptions whose text cannot be made (register codes above 31 in 0x03/0x04, see C58/C95) have none, hence the hypotheses."
 },
 "C105": {
  "note": "composition of C36 and C64/C66: the reads seen inside a whole board"
 },
 "C106": {
  "note": "C106 for any components; C106_memory for arrays of words; C106_taped shows the recording wrapper used by C105 changes nothing."
 },
 "C107": {
  "note": "C107 for any rebooting components; C107_memory and C108_* give the components; C107_*_shows for what displays show."
 },
 "C108": {
  "note": "Holds for Ram::new, PersistentMem::new, boot ROM, displays, debug interface. Refuted for memories created with a non-zero content (C108_memory_partial: exactly when every reachable word is zero), for the file-backed memory and for keyboards; C108_char_keyboard_partial, C108_line_keyboard_partial and C108_clock_partial give the exact state after the reset: that of a component created with what remains of the input, or created at the time of the reset; C108_file_partial: of a component opened on the file as it is."
 },
 "C109": {
  "note": "Exact except for RESET, which the code lets userland execute: it erases the RAM (C109_reset_refuted)."
 },
 "C110": {
  "note": "Exact except for RESET: a reset of the processor alone puts it in supervisor mode at address 0 with the MMU off, so instructions of the program's own there read the secret (C110_reset_refuted)."
 },
 "C111": {
  "note": "False of the code: era is never written, so the place of the program is lost. C111_place_lost_partial: after the same interruption at p or at q the machine is the same. C111_no_handler_partial: hence no handler resumes both programs. C111_refuted: a machine where the program is never resumed. C111_stub_partial: what a user can do instead - call a stub 'itr n; pop pc' and let the handler end with 'lsm stub'; the program then goes on after its call with its registers as the handler left them. Missing: the claim itself."
 },
 "C112": {
  "note": "C112_bad_vector and C112_unaligned_vector: from the vector, for every number of cycles, only et and the cycles tell the machine from what it was. C112_no_program: the same for a machine made by prepare_vm, from reset. C112_runs_forever: run_vm is related to no result, not even a panic. C112_limit: with a limit l it returns after l+1 cycles at address 0. The program shown at that point of the tutorial contains assert_eq!(cpu.regs.et, 0), which would stop it after one cycle, contrary to the text; the theorem is about the text (and about run_vm)."
 },
 "C113": {
  "note": "C113_reported: each cause leads to its exception (full effect of the cycle). C113_explained: conversely, after any fetch, either a cause was reported or there is none and et is unchanged (or RESET reset the CPU). C113_unique: causes do not conflict. Faults of the fetch itself are C04 and C25. The flags left by an operation whose destination is refused are those of the operation (C16, C17), and are not repeated here."
 },
 "C114": {
  "note": "All orders, with any further unmapped components; HWD and RESET take positions and are excluded (C114_hwd_differs shows that this is needed)."
 },
 "C115": {
  "note": "Chains of any number of machines; the file is used by the component alone, and the process is stopped between host calls (a panic in the middle of a write_all is not a stopping point)."
 },
 "C116": {
  "note": "For every component that is an array of words (C64, C66)."
 },
 "C117": {
  "note": "Instructions that read pc and CALL are excluded by hypothesis; C117_reads_pc and C117_call show that they must be."
 },
 "C118": {
  "note": "C118_jpr_zero: with a jump by 0 the code runs forever."
 },
 "C119": {
  "note": "The realtime clock, the file-backed memory and the counter, whose answers depend on events outside the machine, are not in the list."
 },
 "C120": {
  "note": "C120_restrictions shows that neither restriction can be dropped."
 },
 "C121": {
  "note": "C121_restrictions shows that a program reading mtt and a table with a refusing entry do tell the difference."
 },
 "C122": {
  "note": "C122_needs_no_panic shows that the condition is needed: IF2 with flag 8 panics in debug builds only."
 },
 "C123": {
  "note": "C123_needs_not_asking: a program that asks for an identifier tells the boards apart."
 },
 "C124": {
  "note": "False of the code (C124_false): even two names of 65 letters a and b share an identifier. C124_partial: the bytes hashed are different for different names, and never begin those of another name, so that identifiers coincide only by a collision of the hash function. By C123 a collision does not crash the machine."
 },
 "C125": {
  "note": "C125_needs_no_cycles: CYCLES tells such machines apart."
 },
 "C126": {
  "note": "False of the code (C126_false). Exact: which sizes are accepted, when the storage is contained, what size() gives."
 },
 "C127": {
  "note": "Proved, for one step (any instruction when the machines are at the same place, position-free ones otherwise), for runs, and for two boot ROMs. C127_special shows that ssp may not be renamed."
 },
 "C128": {
  "note": "Proved, for any replacement and for players."
 },
 "C129": {
  "note": "Proved for arrays of words (C64, C66 give the hypothesis for Ram and PersistentMem) and for boot ROMs."
 },
 "C130": {
  "note": "Proved. C114_hwd_differs shows that the restriction is needed."
 },
 "C131": {
  "note": "Proved. That CYCLES must be excluded is the cycle counter of the processor, which the interface cannot set."
 },
 "C132": {
  "note": "Proved for SetReg, ReadAddr, ReadAddrTo and WriteAddrLit (under the conditions of C60 on r). False of WriteAddr with rr0 or pc (C132_write_addr_refuted, all states); C132_write_addr_partial: every other readable register but af. Direct encoding gets ReadAddrTo and WriteAddr wrong (C60)."
 },
 "C133": {
  "note": "Proved. C133_unmapped (not in the table at the end), C133_never_named (in terms of the calls), C133_unmappable (sizes no call accepts), C133_set_size and C133_new_refuses (set_size does not check what new checks)."
 },
 "C134": {
  "note": "Proved (C134_step, C134_no_fetch, C134_run); the bounds are reached by an SRM with translation on. RESET is the only instruction that resets components (C94, C41) and is not counted here."
 },
 "C135": {
  "note": "`map`: proved in full (C135_map). `map_abs`: C135_map_abs_partial, all requests but two kinds; false of the code for those: a range one word larger than the component is accepted (C135_one_word_more_refuted), and in release builds the whole address space is called a null range (C135_whole_space_refuted). When the calls panic instead of returning is C49_map_panics_iff and C49_map_abs_panics_iff."
 },
 "C62": {
  "note": "Proved: the state it returns (C62_ready), all the ways it panics (C62_panics), and exactly when it succeeds for components whose own reset does not panic (C62_succeeds_iff). False of the code in debug builds when the components fill the address space to its last byte (C62_last_byte_refuted): that case is missing from C62_succeeds_partial."
 },
 "C136": {
  "note": "Proved: one crash (C136_crash), chains of machines and crashes (C136_file, C136_kept, C136_untouched), the next machine (C136_next). C136_mixed, C136_answered and C136_before say what the definitions mean: bytes of a half-written word, an answered write is the last stopping state, a component that has not stopped yet answers as usual. That the bytes of one write reach the file in order is assumed."
 },
 "C137": {
  "note": "Proved: memory (C137_memory, C137_lost, C137_tells), line keyboard (C137_line, C137_line_kept), files (C137_file). The lines printed during a CPU cycle are not collected: the claim is per access."
 }
}