{
 "C02": "C02_overlap_witness shows why the access must not be touched by an earlier region.",
 "C10": "False when the redirect address is itself inside an alias: the size limit is computed from the untranslated address (C10_alias_of_alias_escapes). Proved for redirects into ordinary regions; C10_chained_alias_always_escapes shows that every alias of an alias leads outside of the memory of the simulator, after any history.",
 "C11": "False after an alias of an alias (C11_alias_of_alias_witness) and when the counter allocation of MemorySim_MakeRegionReadOnly fails and GetFlashReadCount is called (C11_null_counters_witness). Proved for all other histories.",
 "C17": "Whatever text is returned is the exact map, for any number of regions. That no assertion fires is proved up to 19522578 regions, and C17_assertions_hold_iff proves that beyond that number one always does.",
 "C19": "False for an alias made before its target became read-only (C19_stale_alias_witness). Proved for regions and for aliases made afterwards. C19_flash_is_write_protected and C19_only_aliases_are_stale hold for all histories: what is listed as flash cannot be written, and only aliases are wrongly listed as RAM.",
 "C24": "False when the range ends at 2^32: its end wraps to 0 (C24_top_breakpoint_missed_witness, C24_top_false_alarm_witness). Proved for every range that does not; for one that does, C24_top_halfword_partial and C24_top_hits_partial say exactly what happens instead.",
 "C25": "False when a region is made read-only twice: the first counter array is lost (C25_leak_witness). Proved for all histories without that; C25_lost_exactly gives the number of blocks left by any history (flash images are taken to go where nothing is marked), and C25_releases_all_iff says exactly which histories leave nothing.",
 "C36": "False for memory lines of fewer than four words (a spurious zero word is stored, C36_short_line_witness) and for symbols with unbalanced angle brackets (C36_unbalanced_symbol_witness). Proved for the others, and with the extra word made explicit for all lines.",
 "C37": "False when a run starts at 0xFFFFFFFF or lines are short (C37_top_witness; see C36). The general theorem says what regions are created for every log.",
 "C38": "Lines longer than the 1024-byte buffer are split by the parser (C38_long_line_witness).",
 "C39": "False for fewer than four words followed by a newline (C39_short_line_witness); C39_short_line says what happens instead.",
 "C46": "False when offset + size of a segment (or, in a blob of about 4 GiB, of a program header) wraps around 2^32 so that the wrapped end lies inside the blob (C46_wraparound_witness). C46_overreads_iff: for files whose segments have addresses of their own the loader reads outside the blob exactly if the first thing that is not in order is a segment that wraps around. Proved for all blobs in which nothing wraps around this way.",
 "C50": "The heap part is false when segments of an ELF file start inside earlier ones (C50_leak_witness); C50_left_by_segments says how much is left for any ELF file. Everything else holds without exception.",
 "C64": "False: the handlers of the memory access functions do not clear the exception code (C64_swallowed_fault_witness, C64_masked_exception_witness, C64_map_masked_witness). Proved when a later successful access or another try block intervenes; C64_pending_iff says exactly when an error is left pending by the platform's calls.",
 "C68": "False when the new code is smaller than the old one: setExceptionCode keeps the maximum (C68_smaller_code_witness). Proved for larger codes and after clearing.",
 "C69": "False: shouldStopRun always answers no, and the end of the input is delivered as the character 0 (witnesses). What holds: an exception that reaches the loop ends it.",
 "C71": "False for ELF files in which offset + size wraps around 2^32 (C71_wraparound_witness; C71_undefined_iff says exactly when). Proved for all others, and for all command lines without --elf.",
 "C33": "C33_bad_character: the error is a format error unless the binary reader, given the same bytes before, raises another one; C33_format_error: it is one if these bytes begin a dump that can be loaded. C33_lone_character_ignored: a lone character at the end of a dump is not noticed.",
 "C66": "With the channel main uses, the session never completes (C69), so 0 is never returned in practice; the theorems quantify over every channel and every behaviour of mri.",
 "C80": "Missing: command lines in which an alias leads into another alias rather than loaded memory (false there: C80_chained_alias_witness; C80_chained_alias_always_escapes shows this for every start-up with such an alias: it is accepted and the first read goes out of bounds; C80_defined_iff_partial: for aliases that do not start inside other blocks, the session is defined exactly if all aliases lead into loaded memory); more than 19522578 blocks of memory (C17_assert_fires_witness); 2^31 faults that GDB never asks about (the int counter overflows).",
 "C79": "For command lines whose aliases lead into loaded memory; this is so for all without chained aliases (noChain_loaded).",
 "C81": "C81_unchecked_witness shows that words which are no numbers are accepted as 0. C81_aliases_created: after start-up the aliases in memory are exactly those of the options, in order, with what the words mean as address, size (cut where the memory they lead into ends) and target.",
 "C82": "Partial: C82_wraparound_witness and C82_chained_alias_witness show runs with undefined behaviour (C82_wrapping_image: every run with such an image). C82_defined_iff_partial: for aliases that do not start inside other blocks, all runs are defined exactly if start-up is defined (C71_undefined_iff says when) and every alias leads into loaded memory. mri itself is a parameter that acts by platform calls.",
 "C83": "Partial: C83_leak_witness shows a lost heap block when ELF segments overlap. C83_left_exactly says how much is left for any image, and C83_released_iff that nothing is left exactly if no segment starts inside an earlier one. Files are always closed (C83_files_closed).",
 "C55": "For files up to 4 GiB. C55_raw_image_general says what happens for all sizes; C55_huge_image_witness shows that a larger file is accepted and loaded in part.",
 "C96": "For any real allocator; n is an unsigned int, so n = 0 means no failure.",
 "C97": "C97_lines assumes the buffer is as large as the size passed, else the outcome is undefined behaviour in the model. The witness shows a count that survives fseekRestore.",
 "C98": "C98_shown_exactly covers all cases; C98_nth_output is the case a test relies on. C98_unhooked: once the hooks are removed nothing is recorded. The witness shows a stale output.",
 "C99": "C99_left_exactly counts the leak; two witnesses show the leak and the null pointer.",
 "C100": "The endless loop of a receive with nothing left is expressed by the step bound: it runs out for every bound.",
 "C102": "False across two blocks that touch (C102_adjacent_blocks_witness): a word of which the dump has one half in each of two adjacent blocks cannot be read although each of its bytes can. C102_whole_access_partial: it holds if no two blocks touch. C102_aligned_access_partial: it holds for accesses at multiples of their size if memory is cut at such multiples only. C102_any_format_partial and C102_any_format_aligned_partial: the same for dumps of whatever format. C102_accessible_iff says exactly which accesses succeed.",
 "C105": "A file that begins like neither kind of dump is read as a log, whatever it contains; C105_success_means_loaded_log says what is then there. Its words are only claimed to be readable if no word shown is cut by the end of a run of lines. Images of about 4 GiB are left out of the completeness statement.",
 "C106": "What is wrong is said by two functions of the bytes, headComplaint and restComplaint; C106_every_dump says that they miss nothing. Memory where the image is, which is reported with the same text but as a bus error, is C93.",
 "C107": "The list is Problem and Fine in Spec/Diagnosis.lean; C107_exactly is the equivalence, C107_always_one and C107_only_one say that the list is complete and unambiguous, C107_every_file that no file is outside it. A dump that is a log may be any file (C109). What OrdinaryStart leaves out is covered by C36, C39 and C46, where the code itself misbehaves.",
 "C108": "The code violates this: __throw without a message leaves it empty, and nothing adds one. C108_spoiled_witness: a dump with characters that are not hexadecimal where the flags should be. C108_log_witness: a log that shows a word of the image. C108_elf_memory_witness: memory runs out while an ELF file is loaded. C108_silent_iff says that, on a machine where memory and files do not fail, such files are the only ones, so C108_says_why_partial holds for binary dumps and for hexadecimal dumps that are not spoiled. C108_any_machine says which failures are silent on any machine, whatever allocations and file operations fail; C108_raw_and_binary_partial: with a raw image and a binary dump there are none.",
 "C109": "It makes visible what the parser does with lines that are not well-formed: a line such as \"0x30000000: Cannot access\" is taken for four zero words, a symbol with unbalanced brackets swallows words, a line is cut at a NUL or after 1023 characters, an s register without a raw value becomes all ones.",
 "C110": "How GDB numbers registers and which features it looks for is stated in Spec/Numbering.lean from GDB's documentation; GDB itself is not modelled.",
 "C67": "C67_model_agrees: code written with the macros and its transcription into the exception monad used by the other modules end the same way.",
 "C111": "How a synopsis is read is defined in Spec/Usage.lean, as a function of the printed text. The text says that --elf and --bin exclude each other; in fact both may be given (C52).",
 "C112": "What GDB writes for x/4wx is defined in Spec/Recipe.lean. Proved for RAM at 0x10000000 and above. Below, GDB writes addresses with fewer than eight digits, the parser passes over such lines without a message, and the session lacks that memory (C112_low_memory_witness; C112_session_general and C112_words_general say what is found of RAM anywhere). Symbols after an address must have balanced angle brackets (C36_unbalanced_symbol_witness).",
 "C113": "Equivalence of the code with pointers (Model/MemPtr.lean) and the list model on which the other theorems rest. No hypotheses except for C113_no_wild_pointer (Careful, as C11) and C113_all_released (Fresh, as C25); what happens without them is shown in C11 and C25.",
 "C114": "C114_hex holds for every text, well-formed or not, once it is taken for a hexadecimal dump. For logs the theorems have one hypothesis: no line consists of an address alone (0x and eight digits, no colon; GDB writes none). With a carriage return such a line is long enough for the program to take it for a memory line (C114_bare_address_witness). C114_blank_line_witness: a hexadecimal dump with an empty line at the top is taken for a log, and start-up succeeds without the crash. C114_well_formed_partial: logs as GDB writes them satisfy that hypothesis.",
 "C115": "C115_64 ties the model with a width to the rest of the model, so every other theorem about start-up carries over to hosts of 32 bits for such numbers. C115_dump and C115_log: dumps, and logs as GDB writes them, never have larger numbers. C115_large_witness: a register given with more than 32 bits is cut off on a host of 64 bits, and becomes 0xFFFFFFFF on a host of 32 bits.",
 "C116": "C116_text_after_partial: a file that begins with the signature and has a character that belongs in no dump is refused (but for a lone last character, see C33). Missing: text before the dump. The code violates that part: C116_text_before, any file that does not begin with the signature and has nothing that looks like GDB's output is accepted, with all registers 0 and no RAM; C116_recorded_witness, this happens with every dump recorded as the README shows it if the text before it is not deleted.",
 "C117": "An exact characterisation: `iff` in both directions. The exception PSR is not among the answers compared; of it the signal and the fault report are shown, which depend on its lowest byte only (C58, C59, C91).",
 "C118": "The strict host is Model/Strict.lean. C118_start_up_partial: start-up is the same on it if an ELF file has its program headers and contents at multiples of 4, and no two words of the image and the log overlap in part; C118_raw_image: always, for a raw image with a crash dump; C118_raw_image_log: with a log, if no memory is shown twice. C118_session_exact: exactly which reads and writes of the debug monitor are misaligned; C118_session_partial: none that is at a multiple of its size, nor the fault report, if all blocks and aliases begin at multiples of 4. Missing: other ELF files, logs, blocks and addresses. The code violates the property for these: C118_segment_witness, C118_header_witness, C118_log_witness, C118_session_witness.",
 "C119": "Model/Locals.lean has each function with a __try as far as its variables are concerned, and the rule of C11 7.13.2.1 paragraph 3. C119_no_open_variable_partial: holds for all of them but main and the two that read dumps. Missing: these three. The code violates it there: C119_main_witness (commandLine, whenever start-up fails), C119_dump_witness (object, whenever a dump is refused); C119_one_volatile: with these variables volatile it would hold. C119_volatile_needed: most of the volatiles that the code has could not be left out.",
 "C120": "Model/Ctype.lean repeats the functions on the way to isspace, which is undefined there for negative characters other than EOF (C11 7.4p1). C120_start_up_partial: start-up is the same as in the other properties if the lines about memory and the registers s0-s31 are ASCII; C120_unsigned: always, where char is unsigned; C120_dump and C120_ascii: for dumps made by CrashCatcher and logs of ASCII. Missing: other bytes in these lines where char is signed. The code violates it there: C120_symbol (any log that begins with a memory line whose symbol has such a byte), C120_witness (start-up with a symbol in UTF-8).",
 "C121": "Spec/Again.lean says what two start-ups and two sessions have in common. C121_start_up: from any two states for which fopen and malloc will answer alike; C121_after_use: from a fresh state and from any state reached by using CrashDebug, with unchanged files and enough memory; C121_session: the debug sessions that follow, and the values read in them; C121_session_only: the later session does nothing else, so that undefined behaviour agrees, too. mriPlatform_setWaitForGdbConnect, which is for tests only, is not called in the earlier sessions. The state of the program outside the command-line object, the simulator and the registers (the catch handlers of try_catch.h, the core of MRI) is not part of it.",
 "C122": "Model/Order.lean and Model/OrderPacket.lean repeat the accesses, the check of ELF headers and the sending of registers with the byte order of the host as a parameter. C122_bytes_partial: accesses to single bytes; C122_little: all accesses where the host is little-endian, as in the other properties. Missing: 16 and 32 bits on the other hosts. The code violates it there: C122_big_read and C122_big_write say what happens instead for every state, address and value, C122_palindromes that no other value is read right, C122_witness gives a word, C122_elf says that all valid ELF headers are refused, C122_packets what is sent for the registers and C122_packets_set what GDB sets. C122_image: images are loaded alike on every host; C122_set_and_sent: GDB gets the registers it has set on every host; C122_read_back: what is written is read back on every host. Other code that depends on the byte order (program headers, words in a dump) is not considered."
}