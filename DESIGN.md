# Formal model of CrashDebug: design

Source: `/repo` (adamgreen/CrashDebug, pinned). Model and proofs: `lean/Verif`, Lean 4.33.0.
Properties: `properties.jsonl` (C01...). Status of each: `MANIFEST.json`.

## Layout

| Directory | Content |
|---|---|
| `lean/Verif/Model/` | Executable model of the C code, function by function. Each definition cites the file and lines it models. |
| `lean/Verif/Spec/`  | Small specifications that do not mention the model's helpers (address containment, little-endian values, file encoders, XML reader, ...). |
| `lean/Verif/Lemmas/`| Helper lemmas and invariants. |
| `lean/Verif/Props/` | The property theorems (named `Cnn_...`), each followed by an `example` showing that a concrete, non-trivial case meets its hypotheses. |
| `lean/Verif/Tests/` | The project's own unit tests, run in the model (`#guard`). No theorem depends on them. |

## Execution model

* `Out σ α` is the outcome of running C code: `ok a s` (normal return), `throw e s` (a `longjmp` to the
  innermost handler: the state is *not* rolled back), or `ub r` (undefined behaviour / failed
  `assert`, a distinct outcome that absorbs everything after it). Functions are `M σ α = σ → Out σ α`.
* Integers: `uint8_t/uint16_t/uint32_t` are `BitVec 8/16/32`, so wrap-around is built in.
* `malloc`/`realloc` consult an allocation oracle kept in the state (`Nat → Bool`, indexed by the number of
  allocations made so far); theorems quantify over it, so every pattern of allocation failures is covered.
  The number of live heap blocks is tracked, so leaks are visible.
* Exceptions carry code and message. The structured `tryCatch` used by most modules is justified in
  `Model/TryCatch.lean`, where the macros of `include/try_catch.h` are modelled literally (global code, global
  message, handler stack) and shown by `C67_structured` to agree with the structured semantics for the
  discipline that the modules follow (a handler rethrows, or clears the code). `C67_model_agrees` takes the last
  step: code whose handlers clean up and rethrow, or raise the same exception with another message, does under the
  macros exactly what its transcription into `M` does (`Spec/Transcribe.lean` lists the transcription rules). `mriPlatform.c` does not follow it
  (its handlers swallow without clearing), so that module is modelled with the global code explicit.
* Files: opening the n-th file consults an oracle `Nat → name → Option File`; a file is the bytes delivered
  before end-of-file or read error, plus what the size query and the rewind report.

## Modelled / not modelled

Modelled: `MemorySim.c`, `CrashCatcherDump.c`, `GdbLogParser.c`, `ElfLoad.c`, `CrashDebugCommandLine.c`,
`mriPlatform.c`, `StandardIComm.c`, `main.c`, `MockDefaults.c` (the Posix half, used everywhere; the Windows half in
`Model/CommWindows.lean`, used by C95), `common.c`, `try_catch.h`; and the test doubles, in `Model/Doubles`, used by C96-C100:
`MallocFailureInject.c`, `FileFailureInject.c`, `printfSpy.c`, `mockConsole.c`, `mockIComm.cpp`.

Not modelled: the `mri` debug monitor and the `CrashCatcher` headers (both submodules are absent from `/repo`), the
unit tests (but see the next section), strict-aliasing of the host accesses
(`*(uint32_t*)p` on a byte buffer; fine on the supported hosts; for their alignment see C118, for the byte order of the host C122), `int`/`size_t` widths other than LP64
(`unsigned long` of other widths is covered by C115). Non-volatile locals changed between `setjmp` and `longjmp` (C11 7.13.2.1p3) keep
their values in the model, except in `Model/Locals.lean`, which is about them (C119).

## Validation of the model by the project's own tests

The code cannot be built here, but its unit tests say what it does on some 300 inputs. `lean/Verif/Tests` replays them in
the model: each `TEST` becomes a `#guard` with the same calls, the same injected failures (n-th allocation, `fopen`, `fseek`,
`ftell`, `fread`) and the same expected values, exceptions, messages and memory map texts, and with the added check that
all blocks are freed and all files closed. The build fails if one of them fails. `#guard` runs Lean's interpreter and
leaves nothing behind that a theorem could use: these checks are evidence that the model is right, not proofs.

| Test file of /repo | Module | Source |
|---|---|---|
| `MemorySimTest.cpp` | `Tests/MemorySim.lean` | `tools/memtests.py`, `tools/memtests_hand.txt`; the loops over 64 KB and 4 KB run over 256 and 128 bytes |
| `ElfLoadTest.cpp` | `Tests/Elf.lean` | by hand |
| `CrashCatcherBinaryDumpTests.cpp`, `CrashCatcherHexDumpTests.cpp`, `CrashCatcherDumpTests.h`, `DumpBaseTest.h` | `Tests/Dump.lean` | by hand |
| `GdbLogParserTest.cpp` | `Tests/GdbLog.lean` | `tools/logtests.py` |
| `CrashDebugCommandLineTests.cpp` | `Tests/CommandLine.lean` | `tools/cmdtests.py` |
| `mriPlatformInitTest.cpp`, `mriPlatformExceptionTest.cpp`, `registerTest.cpp`, `memoryTest.cpp`, `queryTest.cpp` | `Tests/Platform.lean` | `tools/exctests.py`, `tools/exctests_hand.txt`; what the answers owe to `mriPlatform.c`, as mri is absent |
| `StandardICommTests.cpp` | `Tests/Comm.lean` | by hand |
| `GetFileSizeTest.cpp`, `try_catchTest.cpp` | `Tests/Common.lean` | by hand |
| `FileFailureInjectTest.cpp`, `MallocFailureInjectTest.cpp`, `printfSpyTest.cpp` | `Tests/Doubles.lean` | by hand |
| `mockICommTests.cpp`, `mockConsoleTests.cpp` | `Tests/Channels.lean` | by hand |

Not replayed: `breakpointTest.cpp`, `watchpointTest.cpp`, `stepTest.cpp`, `continueTest.cpp`, `semihostTest.cpp`, `otherTest.cpp` (they compare the answers of
mri, which is absent).

## Plan per property

How each will be modelled and proved. "witness" = the property is false of the code; its negation is proved with
a concrete case and the strongest true part is proved with suffix `_partial`.

| Property | Plan |
|---|---|
| C01-C05, C07 | `MemorySim` model; case analysis on region lookup; list lemmas for byte storage |
| C06, C15, C22, C23 | induction over histories of API calls (`Op` lists) |
| C08, C14 | all allocation oracles; the heap counter is part of the state |
| C09 | alias lookup lemma: same outcome, same post-state |
| C10, C11 | well-formedness invariant (alias inside its target, buffer lengths) by induction over histories; witnesses for alias-of-alias and for the null counter array after a failed read-only call |
| C12, C13 | induction on the word loop and on the byte loop |
| C16 | index bound from the invariant |
| C17, C18 | text model of snprintf with `%X`; length bound; XML reader in Spec, round trip |
| C19 | witness (alias made before its target became read-only); partial for direct regions |
| C20, C21 | sortedness invariant; equivalence of the early-exit loop with filtering the whole set |
| C24 | witness (end address wraps to 0); C20/C21 give the part below the top |
| C25 | live-block invariant by induction; witness for double read-only marking; exact number of blocks lost by counting the markings of regions that already have counters |
| C26-C31, C35 | encoder in Spec; parse-after-encode by induction on regions |
| C32, C33 | simulation between the byte reader and the hex reader |
| C34, C40 | total functions; outcome classification for every input |
| C36-C39, C41, C42 | line grammar in Spec; `strtoul` model; fold over lines; witnesses for the trailing newline and for address 0xFFFFFFFF |
| C43-C47 | ELF header decoder in Spec; induction on the program header loop; witness for wrap-around and for overlapping segments |
| C48-C56 | argument vector grammar in Spec; file oracle; open-file and heap counters |
| C57-C64 | platform model with explicit global exception code; histories of platform calls; witness for C64 |
| C65, C66, C69 | small state machines; witness for C69 |
| C67, C68 | operational semantics of the macros; witness for C68 |
| C70 | file model with failing seeks |
| C71 | start-up as a composition of stages, each defined; witness for the ELF wrap-around; exactly which files cause it (`C46_overreads_iff`, `C71_undefined_iff`) |
| C72 | composition of C43/C55, C26/C27/C32 and C51 through the region layout of the simulator |
| C73 | induction on the register list against the packet text |
| C65, C74 over sessions | the same for the platform calls the monitor makes: what each call does to the channel, then induction over `PHist` |
| C74 | induction over histories of channel calls, for every behaviour of standard input |
| C75 | a program logic for "reports exactly the failed allocations" over the model's monad |
| C76 | region lookup; the region buffer behind the pointer, in both directions |
| C77 | induction on the program header loop: success implies containment; the loop split at the first bad entry |
| C78 | start-up as a composition of stages; exact equation for reading a file into memory |
| C79 | invariant of the session (regions keep address, size and protection); C17, C18 and C04 |
| C80 | program logic for "defined and keeps the state consistent" over all platform calls; start-up establishes the invariant if every alias leads into loaded memory; witness for chained aliases; `C80_defined_iff_partial`: if no alias starts inside another block, this condition is also necessary |
| C81 | numerals as a separate relation; `strtoul` evaluated on them; start-up depends on option texts only through the numbers; what any other word means (`Means`), for all words; witness for words that are no numbers |
| C82 | mri is a parameter that acts by histories of platform calls (`ByPlatform`, closed under sequencing and handlers); the invariant of C80 through `main` and the loop of `mriPlatform_Run`, by induction; witnesses for wraparound and chained aliases |
| C83 | the blocks owed by the simulator are constant along histories of platform calls; `uninit` releases exactly these; witness: the leak of C50 seen from `main`; the number of blocks lost is followed through the segments of the ELF file (which regions have counters, which segment a start falls into) |
| C84 | each byte of each region followed along histories of platform calls by induction (`Spec/Cell.lean`); what a call does to a byte comes from C03, C04 and C62 |
| C85 | "the same up to the file system" is preserved by every stage of start-up and by every way a run of the program can go; what is opened is computed from the command line |
| C86 | as C72, with the two passes of the log parser (C36, C37, C41, C42) as the last stage |
| C87 | induction over histories of platform calls, with C73 for a register packet and uniqueness of the bytes a text gives |
| C88 | the regions built by the two passes over a log equal those built block by block from a dump (`Lemmas/GdbDump.lean`); for sessions by C91 |
| C89 | `Spec/Alias.lean`; creating aliases appends regions that lead to the region of the block (`Lemmas/CmdAlias.lean`); both addresses keep the same target over a session |
| C90 | the abstract memory in `Spec/Crash.lean` does not mention the simulator; the regions represent it after start-up (`rep_start`), every call keeps this (`step_rep`), and reads and writes then agree with it (`Rep.reads`, `Rep.accepts`); `C90_any_format` is for dumps of every format and logs at once |
| C91 | combines C58, C59, C61, C87 and the representation behind C90; the words of the status registers are read from the abstract memory; `C91_any_format` is for dumps of every format and logs at once |
| C92 | inversion of the rules for a run; the loop by induction |
| C93 | `Spec/Clash.lean`; a write goes to the first region that contains it, and the image's read-only regions come first (`Lemmas/Clash.lean`) |
| C94 | a combinator for "raises only short messages", applied function by function; lengths of formatted numbers from the bounds of their values (`Lemmas/Msg.lean`) |
| C95 | the Windows console functions as a second model; each step of its channel is a step of the Posix channel in a world where the end of the input is an error, so C65 and C74 carry over |
| C96 | `MallocFailureInject.c`: induction over the allocations after the request |
| C97 | `FileFailureInject.c`: one invariant for each function, kept by the calls that do not set it |
| C98 | `printfSpy.c`: invariant giving the content of all eight buffers as a function of the texts printed |
| C99 | `mockConsole.c`: induction over the history, with the exceptions in force computed from it |
| C100 | `mockIComm.cpp`: what is left to receive as a function of the history; checksums against a specification by positions |
| C101 | two start-ups with permuted blocks and aliases; what is told depends only on which accesses are served by which bytes, and with disjoint blocks that does not depend on their order; kept over the session by induction; C101-C103 are also proved for dumps of whatever format (Spec/AnyCrash.lean) |
| C102 | on the crashed program's memory of C90: consecutive bytes are in one block if there are gaps between blocks; an aligned access is inside a block if one of its bytes is; the ranges of the blocks are kept over the session, so that C102_accessible_iff says exactly which accesses succeed; witness for blocks that touch |
| C103 | on the crashed program's memory of C90: the first memory is part of the second, both are changed by the same writes in the same places, and an access served by a block of the first is served by the same block of the second since blocks are disjoint; kept over the session by induction |
| C104 | each request leaves the whole platform state as it is; by induction a history can be stripped of them and they can be put back anywhere |
| C105 | from the stages of a successful start-up: the ELF reader only succeeds on a complete file, the dump reader only on the encoding of some dump, which is rebuilt from what was read; the memory is that of C72 without its hypothesis of success, and aliases are only added behind it; for logs the words are placed as in C36, with the image allowed to cut into what the log shows |
| C106 | the complaints are written as functions of the bytes of the file (lengths, the signature, the words at the start of the rest); every file is decomposed by strong induction into head, complete blocks and rest; each complaint is followed through the reader, and from binary to hexadecimal by the relation of C32 |
| C107 | the problems are listed in Spec/Diagnosis.lean as an inductive predicate over the command line and the files alone; text that is not hexadecimal is treated by comparing the reader with the one that stops at the bytes before it; each constructor is followed through start-up with the theorems of C43-C55, C93 and C106, and the list is shown to be complete by cases; uniqueness follows because the program is deterministic |
| C108 | violated: hexadecimal text that is spoiled outside of the contents of a block, and a log that shows a word of the image, are refused with an empty message (witnesses); from C107, with one lemma per message, these are shown to be the only cases as long as memory and the files do not fail; on any machine, following every exception through the code (Lemmas/Says.lean), the only others are those where memory runs out while an ELF file or a log is loaded (witness) |
| C109 | Spec/AnyLog.lean says what every line is taken for, without the parser; existence and uniqueness of the meaning by induction over the lines and characters, then the general theorems of C36-C42 are restated in its terms; C86, C89-C91, C93, C107 and C108 use it, so that they hold for every log |
| C110 | Spec/Numbering.lean reads the XML text by its own means (attributes between quotes) and numbers the registers by GDB's rule; the two texts are evaluated line by line in the kernel and related to the stop reply of C61 |
| C111 | Spec/Usage.lean reads the synopsis of the printed text (words, brackets, `--` names); the kernel evaluates it on the text, and the command lines it describes are shown to be those of C53 |
| C112 | Spec/Recipe.lean says what GDB writes when it is given the README's commands; such a text is shown to be a log in the sense of C36 whose runs are the ranges of RAM, then C89 and C91 apply; violated for RAM below 0x10000000 (witness), and the `_general` theorems say what is found of RAM anywhere |
| C113 | Model/MemPtr.lean models MemorySim.c once more, with its pointers: regions, buffers, arrays of watchpoints and counters are blocks of a heap, following a null pointer, using or releasing a released block and a loop over the regions that does not end are outcomes of their own; a representation invariant (Lemmas/MemPtr*.lean) shows that every call does the same to these blocks as to the list of Model/MemorySim.lean, with the same result, exception or undefined behaviour; that memory of others is left alone follows by running the model with and without such a block (Lemmas/MemPtrFrame.lean): as no dangling pointer is used without it, it makes no difference |
| C114 | Spec/LineEnds.lean says when two files differ in their line ends only; for hexadecimal text the two readers are compared call by call (as in C32), for logs every function on lines is shown to give the same with the other line end, lines longer than the buffer included; start-up and program as in C85; violated for a line that is an address alone, and an empty line at the top of a hexadecimal dump (witnesses) |
| C115 | Model/Long.lean repeats every function on the way to `strtoul` with the width as a parameter; by induction over words, lines and values it equals the model for 64 bits if the numbers are of at most 32 bits (Spec/Long.lean says which numbers, with the relations of C81 and C109); well-formed logs are shown to be such; witness for larger numbers |
| C116 | Spec/TextAround.lean has the text of the README; that text after a dump is refused follows from C105; violated for text before a dump: such a file is taken for a log without any line of GDB, by C102/C109 start-up succeeds with the image only (general theorem, and instance for every recorded dump) |
| C117 | Spec/Faithful.lean says what two sessions have to answer alike, and what two crashes have to share (bytes, writable addresses, registers); from C90/C91 the answers of one session are computed from the blocks given (`read_byte`), then both directions by injectivity of the register packet; addresses are compared byte by byte (words across adjacent blocks: C102) |
| C118 | Model/Strict.lean repeats the functions that access memory as words, half-words or program headers, with a check of the offset in the block; Spec/Strict.lean says which files and calls are aligned; the two versions agree, by an invariant on the words that the regions are made of (`Ag`, Lemmas/Strict.lean and StrictLoad.lean), and in the session from what C90 says of the place of each access; violated in general, four witnesses |
| C119 | Model/Locals.lean: each function with a `__try` reduced to what it sets, changes, uses and calls, with a semantics (`Run`) in which a `longjmp` leaves changed variables open unless they are `volatile`; a check that computes bounds of the changed and open variables is proved sound by induction on the statements (loops by an inner induction on the run) and evaluated on each function; violated for `main` and the dump readers, two witnesses |
| C120 | Model/Ctype.lean repeats every function on the way to `isspace` in a version where negative characters are undefined behaviour, with the signedness of `char` as a parameter; by induction over characters, values and lines it equals the model if the lines that are looked at are plain (Spec/Ctype.lean); what `strtoul` leaves is a suffix; violated where `char` is signed: a theorem for all logs that begin with such a symbol, and a witness for start-up |
| C121 | a relational (two-run) argument: Lemmas/Again.lean relates states that differ only in what was counted, printed or opened before, and shows for each function of the simulator, the loaders, the log parser and the command line that it keeps the relation and gives the same result, whatever `fopen` and `malloc` answer, as long as they answer alike; Lemmas/AgainSession.lean does the same for the platform calls, and the histories follow by induction |
| C122 | Model/Order.lean and Model/OrderPacket.lean repeat `read8/16/32`, `write8/16/32`, the check of the ELF header and the exchange of registers with GDB with the byte order of the host as a parameter; for the other order each access is shown, for all states, to end as the little-endian access does with the bytes of the value reversed, from which the rest follows; violated for 16 and 32 bits on big-endian hosts: a theorem for all values that are not the same backwards, and a witness |

## What the program shares with code that is not here

mri is absent from `/repo`, so theorems about sessions quantify over what it may do:

* C57-C65, C74, C79, C80, C84, C87: all histories of platform calls (`PHist`), between which mri may replace the packet buffer and
  set or clear the exception code.
* C66, C69: `__mriInit` and `__mriDebugException` are arbitrary functions on the platform's state.
* C82, C83: the same, restricted to functions that act by platform calls (`ByPlatform`). `Lemmas/Whole.lean` shows that this
  class contains the platform calls and is closed under sequencing, branching on what was read, and handlers.

## Where the code falls short of a property

Each of these is a theorem about a concrete input (suffix `_witness`, and `C10_alias_of_alias_escapes`).

| Property | What happens in the code |
|---|---|
| C02 | Where regions overlap, a wide access and a narrow one may be served by different regions. |
| C10, C11, C80, C82 | An alias of an alias: `MemorySim_CreateAlias` limits the size by the address before translation; reading through it goes outside the buffer. `--alias` accepts this. |
| C11 | If the counter array of a read-only region cannot be allocated, the region is read-only all the same; `MemorySim_GetFlashReadCount` then dereferences null. |
| C17 | With more than 19522578 regions the size of the map does not fit an `int` and an assertion fails. |
| C19 | An alias made before its target became read-only stays listed as RAM. |
| C24 | A range that ends at 2^32 has the end address 0: breakpoints there are missed, and others give false alarms. |
| C25, C50, C83 | Marking a region read-only twice loses the first counter array; an ELF file with overlapping segments does this. |
| C33 | A lone character at the end of a hexadecimal dump is not noticed. |
| C36, C37, C39 | A GDB memory line with fewer than four words yields an extra zero word; unbalanced angle brackets in a symbol hide words; a line at 0xFFFFFFFF loses a run. |
| C38 | Lines longer than the buffer of 1024 characters are read as several lines. |
| C46, C71, C82 | The check of offset + size of a segment is done in 32 bits and can wrap around; bytes outside the file are read. |
| C55 | The size of a raw image is cut to 32 bits: of a file of 4 GiB and three bytes only the first three bytes are loaded, without any complaint. |
| C64 | The handlers in `mriPlatform.c` do not clear the exception code, so a swallowed fault shows up later. |
| C68 | `setExceptionCode` keeps the larger code, so an exception raised in a handler can be reported as the old one. |
| C69 | `shouldStopRun` always says no, and the end of the input is delivered as the character 0: with the pipe closed the program never ends. |
| C80, C82 | The counter of refused accesses is an `int`: after 2147483647 of them that GDB never asked about, the next one overflows it. |
| C81 | Words that are no numbers are accepted as numbers; large numbers are reduced. |
| C97 | `fseekRestore` keeps the number of calls to pass, so it is in force when a later test makes seeks fail. |
| C98 | The two streams share the position in their buffers: asking for an output that went to the other stream shows one of four calls before. |
| C99 | Asking twice for a capture buffer leaks the first one; asking for the captured text without a buffer goes through a null pointer. |
| C100 | `mockIComm_Uninit` does not reset the stop flag and the delay. |
| C102 | An access must lie within one region: across two dumped blocks that touch it is refused although every byte of it is there. |
| C108 | `__throw` without a message leaves it empty: after a character that is not hexadecimal in a dump, or a log that shows memory of the image, or when memory runs out while an ELF file is loaded, the user reads "ERROR: " and nothing else. |
| C112 | A memory line of a GDB log is only recognised if its address has eight digits, but GDB writes addresses below 0x10000000 with fewer: RAM there is missing from the session, without a message. |
| C114 | A line of a GDB log with an address alone is ignored, but taken for a word 0 if the line ends in a carriage return and a line feed. An empty line at the top of a hexadecimal dump has it taken for a GDB log: start-up succeeds without the crash. |
| C116 | A hexadecimal dump with text before it, such as CrashCatcher prints, is taken for a GDB log: start-up succeeds without a message, all registers are 0 and there is no RAM. |
| C118 | An ELF file with contents or program headers that are not at multiples of 4 in the file, a log with lines that overlap by part of a word, and a word that GDB reads at an odd place of a block of memory are accessed through misaligned pointers. This works on the usual hosts, but is undefined in C. |
| C119 | `commandLine` in `main` and `object` in `CrashCatcherDump_ReadBinary` and `CrashCatcherDump_ReadHex` are changed between `setjmp` and `longjmp`, used afterwards, and not `volatile`. Their addresses are taken, so that usual compilers keep them in memory, but the standard leaves their values open. |
| C120 | GdbLogParser.c calls `isspace(*pLine)` with a plain `char`. Where `char` is signed, bytes from 0x80 to 0xFE in a memory line or a line for s0-s31 are negative, for which C leaves `isspace` undefined. |
| C122 | MemorySim.c accesses the simulated bytes as `*(uint32_t*)` and `*(uint16_t*)`. On a big-endian host the values come out with their bytes reversed, and ElfLoad.c, which does the same with the fields of the header, refuses every valid file; mriPlatform.c exchanges the bytes of its registers with GDB in the order of the host. |

## Trusted base

* Lean's kernel, and the axioms `propext`, `Classical.choice`, `Quot.sound` (no others; see the table at the end).
* The reading of the C code recorded in the comments of `lean/Verif/Model`, with the simplifications stated there:
  * casts to `Elf32_Ehdr*`/`Elf32_Phdr*` and `uint32_t*` work at any alignment (`Model/Elf.lean`, `Model/MemorySim.lean`); where they
    need not, is C118 (`Model/Strict.lean`);
  * the regions and watchpoint arrays are lists, their heap blocks are counted but have no addresses (`Model/MemorySim.lean`); C113 shows
    that the code with its pointers (`Model/MemPtr.lean`) does the same, so that this is not trusted. There, a pointer is the
    allocation it came from, as in the C standard: using it after `free` or `realloc` is undefined even if the address is in use again
    (C113 shows that this never happens, and MemorySim.c compares no pointers but with NULL, so that addresses do not matter). The text
    of the memory map is put into its buffer at once;
  * exception messages into which only numbers are formatted are taken to fit `g_exceptionMessage`; those with a string in them are cut to 1023 bytes (`M.throw`, `M.throwMsg` in `Model/Base.lean`);
  * a read error in a GDB log ends the log like its end (`Model/GdbLog.lean`), as `fgets` returns NULL for both;
  * locals that are not `volatile` keep their value over `longjmp`: `object` in `CrashCatcherDump_Read*`, `commandLine` in `main` (C119; C11 7.13.2.1 leaves this open;
    their addresses escape before `setjmp` returns a second time, so they live in memory);
  * text for the GDB console is sent without packet framing (`Model/Platform.lean`).
* The C library as modelled in `Model/Libc.lean`, `Model/Host.lean` and where it is used (`strtoul`, `strcasecmp`, `isxdigit`-like tests, `snprintf`
  with `%X`, `fgets`, `fread`, `fseek`/`ftell`), `char` signed, `isspace` false for bytes from 0x80 on (but see C120), LP64 (but see C115),
  a host that stores numbers with the low byte first, as the simulated processor does (`Model/Base.lean`; but see C122). `strtoul` is that of C before C23: with base 0 it knows `0x` and
  `0` but no `0b`. `fseek(pLogFile, SEEK_SET, 0)` in GdbLogParser.c has its last two arguments swapped; both are 0, and the model has one 0.
* Constants from the absent submodules: `CRASH_CATCHER_SIGNATURE_BYTE0/1 = 0x63 0x43`, version 3.0 (corroborated by
  the tests), `CRASH_CATCHER_FLAGS_FLOATING_POINT = 1`, `CRASH_CATCHER_STACK_SENTINEL = 0xACCE55ED`.
* The behaviour assumed of mri's `Buffer_*`/console functions (documented in `Model/Platform.lean`).

## Axioms of each theorem

Generated by `tools/axioms.py` from `#print axioms`.

| Axioms | Theorems |
|---|---|
| Classical.choice, Quot.sound, propext | C01_read_returns_written, C02_overlap_witness, C02_read_is_little_endian, C02_write_is_little_endian, C03_other_bytes_read_the_same, C03_write_frame, C04_read_faults_iff_unmapped, C04_read_raises_nothing_else, C04_write_faults_iff, C05_first_region_serves_read, C05_new_alias_changes_no_served_access, C05_new_region_changes_no_served_access, C06_marked_is_write_protected, C06_readonly_forever, C07_new_region_reads_zero, C09_alias_is_transparent, C100_checksums, C100_delay, C100_flags, C100_no_delay, C100_nothing_left, C100_packet_checksum, C100_poll, C100_received, C100_transmitted, C100_uninit_keeps_stop_flag_witness, C101_any_format, C101_arrangement_does_not_matter, C102_accessible_iff, C102_adjacent_blocks_witness, C102_aligned_access_partial, C102_any_format_aligned_partial, C102_any_format_partial, C102_whole_access_partial, C103_any_format, C103_more_memory, C104_halted, C104_requests_do_nothing, C105_success_means_complete, C105_success_means_loaded, C105_success_means_loaded_log, C106_every_dump, C106_head_refused, C106_one_way, C106_rest_refused, C107_always_one, C107_every_file, C107_exactly, C107_first_problem, C107_nothing_wrong, C107_only_one, C108_any_machine, C108_elf_memory_witness, C108_log_witness, C108_raw_and_binary_partial, C108_says_why_partial, C108_silent_iff, C108_spoiled_witness, C109_float, C109_memory, C109_nothing_else, C109_one_meaning, C109_regions, C109_registers, C109_well_formed, C10_alias_bounded_partial, C10_alias_of_alias_escapes, C10_chained_alias_always_escapes, C110_features, C110_packet, C110_packet_order, C110_stop_reply, C111_usage_is_right, C112_low_memory_witness, C112_session_general, C112_session_partial, C112_words_general, C112_words_partial, C113_all_released, C113_as_ordered_list, C113_blocks_live, C113_no_wild_pointer, C113_nothing_released_used, C113_others_unread, C113_others_untouched, C114_bare_address_witness, C114_blank_line_witness, C114_hex, C114_log_meaning_partial, C114_log_partial, C114_program_partial, C114_start_up_partial, C114_well_formed_partial, C115_64, C115_dump, C115_large_witness, C115_log, C115_start_up, C116_recorded_witness, C116_text_after_partial, C116_text_before, C117_answers_tell_crashes_apart, C117_without_aliases, C118_header_witness, C118_log_witness, C118_raw_image, C118_raw_image_log, C118_segment_witness, C118_session_exact, C118_session_partial, C118_session_witness, C118_start_up_partial, C11_alias_of_alias_witness, C11_careful_histories_are_sound, C11_no_invalid_access_partial, C11_null_counters_witness, C120_ascii, C120_dump, C120_start_up_partial, C120_symbol, C120_unsigned, C120_witness, C121_after_use, C121_session, C121_session_only, C121_start_up, C122_bytes_partial, C122_elf, C122_read_back, C122_set_and_sent, C12_load_exact, C12_loaded_bytes_read_back, C13_flash_layout, C14_failed_flash_leaves_nothing, C15_read_count_exact, C17_assert_fires_witness, C17_assertions_hold_iff, C17_map_lists_regions, C17_returned_map_is_exact, C18_map_injective, C18_text_determines_entries, C19_flash_iff_write_rejected_partial, C19_flash_is_write_protected, C19_only_aliases_are_stale, C19_stale_alias_witness, C20_breakpoint_history, C20_breakpoint_iff, C20_other_reads_never, C20_writes_never, C21_read_hits, C21_write_hits, C22_active_iff_last_set, C22_clear_outcome, C22_set_outcome, C22_unmapped, C23_hit_report, C23_hit_report_from_init, C24_top_breakpoint_missed_witness, C24_top_false_alarm_witness, C24_top_halfword_partial, C24_top_hits_partial, C25_leak_witness, C25_lost_exactly, C25_releases_all_iff, C25_uninit_releases_all_partial, C26_version3_loads, C27_version2_loads, C28_float_iff_flag, C28_no_flag_no_change, C29_bad_signature, C30_accepted_is_complete, C30_cut_between_blocks, C30_truncated, C31_other_words, C31_stack_overflow, C32_hex_equals_binary, C33_bad_character, C33_format_error, C33_lone_character_ignored, C34_cannot_open, C34_defined_outcome, C34_files_closed, C35_last_block_wins, C36_log_loads_general, C36_log_loads_partial, C36_short_line_witness, C36_unbalanced_symbol_witness, C36_words_exact_partial, C37_regions_are_runs_general, C37_regions_are_runs_partial, C37_top_witness, C38_long_line_witness, C38_other_lines_no_effect, C39_short_line, C39_short_line_witness, C39_word_count_partial, C40_any_file, C40_cannot_open, C40_rewind, C41_any_lines, C41_gives_one, C41_registers, C41_unnamed_kept, C42_float_flag, C42_float_flag_any_lines, C42_without_raw, C43_segments_loaded, C44_only_loadable_create, C44_others_ignored, C45_bad_header_refused, C45_good_header_accepted, C46_by_calls_partial, C46_no_overread_partial, C46_overreads_iff, C46_wraparound_witness, C46_wrapping_segment_overreads, C47_nothing_to_load_refused, C47_success_means_loaded, C48_last_of_each_kind, C48_selection, C49_case_insensitive, C50_failed_start_up, C50_heap_released_partial, C50_leak_witness, C50_left_by_segments, C51_aliases_last, C52_elf_wins, C53_option_missing, C53_refused, C53_refused_iff, C54_format_from_first_bytes, C54_reader_decides, C55_huge_image_witness, C55_raw_image_general, C55_raw_image_loaded, C55_raw_image_refused, C56_files_closed, C57_counted, C57_reported, C58_signal, C59_registers, C59_report, C60_no_room, C60_received, C60_round_trip, C60_sent, C61_no_room, C61_stop_reply, C62_only_explicit_writes, C63_target_description, C64_map_masked_witness, C64_pending_iff, C64_polling_forgets, C65_session_should_wait, C65_session_stays_connected, C65_session_waits, C65_stays_connected, C66_exit_code, C66_session_fails, C66_silent_start_up, C66_start_up_fails, C66_success, C67_model_agrees, C67_structured, C71_defined_partial, C71_defined_without_elf, C71_undefined_iff, C71_wraparound_witness, C72_start_up_loads, C73_any_packet, C74_session_received, C74_session_sent, C75_dump, C75_elf, C75_gdb_log, C75_simulator_calls, C75_start_up, C76_pointer_for_read, C76_pointer_for_write, C76_pointer_shows_reads, C76_pointer_writes_through, C77_accepted_is_complete, C77_cut_in_the_contents, C77_cut_in_the_table, C78_bad_header, C78_refused_elf, C78_refused_raw_image, C78_unreadable_image, C79_map_given, C79_map_tells_access, C80_chained_alias_always_escapes, C80_chained_alias_witness, C80_defined_iff_partial, C80_fault_counter_witness, C80_session_defined_partial, C81_alias_numbers, C81_alias_numbers_any, C81_aliases_created, C81_base_address, C81_base_address_any, C81_means_one, C81_notation_irrelevant, C81_raw_image_at_number, C81_unchecked_witness, C82_chained_alias_witness, C82_defined_iff_partial, C82_program_defined_partial, C82_wraparound_witness, C82_wrapping_image, C83_files_closed, C83_heap_released_partial, C83_leak_witness, C83_left_exactly, C83_released_iff, C84_reads_last_write, C85_program_reads_only_named_files, C85_start_up_reads_only_named_files, C86_any_log, C86_shown_again, C86_start_up_loads_log, C87_packets_give_bytes, C87_registers_over_session, C88_log_and_dump_agree, C88_sessions_agree, C89_aliases_of_any_log, C89_aliases_of_dump, C89_aliases_of_log, C90_any_format, C90_session_of_any_log, C90_session_of_dump, C90_session_of_log, C91_any_format, C91_told_of_any_log, C91_told_of_dump, C91_told_of_log, C92_same_input_same_run, C93_any_log_accepted_iff, C93_any_log_over_image, C93_dump_accepted_iff, C93_dump_over_image, C93_log_accepted_iff, C93_log_over_image, C93_success_no_clash, C94_crash_readers, C94_elf_loader, C94_long_file_name, C94_simulator_calls, C94_start_up, C95_stays_connected, C95_until_received, C96_nth_allocation_fails, C97_every_read, C97_fixed, C97_lines, C97_nth_read, C97_restored, C97_seek |
| Quot.sound, propext | C06_mark_outcome, C06_write_to_readonly_rejected, C08_createAlias_atomic, C08_createRegion_atomic, C119_dump_witness, C119_main_witness, C119_no_open_variable_partial, C119_one_volatile, C119_volatile_needed, C122_big_read, C122_big_write, C122_image, C122_little, C122_packets, C122_packets_set, C122_palindromes, C122_witness, C13_short_image, C16_read_count_in_bounds, C22_clear_unset, C22_set_twice, C37_runs_maximal, C57_read_faults, C57_read_succeeds, C57_write_faults, C57_write_succeeds, C60_room, C64_forgotten_after_good_access_partial, C64_later_exception, C64_masked_exception_witness, C64_swallowed_fault_witness, C65_asking, C65_polling, C65_session_failed_reception, C65_until_received, C67_rethrow, C68_larger_code, C68_own_code_partial, C68_smaller_code_witness, C69_end_of_input_witness, C69_runs_for_ever_witness, C70_file_size, C70_length, C74_received_in_order, C74_sent_in_order, C95_end_of_input, C95_polling, C95_received_in_order, C95_sent_in_order, C98_call_count, C98_last_and_previous, C98_nothing_left, C98_nth_output, C98_shown_exactly, C98_unhooked, C99_captured, C99_left_exactly, C99_reads |
| none | C65_session_polling, C69_never_completes_witness, C99_no_buffer_witness |
| propext | C22_no_duplicates, C67_handlers_nest, C67_own_handler_runs, C69_read_error_partial, C74_session_send_reports, C96_restored, C97_seek_count_outlives_restore_witness, C98_stale_output_witness, C99_has_data, C99_second_buffer_leaks_witness, C99_write |
