{"id": "C01", "title": "Simulated memory returns what was written", "statement": "After IMemory_Write8/16/32 of a value at an address completes normally, an immediately following IMemory_Read of the same width at the same address returns exactly that value (a 16-bit read may instead report a hardware breakpoint that covers it or, at the very top of the address space, begins below it: see C24).", "quantifier": "every simulator state, address, width in {8,16,32} and value", "why_tests_cant": "2^32 addresses times 2^32 values times every layout of regions, aliases and watchpoints", "anchors": ["libCrashDebug/src/MemorySim.c:read8", "libCrashDebug/src/MemorySim.c:read16", "libCrashDebug/src/MemorySim.c:read32", "libCrashDebug/src/MemorySim.c:write8", "libCrashDebug/src/MemorySim.c:write16", "libCrashDebug/src/MemorySim.c:write32", "libCrashDebug/src/MemorySim.c:getDataPointer"]}
{"id": "C02", "title": "Multi-byte accesses are little-endian compositions of byte accesses", "statement": "IMemory_Read16/Read32 at an address returns the little-endian combination of the bytes IMemory_Read8 returns at address, address+1, ...; IMemory_Write16/Write32 leaves those bytes holding the little-endian bytes of the value.", "quantifier": "every simulator state and every address whose whole access lies in one region that no region created earlier touches (with overlapping regions it is false; a witness is proved)", "why_tests_cant": "quantifies over all layouts, addresses and values", "anchors": ["libCrashDebug/src/MemorySim.c:read8", "libCrashDebug/src/MemorySim.c:read16", "libCrashDebug/src/MemorySim.c:read32", "libCrashDebug/src/MemorySim.c:write16", "libCrashDebug/src/MemorySim.c:write32"]}
{"id": "C03", "title": "A write changes nothing but the bytes it names", "statement": "A completed IMemory_Write changes only the 1, 2 or 4 addressed bytes of the addressed region: every other byte of every region, every region's address, size, read-only status, breakpoints, watchpoints and read counters keep their values.", "quantifier": "every simulator state, address, width and value", "why_tests_cant": "a frame condition over all other bytes of all regions", "anchors": ["libCrashDebug/src/MemorySim.c:write8", "libCrashDebug/src/MemorySim.c:write16", "libCrashDebug/src/MemorySim.c:write32", "libCrashDebug/src/MemorySim.c:getDataPointer"]}
{"id": "C04", "title": "Accesses fault exactly when no single region contains them", "statement": "IMemory_Read8/16/32 raises busErrorException if and only if no single created region or alias contains the whole access; a faulting access changes nothing in the simulator.", "quantifier": "every well-formed simulator state, address and width", "why_tests_cant": "must hold at every boundary, wrap-around and region layout", "anchors": ["libCrashDebug/src/MemorySim.c:findMatchingRegion", "libCrashDebug/src/MemorySim.c:getDataPointer"]}
{"id": "C05", "title": "The first created region that contains an access serves it", "statement": "When several regions contain an access, reads and writes go to the one created first, and regions created later never change the result of an access that was already served.", "quantifier": "every simulator state, any region or alias created afterwards, every access", "why_tests_cant": "ranges over every overlap pattern and history of creations", "anchors": ["libCrashDebug/src/MemorySim.c:findMatchingRegion", "libCrashDebug/src/MemorySim.c:addRegionToTail", "libCrashDebug/src/MemorySim.c:MemorySim_CreateRegion"]}
{"id": "C06", "title": "Read-only memory cannot be modified by IMemory writes", "statement": "Once a region is read-only, every IMemory_Write that resolves to it raises busErrorException, its contents stay the same under every sequence of IMemory reads and writes, break/watchpoint calls, region and alias creation, and it never becomes writable again.", "quantifier": "every history of simulator API calls (other than the explicit flash-loading call)", "why_tests_cant": "an invariant over all call sequences", "anchors": ["libCrashDebug/src/MemorySim.c:getDataPointer", "libCrashDebug/src/MemorySim.c:MemorySim_MakeRegionReadOnly"]}
{"id": "C07", "title": "New regions read as zero", "statement": "Directly after MemorySim_CreateRegion succeeds, every read inside the new region that no earlier region serves returns zero, and accesses that were served before are unchanged.", "quantifier": "every simulator state, base address, size and address inside the region", "why_tests_cant": "all sizes, layouts and offsets", "anchors": ["libCrashDebug/src/MemorySim.c:MemorySim_CreateRegion", "libCrashDebug/src/MemorySim.c:throwingZeroedMalloc"]}
{"id": "C08", "title": "Creating a region or alias is all or nothing", "statement": "If MemorySim_CreateRegion or MemorySim_CreateAlias raises an exception (any allocation failing, or an unmapped redirect address), the set of regions, their contents, and the number of live heap blocks are exactly what they were before the call.", "quantifier": "every state, argument and pattern of allocation failures", "why_tests_cant": "every allocation-failure schedule at every state", "anchors": ["libCrashDebug/src/MemorySim.c:MemorySim_CreateRegion", "libCrashDebug/src/MemorySim.c:MemorySim_CreateAlias", "libCrashDebug/src/MemorySim.c:freeRegion"]}
{"id": "C09", "title": "An alias behaves exactly like the memory it redirects to", "statement": "After MemorySim_CreateAlias succeeds for memory in an ordinary region, every read and write through the alias gives the same result and has the same effect on the simulator as the same access at the corresponding redirected address.", "quantifier": "every well-formed state, alias placement not shadowed by an earlier region, every offset inside the alias and every access", "why_tests_cant": "all placements, truncations and offsets", "anchors": ["libCrashDebug/src/MemorySim.c:MemorySim_CreateAlias", "libCrashDebug/src/MemorySim.c:findMatchingRegion"]}
{"id": "C10", "title": "An alias never reaches beyond the region it redirects to", "statement": "The alias created by MemorySim_CreateAlias is truncated to the memory that remains in the target after the redirect address, so no access accepted by the alias can touch bytes outside the target region.", "quantifier": "every state, alias address, redirect address and size", "why_tests_cant": "all sizes and offsets including 32-bit wrap-around", "anchors": ["libCrashDebug/src/MemorySim.c:MemorySim_CreateAlias"]}
{"id": "C11", "title": "The simulator never makes an invalid host memory access", "statement": "No sequence of simulator API calls, with any pattern of allocation failures, makes the simulator read or write host memory outside the buffers it allocated or through a null pointer.", "quantifier": "every history of API calls and every allocation-failure schedule", "why_tests_cant": "memory safety over unbounded histories", "anchors": ["libCrashDebug/src/MemorySim.c:getDataPointer", "libCrashDebug/src/MemorySim.c:MemorySim_GetFlashReadCount", "libCrashDebug/src/MemorySim.c:findMatchingRegion"]}
{"id": "C12", "title": "Loading an image makes exactly its bytes readable", "statement": "MemorySim_LoadFromFlashImage of any image into a region that can hold it succeeds even if the region is read-only, afterwards every byte of the image reads back at its address, all other bytes are unchanged, and no read counter or watchpoint hit is recorded.", "quantifier": "every image of any length, every load address, every state where one region serves the range", "why_tests_cant": "all image lengths (word loop plus byte tail) and contents", "anchors": ["libCrashDebug/src/MemorySim.c:MemorySim_LoadFromFlashImage", "libCrashDebug/src/MemorySim.c:load32", "libCrashDebug/src/MemorySim.c:load8"]}
{"id": "C13", "title": "A raw flash image produces the documented memory layout", "statement": "MemorySim_CreateRegionsFromFlashImage on an empty simulator with an image of at least four bytes creates a read-only region at 0 holding exactly the image and a zeroed writable region from (initial stack pointer & 0xF0000000) up to the initial stack pointer; shorter images are rejected with bufferOverrunException and change nothing.", "quantifier": "every image of any length", "why_tests_cant": "all images and stack pointer values", "anchors": ["libCrashDebug/src/MemorySim.c:MemorySim_CreateRegionsFromFlashImage"]}
{"id": "C14", "title": "A failed flash-image setup leaves no region behind", "statement": "If MemorySim_CreateRegionsFromFlashImage on an empty simulator raises outOfMemoryException, whichever allocation failed, no region exists afterwards and no heap block allocated by the call is still live.", "quantifier": "every image and allocation-failure schedule", "why_tests_cant": "every crash point among the allocations", "anchors": ["libCrashDebug/src/MemorySim.c:MemorySim_CreateRegionsFromFlashImage", "libCrashDebug/src/MemorySim.c:freeLastRegion"]}
{"id": "C15", "title": "Flash read counts count 16-bit reads", "statement": "MemorySim_GetFlashReadCount returns, modulo 2^32, the number of 16-bit reads of that halfword (including two-byte calls of MemorySim_MapSimulatedAddressToHostAddressForRead) since the region was made read-only; 8- and 32-bit reads, writes, image loads and other calls never change it.", "quantifier": "every history of API calls after the region became read-only", "why_tests_cant": "counts over arbitrary histories", "anchors": ["libCrashDebug/src/MemorySim.c:MemorySim_GetFlashReadCount", "libCrashDebug/src/MemorySim.c:getDataPointer", "libCrashDebug/src/MemorySim.c:allocateReadCountArrayForReadOnlyRegion"]}
{"id": "C16", "title": "Flash read counts are only available for mapped read-only halfwords", "statement": "MemorySim_GetFlashReadCount raises busErrorException if the halfword is not wholly inside a region or the region is writable, and otherwise returns a count from inside the counter array.", "quantifier": "every well-formed state and address", "why_tests_cant": "index bounds at all sizes, odd and even", "anchors": ["libCrashDebug/src/MemorySim.c:MemorySim_GetFlashReadCount"]}
{"id": "C17", "title": "The memory map handed to GDB lists every region exactly and never overflows its buffer", "statement": "MemorySim_GetMemoryMapXML returns the fixed header, one memory element per region or alias in creation order with its type, start and length, and the trailer; the text always fits the buffer it allocated, so its internal assertions never fire; on allocation failure it raises outOfMemoryException and the previous map stays valid.", "quantifier": "every simulator state and every allocation outcome (that no assertion fires: up to 19522578 regions; with more of them one does fire, which is proved)", "why_tests_cant": "buffer bound over all region counts and hex widths", "anchors": ["libCrashDebug/src/MemorySim.c:MemorySim_GetMemoryMapXML", "libCrashDebug/src/MemorySim.c:appendMemoryMapXmlHeader", "libCrashDebug/src/MemorySim.c:appendMemoryMapRegions", "libCrashDebug/src/MemorySim.c:appendMemoryMapXmlTrailer"]}
{"id": "C18", "title": "The memory map text is unambiguous", "statement": "A reader of the memory map XML recovers exactly the list of (type, start, length) of the regions: two simulators with different region lists never produce the same text.", "quantifier": "all pairs of simulator states", "why_tests_cant": "injectivity over unbounded lists", "anchors": ["libCrashDebug/src/MemorySim.c:appendMemoryMapRegions"]}
{"id": "C19", "title": "The memory map's type tells whether memory is writable", "statement": "An element is listed as flash exactly when writes through that address range are rejected.", "quantifier": "every history of region, alias and read-only calls", "why_tests_cant": "over all orders of alias creation and read-only marking", "anchors": ["libCrashDebug/src/MemorySim.c:MemorySim_GetMemoryMapXML", "libCrashDebug/src/MemorySim.c:MemorySim_MakeRegionReadOnly", "libCrashDebug/src/MemorySim.c:MemorySim_CreateAlias"]}
{"id": "C20", "title": "Hardware breakpoints trigger exactly on covered 16-bit reads", "statement": "A 16-bit read raises hardwareBreakpointException if and only if a breakpoint that is currently set covers both of its bytes; 8- and 32-bit reads and all writes never raise it.", "quantifier": "every history of set/clear calls and every access below the top of the address space", "why_tests_cant": "over all sets of breakpoints and watchpoints in any order of insertion", "anchors": ["libCrashDebug/src/MemorySim.c:checkForBreakWatchPoint", "libCrashDebug/src/MemorySim.c:MemorySim_SetHardwareBreakpoint", "libCrashDebug/src/MemorySim.c:accessInRange"]}
{"id": "C21", "title": "Watchpoint hits count every covering watchpoint", "statement": "A completed access adds to the hit count exactly the number of currently set watchpoints whose kind includes the access kind and whose range contains the access; stopping the search early never misses one.", "quantifier": "every set of break/watchpoints in a region and every access below the top of the address space", "why_tests_cant": "over all orders of insertion and all sets", "anchors": ["libCrashDebug/src/MemorySim.c:checkForBreakWatchPoint", "libCrashDebug/src/MemorySim.c:setWatchpoint"]}
{"id": "C22", "title": "Break/watchpoints behave as a set", "statement": "Setting a break/watchpoint twice is the same as setting it once, clearing removes exactly that one, clearing one that is not set changes nothing, and after any history of set and clear calls the active ones are exactly those whose last call was a successful set.", "quantifier": "every history of set/clear calls and allocation-failure schedule", "why_tests_cant": "refinement over unbounded histories", "anchors": ["libCrashDebug/src/MemorySim.c:setWatchpoint", "libCrashDebug/src/MemorySim.c:clearWatchpoint", "libCrashDebug/src/MemorySim.c:findMatchingOrHigherWatchpoint", "libCrashDebug/src/MemorySim.c:growWatchpointArrayIfNeeded"]}
{"id": "C23", "title": "The watchpoint hit report is exact and self-clearing", "statement": "MemorySim_WasWatchpointEncountered returns the number of hits since it was last called (or since MemorySim_Init) and resets it to zero.", "quantifier": "every history of accesses between two calls", "why_tests_cant": "history property", "anchors": ["libCrashDebug/src/MemorySim.c:MemorySim_WasWatchpointEncountered"]}
{"id": "C24", "title": "Break/watchpoints work at the top of the address space", "statement": "A breakpoint or watchpoint covering bytes up to 0xFFFFFFFF triggers exactly on the accesses it contains.", "quantifier": "every range ending at 2^32 and every access", "why_tests_cant": "wrap-around of end addresses", "anchors": ["libCrashDebug/src/MemorySim.c:accessInRange", "libCrashDebug/src/MemorySim.c:setWatchpoint"]}
{"id": "C25", "title": "Uninit releases everything", "statement": "After any history of simulator calls, MemorySim_Uninit leaves no region and no live heap block allocated by the simulator.", "quantifier": "every history of API calls and allocation-failure schedule", "why_tests_cant": "leak freedom over histories and failure points", "anchors": ["libCrashDebug/src/MemorySim.c:MemorySim_Uninit", "libCrashDebug/src/MemorySim.c:freeRegion", "libCrashDebug/src/MemorySim.c:MemorySim_MakeRegionReadOnly"]}
{"id": "C26", "title": "A version 3 crash dump loads exactly what CrashCatcher wrote", "statement": "CrashCatcherDump_ReadBinary on a file made of signature, flags, 19 registers, exception PSR, optional floating point registers and any list of memory regions yields exactly those registers and, for non-overlapping regions not shadowed by existing ones, memory that reads back exactly the dumped bytes at their addresses.", "quantifier": "every register context and list of regions of any length", "why_tests_cant": "round trip over all dumps", "anchors": ["libCrashDebug/src/CrashCatcherDump.c:CrashCatcherDump_ReadBinary", "libCrashDebug/src/CrashCatcherDump.c:readDump", "libCrashDebug/src/CrashCatcherDump.c:readNextMemoryRegion", "libCrashDebug/src/CrashCatcherDump.c:createAndLoadMemoryRegion"]}
{"id": "C27", "title": "A version 2 crash dump loads with placeholder MSP and PSP", "statement": "A version 2 file (17 registers) yields its 17 registers, MSP = PSP = 0xBAADBAAD, the exception PSR and the same memory behaviour.", "quantifier": "every version 2 dump", "why_tests_cant": "round trip over all dumps", "anchors": ["libCrashDebug/src/CrashCatcherDump.c:validateDumpSignature", "libCrashDebug/src/CrashCatcherDump.c:readIntegerRegisters"]}
{"id": "C28", "title": "Floating point registers are read exactly when the flag says so", "statement": "If the dump's flags do not have the floating point bit, the floating point registers keep their previous values and the memory regions start right after the exception PSR; otherwise all 33 words come from the file.", "quantifier": "every dump", "why_tests_cant": "all flag words and register values", "anchors": ["libCrashDebug/src/CrashCatcherDump.c:readFloatingPointRegisters"]}
{"id": "C29", "title": "Files without a known signature are refused before anything changes", "statement": "If the first four bytes are not a version 3.0 or 2.0 signature (or fewer than four bytes exist), fileFormatException is raised and registers and memory are untouched.", "quantifier": "every byte sequence", "why_tests_cant": "all 2^32 - 2 wrong signatures and all short files", "anchors": ["libCrashDebug/src/CrashCatcherDump.c:validateDumpSignature"]}
{"id": "C30", "title": "Every truncated dump is reported", "statement": "Cutting a valid dump anywhere except exactly between two memory regions (or at the end) raises an exception: stackOverflowException if the cut leaves just the start address of a region and this equals the stack overflow sentinel, fileFormatException otherwise; cutting between regions loads exactly the regions before the cut; and every file that is accepted is a complete dump.", "quantifier": "every dump and every cut position", "why_tests_cant": "every crash point of the writer", "anchors": ["libCrashDebug/src/CrashCatcherDump.c:readFlags", "libCrashDebug/src/CrashCatcherDump.c:readIntegerRegisters", "libCrashDebug/src/CrashCatcherDump.c:readFloatingPointRegisters", "libCrashDebug/src/CrashCatcherDump.c:readNextMemoryRegion", "libCrashDebug/src/CrashCatcherDump.c:createAndLoadMemoryRegion"]}
{"id": "C31", "title": "The stack overflow marker is reported after loading what precedes it", "statement": "A dump whose region list ends with the four-byte stack overflow sentinel raises stackOverflowException, with every preceding region and register already loaded; no other four trailing bytes do.", "quantifier": "every dump followed by four bytes", "why_tests_cant": "all dumps and all trailing words", "anchors": ["libCrashDebug/src/CrashCatcherDump.c:isStackOverflowSentinelInsteadOfRegionDescription", "libCrashDebug/src/CrashCatcherDump.c:readNextMemoryRegion"]}
{"id": "C32", "title": "The hexadecimal dump format is equivalent to the binary one", "statement": "CrashCatcherDump_ReadHex on any upper or lower case hex text of some bytes, with carriage returns and line feeds inserted anywhere, has exactly the same outcome (registers, memory, exception) as CrashCatcherDump_ReadBinary on those bytes.", "quantifier": "every byte sequence, choice of letter case and placement of line breaks", "why_tests_cant": "all encodings of all files", "anchors": ["libCrashDebug/src/CrashCatcherDump.c:hexRead", "libCrashDebug/src/CrashCatcherDump.c:readNextCharacterSkippingNewLines", "libCrashDebug/src/CrashCatcherDump.c:nibbleDigitToVal"]}
{"id": "C33", "title": "A non-hex character in a hex dump is reported", "statement": "If CrashCatcherDump_ReadHex consumes a pair of characters other than CR and LF of which one is not a hex digit, it raises fileFormatException. (A lone character before the end of the file is not a pair; it is ignored, which a witness shows.)", "quantifier": "every file", "why_tests_cant": "every bad character at every position", "anchors": ["libCrashDebug/src/CrashCatcherDump.c:nibbleDigitToVal"]}
{"id": "C34", "title": "Reading a crash dump always ends with a defined outcome and a closed file", "statement": "For every file content and every state of the simulator in which aliases are sound, CrashCatcherDump_ReadBinary and _ReadHex terminate, either normally or with fileException, fileFormatException, stackOverflowException, outOfMemoryException or busErrorException, never with an invalid memory access, and every opened file is closed.", "quantifier": "every byte sequence and every allocation-failure schedule", "why_tests_cant": "all inputs", "anchors": ["libCrashDebug/src/CrashCatcherDump.c:CrashCatcherDump_ReadBinary", "libCrashDebug/src/CrashCatcherDump.c:CrashCatcherDump_ReadHex", "libCrashDebug/src/CrashCatcherDump.c:destructObject"]}
{"id": "C35", "title": "Overlapping dump regions: the later bytes win", "statement": "When regions in a dump overlap each other, a byte read after loading returns the byte from the last region in the file that contains the address.", "quantifier": "every list of overlapping regions", "why_tests_cant": "all overlap patterns", "anchors": ["libCrashDebug/src/CrashCatcherDump.c:createAndLoadMemoryRegion"]}
{"id": "C36", "title": "A GDB log loads exactly the memory words it shows", "statement": "GdbLogParse of a log whose memory lines each show an address and one to four words yields memory reading back each word at its address, for every number of lines and any mixture with register and other lines.", "quantifier": "every well-formed log", "why_tests_cant": "all logs of any length", "anchors": ["libCrashDebug/src/GdbLogParser.c:GdbLogParse", "libCrashDebug/src/GdbLogParser.c:parseMemoryLine", "libCrashDebug/src/GdbLogParser.c:secondPassHandler"]}
{"id": "C37", "title": "GDB log memory lines are merged into maximal contiguous regions", "statement": "The regions created are exactly the maximal runs of memory lines in which each line starts where the previous one ended.", "quantifier": "every sequence of memory lines", "why_tests_cant": "all sequences, including addresses around 0xFFFFFFFF", "anchors": ["libCrashDebug/src/GdbLogParser.c:firstPassMemoryHandler", "libCrashDebug/src/GdbLogParser.c:parseLines"]}
{"id": "C38", "title": "Lines that are neither memory nor register lines have no effect", "statement": "Inserting any line that is not a memory line and not a register line anywhere in a GDB log does not change the outcome.", "quantifier": "every log, every position and every other line that fits the parser's line buffer of 1024 bytes (a longer one is taken for several lines; a witness is proved)", "why_tests_cant": "all insertions", "anchors": ["libCrashDebug/src/GdbLogParser.c:parseLine", "libCrashDebug/src/GdbLogParser.c:parseOtherLine", "libCrashDebug/src/GdbLogParser.c:firstPassHandler", "libCrashDebug/src/GdbLogParser.c:secondPassHandler"]}
{"id": "C39", "title": "A GDB memory line yields as many words as it shows", "statement": "A memory line that shows k values (1 <= k <= 4) contributes exactly k words, whether or not it ends with a newline.", "quantifier": "every memory line", "why_tests_cant": "all lines", "anchors": ["libCrashDebug/src/GdbLogParser.c:parseMemoryLine", "libCrashDebug/src/GdbLogParser.c:areMoreValuesToParseOnLine", "libCrashDebug/src/GdbLogParser.c:parseValue"]}
{"id": "C40", "title": "GDB log parsing always terminates with a defined outcome inside its buffers", "statement": "For every file content GdbLogParse terminates, stores at most four values per line, writes only registers of the context, and ends normally or with fileException, outOfMemoryException or busErrorException.", "quantifier": "every byte sequence", "why_tests_cant": "all inputs", "anchors": ["libCrashDebug/src/GdbLogParser.c:GdbLogParse", "libCrashDebug/src/GdbLogParser.c:parseMemoryLine", "libCrashDebug/src/GdbLogParser.c:skipSymbol", "libCrashDebug/src/GdbLogParser.c:parseFloatRegisterLine"]}
{"id": "C41", "title": "Register lines set the named register, last one wins", "statement": "After GdbLogParse each register holds the value of the last line naming it; registers not named keep their previous value except MSP and PSP, which default to 0xBAADBAAD. A line that names a register and is not well-formed gives it one value too: the number after the word, if there is one, otherwise 0.", "quantifier": "every log", "why_tests_cant": "all sequences of register lines", "anchors": ["libCrashDebug/src/GdbLogParser.c:isRegisterLine", "libCrashDebug/src/GdbLogParser.c:parseRegisterLine", "libCrashDebug/src/GdbLogParser.c:firstPassRegisterHandler", "libCrashDebug/src/GdbLogParser.c:initPSPandMSP"]}
{"id": "C42", "title": "The floating point flag is set exactly when a log shows an s register", "statement": "GdbLogParse sets the floating point flag if and only if some line is an s0..s31 register line (or it was set before), and a raw value in the line becomes the register value. A line for an s register without a raw value sets the register to all ones.", "quantifier": "every log", "why_tests_cant": "all logs", "anchors": ["libCrashDebug/src/GdbLogParser.c:isFloatingPointRegister", "libCrashDebug/src/GdbLogParser.c:parseFloatRegisterLine"]}
{"id": "C43", "title": "Every loadable ELF segment is readable at its physical address and read-only", "statement": "ElfLoad_FromMemory on a valid ELF whose loadable segments do not overlap in memory creates, for each of them, a read-only region at its physical address holding exactly its file bytes, in program header order.", "quantifier": "every ELF image, with any number of program headers", "why_tests_cant": "round trip over all images", "anchors": ["libCrashDebug/src/ElfLoad.c:ElfLoad_FromMemory", "libCrashDebug/src/ElfLoad.c:loadFlashLoadableEntries", "libCrashDebug/src/ElfLoad.c:loadIfFlashLoadableEntry"]}
{"id": "C44", "title": "Only PT_LOAD entries with 0 < filesz <= memsz create memory", "statement": "Program headers of other types, with zero file size, or with file size above memory size create no region and are not otherwise examined.", "quantifier": "every program header table in every blob (that the other program headers are not examined: except blobs whose length is within 32 bytes of 4 GiB)", "why_tests_cant": "all header contents", "anchors": ["libCrashDebug/src/ElfLoad.c:isFlashLoadableEntry"]}
{"id": "C45", "title": "ELF headers are validated exactly", "statement": "ElfLoad_FromMemory raises elfFormatException before touching memory if the blob is shorter than an ELF header or the magic, class, byte order, type, program header offset, count or entry size is not acceptable; if all are acceptable, header validation passes.", "quantifier": "every byte sequence", "why_tests_cant": "all blobs", "anchors": ["libCrashDebug/src/ElfLoad.c:initLoadObject", "libCrashDebug/src/ElfLoad.c:validateElfHeaderContents"]}
{"id": "C46", "title": "ELF loading never reads outside the blob", "statement": "Whatever the program headers say, ElfLoad_FromMemory reads only bytes inside the supplied blob.", "quantifier": "every blob", "why_tests_cant": "all header values including 32-bit wrap-around of offset + size", "anchors": ["libCrashDebug/src/ElfLoad.c:fetchSizedByteArray", "libCrashDebug/src/ElfLoad.c:loadIfFlashLoadableEntry"]}
{"id": "C47", "title": "An ELF without loadable contents is refused", "statement": "ElfLoad_FromMemory completes normally only if at least one segment was loaded.", "quantifier": "every blob", "why_tests_cant": "all blobs", "anchors": ["libCrashDebug/src/ElfLoad.c:ElfLoad_FromMemory"]}
{"id": "C48", "title": "Option order does not matter; the last duplicate wins", "statement": "The image, dump and base address selected by CrashDebugCommandLine_Init depend only on the last occurrence of each option, not on how options of different kinds are interleaved.", "quantifier": "every argument vector made of complete options", "why_tests_cant": "all permutations and repetitions", "anchors": ["libCrashDebug/src/CrashDebugCommandLine.c:parseArguments", "libCrashDebug/src/CrashDebugCommandLine.c:parseFlagArgument"]}
{"id": "C49", "title": "Option names are case-insensitive", "statement": "Replacing the letter case of option names in the argument vector does not change the outcome.", "quantifier": "every argument vector", "why_tests_cant": "all case combinations in all argument vectors", "anchors": ["libCrashDebug/src/CrashDebugCommandLine.c:parseFlagArgument"]}
{"id": "C50", "title": "A failed start-up leaves nothing behind and reports the error", "statement": "If CrashDebugCommandLine_Init raises an exception, the memory handle is NULL, every region, heap block and file it opened is released, an ERROR line with the message, the copyright notice and usage were written to stderr in that order, and the original exception code is raised.", "quantifier": "every argument vector, file system behaviour and allocation-failure schedule", "why_tests_cant": "every failure point", "anchors": ["libCrashDebug/src/CrashDebugCommandLine.c:CrashDebugCommandLine_Init", "libCrashDebug/src/CrashDebugCommandLine.c:loadFileData", "libCrashDebug/src/CrashDebugCommandLine.c:loadImageFile"]}
{"id": "C51", "title": "Aliases see the image and the dump wherever they appear on the command line", "statement": "--alias options are applied in order after the image and the dump are loaded, even when they come first on the command line, so an alias may redirect to dump memory.", "quantifier": "every argument vector of complete options", "why_tests_cant": "all positions of alias options", "anchors": ["libCrashDebug/src/CrashDebugCommandLine.c:parseAliasOption", "libCrashDebug/src/CrashDebugCommandLine.c:CrashDebugCommandLine_Init"]}
{"id": "C52", "title": "--elf takes precedence over --bin", "statement": "When both are given, only the ELF file is opened and loaded.", "quantifier": "every argument vector containing both", "why_tests_cant": "all argument vectors", "anchors": ["libCrashDebug/src/CrashDebugCommandLine.c:loadImageFile"]}
{"id": "C53", "title": "Malformed command lines are refused before any file or memory is touched", "statement": "If the argument vector contains a word without -- where an option is expected, an unknown option, an option with too few arguments, or lacks an image or dump option, invalidArgumentException is raised with no file opened and no memory created; the parser never reads past the argument vector.", "quantifier": "every argument vector", "why_tests_cant": "all argument vectors", "anchors": ["libCrashDebug/src/CrashDebugCommandLine.c:parseArgument", "libCrashDebug/src/CrashDebugCommandLine.c:parseFlagArgument", "libCrashDebug/src/CrashDebugCommandLine.c:throwIfRequiredArgumentNotSpecified"]}
{"id": "C54", "title": "The dump format is chosen from the first bytes", "statement": "A dump file starting with bytes 63 43 is read as a binary CrashCatcher dump, one starting with the text 6343 as a hexadecimal one, everything else (including shorter files) as a GDB log.", "quantifier": "every file content", "why_tests_cant": "all prefixes", "anchors": ["libCrashDebug/src/CrashDebugCommandLine.c:getFileType", "libCrashDebug/src/CrashDebugCommandLine.c:hasBinaryCrashCatcherSignature", "libCrashDebug/src/CrashDebugCommandLine.c:hasHexCrashCatcherSignature"]}
{"id": "C55", "title": "A raw image is loaded read-only at the requested base", "statement": "With --bin, the whole file is readable at the given base address, writes to it are rejected, and an empty file or one that runs past the end of the address space is refused.", "quantifier": "every file content up to 4 GiB and base address", "why_tests_cant": "all sizes and addresses", "anchors": ["libCrashDebug/src/CrashDebugCommandLine.c:loadBinFile", "libCrashDebug/src/CrashDebugCommandLine.c:loadFileData"]}
{"id": "C56", "title": "Every opened file is closed", "statement": "Whatever happens, after CrashDebugCommandLine_Init returns or raises an exception no file it opened is still open.", "quantifier": "every argument vector, file system behaviour and allocation-failure schedule", "why_tests_cant": "every failure point", "anchors": ["libCrashDebug/src/CrashDebugCommandLine.c:loadFileData", "libCrashDebug/src/CrashDebugCommandLine.c:getFileType", "libCrashDebug/src/GdbLogParser.c:GdbLogParse", "libCrashDebug/src/CrashCatcherDump.c:destructObject"]}
{"id": "C57", "title": "Failed debugger memory accesses are counted, return zero and are reported once", "statement": "Each Platform_MemRead/MemWrite that faults increments the fault count and a faulting read returns 0; one that succeeds behaves like the simulator access; Platform_WasMemoryFaultEncountered returns the count since it was last called and clears it.", "quantifier": "every history of platform memory calls", "why_tests_cant": "history property", "anchors": ["libCrashDebug/src/mriPlatform.c:Platform_MemRead32", "libCrashDebug/src/mriPlatform.c:Platform_MemWrite32", "libCrashDebug/src/mriPlatform.c:Platform_WasMemoryFaultEncountered"]}
{"id": "C58", "title": "The reported signal is determined by the exception number", "statement": "Platform_DetermineCauseOfException depends only on the low byte of the exception PSR and maps 2,3,4,5,6,12 to SIGINT,SIGSEGV,SIGSEGV,SIGBUS,SIGILL,SIGTRAP and everything else to SIGSTOP.", "quantifier": "every exception PSR value", "why_tests_cant": "2^32 values", "anchors": ["libCrashDebug/src/mriPlatform.c:Platform_DetermineCauseOfException"]}
{"id": "C59", "title": "The fault report states exactly the set status bits", "statement": "Platform_DisplayFaultCauseToGdbConsole prints the section for the fault type, its status value, one line for each set and documented status bit in a fixed order and no line for clear bits, and the fault address only when its valid bit is set and the address register is readable; missing status registers never cause an error.", "quantifier": "every exception PSR, status register value and memory layout", "why_tests_cant": "2^32 status values per register", "anchors": ["libCrashDebug/src/mriPlatform.c:Platform_DisplayFaultCauseToGdbConsole", "libCrashDebug/src/mriPlatform.c:displayHardFaultCauseToGdbConsole", "libCrashDebug/src/mriPlatform.c:displayMemFaultCauseToGdbConsole", "libCrashDebug/src/mriPlatform.c:displayBusFaultCauseToGdbConsole", "libCrashDebug/src/mriPlatform.c:displayUsageFaultCauseToGdbConsole"]}
{"id": "C60", "title": "Registers round-trip through the debugger packet", "statement": "The text written by Platform_CopyContextToBuffer is the little-endian hex of R0..PSP (plus s0..fpscr when the FP flag is set) and feeding it to Platform_CopyContextFromBuffer restores exactly those registers. A packet buffer without room for the text is filled to its end with the beginning of it and the overrun is raised; nothing else changes.", "quantifier": "every register context and packet buffer", "why_tests_cant": "2^(32*52) contexts", "anchors": ["libCrashDebug/src/mriPlatform.c:Platform_CopyContextToBuffer", "libCrashDebug/src/mriPlatform.c:Platform_CopyContextFromBuffer"]}
{"id": "C61", "title": "The stop reply carries R12, SP, LR and PC", "statement": "Platform_WriteTResponseRegistersToBuffer writes exactly the four fields 0c, 0d, 0e, 0f with the little-endian hex of the current R12, SP, LR and PC. A packet buffer without room for them is filled to its end and the overrun is raised; nothing else changes.", "quantifier": "every register context and packet buffer", "why_tests_cant": "all register values", "anchors": ["libCrashDebug/src/mriPlatform.c:Platform_WriteTResponseRegistersToBuffer", "libCrashDebug/src/mriPlatform.c:sendRegisterForTResponse"]}
{"id": "C62", "title": "Post-mortem state only changes by explicit memory or register writes", "statement": "No sequence of platform calls that excludes Platform_MemWrite and Platform_CopyContextFromBuffer changes any register or any byte of memory: stepping, continuing, breakpoints, watchpoints, semihosting and PC changes are ignored.", "quantifier": "every history of platform calls", "why_tests_cant": "over all call sequences the debugger may make", "anchors": ["libCrashDebug/src/mriPlatform.c:Platform_SetProgramCounter", "libCrashDebug/src/mriPlatform.c:Platform_SetHardwareBreakpoint", "libCrashDebug/src/mriPlatform.c:Platform_EnableSingleStep", "libCrashDebug/src/mriPlatform.c:Semihost_HandleSemihostRequest"]}
{"id": "C63", "title": "The advertised target description matches the register packet", "statement": "Platform_GetTargetXml describes exactly as many register bits as Platform_CopyContextToBuffer sends, with and without floating point, and Platform_GetTargetXmlSize is the length of that text.", "quantifier": "every register context", "why_tests_cant": "all flag values", "anchors": ["libCrashDebug/src/mriPlatform.c:Platform_GetTargetXml", "libCrashDebug/src/mriPlatform.c:Platform_GetTargetXmlSize", "libCrashDebug/src/mriPlatform.c:Platform_CopyContextToBuffer"]}
{"id": "C64", "title": "A swallowed memory fault never surfaces as an error later", "statement": "A faulting platform memory access leaves no pending error: code that later completes normally inside an enclosing try block does not run its error handler, and a later exception keeps its own code.", "quantifier": "every program using the platform calls inside an enclosing try block", "why_tests_cant": "all interleavings of swallowed and real exceptions", "anchors": ["libCrashDebug/src/mriPlatform.c:Platform_MemRead32", "include/try_catch.h:__try", "include/try_catch.h:__catch", "include/try_catch.h:setExceptionCode"]}
{"id": "C65", "title": "GDB, once connected, stays connected; polling never raises", "statement": "After a successful receive the connection is reported as connected for ever; checking for received data or connection never raises an exception and reports no data on error; a failed receive does not mark the connection.", "quantifier": "every history of communication calls and every behaviour of standard input", "why_tests_cant": "history property", "anchors": ["libCrashDebug/src/StandardIComm.c:hasReceiveData", "libCrashDebug/src/StandardIComm.c:receiveChar", "libCrashDebug/src/StandardIComm.c:isGdbConnected"]}
{"id": "C66", "title": "The program's exit code reports failure exactly", "statement": "main returns 0 only if start-up and the debug session completed without an exception, and -1 whenever one of them raised one; it prints an unexpected-error line exactly for exceptions other than file, ELF format and argument errors; in every case the memory is released.", "quantifier": "every start-up and session outcome", "why_tests_cant": "all outcomes", "anchors": ["main/main.c:main"]}
{"id": "C67", "title": "Exceptions reach the innermost active handler and handlers nest properly", "statement": "With the __try/__catch/__throw macros, an exception raised anywhere inside a try block (through any depth of calls) runs that block's handler, a rethrow reaches the next outer one with the same code and message, and after the block the handler stack is what it was before.", "quantifier": "every nesting of try blocks, throws and calls", "why_tests_cant": "over all programs built from the macros", "anchors": ["include/try_catch.h:__try", "include/try_catch.h:__catch", "include/try_catch.h:__throw", "include/try_catch.h:__rethrow"]}
{"id": "C68", "title": "An exception raised inside a handler is reported with its own code", "statement": "If a handler raises a different exception, the outer handler sees the new exception's code.", "quantifier": "every pair of exception codes", "why_tests_cant": "all pairs", "anchors": ["include/try_catch.h:setExceptionCode"]}
{"id": "C69", "title": "The debug session ends on end of input", "statement": "When GDB closes the pipe (standard input reaches end of file) mriPlatform_Run stops.", "quantifier": "every session", "why_tests_cant": "liveness over all inputs", "anchors": ["libCrashDebug/src/StandardIComm.c:shouldStopRun", "main/MockDefaults.c:Console_ReadStdIn", "libCrashDebug/src/mriPlatform.c:mriPlatform_Run"]}
{"id": "C70", "title": "The file size helper is exact and leaves the file rewound", "statement": "GetFileSize returns the length of the file and leaves the position at its start, or raises fileException when any seek or tell fails.", "quantifier": "every file and every failure point", "why_tests_cant": "all failure points", "anchors": ["libcommon/src/common.c:GetFileSize"]}
{"id": "C71", "title": "Start-up has a defined outcome for every input", "statement": "CrashDebugCommandLine_Init either returns normally or raises one of the documented exceptions: it never reads or writes outside its buffers, never dereferences NULL and always ends.", "quantifier": "every argument vector, file contents, file system behaviour and allocation-failure schedule", "why_tests_cant": "all inputs and failure points together", "anchors": ["libCrashDebug/src/CrashDebugCommandLine.c:CrashDebugCommandLine_Init", "libCrashDebug/src/ElfLoad.c:ElfLoad_FromMemory"]}
{"id": "C72", "title": "Start-up with valid files makes their contents available", "statement": "Given a valid image (ELF or raw) and a valid CrashCatcher dump (binary or hexadecimal) that do not overlap, CrashDebugCommandLine_Init succeeds; afterwards every aligned or unaligned access inside the image and the dumped memory yields the bytes of the files, writes to the image are refused, and the registers are those of the dump.", "quantifier": "every valid image and dump, every spelling and order of the options", "why_tests_cant": "all file contents and layouts", "anchors": ["libCrashDebug/src/CrashDebugCommandLine.c:CrashDebugCommandLine_Init", "libCrashDebug/src/CrashDebugCommandLine.c:loadImageFile", "libCrashDebug/src/CrashDebugCommandLine.c:loadDumpFile"]}
{"id": "C73", "title": "A malformed register packet stores exactly the registers before the fault", "statement": "Platform_CopyContextFromBuffer either sets every register to what the packet says, or raises an exception having stored just the bytes that precede the first place where two hexadecimal digits are missing (bufferOverrun when the packet ends there, invalidHexDigit otherwise); nothing but the registers and the position in the packet changes.", "quantifier": "every packet text and register context, with and without floating point", "why_tests_cant": "every truncation point and every bad digit at every position", "anchors": ["libCrashDebug/src/mriPlatform.c:Platform_CopyContextFromBuffer", "libCrashDebug/src/mriPlatform.c:readBytesFromBufferAsHex"]}
{"id": "C74", "title": "The channel to GDB delivers every character once and in order", "statement": "Over any history of calls on the communication channel, the successive receives yield the successive bytes of standard input (as signed characters; 0 at its end; an exception where reading fails), none lost or repeated, and standard output consists of the low byte of each character sent, in order, and nothing else.", "quantifier": "every history of communication calls and every behaviour of standard input and output", "why_tests_cant": "all interleavings of polling, receiving and sending", "anchors": ["libCrashDebug/src/StandardIComm.c:receiveChar", "libCrashDebug/src/StandardIComm.c:sendChar", "main/MockDefaults.c:Console_ReadStdIn", "main/MockDefaults.c:Console_WriteStdOut"]}
{"id": "C75", "title": "Running out of memory is reported exactly", "statement": "Every memory simulator call, and loading an ELF file, a dump, a GDB log or a whole command line, raises outOfMemoryException if and only if one of the allocations it made failed, and it returns normally only if all its allocations succeeded.", "quantifier": "every call in every state, every input file, and every pattern of allocation failures", "why_tests_cant": "every allocation may fail in every state; a test fails one allocation of one scenario", "anchors": ["libCrashDebug/src/MemorySim.c:MemorySim_CreateRegion", "libCrashDebug/src/MemorySim.c:MemorySim_MakeRegionReadOnly", "libCrashDebug/src/MemorySim.c:MemorySim_SetHardwareBreakpoint", "libCrashDebug/src/CrashDebugCommandLine.c:loadFileData"]}
{"id": "C76", "title": "Host pointers show exactly the simulated bytes", "statement": "MemorySim_MapSimulatedAddressToHostAddressForRead/Write succeeds exactly when the whole range lies in one region (and, for write, that region is not read-only), otherwise raises a bus error and changes nothing; the bytes behind the returned pointer are those that byte reads at the same addresses return, and storing through it is what later reads see.", "quantifier": "every state without aliases of aliases, every address and size", "why_tests_cant": "all addresses, sizes, layouts and alias placements", "anchors": ["libCrashDebug/src/MemorySim.c:MemorySim_MapSimulatedAddressToHostAddressForRead", "libCrashDebug/src/MemorySim.c:MemorySim_MapSimulatedAddressToHostAddressForWrite"]}
{"id": "C77", "title": "A truncated ELF file is never accepted", "statement": "ElfLoad_FromMemory completes normally only if the header is acceptable and the program header table and the contents of every loadable segment lie inside the blob. The first program header, or the first loadable contents, outside the blob raises elfFormatException with a message giving its number and file offset (respectively its file offsets); exactly the segments before it have been loaded.", "quantifier": "every blob and every simulator state; excepted are offsets and sizes whose sum, computed in 32 bits, wraps around to a place inside the blob (C46 covers those: they are not refused). For the message: the segments before the bad one can be placed, and memory suffices.", "why_tests_cant": "every truncation point of every file", "anchors": ["libCrashDebug/src/ElfLoad.c:ElfLoad_FromMemory", "libCrashDebug/src/ElfLoad.c:fetchSizedByteArray", "libCrashDebug/src/ElfLoad.c:loadFlashLoadableEntries"]}
{"id": "C78", "title": "Start-up reports why the image cannot be used", "statement": "With a complete command line, if the image file cannot be opened, measured, allocated or read in full, CrashDebugCommandLine_Init raises the exception whose code and message say which of these it was and name the file; if an ELF image is refused by the loader, the loader's code and message are raised; if a raw image is empty or runs past the end of the address space, a bus error naming the base address is raised.", "quantifier": "every command line, every file contents, every failure of the file system and every allocation failure; for the refusal of a raw image, files below 4 GiB (C55 covers larger ones) and enough memory", "why_tests_cant": "each failure may occur with every file and option order", "anchors": ["libCrashDebug/src/CrashDebugCommandLine.c:loadImageFile", "libCrashDebug/src/CrashDebugCommandLine.c:loadFileData", "libCrashDebug/src/CrashDebugCommandLine.c:loadBinFile"]}
{"id": "C79", "title": "The memory map GDB receives tells which accesses will be refused", "statement": "After a successful start-up, at every point of the session Platform_GetDeviceMemoryMapXml returns a map with the same entries (or reports exhausted memory), Platform_GetDeviceMemoryMapXmlSize returns the length of that text, and at every point of the session Platform_MemRead fails exactly for accesses that lie in no single entry and Platform_MemWrite fails exactly for accesses that lie in no entry or whose first entry is listed as flash.", "quantifier": "all command lines whose aliases lead into loaded memory (as they do if none leads into the range of an alias given before it), all contents of the image and the dump with up to 19522578 blocks, all histories of platform calls, packets, allocation and channel failures, all addresses and widths", "why_tests_cant": "It relates a text produced at one point of an arbitrary session to the outcome of every access at every other point, for every possible memory layout.", "anchors": ["libCrashDebug/src/mriPlatform.c:Platform_GetDeviceMemoryMapXml", "libCrashDebug/src/mriPlatform.c:Platform_GetDeviceMemoryMapXmlSize", "libCrashDebug/src/MemorySim.c:MemorySim_GetMemoryMapXML", "libCrashDebug/src/CrashDebugCommandLine.c:CrashDebugCommandLine_Init"]}
{"id": "C80", "title": "A session never runs into undefined behaviour", "statement": "After a successful start-up no call that the debug monitor can make, in whatever order and with whatever packets, accesses host memory out of bounds, overflows a signed counter or fails an assertion.", "quantifier": "all command lines, files, histories of platform calls and received packets, failures of the heap and of the channel", "why_tests_cant": "Memory safety for all files and all sequences of debugger requests; the tests exercise a few of each.", "anchors": ["libCrashDebug/src/mriPlatform.c", "libCrashDebug/src/MemorySim.c", "libCrashDebug/src/CrashDebugCommandLine.c:parseAliasOption"]}
{"id": "C81", "title": "Numbers on the command line mean what they say in decimal, octal or hexadecimal", "statement": "The base address of --bin and the address, size and target of --alias may be written in decimal, in octal after a leading 0 or in hexadecimal after 0x or 0X; how a number is written makes no difference to the outcome of CrashDebugCommandLine_Init, the raw image is readable at exactly the number given and aliases are created with exactly the numbers given. Any other word means the number that it begins with after white space and a sign, modulo 2^32, negative after a minus sign, and 0 if it begins with no number. (Such words are not refused; a witness is proved.)", "quantifier": "every command line of complete options, every word, every number with any number of digits", "why_tests_cant": "There are unboundedly many spellings of each of four thousand million numbers; a test tries a few.", "anchors": ["libCrashDebug/src/CrashDebugCommandLine.c:parseBinFilenameOption", "libCrashDebug/src/CrashDebugCommandLine.c:parseAliasOption"]}
{"id": "C82", "title": "No run of the program has undefined behaviour", "statement": "Every run of CrashDebug that ends returns 0 or -1 from main; no run accesses host memory out of bounds, overflows a signed counter, dereferences a null pointer or fails an assertion, whatever is on the command line, in the files and in GDB's packets. (ELF files in which offset plus size wraps around, and aliases of aliases, break this; witnesses are proved.)", "quantifier": "all command lines, file contents, failures of files, heap and channel, all packets, and all debug monitors that act on the program being debugged by platform calls only and ask for the faults they caused before there are 2^31 of them", "why_tests_cant": "It is a statement about all executions of the whole program from main to exit; a test runs one of them.", "anchors": ["main/main.c:main", "libCrashDebug/src/CrashDebugCommandLine.c:CrashDebugCommandLine_Init", "libCrashDebug/src/mriPlatform.c:mriPlatform_Run"]}
{"id": "C83", "title": "The program leaves nothing behind", "statement": "Whenever main returns, every file the program opened is closed and every heap block it allocated has been released, however start-up and the session ended. (Overlapping segments in an ELF file make it lose a block; a witness is proved.)", "quantifier": "all command lines, file contents, failures of files, heap and channel, and all debug monitors that act on the program being debugged by platform calls only", "why_tests_cant": "Leaks depend on which of many failures happens where in an execution of unbounded length; tests inject a few failures.", "anchors": ["main/main.c:main", "libCrashDebug/src/CrashDebugCommandLine.c:CrashDebugCommandLine_Uninit", "libCrashDebug/src/MemorySim.c:MemorySim_Uninit"]}
{"id": "C84", "title": "GDB reads what was dumped or what it last wrote", "statement": "At every point of a debugging session Platform_MemRead32/16/8 of mapped memory returns, byte by byte, the value given by the last Platform_MemWrite that went to that byte, in whatever width and through whatever address or alias it was made, or the value which the same read had at the start of the session if there was no such write. Writes to read-only or unmapped memory do not count.", "quantifier": "all command lines whose aliases lead into loaded memory (as they do if none is chained to another), all contents of image and dump, all histories of platform calls, packets and failures, all addresses and widths", "why_tests_cant": "It is a statement about arbitrarily long sessions mixing reads and writes of different widths through different addresses.", "anchors": ["libCrashDebug/src/mriPlatform.c:Platform_MemRead32", "libCrashDebug/src/mriPlatform.c:Platform_MemWrite32", "libCrashDebug/src/MemorySim.c:read32", "libCrashDebug/src/MemorySim.c:write32"]}
{"id": "C85", "title": "Only the named image and dump matter", "statement": "CrashDebug reads no file other than the image and the dump selected on the command line: on two file systems which agree on these two files it ends start-up in the same way, with the same message, memory and registers, and every run of the whole program on one is a run on the other with the same result.", "quantifier": "all command lines, all pairs of file systems, all failures of files and heap, all debug monitors", "why_tests_cant": "It compares executions on all pairs of file systems; a test has one file system.", "anchors": ["libCrashDebug/src/CrashDebugCommandLine.c:CrashDebugCommandLine_Init", "libCrashDebug/src/CrashDebugCommandLine.c:loadImageFile", "libCrashDebug/src/CrashDebugCommandLine.c:loadDumpFile"]}
{"id": "C86", "title": "Start-up with a GDB log", "statement": "With a valid image and a well-formed GDB log start-up succeeds; then every access inside the image and inside the memory shown in the log returns the contents of image and log, no write changes the image, every register has the value which the log shows last (0 if none, 0xBAADBAAD for MSP and PSP), and the floating point flag is set exactly if the log shows one of s0 to s31. The same holds for any file that is taken for a log (C109), with the memory and registers in it.", "quantifier": "all valid images (ELF or raw) and all logs, of any length; the log may show memory repeatedly, and next to or partly across the image, as long as no word lies inside the image", "why_tests_cant": "Logs and images have unbounded size and the stages interact through the simulator's state; tests load a few small ones.", "anchors": ["libCrashDebug/src/CrashDebugCommandLine.c:CrashDebugCommandLine_Init", "libCrashDebug/src/GdbLogParser.c:GdbLogParse"]}
{"id": "C87", "title": "Registers over a session", "statement": "At every point of a debugging session the registers sent to GDB are those of the start of the session with the register packets GDB has sent since written over them in order; a malformed packet counts as the bytes before its first bad place. The exception's PSR, the flags and floating point registers that are not shown never change.", "quantifier": "all histories of platform calls and all packet contents", "why_tests_cant": "It is a statement about arbitrarily long sessions with arbitrary, also malformed, packets.", "anchors": ["libCrashDebug/src/mriPlatform.c:Platform_CopyContextToBuffer", "libCrashDebug/src/mriPlatform.c:Platform_CopyContextFromBuffer"]}
{"id": "C88", "title": "Log and dump of the same crash agree", "statement": "A GDB log and a CrashCatcher dump that describe the same memory and registers leave the simulator with exactly the same regions and bytes and the same registers, apart from the exception's PSR, which logs do not have. Sessions on the two, with the same calls and packets, show the same memory and registers.", "quantifier": "all well-formed logs and dumps describing the same crash, and all states they are loaded in", "why_tests_cant": "It compares two parsers on all pairs of corresponding files of unbounded size.", "anchors": ["libCrashDebug/src/GdbLogParser.c:GdbLogParse", "libCrashDebug/src/CrashCatcherDump.c:CrashCatcherDump_ReadBinary"]}
{"id": "C89", "title": "Aliases given on the command line show the memory they lead to", "statement": "With a valid image, a valid dump or log, and alias options that lead into the loaded memory, start-up succeeds, loads everything as without the aliases, and each alias shows the bytes from the place it leads to, as far as alias and block go. An alias of the image refuses all writes. At every point of every debugging session, reads and writes through an alias have exactly the outcome of the same reads and writes of the memory it leads to. This holds for any file that is taken for a log, well-formed or not (C109).", "quantifier": "all valid images, dumps, logs and command lines whose aliases lead into loaded blocks with nothing overlapping, all histories of platform calls, all widths and offsets", "why_tests_cant": "It ranges over any number of aliases and blocks and over sessions of any length, with writes through either address.", "anchors": ["libCrashDebug/src/CrashDebugCommandLine.c:parseAliasOption", "libCrashDebug/src/MemorySim.c:MemorySim_CreateAlias", "libCrashDebug/src/mriPlatform.c:Platform_MemRead32"]}
{"id": "C90", "title": "A session shows exactly the memory of the crashed program", "statement": "After a successful start-up from a valid image, a valid dump or GDB log, and alias options that lead into loaded memory, the debug monitor finds at every point of the session one memory: the blocks of the image, which cannot be written, the blocks of the dump, which can, and the aliases, which lead into these. A read of 1, 2 or 4 bytes that lie in one block yields the bytes there; any other read yields 0 and is counted as a fault. A write into a dumped block, directly or through an alias, replaces exactly the bytes written; any other write changes nothing and is counted as a fault. No other call changes memory. This holds for dumps of every format and version, and for any file that is taken for a log, well-formed or not (C109).", "quantifier": "all valid images, dumps, logs and command lines whose aliases lead into loaded blocks with nothing overlapping; all histories of platform calls and packets; all addresses, widths and values", "why_tests_cant": "It is a refinement: every history of reads, writes and other calls has to agree with a small abstract memory, for any number and size of blocks and aliases.", "anchors": ["libCrashDebug/src/mriPlatform.c:Platform_MemRead32", "libCrashDebug/src/mriPlatform.c:Platform_MemWrite32", "libCrashDebug/src/MemorySim.c:MemorySim_CreateAlias", "libCrashDebug/src/CrashDebugCommandLine.c:CrashDebugCommandLine_Init"]}
{"id": "C91", "title": "GDB is told the crash as the files have it", "statement": "After start-up from a valid image, a valid dump or GDB log, and alias options that lead into loaded memory, at every point of the session: the signal reported is the one for the exception number in the dump's exception PSR; the fault report on the console is the one for this exception number and the fault status registers as they are in the crashed program's memory (with GDB's accepted writes carried out); register packets and stop replies contain the registers of the dump with the register packets GDB has sent since written over them; memory reads and writes go to the crashed program's memory. With a log, registers are those the log shows last, the signal is SIGSTOP and the fault report is empty. This holds for dumps of every format and version, and for any file that is taken for a log, well-formed or not (C109).", "quantifier": "all valid images, dumps, logs and command lines whose aliases lead into loaded blocks with nothing overlapping; all histories of platform calls and packets", "why_tests_cant": "It connects the contents of files of unbounded size with what is sent to GDB after sessions of any length.", "anchors": ["libCrashDebug/src/mriPlatform.c:Platform_DetermineCauseOfException", "libCrashDebug/src/mriPlatform.c:Platform_DisplayFaultCauseToGdbConsole", "libCrashDebug/src/mriPlatform.c:Platform_WriteTResponseRegistersToBuffer", "libCrashDebug/src/mriPlatform.c:Platform_CopyContextToBuffer", "libCrashDebug/src/CrashCatcherDump.c:CrashCatcherDump_ReadBinary", "libCrashDebug/src/GdbLogParser.c:GdbLogParse"]}
{"id": "C92", "title": "The same input gives the same run", "statement": "Two runs of CrashDebug with the same command line, the same file contents, the same failures of files, heap and channel, the same input from GDB and the same debug monitor end with the same exit code, the same output and the same state.", "quantifier": "all command lines, files, failures, inputs and debug monitors", "why_tests_cant": "It is a statement about all pairs of runs.", "anchors": ["main/main.c:main", "libCrashDebug/src/mriPlatform.c:mriPlatform_Run"]}
{"id": "C93", "title": "Crash memory where the image is, is refused", "statement": "If a block of the dump has a byte at an address where the image has one, start-up fails with a bus error whose message gives the addresses of the first such block; it fails with a bus error if a GDB log shows a word that lies inside the image. The image is never silently overwritten or overlaid. Without alias options, start-up with a valid image and a valid dump (or any log) succeeds if and only if there is no such byte (word).", "quantifier": "all valid images, all valid dumps and all files that are taken for logs, with any number of blocks, overlapping or not, at any addresses", "why_tests_cant": "The claim is an equivalence over all placements of any number of blocks; tests can only try some.", "anchors": ["libCrashDebug/src/CrashCatcherDump.c:createAndLoadMemoryRegion", "libCrashDebug/src/GdbLogParser.c:secondPassHandler", "libCrashDebug/src/MemorySim.c:getDataPointer", "libCrashDebug/src/CrashDebugCommandLine.c:loadDumpFile"]}
{"id": "C94", "title": "Error messages fit their buffer and are shown whole", "statement": "The message of every exception that the memory simulator, the ELF loader, the dump and log readers or start-up raise has at most 1023 characters, so it fits the 1024-byte buffer it is kept in, however long the file names and other words on the command line are. A failed start-up prints the message from its first to its last character. The error for a dump that cannot be opened quotes the name in full, with a closing quote and a full stop, if it has at most 1005 characters; the full stop is missing if it has 1006, and the first 1007 characters are shown if it has more.", "quantifier": "all histories of simulator calls, all files and file names, all command lines, all failures of files and heap", "why_tests_cant": "File names and option words have no bound on their length, and every place that raises an exception with a formatted message has to be covered for all numbers and names it formats.", "anchors": ["include/try_catch.h:__throw_msg", "libcommon/src/try_catch.c:g_exceptionMessage", "libCrashDebug/src/CrashDebugCommandLine.c:displayExceptionMessage"]}
{"id": "C95", "title": "The Windows build keeps the channel's guarantees, and notices the end of the input", "statement": "In the program as built for Windows, over any history of calls on the communication channel, the successive receives yield the successive bytes of standard input, none lost or repeated, and raise where the input ends or cannot be read; standard output consists of the low byte of each character sent, in order; checking for data or connection never raises; GDB is reported as connected for ever after the first successful receive, and before that only while there is something to read. The end of the input is an exception there, not the character 0 as in the Posix build.", "quantifier": "every history of communication calls and every behaviour of the pipes", "why_tests_cant": "all interleavings of polling, receiving and sending; the unit tests replace the console functions by mocks", "anchors": ["main/MockDefaults.c:Console_HasStdInDataToRead (WIN32)", "main/MockDefaults.c:Console_ReadStdIn (WIN32)", "main/MockDefaults.c:Console_WriteStdOut (WIN32)", "libCrashDebug/src/StandardIComm.c"]}
{"id": "C96", "title": "A test can make exactly the n-th allocation fail", "statement": "After a test asks for the n-th allocation to fail (n at least 1), the following allocations reach the C library except the n-th one, which returns no block; those after it reach the C library again. After the injection is removed every allocation reaches the C library, whatever was asked for before.", "quantifier": "every history of requests and allocations, every n and every behaviour of the C library's allocator", "why_tests_cant": "all histories; the tests try the first and the second allocation", "anchors": ["libmocks/src/MallocFailureInject.c:MallocFailureInject_FailAllocation", "libmocks/src/MallocFailureInject.c:MallocFailureInject_Restore", "libmocks/src/MallocFailureInject.c:mock_malloc", "libmocks/src/MallocFailureInject.c:mock_realloc"]}
{"id": "C97", "title": "A test can make file operations fail as it asks", "statement": "After a test asks for seeks to fail after n calls, exactly the first n seeks reach the C library and all later ones return the value asked for; after it asks for the n-th read to fail, exactly that one does; after it gives lines, the calls of fgets deliver them in order, each cut to the buffer and NUL-terminated within it, then report the end once and begin again; opens, closes, tells and writes do what was last asked for. What is asked of one function does not affect another, and after it is restored a function reaches the C library.", "quantifier": "every history of requests and file operations", "why_tests_cant": "all histories and interleavings; the tests try one short one for each function", "anchors": ["libmocks/src/FileFailureInject.c:mock_fseek", "libmocks/src/FileFailureInject.c:mock_fread", "libmocks/src/FileFailureInject.c:mock_fgets", "libmocks/src/FileFailureInject.c:fopenSetReturn", "libmocks/src/FileFailureInject.c:fgetsSetData"]}
{"id": "C98", "title": "A test sees the last texts printed", "statement": "After a test sets the hooks with a buffer size, the number of calls reported is that of the texts printed since; for n from 1 to 4, if the n-th last text went to standard output, the n-th last output shown is that text cut to the buffer size, and likewise for standard error. What is shown in other cases is determined exactly: the last text printed to that stream a multiple of four calls earlier, or nothing. Removing the hooks frees all buffers, whatever was done before, and from then on what is printed is left to the C library and not recorded.", "quantifier": "every history of setting and removing the hooks and printing, every buffer size, every text", "why_tests_cant": "all histories of prints to two streams; the tests try at most four prints to one stream", "anchors": ["libmocks/src/printfSpy.c:printfSpy_Hook", "libmocks/src/printfSpy.c:printfSpy_Unhook", "libmocks/src/printfSpy.c:printfSpy_GetNthOutput", "libmocks/src/printfSpy.c:printfSpy_GetNthErrorOutput", "libmocks/src/printfSpy.c:printfSpy_GetCallCount"]}
{"id": "C99", "title": "The tests' console delivers and captures what it is told to", "statement": "Over any history of calls on the console that the tests use: reads yield the characters given, in order, then 0; a read, write or poll raises exactly the exception last asked for, and a read or write that raises neither consumes nor stores a character; the text captured is what was written since the buffer was asked for, up to its size; what clean-up leaves on the heap is exactly one buffer for each time that a buffer was asked for while there was one.", "quantifier": "every history of calls on the console and its controls", "why_tests_cant": "all interleavings of requests, reads and writes", "anchors": ["libCrashDebug/mocks/mockConsole.c:Console_ReadStdIn", "libCrashDebug/mocks/mockConsole.c:Console_WriteStdOut", "libCrashDebug/mocks/mockConsole.c:Console_HasStdInDataToRead", "libCrashDebug/mocks/mockConsole.c:ConsoleMock_WriteStdOut_GetCapturedText", "libCrashDebug/mocks/mockConsole.c:ConsoleMock_Uninit"]}
{"id": "C100", "title": "The tests' channel delivers the packets given, with their checksums", "statement": "Over any history of calls on the communication channel that the tests use: the k-th receive since data was given yields the k-th character of the two texts one after the other, whatever is polled, sent or delayed between, and does not return if there is none; while the first text is not used up a poll answers yes, except that exactly the next n polls answer no after a delay of n; where checksums are asked for, each # is followed by two hexadecimal digits of the sum modulo 256 of the characters since the last $, and the result fits the block allocated for it exactly; the transmitted text is what was sent, up to the size of the buffer; clean-up leaves nothing on the heap.", "quantifier": "every history of calls on the channel and its controls, every text", "why_tests_cant": "all interleavings of polling, receiving and sending, all texts", "anchors": ["libCrashDebug/mocks/mockIComm.cpp:receiveChar", "libCrashDebug/mocks/mockIComm.cpp:hasReceiveData", "libCrashDebug/mocks/mockIComm.cpp:copyChecksummedData", "libCrashDebug/mocks/mockIComm.cpp:allocateAndCopyChecksummedData", "libCrashDebug/mocks/mockIComm.cpp:sendChar", "libCrashDebug/mocks/mockIComm.cpp:mockIComm_Uninit"]}
{"id": "C101", "title": "How the crash is arranged in files makes no difference", "statement": "Two command lines with their files that give the same blocks of the image, the same registers and memory blocks of the dump and the same aliases, but list them in different orders, in different formats of the image (ELF or raw) or of the dump (binary, hexadecimal or a GDB log) and with differently spelled options: CrashDebugCommandLine_Init succeeds for both, and after the same calls of the debug monitor and the same register packets GDB is told the same memory, the same answers to reads and writes, the same reason to stop and the same registers.", "quantifier": "every two such command lines and sets of files, every order of blocks and aliases, every history of calls of the debug monitor and register packets", "why_tests_cant": "all orders of all blocks, all formats, all later histories", "anchors": ["libCrashDebug/src/CrashDebugCommandLine.c:CrashDebugCommandLine_Init", "libCrashDebug/src/CrashCatcherDump.c:readMemoryRegions", "libCrashDebug/src/ElfLoad.c:ElfLoad_FromMemory", "libCrashDebug/src/MemorySim.c:MemorySim_CreateAlias"]}
{"id": "C102", "title": "A word can be read or written if each of its bytes can", "statement": "After start-up with a valid image, dump and aliases, and after any calls of the debug monitor, a 2- or 4-byte access inside the address space succeeds whenever each of its bytes can be accessed by itself, and a read yields these bytes, the lowest first. (False across two blocks that touch; a witness is proved. It holds if no two blocks touch, and at multiples of the size of the access if memory is cut at such multiples only, where it is even enough that one byte can be accessed.) Exactly, a read succeeds if and only if all its bytes are in one block of the image, in one block of the dump or in what one alias shows, and a write if and only if they are in one block of the dump or in what one alias shows of such a block.", "quantifier": "every valid start-up with a dump of whatever format, every history of calls of the debug monitor, every address, width and value", "why_tests_cant": "all layouts of blocks, all addresses, all histories", "anchors": ["libCrashDebug/src/MemorySim.c:findMatchingRegion", "libCrashDebug/src/MemorySim.c:read32", "libCrashDebug/src/MemorySim.c:write32", "libCrashDebug/src/CrashCatcherDump.c:readMemoryRegions"]}
{"id": "C103", "title": "More memory does not change what is found in the rest", "statement": "Two command lines with their files where every block of the first image is in the second image, every memory block of the first dump is in the second dump (each of whatever format), and the aliases are the same: CrashDebugCommandLine_Init succeeds for both, and after the same calls of the debug monitor every read that succeeds in the first session succeeds in the second with the same value, and every write that is accepted in the first is accepted in the second. The registers may differ.", "quantifier": "every two such command lines and sets of files, every history of calls of the debug monitor (accesses refused in the first session may be accepted in the second), every address, width and value", "why_tests_cant": "all sets of blocks and all additions to them, all later histories", "anchors": ["libCrashDebug/src/CrashDebugCommandLine.c:CrashDebugCommandLine_Init", "libCrashDebug/src/CrashCatcherDump.c:readMemoryRegions", "libCrashDebug/src/MemorySim.c:findMatchingRegion"]}
{"id": "C104", "title": "The crashed program cannot be run", "statement": "Requests of the debug monitor to step or continue the crashed program, to set its program counter on resume, to set or clear hardware break- and watchpoints, or to deal with its semihost calls never fail and have no effect on anything: any history with such requests ends in exactly the same state as the history without them. At any time the debug monitor is told that the program is not being stepped, makes no semihost call, does not share or interrupt the channel, and need not be advanced past a breakpoint.", "quantifier": "every history of calls of the debug monitor with such requests anywhere in it, all their arguments, every state", "why_tests_cant": "all histories and all places in them", "anchors": ["libCrashDebug/src/mriPlatform.c:Platform_EnableSingleStep", "libCrashDebug/src/mriPlatform.c:Platform_SetProgramCounter", "libCrashDebug/src/mriPlatform.c:Platform_WasProgramCounterModifiedByUser", "libCrashDebug/src/mriPlatform.c:Platform_SetHardwareBreakpoint", "libCrashDebug/src/mriPlatform.c:Semihost_IsDebuggeeMakingSemihostCall"]}
{"id": "C105", "title": "A start-up that succeeds was given complete files, and they are all there", "statement": "If the program starts up, its command line consists of complete options with an image and a dump among them, both files exist, the image is a complete ELF file with something to load (or a raw image that fits into the address space), and the dump is a complete binary or hexadecimal crash dump whose registers are those of the session (or a file that is read as a log). Then no memory of the dump lies where the image has some, the session's memory holds every byte of the image and refuses writes to it, and holds at each dumped address the byte of the last block of the dump that has it, whatever aliases were asked for. If the dump was read as a log, no word it shows lies inside the image, the registers are those it shows last, and each word and byte it shows reads as it was last shown (bytes of the image keep reading as the image). So a damaged or truncated file never leads to a session that silently lacks something.", "quantifier": "all command lines, all contents of all files, any amount of memory (for the first half); all images, all dumps whose blocks may overlap, all files read as a log, which may show memory repeatedly, all aliases, including chained ones (for the second half); images of 4 GiB and more are left out", "why_tests_cant": "Tests feed a few damaged files and see them refused; that nothing damaged is accepted ranges over every file and every command line.", "anchors": ["libCrashDebug/src/CrashDebugCommandLine.c:CrashDebugCommandLine_Init", "libCrashDebug/src/CrashDebugCommandLine.c:loadImageFile", "libCrashDebug/src/CrashCatcherDump.c:CrashCatcherDump_ReadBinary", "libCrashDebug/src/CrashCatcherDump.c:CrashCatcherDump_ReadHex", "libCrashDebug/src/ElfLoad.c:ElfLoad_FromMemory", "libCrashDebug/src/GdbLogParser.c:GdbLogParse"]}
{"id": "C106", "title": "A dump that is refused is refused with a message that says what is wrong with it", "statement": "Whatever the bytes of a dump, binary or hexadecimal, one of three things holds: something is wrong before its memory blocks; or it consists of a complete head and complete blocks; or after a complete head and complete blocks there is a rest that is neither empty nor a complete block. In the first case start-up fails with the message that names what is missing or wrong there: the signature is missing or not a known one, or the file is too short for the flags, the integer registers, the exception PSR or the floating point registers. In the third case it fails with the message that names what is there: the mark of a stack overflow, a truncated block header, or the start and end address of the block that is not complete.", "quantifier": "all contents of the dump file, all images that load, all command lines; in the third case, blocks that fit and are not where the image is", "why_tests_cant": "Tests cut one file at a handful of places; that each cut, and each damage, gives its own message ranges over every file.", "anchors": ["libCrashDebug/src/CrashCatcherDump.c:validateDumpSignature", "libCrashDebug/src/CrashCatcherDump.c:readFlags", "libCrashDebug/src/CrashCatcherDump.c:readIntegerRegisters", "libCrashDebug/src/CrashCatcherDump.c:readFloatingPointRegisters", "libCrashDebug/src/CrashCatcherDump.c:readNextMemoryRegion", "libCrashDebug/src/CrashCatcherDump.c:createAndLoadMemoryRegion"]}
{"id": "C107", "title": "The first problem, in a fixed order, is the one that is reported; if there is none, start-up succeeds", "statement": "What can be wrong with the words of the command line, the image, the dump and the aliases is listed once, in the order: a word that is not understood, no image named, no dump named, the image missing, the image damaged, the dump missing, something wrong before the dump's memory, a block of the dump where the image is, a block of the dump that is incomplete, text that is not hexadecimal after complete blocks, an alias that leads nowhere. Start-up fails with exactly the code and message of the first of these that applies, and succeeds exactly if none applies. Exactly one of the two is the case, and there is only one first problem.", "quantifier": "all command lines, all files; the image is below 4 GiB, its segments fit into the address space without overlapping, the dump's memory fits, no alias leads to another alias, and there is enough memory", "why_tests_cant": "Tests break one thing at a time; which of several problems is reported, and that a file without any of them is accepted, ranges over all combinations of files and options.", "anchors": ["libCrashDebug/src/CrashDebugCommandLine.c:CrashDebugCommandLine_Init", "libCrashDebug/src/CrashDebugCommandLine.c:loadImageFile", "libCrashDebug/src/CrashDebugCommandLine.c:loadDumpFile", "libCrashDebug/src/CrashCatcherDump.c:CrashCatcherDump_ReadBinary", "libCrashDebug/src/CrashCatcherDump.c:CrashCatcherDump_ReadHex", "libCrashDebug/src/GdbLogParser.c:GdbLogParse", "libCrashDebug/src/ElfLoad.c:ElfLoad_FromMemory", "libCrashDebug/src/MemorySim.c:MemorySim_CreateAlias"]}
{"id": "C108", "title": "When start-up fails, the program says why", "statement": "A start-up that fails prints \"ERROR: \" followed by a message that is not empty, then the copyright notice and the usage text.", "quantifier": "all command lines, all files, and all failures of allocations and of operations on files", "why_tests_cant": "Tests compare the messages of the failures they provoke; that no failure is without one ranges over all files and all the ways in which they can be wrong.", "anchors": ["libCrashDebug/src/CrashDebugCommandLine.c:displayExceptionMessage", "libCrashDebug/src/CrashCatcherDump.c:nibbleDigitToVal", "libCrashDebug/src/GdbLogParser.c:GdbLogParse", "include/try_catch.h:__throw"]}
{"id": "C109", "title": "Every file has exactly one meaning as a log", "statement": "Whatever bytes a file consists of, if it is read as a GDB log, each of its lines (of at most 1023 characters, up to the first NUL) is taken for exactly one thing: memory words at an address, a value of one register, or nothing. The rules are those of a short specification. Nothing else about the file matters: two files whose lines are taken for the same things lead to the same outcome. The memory regions created, the words in them, the registers and the floating point flag are those of these lines; for well-formed logs they are what the log shows.", "quantifier": "all files, of any length and contents; all states of the simulator; for the memory read back, memory that fits next to what is there", "why_tests_cant": "Tests parse some logs; that no file has an unforeseen effect ranges over all byte sequences.", "anchors": ["libCrashDebug/src/GdbLogParser.c:GdbLogParse", "libCrashDebug/src/GdbLogParser.c:parseLine", "libCrashDebug/src/GdbLogParser.c:parseMemoryLine", "libCrashDebug/src/GdbLogParser.c:parseRegisterLine", "libCrashDebug/src/GdbLogParser.c:parseFloatRegisterLine"]}
{"id": "C110", "title": "GDB and the program mean the same registers", "statement": "The target description the program sends makes GDB expect the registers in exactly the order in which the register packet has them (their numbers increase in that order, and the packet is the values of the described registers one after the other, d0 to d15 as pairs of single precision registers), the stop reply names r12, sp, lr and pc by the numbers the description gives them and with the values the register packet has for them, and every register is declared in the standard feature in which GDB looks for it, sp and pc as addresses and d0 to d15 as double precision numbers.", "quantifier": "all register contents, with and without floating point registers, all packet buffers with room for the reply", "why_tests_cant": "The tests compare each text with a literal of its own; that the texts of three different replies fit together for every session is a relation between them that no single comparison states.", "anchors": ["libCrashDebug/src/mriPlatform.c:g_targetXML", "libCrashDebug/src/mriPlatform.c:g_targetFpuXML", "libCrashDebug/src/mriPlatform.c:Platform_WriteTResponseRegistersToBuffer", "libCrashDebug/src/mriPlatform.c:Platform_CopyContextToBuffer"]}
{"id": "C111", "title": "The usage text is right", "statement": "Every failed start-up ends its output with the same usage text. Read as usage texts are read (parentheses enclose alternatives, square brackets what may be left out, an option may come in any order, in upper or lower case and more than once), its synopsis describes exactly the command lines that CrashDebugCommandLine_Init understands: a command line as shown is never refused for its form (invalidArgumentException), and every other one is. (Where the synopsis has alternatives, both may be given; C52 says which one counts.)", "quantifier": "every command line, every state of files and memory", "why_tests_cant": "unboundedly many command lines, with every number of options, words and order", "anchors": ["libCrashDebug/src/CrashDebugCommandLine.c:displayUsage", "libCrashDebug/src/CrashDebugCommandLine.c:parseArguments", "libCrashDebug/src/CrashDebugCommandLine.c:throwIfRequiredArgumentNotSpecified"]}
{"id": "C112", "title": "The README's recipe for a manual dump records the crash", "statement": "If GDB, attached to the crashed device, runs the commands the README gives under Manual Crash Dump (a loop of x/4wx over each range of RAM, then info all-registers) and CrashDebug is started with the image and the log GDB wrote, then start-up succeeds, every word in those ranges reads as it was in the device, every register is what info all-registers showed, and GDB is told this for the rest of the session. This holds whatever the device's memory contains and however many ranges there are, adjacent or apart, as long as they and the image do not overlap.", "quantifier": "every content of the device's memory, every list of RAM ranges, every output of info all-registers, every image, every command line, every session", "why_tests_cant": "unboundedly many memory contents, ranges and sessions", "anchors": ["README.creole:Manual Crash Dump", "libCrashDebug/src/GdbLogParser.c:GdbLogParse", "libCrashDebug/src/CrashDebugCommandLine.c:CrashDebugCommandLine_Init"]}
{"id": "C113", "title": "The simulator's linked data structures are sound", "statement": "Whatever is done with the memory simulator, in whatever order, whichever allocations fail and whichever calls raise exceptions: the linked list of regions, the watchpoint arrays that are moved and shifted, the buffers and the memory map behave as an ordered list of regions would, with the same answers and exceptions. No block is used or released after it was released, every loop over the regions ends, and (for callers that keep the simulator's rules, see C11) no null pointer is followed and no array is left. Memory that was allocated by others is neither written nor released, and what it holds makes no difference. Giving the simulator up releases every block (except as in C25).", "quantifier": "every sequence of calls of the simulator's API and of uses of the host pointers it returns, every pattern of failing allocations", "why_tests_cant": "pointer errors show only in particular sequences of calls with particular allocations failing; there are unboundedly many", "anchors": ["libCrashDebug/src/MemorySim.c:addRegionToTail", "libCrashDebug/src/MemorySim.c:freeLastRegion", "libCrashDebug/src/MemorySim.c:MemorySim_Uninit", "libCrashDebug/src/MemorySim.c:findMatchingRegion", "libCrashDebug/src/MemorySim.c:growWatchpointArrayIfNeeded", "libCrashDebug/src/MemorySim.c:setWatchpoint", "libCrashDebug/src/MemorySim.c:clearWatchpoint", "libCrashDebug/src/MemorySim.c:MemorySim_GetMemoryMapXML"]}
{"id": "C114", "title": "The line ends of a text file with a crash do not matter", "statement": "A crash dump in text form means the same whatever its line ends are, so a dump captured on one system can be debugged on another. A hexadecimal dump, damaged or not, leads to the same outcome however its lines are broken; a GDB log leads to the same outcome if its lines end in a carriage return and a line feed instead of a line feed. Start-up, and the whole program, then end in the same way with the same messages, memory and registers.", "quantifier": "every hexadecimal or log file of any bytes, lines of any length, every other way to end the lines, every command line, file system and debug monitor", "why_tests_cant": "line ends can fall anywhere in a file, next to any character, in lines of any length around the size of the line buffer; the tests have a few files with one kind each", "anchors": ["libCrashDebug/src/GdbLogParser.c: GdbLogParse, parseLines, parseLine, isMemoryLine, skipWhitespaceAndSymbol", "libCrashDebug/src/CrashCatcherDump.c: CrashCatcherDump_ReadHex, hexRead", "libCrashDebug/src/CrashDebugCommandLine.c: getFileType, loadDumpFile"]}
{"id": "C115", "title": "The width of the host's long integers does not matter", "statement": "CrashDebug started on a host whose `unsigned long` has 32 bits (such as the Windows build) does exactly what it does on a host of 64 bits: same memory, registers, output and messages, whatever the files contain, as long as the numbers in the complete options of the command line, and those in the log if the dump is one, have at most 32 bits. Crash dumps of CrashCatcher and logs as GDB writes them always satisfy this.", "quantifier": "every command line, every file system, every width of at least 32 bits", "why_tests_cant": "the tests run on one host; the number conversions are reached from every word and line of unboundedly many inputs", "anchors": ["makefile", "libCrashDebug/src/GdbLogParser.c: parseAddress, parseValue, parseRegisterLine, parseFloatRegisterLine", "libCrashDebug/src/CrashDebugCommandLine.c: parseBinFilenameOption, parseAliasOption"]}
{"id": "C116", "title": "A hexadecimal dump with other text around it is not taken for a crash", "statement": "The README asks the user to delete the text that a terminal records before and after CrashCatcher's hexadecimal dump. If some of it is forgotten, start-up is refused; a debug session with a crash that never happened is never started.", "quantifier": "every dump, every text before or after it, every command line and file system", "why_tests_cant": "the text around a dump can be anything, and end anywhere; the tests have one file with a wrong character", "anchors": ["README.creole:CrashCatcher HexDump", "libCrashDebug/src/CrashDebugCommandLine.c: getFileType, loadDumpFile", "libCrashDebug/src/CrashCatcherDump.c: CrashCatcherDump_ReadHex, hexRead", "libCrashDebug/src/GdbLogParser.c: GdbLogParse"]}
{"id": "C117", "title": "What GDB is shown tells one crash from another", "statement": "Two different crashes never look the same in the debugger, and two files that tell of the same crash never look different. After start-up the answers to all reads of bytes, to all writes of bytes and to the request for the registers are the same in two sessions if and only if the crashes have the same byte (or none) at every address, the same writable addresses and the same registers. In particular memory that was not dumped is never mistaken for memory that is zero.", "quantifier": "every pair of command lines and file systems with a valid image, a dump or log of any format and any aliases; every address", "why_tests_cant": "it compares every crash with every other one, at every address", "anchors": ["libCrashDebug/src/mriPlatform.c: Platform_MemRead8, Platform_MemWrite8, Platform_CopyContextToBuffer", "libCrashDebug/src/MemorySim.c", "libCrashDebug/src/CrashDebugCommandLine.c: CrashDebugCommandLine_Init"]}
{"id": "C118", "title": "The program can be run on a host that is strict about alignment", "statement": "Whenever the program accesses its own memory as a 16-bit or 32-bit value, or as a program header of an ELF file, the address is a multiple of the value's alignment. So neither a user's files nor the addresses that GDB asks for can make the program crash on a host on which misaligned accesses trap, and none of it is undefined in C for this reason.", "quantifier": "every command line, image file, dump and log; every later sequence of calls by the debug monitor, with every address", "why_tests_cant": "the tests run on hosts on which misaligned accesses work, so that they pass either way; which accesses are misaligned depends on every address in the files and on how the blocks of memory lie", "anchors": ["libCrashDebug/src/MemorySim.c: read16, read32, write16, write32, load32, MemorySim_LoadFromFlashImage", "libCrashDebug/src/ElfLoad.c: loadFlashLoadableEntries, loadIfFlashLoadableEntry", "libCrashDebug/src/mriPlatform.c: Platform_MemRead32, Platform_MemRead16"]}
{"id": "C119", "title": "Error handling relies on no variable whose value C leaves open", "statement": "Errors are reported with setjmp and longjmp. After a longjmp, the local variables of the function that catches the error have open values if they were changed since its setjmp and are not volatile. No function looks at such a variable (or at one that was never initialised), so that a file is closed, a buffer freed and a message printed for the right object, whichever compiler and optimisation is used. Nor does a function return from inside a try block, which would leave a dangling handler.", "quantifier": "every function with a try block; every exception raised at any point by what it calls; every outcome of its conditions and number of rounds of its loops", "why_tests_cant": "with the compiler and options used for the tests the variables happen to keep their values; the standard does not promise it for others", "anchors": ["include/try_catch.h: __try, __catch, __throw", "main/main.c: main", "libCrashDebug/src/CrashCatcherDump.c: CrashCatcherDump_ReadBinary, CrashCatcherDump_ReadHex", "libCrashDebug/src/CrashDebugCommandLine.c: loadFileData, loadImageFile", "libCrashDebug/src/GdbLogParser.c: GdbLogParse", "libCrashDebug/src/MemorySim.c: MemorySim_CreateRegion, MemorySim_CreateAlias"]}
{"id": "C120", "title": "A log can have characters outside ASCII", "statement": "Start-up with a GDB log calls the C library only with arguments for which it is defined, whatever bytes the log has, so that names of symbols in UTF-8 or another encoding of the host do no harm: it ends in the same way whether the host's char is signed or not. [Violated where char is signed: bytes from 0x80 to 0xFE in a line about memory, such as in the name of a symbol, or in a line about a register s0 to s31, are passed to isspace as negative numbers. It holds where char is unsigned, for all dumps made by CrashCatcher, and for logs whose lines of these two kinds are ASCII.]", "quantifier": "every command line, image and file system; every log; hosts with signed and with unsigned char", "why_tests_cant": "all tests use logs of ASCII, and the C library of the host they run on happens to tolerate negative characters", "anchors": ["libCrashDebug/src/GdbLogParser.c: skipWhitespace, skipSymbol, findWhitespace, GdbLogParse", "libCrashDebug/src/CrashDebugCommandLine.c: CrashDebugCommandLine_Init"]}
{"id": "C121", "title": "CrashDebug can be used again in the same process", "statement": "Start-up depends only on the command line and on what fopen and malloc answer from then on. Nothing that the process did with the library before has an influence: neither start-ups that worked or failed, nor debugging, nor releasing. Start-up ends in the same way as in a fresh process, with the same exception if any, the same registers and memory, the same text printed, and the same number of files and blocks left in use. The debug session that follows is the same, too: any sequence of calls ends in the same registers, memory, packets, console output and pending faults, and reads give the same values.", "quantifier": "every command line and file system; every history of start-ups, debug sessions and releases before it; for start-up itself also every failure of malloc and fopen that is the same in both; every sequence of platform calls in the session", "why_tests_cant": "the objects are static and shared between all uses in a process; the tests reset them in a few orders and cannot try all histories", "anchors": ["libCrashDebug/src/CrashDebugCommandLine.c: CrashDebugCommandLine_Init, CrashDebugCommandLine_Uninit", "libCrashDebug/src/MemorySim.c: MemorySim_Init, MemorySim_Uninit", "libCrashDebug/src/mriPlatform.c: mriPlatform_Init, mriPlatform_Run"]}
{"id": "C122", "title": "The byte order of the host does not matter", "statement": "The crashed program's memory and the ELF file are those of a little-endian target. The values of 8, 16 and 32 bits that IMemory reads from memory and writes to it, the bytes loaded from an image, the check of the ELF header, and the registers exchanged with GDB in target byte order, are the same on hosts that store the most significant byte first as on those that store it last. [Violated on hosts that store it first: values of 16 and 32 bits are read and written with their bytes in the opposite order, because the simulator accesses its bytes through pointers to uint16_t and uint32_t, every ELF file that is accepted elsewhere is refused, and the registers are sent and stored with their bytes in the opposite order. Raw images are loaded and single bytes are accessed right, a value written is read back, GDB gets the registers it has set, and the same accesses are refused.]", "quantifier": "every simulator state, address, width and value; every ELF header; all registers; hosts of both byte orders", "why_tests_cant": "the tests run on little-endian hosts only", "anchors": ["libCrashDebug/src/MemorySim.c: read32, read16, read8, write32, write16, write8, MemorySim_LoadFromFlashImage", "include/IMemory.h: IMemory_Read32, IMemory_Write32", "libCrashDebug/src/ElfLoad.c: validateElfHeaderContents", "libCrashDebug/src/mriPlatform.c: Platform_CopyContextToBuffer, Platform_CopyContextFromBuffer, Platform_WriteTResponseRegistersToBuffer"]}
