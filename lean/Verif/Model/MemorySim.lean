import Verif.Model.Base
/-
Model of libCrashDebug/src/MemorySim.c (all line numbers below refer to that file unless stated otherwise).
-/
namespace Verif.MemSim
open Verif

/-- `struct Watchpoint`, libCrashDebug/src/MemorySim.c:92-98. `type` is the raw enum value. -/
structure Watchpoint where
  type : U32
  startAddress : U32
  endAddress : U32
  deriving DecidableEq, Repr

/-- include/MemorySim.h:26-31 and line 20. -/
def WATCHPOINT_READ : U32 := 1
/-- include/MemorySim.h:29. -/
def WATCHPOINT_WRITE : U32 := 2
/-- include/MemorySim.h:30. -/
def WATCHPOINT_READ_WRITE : U32 := 3
/-- libCrashDebug/src/MemorySim.c:20: `(1 << 31) | WATCHPOINT_READ`. -/
def WATCHPOINT_BREAKPOINT : U32 := 0x80000001
/-- libCrashDebug/src/MemorySim.c:24-27. -/
def READING : U32 := WATCHPOINT_READ
/-- libCrashDebug/src/MemorySim.c:25. -/
def WRITING : U32 := WATCHPOINT_WRITE
/-- libCrashDebug/src/MemorySim.c:27. -/
def LOADING : U32 := WATCHPOINT_READ

/-- `struct MemoryRegion`, libCrashDebug/src/MemorySim.c:100-115. `pNext` is the position in the list, `pRedirect` the position
of the target region. `data` is the buffer `pData`, `watch` the first `watchpointCount` entries of `pWatchpoints`, `watchAlloc`
is `watchpointAlloc`, `readCounts` is `pReadCounts` (`none` = NULL). Simplification: the 32-bit
`watchpointCount`/`watchpointAlloc` are unbounded (2^32 watchpoints need 48 GiB of host memory). -/
structure Region where
  baseAddress : U32
  size : U32
  data : List U8
  redirectAddress : U32 := 0
  redirect : Option Nat := none
  watch : List Watchpoint := []
  watchAlloc : Nat := 0
  readCounts : Option (List U32) := none
  isReadOnly : Bool := false
  isAlias : Bool := false
  deriving DecidableEq, Repr

/-- The host heap as far as the simulator can observe it: `fails n` tells whether the n-th allocation returns NULL, `next` is
the number of allocations attempted, `live` the number of blocks not yet freed. See libCrashDebug/src/MemorySim.c:192, 386, 522.
-/
structure Heap where
  fails : Nat → Bool
  next : Nat := 0
  live : Int := 0

/-- `struct MemorySim`, libCrashDebug/src/MemorySim.c:117-124, plus the heap. `regions` is the list from `pHeadRegion` to
`pTailRegion`, `hits` is `watchpointEncountered`, `xml` the text in `pMemoryMapXML` (`none` = NULL). -/
structure Sim where
  regions : List Region := []
  hits : Nat := 0
  xml : Option Str := none
  heap : Heap

/-- `MemorySim_Init`, libCrashDebug/src/MemorySim.c:129-134: everything zeroed; the heap is not touched. -/
def init (h : Heap) : Sim := { heap := h }

/-- `malloc` (through MallocFailureInject.h): true on success. -/
def malloc : M Sim Bool := fun s =>
  if s.heap.fails s.heap.next then
    .ok false { s with heap := { s.heap with next := s.heap.next + 1 } }
  else
    .ok true { s with heap := { s.heap with next := s.heap.next + 1, live := s.heap.live + 1 } }

/-- `realloc`: as `malloc`, but the number of live blocks only grows when the old pointer was NULL. See
libCrashDebug/src/MemorySim.c:386, 522. -/
def realloc (wasNull : Bool) : M Sim Bool := fun s =>
  if s.heap.fails s.heap.next then
    .ok false { s with heap := { s.heap with next := s.heap.next + 1 } }
  else
    .ok true { s with heap := { s.heap with next := s.heap.next + 1,
                                            live := s.heap.live + (if wasNull then 1 else 0) } }

/-- `free` of `n` non-NULL pointers. See libCrashDebug/src/MemorySim.c:154, 163-166. -/
def free (n : Nat) : M Sim Unit := fun s =>
  .ok () { s with heap := { s.heap with live := s.heap.live - n } }

/-- `throwingZeroedMalloc`, libCrashDebug/src/MemorySim.c:190-197; the zeroed buffer itself is built by the callers. -/
def throwingZeroedMalloc : M Sim Unit := do
  if ← malloc then pure () else M.throw .outOfMemory

/-- Number of heap blocks held by a region: what `freeRegion` (libCrashDebug/src/MemorySim.c:158-167) releases. -/
def Region.blocks (r : Region) : Nat :=
  (if r.readCounts.isSome then 1 else 0) + (if r.watchAlloc = 0 then 0 else 1) + 1 + 1

/-- Number of heap blocks held by all regions. See libCrashDebug/src/MemorySim.c:163-166. -/
def blocksOf (rs : List Region) : Nat := (rs.map Region.blocks).sum

/-- `MemorySim_Uninit`, libCrashDebug/src/MemorySim.c:137-156 (for a non-NULL simulator). -/
def uninit : M Sim Unit := fun s =>
  .ok () { s with
    regions := [],
    xml := none,
    heap := { s.heap with live := s.heap.live - blocksOf s.regions - (if s.xml.isSome then 1 else 0) } }

/-- `addRegionToTail`, libCrashDebug/src/MemorySim.c:199-206. -/
def addRegionToTail (r : Region) : M Sim Unit := M.modify fun s => { s with regions := s.regions ++ [r] }

/-- `MemorySim_CreateRegion`, libCrashDebug/src/MemorySim.c:170-188. The catch block frees what was allocated so far. -/
def createRegion (baseAddress size : U32) : M Sim Unit := do
  throwingZeroedMalloc
  M.tryCatch throwingZeroedMalloc (fun e => do free 1; M.rethrow e)
  addRegionToTail { baseAddress := baseAddress, size := size, data := List.replicate size.toNat 0 }

/-- The containment test of `findMatchingRegion`, libCrashDebug/src/MemorySim.c:256 (64-bit sums, so no wrap-around). -/
def Region.contains (r : Region) (address : U32) (size : Nat) : Bool :=
  decide (r.baseAddress.toNat ≤ address.toNat) && decide (address.toNat + size ≤ r.baseAddress.toNat + r.size.toNat)

/-- The loop of `findMatchingRegion`, libCrashDebug/src/MemorySim.c:251-266: the first region in creation order that contains
the access, with its position (`k` is the position of the head of the list). -/
def findFrom (k : Nat) : List Region → U32 → Nat → Option (Nat × Region)
  | [], _, _ => none
  | r :: rs, address, size => if r.contains address size then some (k, r) else findFrom (k + 1) rs address size

/-- `findMatchingRegion`, libCrashDebug/src/MemorySim.c:248-268: position of the region that serves the access and the
translated address. An alias answers with its target (line 260-261); a NULL `pRedirect` would be handed to the caller. -/
def findMatchingRegion (address : U32) (size : Nat) : M Sim (Nat × U32) := fun s =>
  match findFrom 0 s.regions address size with
  | none => .throw ⟨.busError, []⟩ s
  | some (i, r) =>
    if r.isAlias then
      match r.redirect with
      | some j => .ok (j, (address - r.baseAddress) + r.redirectAddress) s
      | none => .ub .nullDeref
    else .ok (i, address) s

/-- Dereferencing a `MemoryRegion*`. See libCrashDebug/src/MemorySim.c:147-149, 610-618. -/
def regionAt (i : Nat) : M Sim Region := fun s =>
  match s.regions[i]? with
  | some r => .ok r s
  | none => .ub .dangling

/-- Storing into the fields of a region. See libCrashDebug/src/MemorySim.c:177-180, 524-525. -/
def setRegion (i : Nat) (r : Region) : M Sim Unit := M.modify fun s => { s with regions := s.regions.set i r }

/-- `MemorySim_CreateAlias`, libCrashDebug/src/MemorySim.c:209-237. Note that `maxSize` (line 221) is computed from the redirect
address as given, while `pRedirect` is the region found after translation. -/
def createAlias (aliasAddress redirectAddress size : U32) : M Sim Unit := do
  throwingZeroedMalloc
  M.tryCatch (do
      let (j, _) ← findMatchingRegion redirectAddress 1
      let t ← regionAt j
      let maxSize := t.size - (redirectAddress - t.baseAddress)
      throwingZeroedMalloc
      addRegionToTail
        { baseAddress := aliasAddress,
          size := if size.toNat > maxSize.toNat then maxSize else size,
          data := List.replicate size.toNat 0,
          redirectAddress := redirectAddress,
          redirect := some j,
          isReadOnly := t.isReadOnly,
          isAlias := true })
    (fun e => do free 1; M.rethrow e)

/-- `MemorySim_MakeRegionReadOnly` and `allocateReadCountArrayForReadOnlyRegion`, libCrashDebug/src/MemorySim.c:240-246 and 270-275.
The read-only flag is set before the counter allocation, which may throw; a previous counter array is
overwritten without being freed. -/
def makeRegionReadOnly (baseAddress : U32) : M Sim Unit := do
  let (i, _) ← findMatchingRegion baseAddress 1
  let r ← regionAt i
  setRegion i { r with isReadOnly := true }
  throwingZeroedMalloc
  setRegion i { r with isReadOnly := true, readCounts := some (List.replicate (r.size.toNat / 2) 0) }

/-- `accessInRange`, libCrashDebug/src/MemorySim.c:650-653 (32-bit comparisons). -/
def accessInRange (w : Watchpoint) (startAddress endAddress : U32) : Bool :=
  decide (w.startAddress.toNat ≤ startAddress.toNat) && decide (endAddress.toNat ≤ w.endAddress.toNat)

/-- The loop of `checkForBreakWatchPoint`, libCrashDebug/src/MemorySim.c:628-647: number of increments of the hit counter, and
whether the loop ended by raising `hardwareBreakpointException`. -/
def scanWatch : List Watchpoint → (address endAddress : U32) → (size : Nat) → (type : U32) → Nat × Bool
  | [], _, _, _, _ => (0, false)
  | w :: ws, address, endAddress, size, type =>
    if type &&& w.type = 0 then scanWatch ws address endAddress size type
    else if w.type = WATCHPOINT_BREAKPOINT then
      if size = 2 ∧ accessInRange w address endAddress then (0, true)
      else scanWatch ws address endAddress size type
    else if accessInRange w address endAddress then
      let (n, b) := scanWatch ws address endAddress size type
      (n + 1, b)
    else if w.startAddress.toNat > address.toNat then (0, false)
    else scanWatch ws address endAddress size type

/-- `checkForBreakWatchPoint`, libCrashDebug/src/MemorySim.c:621-648. `watchpointEncountered` is an `int`: overflow is undefined. -/
def checkForBreakWatchPoint (r : Region) (address : U32) (size : Nat) (type : U32) : M Sim Unit := fun s =>
  let (n, b) := scanWatch r.watch address (address + BitVec.ofNat 32 size) size type
  if s.hits + n ≥ 2 ^ 31 then .ub .signedOverflow
  else if b then .throw ⟨.hardwareBreakpoint, []⟩ { s with hits := s.hits + n }
  else .ok () { s with hits := s.hits + n }

/-- libCrashDebug/src/MemorySim.c:614-615: count a 16-bit read in a region that has read counters. -/
def countRead (i : Nat) (r : Region) (regionOffset size : Nat) (type : U32) : M Sim Unit :=
  if type = READING ∧ size = 2 then
    match r.readCounts with
    | none => pure ()
    | some cs =>
      match cs[regionOffset / 2]? with
      | some c => setRegion i { r with readCounts := some (cs.set (regionOffset / 2) (c + 1)) }
      | none => M.ub .outOfBounds
  else pure ()

/-- `getDataPointer`, libCrashDebug/src/MemorySim.c:608-619. The host pointer is the pair (region position, offset into its
buffer). -/
def getDataPointer (address : U32) (size : Nat) (type : U32) (checkWatchpoints : Bool) : M Sim (Nat × Nat) := do
  let (i, address) ← findMatchingRegion address size
  let r ← regionAt i
  let regionOffset := (address - r.baseAddress).toNat
  if type = WRITING ∧ r.isReadOnly then M.throw .busError
  else do
    countRead i r regionOffset size type
    if checkWatchpoints then checkForBreakWatchPoint r address size type else pure ()
    pure (i, regionOffset)

/-- Reading `n` bytes through a host pointer. See libCrashDebug/src/MemorySim.c:577-590. -/
def hostRead (p : Nat × Nat) (n : Nat) : M Sim (List U8) := do
  let r ← regionAt p.1
  if p.2 + n ≤ r.data.length then pure ((r.data.drop p.2).take n) else M.ub .outOfBounds

/-- Writing bytes through a host pointer. See libCrashDebug/src/MemorySim.c:592-605. -/
def hostWrite (p : Nat × Nat) (bs : List U8) : M Sim Unit := do
  let r ← regionAt p.1
  if p.2 + bs.length ≤ r.data.length then
    setRegion p.1 { r with data := r.data.take p.2 ++ bs ++ r.data.drop (p.2 + bs.length) }
  else M.ub .outOfBounds

/-- `read8/16/32`, libCrashDebug/src/MemorySim.c:577-590, for an access of `n` bytes. -/
def readN (n : Nat) (address : U32) : M Sim Nat := do
  let p ← getDataPointer address n READING true
  let bs ← hostRead p n
  pure (leVal bs)

/-- `write8/16/32`, libCrashDebug/src/MemorySim.c:592-605, for an access of `n` bytes. -/
def writeN (n : Nat) (address : U32) (value : Nat) : M Sim Unit := do
  let p ← getDataPointer address n WRITING true
  hostWrite p (leBytes n value)

/-- `read32`, libCrashDebug/src/MemorySim.c:577-580. -/
def read32 (address : U32) : M Sim U32 := do return BitVec.ofNat 32 (← readN 4 address)
/-- `read16`, libCrashDebug/src/MemorySim.c:582-585. -/
def read16 (address : U32) : M Sim U16 := do return BitVec.ofNat 16 (← readN 2 address)
/-- `read8`, libCrashDebug/src/MemorySim.c:587-590. -/
def read8 (address : U32) : M Sim U8 := do return BitVec.ofNat 8 (← readN 1 address)
/-- `write32`, libCrashDebug/src/MemorySim.c:592-595. -/
def write32 (address : U32) (value : U32) : M Sim Unit := writeN 4 address value.toNat
/-- `write16`, libCrashDebug/src/MemorySim.c:597-600. -/
def write16 (address : U32) (value : U16) : M Sim Unit := writeN 2 address value.toNat
/-- `write8`, libCrashDebug/src/MemorySim.c:602-605. -/
def write8 (address : U32) (value : U8) : M Sim Unit := writeN 1 address value.toNat

/-- `load32` / `load8`, libCrashDebug/src/MemorySim.c:323-331: store without read-only and watchpoint checks. -/
def loadN (address : U32) (bs : List U8) : M Sim Unit := do
  let p ← getDataPointer address bs.length LOADING false
  hostWrite p bs

/-- The byte loop of `MemorySim_LoadFromFlashImage`, libCrashDebug/src/MemorySim.c:318-320. `src` are the bytes from the source
pointer to the end of the caller's buffer. -/
def loadBytes : (n : Nat) → (address : U32) → (src : List U8) → M Sim Unit
  | 0, _, _ => pure ()
  | _ + 1, _, [] => M.ub .outOfBounds
  | n + 1, address, b :: src => do
    loadN address [b]
    loadBytes n (address + 1) src

/-- The word loop of `MemorySim_LoadFromFlashImage`, libCrashDebug/src/MemorySim.c:311-316, followed by the byte loop. -/
def loadWords : (src : List U8) → (n : Nat) → (address : U32) → M Sim Unit
  | b0 :: b1 :: b2 :: b3 :: rest, n, address =>
    if 4 < n then do
      loadN address [b0, b1, b2, b3]
      loadWords rest (n - 4) (address + 4)
    else loadBytes n address (b0 :: b1 :: b2 :: b3 :: rest)
  | src, n, address => if 4 < n then M.ub .outOfBounds else loadBytes n address src

/-- `MemorySim_LoadFromFlashImage`, libCrashDebug/src/MemorySim.c:305-321. `image` are the bytes from `pFlashImage` to the end
of the caller's buffer; `flashImageSize` is the size argument. -/
def loadFromFlashImage (baseAddress : U32) (image : List U8) (flashImageSize : U32) : M Sim Unit :=
  loadWords image flashImageSize.toNat baseAddress

/-- `freeLastRegion`, libCrashDebug/src/MemorySim.c:333-349. -/
def freeLastRegion : M Sim Unit := fun s =>
  match s.regions.getLast? with
  | none => .ok () s
  | some r => .ok () { s with regions := s.regions.dropLast,
                              heap := { s.heap with live := s.heap.live - r.blocks } }

/-- include/MemorySim.h:21-24. -/
def FLASH_BASE_ADDRESS : U32 := 0
/-- include/MemorySim.h:24. -/
def RAM_ADDRESS_MASK : U32 := 0xF0000000

/-- `MemorySim_CreateRegionsFromFlashImage`, libCrashDebug/src/MemorySim.c:278-303. -/
def createRegionsFromFlashImage (image : List U8) (flashImageSize : U32) : M Sim Unit := do
  if flashImageSize.toNat < 4 then M.throw .bufferOverrun
  else do
    createRegion FLASH_BASE_ADDRESS flashImageSize
    loadFromFlashImage FLASH_BASE_ADDRESS image flashImageSize
    M.tryCatch (do
        makeRegionReadOnly FLASH_BASE_ADDRESS
        if image.length < 4 then M.ub .outOfBounds
        else do
          let endRAMAddress : U32 := BitVec.ofNat 32 (leVal (image.take 4))
          let baseRAMAddress := endRAMAddress &&& RAM_ADDRESS_MASK
          createRegion baseRAMAddress (endRAMAddress - baseRAMAddress))
      (fun e => do freeLastRegion; M.rethrow e)

/-- One upper-case hexadecimal digit, as printed by `%X`. See libCrashDebug/src/MemorySim.c:408. -/
def hexDigitUpper (n : Nat) : U8 := if n < 10 then BitVec.ofNat 8 (0x30 + n) else BitVec.ofNat 8 (0x37 + n)

/-- Hexadecimal without leading zeros, at least one and at most `fuel` digits. See libCrashDebug/src/MemorySim.c:408. -/
def hexUpper : (fuel : Nat) → Nat → Str
  | 0, _ => []
  | fuel + 1, n => if n < 16 then [hexDigitUpper n] else hexUpper fuel (n / 16) ++ [hexDigitUpper (n % 16)]

/-- `%X` of a `uint32_t`. See libCrashDebug/src/MemorySim.c:408. -/
def fmtX (x : U32) : Str := hexUpper 8 x.toNat

/-- libCrashDebug/src/MemorySim.c:33-36. -/
def xmlHeader : Str := asc ("<?xml version=\"1.0\"?>" ++
  "<!DOCTYPE memory-map PUBLIC \"+//IDN gnu.org//DTD GDB Memory Map V1.0//EN\" \"http://sourceware.org/gdb/gdb-memory-map.dtd\">" ++
  "<memory-map>")
/-- libCrashDebug/src/MemorySim.c:36. -/
def xmlTrailer : Str := asc "</memory-map>"
/-- libCrashDebug/src/MemorySim.c:354. -/
def xmlExampleLine : Str :=
  asc "<memory type=\"flash\" start=\"0x00000000\" length=\"0xFFFFFFFF\"> <property name=\"blocksize\">1</property></memory>"

/-- The text printed for one region, libCrashDebug/src/MemorySim.c:407-412. -/
def xmlElement (r : Region) : Str :=
  asc "<memory type=\"" ++ (if r.isReadOnly then asc "flash" else asc "ram") ++
  asc "\" start=\"0x" ++ fmtX r.baseAddress ++
  asc "\" length=\"0x" ++ fmtX r.size ++ asc "\">" ++
  (if r.isReadOnly then asc " <property name=\"blocksize\">1</property>" else []) ++ asc "</memory>"

/-- `(int)x` for a `size_t` value. See libCrashDebug/src/MemorySim.c:413. -/
def toInt32 (n : Nat) : Int := (BitVec.ofNat 32 n).toInt

/-- `appendMemoryMapRegions`, libCrashDebug/src/MemorySim.c:400-419: `text` is what has been written so far, `size` the room
left. Line 413's assertion compares against the room cast to `int`. -/
def appendMemoryMapRegions : List Region → (text : Str) → (size : Nat) → Option (Str × Nat)
  | [], text, size => some (text, size)
  | r :: rs, text, size =>
    let e := xmlElement r
    if (e.length : Int) < toInt32 size then appendMemoryMapRegions rs (text ++ e) (size - e.length) else none

/-- `MemorySim_GetMemoryMapXML`, libCrashDebug/src/MemorySim.c:352-427. The assertions of lines 394, 413 and 423 are `assertFailed`.
(`sizeof` of a string literal includes the NUL.) -/
def getMemoryMapXML : M Sim Str := do
  let s ← M.get
  let allocSize := (xmlHeader.length + 1) + (xmlTrailer.length + 1) + s.regions.length * (xmlExampleLine.length + 1)
  if ← realloc s.xml.isNone then
    if allocSize < xmlHeader.length + 1 then M.ub .assertFailed
    else
      match appendMemoryMapRegions s.regions xmlHeader (allocSize - xmlHeader.length) with
      | none => M.ub .assertFailed
      | some (text, size) =>
        if size < xmlTrailer.length + 1 then M.ub .assertFailed
        else do
          let text := text ++ xmlTrailer
          M.modify fun s => { s with xml := some text }
          pure text
  else M.throw .outOfMemory

/-- `MemorySim_MapSimulatedAddressToHostAddressForWrite`, libCrashDebug/src/MemorySim.c:430-433. -/
def mapForWrite (address : U32) (size : U32) : M Sim (Nat × Nat) := getDataPointer address size.toNat WRITING false
/-- `MemorySim_MapSimulatedAddressToHostAddressForRead`, libCrashDebug/src/MemorySim.c:436-439. -/
def mapForRead (address : U32) (size : U32) : M Sim (Nat × Nat) := getDataPointer address size.toNat READING false

/-- `MemorySim_GetFlashReadCount`, libCrashDebug/src/MemorySim.c:442-451. -/
def getFlashReadCount (address : U32) : M Sim U32 := do
  let (i, address) ← findMatchingRegion address 2
  let r ← regionAt i
  let regionOffset := (address - r.baseAddress).toNat
  if ¬ r.isReadOnly then M.throw .busError
  else
    match r.readCounts with
    | none => M.ub .nullDeref
    | some cs =>
      match cs[regionOffset / 2]? with
      | some c => pure c
      | none => M.ub .outOfBounds

/-- `findMatchingOrHigherWatchpoint` with `compareWatchpoints`, libCrashDebug/src/MemorySim.c:478-516: position, and whether it
is an exact match. -/
def findWatch (k : Nat) : List Watchpoint → Watchpoint → Nat × Bool
  | [], _ => (k, false)
  | w :: ws, key =>
    if key = w then (k, true)
    else if key.startAddress.toNat < w.startAddress.toNat then (k, false)
    else findWatch (k + 1) ws key

/-- `setWatchpoint` with `growWatchpointArrayIfNeeded`, libCrashDebug/src/MemorySim.c:459-475 and 518-528. -/
def setWatchpoint (address : U32) (size : U32) (type : U32) : M Sim Unit := do
  let (i, address) ← findMatchingRegion address size.toNat
  let r ← regionAt i
  let w : Watchpoint := { type := type, startAddress := address, endAddress := address + size }
  match findWatch 0 r.watch w with
  | (_, true) => pure ()
  | (k, false) =>
    if r.watch.length + 1 > r.watchAlloc then do
      if ← realloc (r.watchAlloc = 0) then
        setRegion i { r with watchAlloc := r.watch.length + 1, watch := r.watch.insertIdx k w }
      else M.throw .outOfMemory
    else setRegion i { r with watch := r.watch.insertIdx k w }

/-- `clearWatchpoint`, libCrashDebug/src/MemorySim.c:536-550. -/
def clearWatchpoint (address : U32) (size : U32) (type : U32) : M Sim Unit := do
  let (i, address) ← findMatchingRegion address size.toNat
  let r ← regionAt i
  let w : Watchpoint := { type := type, startAddress := address, endAddress := address + size }
  match findWatch 0 r.watch w with
  | (k, true) => setRegion i { r with watch := r.watch.eraseIdx k }
  | (_, false) => pure ()

/-- libCrashDebug/src/MemorySim.c:454-457. -/
def setHardwareBreakpoint (address size : U32) : M Sim Unit := setWatchpoint address size WATCHPOINT_BREAKPOINT
/-- libCrashDebug/src/MemorySim.c:531-534. -/
def clearHardwareBreakpoint (address size : U32) : M Sim Unit := clearWatchpoint address size WATCHPOINT_BREAKPOINT
/-- libCrashDebug/src/MemorySim.c:553-556. -/
def setHardwareWatchpoint (address size type : U32) : M Sim Unit := setWatchpoint address size type
/-- libCrashDebug/src/MemorySim.c:559-562. -/
def clearHardwareWatchpoint (address size type : U32) : M Sim Unit := clearWatchpoint address size type

/-- `MemorySim_WasWatchpointEncountered`, libCrashDebug/src/MemorySim.c:565-572. -/
def wasWatchpointEncountered : M Sim Nat := fun s => .ok s.hits { s with hits := 0 }

end Verif.MemSim
