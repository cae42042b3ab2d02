import Verif.Model.MemorySim
/-
Model of libCrashDebug/src/MemorySim.c with its pointers: the regions are blocks of the heap, linked through `pNext`, and own
further blocks. `Model/MemorySim.lean` has them as a list; `Props/MemPtr.lean` shows that the two agree. All line numbers below
refer to MemorySim.c.
-/
namespace Verif.MemPtr
open Verif MemSim

/-- A pointer: NULL, or the number of the allocation that returned it. As in the C standard, using a pointer after `free` is undefined even if its
address is in use again, so every access to a released block is noticed. MemorySim.c compares no pointers. Part of the meaning of C; models no code of its own in /repo. -/
abbrev Ptr := Option Nat

/-- `struct MemoryRegion`, libCrashDebug/src/MemorySim.c:100-115. Simplification: as in Model/MemorySim.lean the watchpoint counts
are unbounded. -/
structure Node where
  pNext : Ptr := none
  pRedirect : Ptr := none
  pData : Ptr := none
  pWatchpoints : Ptr := none
  pReadCounts : Ptr := none
  baseAddress : U32 := 0
  redirectAddress : U32 := 0
  size : U32 := 0
  watchpointCount : Nat := 0
  watchpointAlloc : Nat := 0
  readCounts : Nat := 0
  isReadOnly : Bool := false
  isAlias : Bool := false

/-- What a block of the heap holds. In an array of watchpoints, `none` is an entry that was never written. See
libCrashDebug/src/MemorySim.c:92-115, 122. -/
inductive Block
  | node (n : Node)
  | bytes (bs : List U8)
  | watch (ws : List (Option Watchpoint))
  | counts (cs : List U32)
  | text (t : Str)

/-- The heap: `fails n` tells whether the n-th allocation returns NULL, `next` is the number of allocations attempted, `live` the
number of blocks not yet freed. Part of the meaning of C; models no code of its own in /repo. -/
structure Store where
  fails : Nat → Bool
  next : Nat := 0
  live : Int := 0
  blocks : Nat → Option Block := fun _ => none

/-- `struct MemorySim`, libCrashDebug/src/MemorySim.c:117-124, plus the heap. `hits` is `watchpointEncountered`. -/
structure PSim where
  pHeadRegion : Ptr := none
  pTailRegion : Ptr := none
  pMemoryMapXML : Ptr := none
  hits : Nat := 0
  heap : Store

/-- `MemorySim_Init`, libCrashDebug/src/MemorySim.c:129-134. -/
def init (h : Store) : PSim := { heap := h }

/-! ### The heap -/

/-- `p` with the value at `x` replaced. Part of the meaning of C; models no code of its own in /repo. -/
def put (f : Nat → Option Block) (x : Nat) (b : Option Block) : Nat → Option Block := fun y => if y = x then b else f y

/-- `malloc` of a block with these contents. See libCrashDebug/src/MemorySim.c:192-195. -/
def malloc (b : Block) : M PSim Ptr := fun s =>
  if s.heap.fails s.heap.next then .ok none { s with heap := { s.heap with next := s.heap.next + 1 } }
  else .ok (some s.heap.next)
    { s with heap := { s.heap with next := s.heap.next + 1, live := s.heap.live + 1, blocks := put s.heap.blocks s.heap.next (some b) } }

/-- `free`. Freeing a block a second time is undefined. See libCrashDebug/src/MemorySim.c:154, 163-166. -/
def free : Ptr → M PSim Unit
  | none => pure ()
  | some x => fun s =>
    match s.heap.blocks x with
    | none => .ub .dangling
    | some _ => .ok () { s with heap := { s.heap with live := s.heap.live - 1, blocks := put s.heap.blocks x none } }

/-- Following a pointer. Part of the meaning of C; models no code of its own in /repo. -/
def blockAt : Ptr → M PSim Block
  | none => M.ub .nullDeref
  | some x => fun s =>
    match s.heap.blocks x with
    | none => .ub .dangling
    | some b => .ok b s

/-- Storing through a pointer. Part of the meaning of C; models no code of its own in /repo. -/
def setBlock (p : Ptr) (b : Block) : M PSim Unit :=
  match p with
  | none => M.ub .nullDeref
  | some x => fun s =>
    match s.heap.blocks x with
    | none => .ub .dangling
    | some _ => .ok () { s with heap := { s.heap with blocks := put s.heap.blocks x (some b) } }

/-- Dereferencing a `MemoryRegion*`. See libCrashDebug/src/MemorySim.c:100-115. -/
def nodeAt (p : Ptr) : M PSim Node := do
  match ← blockAt p with
  | .node n => pure n
  | _ => M.ub .outOfBounds

/-- Storing into fields of a `MemoryRegion`. See libCrashDebug/src/MemorySim.c:177-180. -/
def setNode (p : Ptr) (f : Node → Node) : M PSim Unit := do
  let n ← nodeAt p
  setBlock p (.node (f n))

/-- The array behind a `Watchpoint*`. See libCrashDebug/src/MemorySim.c:105. -/
def watchAt (p : Ptr) : M PSim (List (Option Watchpoint)) := do
  match ← blockAt p with
  | .watch ws => pure ws
  | _ => M.ub .outOfBounds

/-- The array behind `pReadCounts`. See libCrashDebug/src/MemorySim.c:106. -/
def countsAt (p : Ptr) : M PSim (List U32) := do
  match ← blockAt p with
  | .counts cs => pure cs
  | _ => M.ub .outOfBounds

/-- The buffer behind `pData`. See libCrashDebug/src/MemorySim.c:104. -/
def bytesAt (p : Ptr) : M PSim (List U8) := do
  match ← blockAt p with
  | .bytes bs => pure bs
  | _ => M.ub .outOfBounds

/-- `throwingZeroedMalloc`, libCrashDebug/src/MemorySim.c:190-197; `zeroed` is what the zeroed block holds. -/
def throwingZeroedMalloc (zeroed : Block) : M PSim Ptr := do
  match ← malloc zeroed with
  | none => M.throw .outOfMemory
  | some x => pure (some x)

/-! ### Regions -/

/-- `freeRegion`, libCrashDebug/src/MemorySim.c:158-167. -/
def freeRegion (pRegion : Ptr) : M PSim Unit :=
  match pRegion with
  | none => pure ()
  | some _ => do
    let n ← nodeAt pRegion
    free n.pReadCounts
    free n.pWatchpoints
    free n.pData
    free pRegion

/-- The loop of `MemorySim_Uninit`, libCrashDebug/src/MemorySim.c:145-151, for at most `fuel` rounds. -/
def uninitLoop : (fuel : Nat) → (pCurr : Ptr) → M PSim Unit
  | _, none => pure ()
  | 0, some _ => M.ub .outOfFuel
  | fuel + 1, some x => do
    let n ← nodeAt (some x)
    freeRegion (some x)
    uninitLoop fuel n.pNext

/-- `MemorySim_Uninit`, libCrashDebug/src/MemorySim.c:137-156 (for a non-NULL simulator). The loops over the regions are given as
many rounds as there were allocations; a list that does not end is then noticed. -/
def uninit : M PSim Unit := do
  let s ← M.get
  uninitLoop s.heap.next s.pHeadRegion
  M.modify fun s => { s with pHeadRegion := none, pTailRegion := none }
  free s.pMemoryMapXML
  M.modify fun s => { s with pMemoryMapXML := none }

/-- `addRegionToTail`, libCrashDebug/src/MemorySim.c:199-206. -/
def addRegionToTail (pRegion : Ptr) : M PSim Unit := do
  let s ← M.get
  match s.pTailRegion with
  | none => M.modify fun s => { s with pHeadRegion := pRegion }
  | some t => setNode (some t) fun n => { n with pNext := pRegion }
  M.modify fun s => { s with pTailRegion := pRegion }

/-- `MemorySim_CreateRegion`, libCrashDebug/src/MemorySim.c:170-188. If the first allocation fails, `pRegion` is NULL in the handler,
which then does nothing but throw again. -/
def createRegion (baseAddress size : U32) : M PSim Unit := do
  let pRegion ← throwingZeroedMalloc (.node {})
  M.tryCatch (do
      setNode pRegion fun n => { n with baseAddress := baseAddress }
      setNode pRegion fun n => { n with size := size }
      let pData ← throwingZeroedMalloc (.bytes (List.replicate size.toNat 0))
      setNode pRegion fun n => { n with pData := pData }
      addRegionToTail pRegion)
    (fun e => do freeRegion pRegion; M.rethrow e)

/-- The test of libCrashDebug/src/MemorySim.c:256. -/
def Node.contains (n : Node) (address : U32) (size : Nat) : Bool :=
  decide (n.baseAddress.toNat ≤ address.toNat) && decide (address.toNat + size ≤ n.baseAddress.toNat + n.size.toNat)

/-- The loop of `findMatchingRegion`, libCrashDebug/src/MemorySim.c:253-267, for at most `fuel` rounds. -/
def findLoop : (fuel : Nat) → (pCurr : Ptr) → (address : U32) → (size : Nat) → M PSim (Ptr × U32)
  | _, none, _, _ => M.throw .busError
  | 0, some _, _, _ => M.ub .outOfFuel
  | fuel + 1, some x, address, size => do
    let n ← nodeAt (some x)
    if n.contains address size then
      if n.isAlias then pure (n.pRedirect, (address - n.baseAddress) + n.redirectAddress) else pure (some x, address)
    else findLoop fuel n.pNext address size

/-- `findMatchingRegion`, libCrashDebug/src/MemorySim.c:248-268. -/
def findMatchingRegion (address : U32) (size : Nat) : M PSim (Ptr × U32) := do
  let s ← M.get
  findLoop s.heap.next s.pHeadRegion address size

/-- `MemorySim_CreateAlias`, libCrashDebug/src/MemorySim.c:209-237. -/
def createAlias (aliasAddress redirectAddress size : U32) : M PSim Unit := do
  let pRegion ← throwingZeroedMalloc (.node {})
  M.tryCatch (do
      setNode pRegion fun n => { n with baseAddress := aliasAddress }
      setNode pRegion fun n => { n with redirectAddress := redirectAddress }
      let (pRedirect, _) ← findMatchingRegion redirectAddress 1
      let t ← nodeAt pRedirect
      let r ← nodeAt pRegion
      let maxSize := t.size - (r.redirectAddress - t.baseAddress)
      setNode pRegion fun n => { n with size := if size.toNat > maxSize.toNat then maxSize else size }
      setNode pRegion fun n => { n with pRedirect := pRedirect }
      let pData ← throwingZeroedMalloc (.bytes (List.replicate size.toNat 0))
      setNode pRegion fun n => { n with pData := pData }
      setNode pRegion fun n => { n with isAlias := true }
      let t ← nodeAt pRedirect
      setNode pRegion fun n => { n with isReadOnly := t.isReadOnly }
      addRegionToTail pRegion)
    (fun e => do freeRegion pRegion; M.rethrow e)

/-- `MemorySim_MakeRegionReadOnly` and `allocateReadCountArrayForReadOnlyRegion`, libCrashDebug/src/MemorySim.c:240-246 and 270-275. -/
def makeRegionReadOnly (baseAddress : U32) : M PSim Unit := do
  let (pRegion, _) ← findMatchingRegion baseAddress 1
  setNode pRegion fun n => { n with isReadOnly := true }
  let n ← nodeAt pRegion
  let halfWordCount := n.size.toNat / 2
  let pReadCounts ← throwingZeroedMalloc (.counts (List.replicate halfWordCount 0))
  setNode pRegion fun n => { n with pReadCounts := pReadCounts }
  setNode pRegion fun n => { n with readCounts := halfWordCount }

/-! ### Accesses -/

/-- `pWatchpoints[i]`. See libCrashDebug/src/MemorySim.c:484, 630. -/
def watchEntry (p : Ptr) (i : Nat) : M PSim Watchpoint := do
  let ws ← watchAt p
  match ws[i]? with
  | some (some w) => pure w
  | _ => M.ub .outOfBounds

/-- `watchpointEncountered++`, an `int`. See libCrashDebug/src/MemorySim.c:641. -/
def countHit : M PSim Unit := fun s => if s.hits + 1 ≥ 2 ^ 31 then .ub .signedOverflow else .ok () { s with hits := s.hits + 1 }

/-- The loop of `checkForBreakWatchPoint`, libCrashDebug/src/MemorySim.c:628-647, from `i` on, with `left` entries left. -/
def checkLoop (pWatchpoints : Ptr) : (left i : Nat) → (address endAddress : U32) → (size : Nat) → (type : U32) → M PSim Unit
  | 0, _, _, _, _, _ => pure ()
  | left + 1, i, address, endAddress, size, type => do
    let w ← watchEntry pWatchpoints i
    if type &&& w.type = 0 then checkLoop pWatchpoints left (i + 1) address endAddress size type
    else if w.type = WATCHPOINT_BREAKPOINT then
      if size = 2 ∧ accessInRange w address endAddress then M.throw .hardwareBreakpoint
      else checkLoop pWatchpoints left (i + 1) address endAddress size type
    else if accessInRange w address endAddress then do
      countHit
      checkLoop pWatchpoints left (i + 1) address endAddress size type
    else if w.startAddress.toNat > address.toNat then pure ()
    else checkLoop pWatchpoints left (i + 1) address endAddress size type

/-- `checkForBreakWatchPoint`, libCrashDebug/src/MemorySim.c:621-648. -/
def checkForBreakWatchPoint (pRegion : Ptr) (address : U32) (size : Nat) (type : U32) : M PSim Unit := do
  let n ← nodeAt pRegion
  checkLoop n.pWatchpoints n.watchpointCount 0 address (address + BitVec.ofNat 32 size) size type

/-- `pReadCounts[i]++`. See libCrashDebug/src/MemorySim.c:615. -/
def bumpCount (p : Ptr) (i : Nat) : M PSim Unit := do
  let cs ← countsAt p
  match cs[i]? with
  | some c => setBlock p (.counts (cs.set i (c + 1)))
  | none => M.ub .outOfBounds

/-- libCrashDebug/src/MemorySim.c:614-615: count a 16-bit read in a region that has read counters. -/
def countRead (n : Node) (regionOffset size : Nat) (type : U32) : M PSim Unit :=
  if type = READING ∧ size = 2 ∧ n.pReadCounts.isSome then bumpCount n.pReadCounts (regionOffset / 2) else pure ()

/-- `getDataPointer`, libCrashDebug/src/MemorySim.c:608-619: the block and the offset into it. -/
def getDataPointer (address : U32) (size : Nat) (type : U32) (checkWatchpoints : Bool) : M PSim (Ptr × Nat) := do
  let (pRegion, address) ← findMatchingRegion address size
  let n ← nodeAt pRegion
  let regionOffset := (address - n.baseAddress).toNat
  if type = WRITING ∧ n.isReadOnly then M.throw .busError
  else do
    countRead n regionOffset size type
    if checkWatchpoints then checkForBreakWatchPoint pRegion address size type else pure ()
    let n ← nodeAt pRegion
    pure (n.pData, regionOffset)

/-- Reading `n` bytes through a host pointer. See libCrashDebug/src/MemorySim.c:577-590. -/
def hostRead (p : Ptr × Nat) (n : Nat) : M PSim (List U8) := do
  let bs ← bytesAt p.1
  if p.2 + n ≤ bs.length then pure ((bs.drop p.2).take n) else M.ub .outOfBounds

/-- Writing bytes through a host pointer. See libCrashDebug/src/MemorySim.c:592-605. -/
def hostWrite (p : Ptr × Nat) (new : List U8) : M PSim Unit := do
  let bs ← bytesAt p.1
  if p.2 + new.length ≤ bs.length then setBlock p.1 (.bytes (bs.take p.2 ++ new ++ bs.drop (p.2 + new.length)))
  else M.ub .outOfBounds

/-- `read8/16/32`, libCrashDebug/src/MemorySim.c:577-590, for an access of `n` bytes. -/
def readN (n : Nat) (address : U32) : M PSim Nat := do
  let p ← getDataPointer address n READING true
  let bs ← hostRead p n
  pure (leVal bs)

/-- `write8/16/32`, libCrashDebug/src/MemorySim.c:592-605, for an access of `n` bytes. -/
def writeN (n : Nat) (address : U32) (value : Nat) : M PSim Unit := do
  let p ← getDataPointer address n WRITING true
  hostWrite p (leBytes n value)

/-- `load32` / `load8`, libCrashDebug/src/MemorySim.c:323-331. -/
def loadN (address : U32) (bs : List U8) : M PSim Unit := do
  let p ← getDataPointer address bs.length LOADING false
  hostWrite p bs

/-- The byte loop of `MemorySim_LoadFromFlashImage`, libCrashDebug/src/MemorySim.c:318-320. -/
def loadBytes : (n : Nat) → (address : U32) → (src : List U8) → M PSim Unit
  | 0, _, _ => pure ()
  | _ + 1, _, [] => M.ub .outOfBounds
  | n + 1, address, b :: src => do
    loadN address [b]
    loadBytes n (address + 1) src

/-- The word loop of `MemorySim_LoadFromFlashImage`, libCrashDebug/src/MemorySim.c:311-316, followed by the byte loop. -/
def loadWords : (src : List U8) → (n : Nat) → (address : U32) → M PSim Unit
  | b0 :: b1 :: b2 :: b3 :: rest, n, address =>
    if 4 < n then do
      loadN address [b0, b1, b2, b3]
      loadWords rest (n - 4) (address + 4)
    else loadBytes n address (b0 :: b1 :: b2 :: b3 :: rest)
  | src, n, address => if 4 < n then M.ub .outOfBounds else loadBytes n address src

/-- `MemorySim_LoadFromFlashImage`, libCrashDebug/src/MemorySim.c:305-321. -/
def loadFromFlashImage (baseAddress : U32) (image : List U8) (flashImageSize : U32) : M PSim Unit :=
  loadWords image flashImageSize.toNat baseAddress

/-- The loop of `freeLastRegion`, libCrashDebug/src/MemorySim.c:338-342, for at most `fuel` rounds: `pPrev` and `pCurr` at its
end. -/
def lastLoop : (fuel : Nat) → (pPrev pCurr : Ptr) → M PSim (Ptr × Ptr)
  | _, pPrev, none => pure (pPrev, none)
  | 0, _, some _ => M.ub .outOfFuel
  | fuel + 1, pPrev, some x => do
    let n ← nodeAt (some x)
    match n.pNext with
    | none => pure (pPrev, some x)
    | some y => lastLoop fuel (some x) (some y)

/-- `freeLastRegion`, libCrashDebug/src/MemorySim.c:333-349. -/
def freeLastRegion : M PSim Unit := do
  let s ← M.get
  let (pPrev, pCurr) ← lastLoop s.heap.next none s.pHeadRegion
  match pPrev with
  | none => M.modify fun s => { s with pHeadRegion := none }
  | some x => setNode (some x) fun n => { n with pNext := none }
  M.modify fun s => { s with pTailRegion := pPrev }
  freeRegion pCurr

/-- `MemorySim_CreateRegionsFromFlashImage`, libCrashDebug/src/MemorySim.c:278-303. -/
def createRegionsFromFlashImage (image : List U8) (flashImageSize : U32) : M PSim Unit := do
  if flashImageSize.toNat < 4 then M.throw .bufferOverrun
  else do
    createRegion FLASH_BASE_ADDRESS flashImageSize
    loadFromFlashImage FLASH_BASE_ADDRESS image flashImageSize
    M.tryCatch (do
        makeRegionReadOnly FLASH_BASE_ADDRESS
        if image.length < 4 then M.ub .outOfBounds
        else do
          let endRAMAddress : U32 := BitVec.ofNat 32 (leVal (image.take 4))
          let baseRAMAddress := endRAMAddress &&& RAM_ADDRESS_MASK
          createRegion baseRAMAddress (endRAMAddress - baseRAMAddress))
      (fun e => do freeLastRegion; M.rethrow e)

/-! ### The memory map -/

/-- `countRegions`, libCrashDebug/src/MemorySim.c:372-382, for at most `fuel` rounds. -/
def countLoop : (fuel : Nat) → (pCurr : Ptr) → M PSim Nat
  | _, none => pure 0
  | 0, some _ => M.ub .outOfFuel
  | fuel + 1, some x => do
    let n ← nodeAt (some x)
    let k ← countLoop fuel n.pNext
    pure (k + 1)

/-- The text printed for one region, libCrashDebug/src/MemorySim.c:407-412. -/
def nodeElement (n : Node) : Str :=
  asc "<memory type=\"" ++ (if n.isReadOnly then asc "flash" else asc "ram") ++
  asc "\" start=\"0x" ++ fmtX n.baseAddress ++
  asc "\" length=\"0x" ++ fmtX n.size ++ asc "\">" ++
  (if n.isReadOnly then asc " <property name=\"blocksize\">1</property>" else []) ++ asc "</memory>"

/-- The loop of `appendMemoryMapRegions`, libCrashDebug/src/MemorySim.c:400-419, for at most `fuel` rounds. As in
Model/MemorySim.lean, `text` is what has been written so far and `size` the room left. -/
def appendLoop : (fuel : Nat) → (pCurr : Ptr) → (text : Str) → (size : Nat) → M PSim (Str × Nat)
  | _, none, text, size => pure (text, size)
  | 0, some _, _, _ => M.ub .outOfFuel
  | fuel + 1, some x, text, size => do
    let n ← nodeAt (some x)
    let e := nodeElement n
    if (e.length : Int) < toInt32 size then appendLoop fuel n.pNext (text ++ e) (size - e.length) else M.ub .assertFailed

/-- `realloc`, seen as an allocation that always moves the block: what the new block holds is given, the old block is released if
there is one and the allocation succeeds. See libCrashDebug/src/MemorySim.c:386, 522. -/
def realloc (p : Ptr) (b : Block) : M PSim Ptr := do
  match ← malloc b with
  | none => pure none
  | some x => do
    free p
    pure (some x)

/-- `MemorySim_GetMemoryMapXML`, libCrashDebug/src/MemorySim.c:352-427. Simplification: the text is put into the buffer at the end,
not piece by piece. -/
def getMemoryMapXML : M PSim Str := do
  let s ← M.get
  let regionCount ← countLoop s.heap.next s.pHeadRegion
  let allocSize := (xmlHeader.length + 1) + (xmlTrailer.length + 1) + regionCount * (xmlExampleLine.length + 1)
  match ← realloc s.pMemoryMapXML (.text []) with
  | none => M.throw .outOfMemory
  | some x => do
    M.modify fun s => { s with pMemoryMapXML := some x }
    if allocSize < xmlHeader.length + 1 then M.ub .assertFailed
    else do
      let (text, size) ← appendLoop s.heap.next s.pHeadRegion xmlHeader (allocSize - xmlHeader.length)
      if size < xmlTrailer.length + 1 then M.ub .assertFailed
      else do
        setBlock (some x) (.text (text ++ xmlTrailer))
        pure (text ++ xmlTrailer)

/-! ### Pointers, counts, breakpoints and watchpoints -/

/-- `MemorySim_MapSimulatedAddressToHostAddressForWrite`, libCrashDebug/src/MemorySim.c:430-433. -/
def mapForWrite (address size : U32) : M PSim (Ptr × Nat) := getDataPointer address size.toNat WRITING false
/-- `MemorySim_MapSimulatedAddressToHostAddressForRead`, libCrashDebug/src/MemorySim.c:436-439. -/
def mapForRead (address size : U32) : M PSim (Ptr × Nat) := getDataPointer address size.toNat READING false

/-- `MemorySim_GetFlashReadCount`, libCrashDebug/src/MemorySim.c:442-451. -/
def getFlashReadCount (address : U32) : M PSim U32 := do
  let (pRegion, address) ← findMatchingRegion address 2
  let n ← nodeAt pRegion
  let regionOffset := (address - n.baseAddress).toNat
  if ¬ n.isReadOnly then M.throw .busError
  else do
    let cs ← countsAt n.pReadCounts
    match cs[regionOffset / 2]? with
    | some c => pure c
    | none => M.ub .outOfBounds

/-- The loop of `findMatchingOrHigherWatchpoint`, libCrashDebug/src/MemorySim.c:482-497, from `i` on, with `left` entries left:
where it ended, and whether the entry there is the one looked for. -/
def findWatchLoop (pWatchpoints : Ptr) (key : Watchpoint) : (left i : Nat) → M PSim (Nat × Bool)
  | 0, i => pure (i, false)
  | left + 1, i => do
    let w ← watchEntry pWatchpoints i
    if key = w then pure (i, true)
    else if key.startAddress.toNat < w.startAddress.toNat then pure (i, false)
    else findWatchLoop pWatchpoints key left (i + 1)

/-- `memmove` of `n` entries inside an array. See libCrashDebug/src/MemorySim.c:470-472, 546-548. -/
def memmove (p : Ptr) (dest src n : Nat) : M PSim Unit := do
  let ws ← watchAt p
  if dest + n ≤ ws.length ∧ src + n ≤ ws.length then
    setBlock p (.watch (ws.take dest ++ (ws.drop src).take n ++ ws.drop (dest + n)))
  else M.ub .outOfBounds

/-- `pWatchpoints[i] = w`. See libCrashDebug/src/MemorySim.c:473. -/
def setEntry (p : Ptr) (i : Nat) (w : Watchpoint) : M PSim Unit := do
  let ws ← watchAt p
  if i < ws.length then setBlock p (.watch (ws.set i (some w))) else M.ub .outOfBounds

/-- `growWatchpointArrayIfNeeded`, libCrashDebug/src/MemorySim.c:518-528. The new entries of the array are not written. -/
def growWatchpointArrayIfNeeded (pRegion : Ptr) (requiredSize : Nat) : M PSim Unit := do
  let n ← nodeAt pRegion
  if requiredSize > n.watchpointAlloc then do
    let old ← match n.pWatchpoints with
      | none => pure []
      | some x => watchAt (some x)
    match ← realloc n.pWatchpoints (.watch (old.take requiredSize ++ List.replicate (requiredSize - old.length) none)) with
    | none => M.throw .outOfMemory
    | some x => do
      setNode pRegion fun n => { n with pWatchpoints := some x }
      setNode pRegion fun n => { n with watchpointAlloc := requiredSize }
  else pure ()

/-- `setWatchpoint`, libCrashDebug/src/MemorySim.c:459-475. -/
def setWatchpoint (address size type : U32) : M PSim Unit := do
  let (pRegion, address) ← findMatchingRegion address size.toNat
  let w : Watchpoint := { type := type, startAddress := address, endAddress := address + size }
  let n ← nodeAt pRegion
  let (i, found) ← findWatchLoop n.pWatchpoints w n.watchpointCount 0
  if found then pure ()
  else do
    growWatchpointArrayIfNeeded pRegion (n.watchpointCount + 1)
    let n ← nodeAt pRegion
    memmove n.pWatchpoints (i + 1) i (n.watchpointCount - i)
    setEntry n.pWatchpoints i w
    setNode pRegion fun n => { n with watchpointCount := n.watchpointCount + 1 }

/-- `clearWatchpoint`, libCrashDebug/src/MemorySim.c:536-550. -/
def clearWatchpoint (address size type : U32) : M PSim Unit := do
  let (pRegion, address) ← findMatchingRegion address size.toNat
  let w : Watchpoint := { type := type, startAddress := address, endAddress := address + size }
  let n ← nodeAt pRegion
  let (i, found) ← findWatchLoop n.pWatchpoints w n.watchpointCount 0
  if found then do
    memmove n.pWatchpoints i (i + 1) (n.watchpointCount - i - 1)
    setNode pRegion fun n => { n with watchpointCount := n.watchpointCount - 1 }
  else pure ()

/-- `MemorySim_WasWatchpointEncountered`, libCrashDebug/src/MemorySim.c:565-572. -/
def wasWatchpointEncountered : M PSim Nat := fun s => .ok s.hits { s with hits := 0 }

end Verif.MemPtr
