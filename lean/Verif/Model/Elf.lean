import Verif.Model.MemorySim
/-
Model of libCrashDebug/src/ElfLoad.c (line numbers refer to that file unless stated otherwise).

Pointers into the blob are modelled by the list of bytes from the pointer to the end of the caller's buffer.
Simplification: the casts to `Elf32_Ehdr*` / `Elf32_Phdr*` are taken to work at any alignment; Model/Strict.lean does without.
-/
namespace Verif.Elf
open Verif MemSim

/-- Reading an `n`-byte little-endian field at offset `off` of the structure `p` points to
(libCrashDebug/src/ElfPriv.h:95-124). -/
def field (p : List U8) (off n : Nat) : M Sim Nat :=
  if off + n ≤ p.length then pure (leVal ((p.drop off).take n)) else M.ub .outOfBounds

/-- `fetchSizedByteArray`, libCrashDebug/src/ElfLoad.c:71-76. `offset + size` is a `uint32_t` sum, compared as `size_t`. -/
def fetchSizedByteArray (blob : List U8) (blobSize : Nat) (offset size : U32) : M Sim (List U8) :=
  if offset.toNat > blobSize ∨ (offset + size).toNat > blobSize then M.throw .elfFormat
  else pure (blob.drop offset.toNat)

/-- `initLoadObject`, libCrashDebug/src/ElfLoad.c:52-63: the pointer to the ELF header. -/
def initLoadObject (blob : List U8) (blobSize : Nat) : M Sim (List U8) :=
  M.tryCatch (fetchSizedByteArray blob blobSize 0 52)
    (fun e => M.throw e.code (asc "ELF was too short to contain valid header."))

/-- Reading the first `n` bytes of a structure. See libCrashDebug/src/ElfLoad.c:52-63, 105-119. -/
def bytesOf (p : List U8) (n : Nat) : M Sim (List U8) :=
  if n ≤ p.length then pure (p.take n) else M.ub .outOfBounds

/-- Decimal, as printed by `%u` (and by `%d` for values below 2^31). See libCrashDebug/src/ElfLoad.c:96, 114. -/
def fmtU (n : Nat) : Str := asc (Nat.repr n)

/-- `%d` of a `uint32_t` argument: it is printed as an `int`. See libCrashDebug/src/ElfLoad.c:96, 114, 136. -/
def fmtD (x : U32) : Str := asc (toString x.toInt)

/-- `validateElfHeaderContents`, libCrashDebug/src/ElfLoad.c:78-98. -/
def validateElfHeaderContents (hdr : List U8) : M Sim Unit := do
  let magic ← bytesOf hdr 4
  if magic ≠ [0x7F, 0x45, 0x4C, 0x46] then
    M.throw .elfFormat (asc "ELF header doesn't start with expected magic ELF identifier.")
  else do
  let cls ← field hdr 4 1
  if cls ≠ 1 then M.throw .elfFormat (asc "ELF header doesn't contain 32-bit flag.")
  else do
  let data ← field hdr 5 1
  if data ≠ 1 then M.throw .elfFormat (asc "ELF header doesn't contain little endian flag.")
  else do
  let type ← field hdr 16 2
  if type ≠ 2 then M.throw .elfFormat (asc "ELF header doesn't contain executable flag.")
  else do
  let phoff ← field hdr 28 4
  if phoff = 0 then M.throw .elfFormat (asc "ELF header contains an invalid offset of 0 for the page headers.")
  else do
  let phnum ← field hdr 44 2
  if phnum = 0 then M.throw .elfFormat (asc "ELF header contains an invalid page header entry count of 0.")
  else do
  let phentsize ← field hdr 42 2
  if phentsize < 32 then
    M.throw .elfFormat (asc "ELF header contains a page header entry size of " ++ fmtU phentsize ++
      asc ", which is smaller than the expected size of 32.")
  else pure ()

/-- `isFlashLoadableEntry`, libCrashDebug/src/ElfLoad.c:145-150 (`p_type`, `p_filesz`, `p_memsz` are at 0, 16, 20). -/
def isFlashLoadableEntry (phdr : List U8) : M Sim Bool := do
  let type ← field phdr 0 4
  if type = 1 then do
    let filesz ← field phdr 16 4
    if filesz ≠ 0 then do
      let memsz ← field phdr 20 4
      let filesz ← field phdr 16 4
      pure (decide (memsz ≥ filesz))
    else pure false
  else pure false

/-- `loadIfFlashLoadableEntry`, libCrashDebug/src/ElfLoad.c:122-143 (`p_offset`, `p_paddr`, `p_filesz` are at 4, 12, 16).
Returns the new `entryLoadCount`, a `uint32_t`. -/
def loadIfFlashLoadableEntry (blob : List U8) (blobSize : Nat) (phdr : List U8) (entryLoadCount : U32) : M Sim U32 := do
  let loadable ← isFlashLoadableEntry phdr
  if loadable then do
    let offset ← field phdr 4 4
    let filesz ← field phdr 16 4
    let offset : U32 := BitVec.ofNat 32 offset
    let filesz : U32 := BitVec.ofNat 32 filesz
    let data ← M.tryCatch (fetchSizedByteArray blob blobSize offset filesz)
      (fun e => M.throw e.code (asc "ELF failed to load entry from file at offsets " ++ fmtD offset ++ asc " to " ++
        fmtD (offset + filesz - 1) ++ asc "."))
    let paddr ← field phdr 12 4
    let paddr : U32 := BitVec.ofNat 32 paddr
    createRegion paddr filesz
    loadFromFlashImage paddr data filesz
    makeRegionReadOnly paddr
    pure (entryLoadCount + 1)
  else pure entryLoadCount

/-- The loop of `loadFlashLoadableEntries`, libCrashDebug/src/ElfLoad.c:105-119: `n` entries are left, the next is number `i`,
at `offset`. -/
def loadEntries (blob : List U8) (blobSize : Nat) (phentsize : Nat) :
    (n i : Nat) → (offset : U32) → (entryLoadCount : U32) → M Sim U32
  | 0, _, _, count => pure count
  | n + 1, i, offset, count => do
    let phdr ← M.tryCatch (fetchSizedByteArray blob blobSize offset 32)
      (fun e => M.throw e.code (asc "ELF page header entry " ++ fmtU i ++ asc " is at an invalid file offset of " ++
        fmtU offset.toNat ++ asc "."))
    let count ← loadIfFlashLoadableEntry blob blobSize phdr count
    loadEntries blob blobSize phentsize n (i + 1) (offset + BitVec.ofNat 32 phentsize) count

/-- `loadFlashLoadableEntries`, libCrashDebug/src/ElfLoad.c:100-120 (`e_phoff`, `e_phentsize`, `e_phnum` are at 28, 42, 44). -/
def loadFlashLoadableEntries (blob : List U8) (blobSize : Nat) (hdr : List U8) : M Sim U32 := do
  let phoff ← field hdr 28 4
  let phentsize ← field hdr 42 2
  let phnum ← field hdr 44 2
  loadEntries blob blobSize phentsize phnum 0 (BitVec.ofNat 32 phoff) 0

/-- `ElfLoad_FromMemory`, libCrashDebug/src/ElfLoad.c:41-50. `blob` are the bytes from `pElf` to the end of the caller's buffer. -/
def fromMemory (blob : List U8) (elfSize : Nat) : M Sim Unit := do
  let hdr ← initLoadObject blob elfSize
  validateElfHeaderContents hdr
  let count ← loadFlashLoadableEntries blob elfSize hdr
  if count = 0 then
    M.throw .elfFormat
      (asc "ELF contained no entries which were loadable and had a valid non-zero filesz <= to memsz.")
  else pure ()

end Verif.Elf
