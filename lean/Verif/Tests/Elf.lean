import Verif.Tests.Harness
import Verif.Model.Elf
/-
libCrashDebug/tests/ElfLoadTest.cpp in the model, one check per TEST, in the order of the file.
-/
namespace Verif.Tests.Elf
open Verif MemSim Elf

/-- The fields of `Elf32_Ehdr` that `initElfHeader` (lines 60-72) sets. -/
structure Ehdr where
  mag0 : U8 := 0x7F
  mag3 : U8 := 0x46
  cls : U8 := 1
  data : U8 := 1
  type : Nat := 2
  phoff : Nat := 52
  phentsize : Nat := 32
  phnum : Nat := 1

/-- The 52 bytes of the header: `e_ident` (16), `e_type`, `e_machine`, `e_version`, `e_entry`, `e_phoff`, `e_shoff`,
`e_flags`, `e_ehsize`, `e_phentsize`, `e_phnum`, `e_shentsize`, `e_shnum`, `e_shstrndx`. -/
def Ehdr.bytes (h : Ehdr) : Str :=
  [h.mag0, 0x45, 0x4C, h.mag3, h.cls, h.data] ++ List.replicate 10 0 ++ leBytes 2 h.type ++ leBytes 2 0 ++ leBytes 4 0
    ++ leBytes 4 0 ++ leBytes 4 h.phoff ++ leBytes 4 0 ++ leBytes 4 0 ++ leBytes 2 0 ++ leBytes 2 h.phentsize
    ++ leBytes 2 h.phnum ++ leBytes 2 0 ++ leBytes 2 0 ++ leBytes 2 0

/-- The fields of `Elf32_Phdr` that `initPgmHeader` (lines 74-82) sets (PT_LOAD is 1, PF_R | PF_X is 5). -/
structure Phdr where
  type : Nat := 1
  offset : Nat := 84
  vaddr : Nat := 0
  paddr : Nat := 0
  filesz : Nat := 8
  memsz : Nat := 8
  flags : Nat := 5

/-- Its 32 bytes. -/
def Phdr.bytes (h : Phdr) : Str :=
  leBytes 4 h.type ++ leBytes 4 h.offset ++ leBytes 4 h.vaddr ++ leBytes 4 h.paddr ++ leBytes 4 h.filesz
    ++ leBytes 4 h.memsz ++ leBytes 4 h.flags ++ leBytes 4 0

/-- `initElfFile`, lines 51-58. -/
def elf1 (e : Ehdr := {}) (p : Phdr := {}) : Str := e.bytes ++ p.bytes ++ leBytes 4 0x10008000 ++ leBytes 4 0x00000100

def test (steps : List (Step Sim)) : Bool :=
  passes (steps ++ [does uninit, holds fun s => s.heap.live = 0]) (init { fails := fun _ => false })

example : ({} : Ehdr).bytes.length = 52 ∧ ({} : Phdr).bytes.length = 32 := by decide +kernel

/- `ElfSmallerThanHeaderByOneByte_ShouldThrow`. -/
#guard test [throwsMsg (fromMemory (List.replicate 52 0xFF) 51) .elfFormat
    "ELF was too short to contain valid header."]

/- `FirstByteOfElfIdentWrong_ShouldThrow`. -/
#guard test [throwsMsg (fromMemory (elf1 { mag0 := 0x80 }) 92) .elfFormat
    "ELF header doesn't start with expected magic ELF identifier."]

/- `LastByteOfElfIdentWrong_ShouldThrow`. -/
#guard test [throwsMsg (fromMemory (elf1 { mag3 := 0x45 }) 92) .elfFormat
    "ELF header doesn't start with expected magic ELF identifier."]

/- `ElfHeaderClassTypeNot32Bit_ShouldThrow` (ELFCLASS64 is 2). -/
#guard test [throwsMsg (fromMemory (elf1 { cls := 2 }) 92) .elfFormat
    "ELF header doesn't contain 32-bit flag."]

/- `ElfHeaderDataTypeNotLSB_ShouldThrow` (ELFDATA2MSB is 2). -/
#guard test [throwsMsg (fromMemory (elf1 { data := 2 }) 92) .elfFormat
    "ELF header doesn't contain little endian flag."]

/- `ElfHeaderNotExecutableType_ShouldThrow` (ET_DYN is 3). -/
#guard test [throwsMsg (fromMemory (elf1 { type := 3 }) 92) .elfFormat
    "ELF header doesn't contain executable flag."]

/- `ElfHeaderWithPageHeaderOffsetOfZero_ShouldThrow`. -/
#guard test [throwsMsg (fromMemory (elf1 { phoff := 0 }) 92) .elfFormat
    "ELF header contains an invalid offset of 0 for the page headers."]

/- `ElfHeaderWithPageHeaderEntryCountOfZero_ShouldThrow`. -/
#guard test [throwsMsg (fromMemory (elf1 { phnum := 0 }) 92) .elfFormat
    "ELF header contains an invalid page header entry count of 0."]

/- `ElfHeaderWithPageHeaderSizeSmallerThanExpected_ShouldThrow`. -/
#guard test [throwsMsg (fromMemory (elf1 { phentsize := 31 }) 92) .elfFormat
    "ELF header contains a page header entry size of 31, which is smaller than the expected size of 32."]

/- `FirstPageHeaderEntryStartsOutOfBounds_ShouldThrow`. -/
#guard test [throwsMsg (fromMemory ({} : Ehdr).bytes 52) .elfFormat
    "ELF page header entry 0 is at an invalid file offset of 52."]

/- `FirstPageHeaderEntryEndsOutOfBounds_ShouldThrow`. -/
#guard test [throwsMsg (fromMemory (elf1 {}) 83) .elfFormat
    "ELF page header entry 0 is at an invalid file offset of 52."]

/- `NoPageEntryIsLoadable_ShouldThrow` (PT_DYNAMIC is 2). -/
#guard test [throwsMsg (fromMemory (elf1 {} { type := 2 }) 92) .elfFormat
    "ELF contained no entries which were loadable and had a valid non-zero filesz <= to memsz."]

/- `NoPageEntryHasNonZeroFileSize_ShouldThrow`. -/
#guard test [throwsMsg (fromMemory (elf1 {} { filesz := 0 }) 92) .elfFormat
    "ELF contained no entries which were loadable and had a valid non-zero filesz <= to memsz."]

/- `NoPageEntryHasMemSizeGreaterThanOrEqualToFileSize_ShouldThrow`. -/
#guard test [throwsMsg (fromMemory (elf1 {} { memsz := 7 }) 92) .elfFormat
    "ELF contained no entries which were loadable and had a valid non-zero filesz <= to memsz."]

/- `PageEntryOffsetIsOverflows_ShouldThrow`. -/
#guard test [throwsMsg (fromMemory (elf1 {} { offset := 92 }) 92) .elfFormat
    "ELF failed to load entry from file at offsets 92 to 99."]

/- `PageEntryFileSizeOverflows_ShouldThrow`. -/
#guard test [throwsMsg (fromMemory (elf1 {} { filesz := 9, memsz := 9 }) 92) .elfFormat
    "ELF failed to load entry from file at offsets 84 to 92."]

/- `LoadFromFirstAndOnlyProgramHeaderEntry_ValidateMemoryContents`. -/
#guard test [does (fromMemory elf1 92), gives (read32 0) 0x10008000, gives (read32 4) 0x00000100]

/- `NonZeroPhysicalAddressDifferentThanZeroVirtualAddress_ValidateMemoryContents`. -/
#guard test [does (fromMemory (elf1 {} { paddr := 0x10000000 }) 92), gives (read32 0x10000000) 0x10008000,
    gives (read32 0x10000004) 0x00000100]

/- `WriteablePageEntry_ValidateMemoryContents` (PF_R | PF_W | PF_X is 7). -/
#guard test [does (fromMemory (elf1 {} { paddr := 0x10000000, flags := 7 }) 92),
    gives (read32 0x10000000) 0x10008000, gives (read32 0x10000004) 0x00000100]

/- `ReadOnlyNonExecutablePageEntry_ValidateMemoryContents` (PF_R is 4). -/
#guard test [does (fromMemory (elf1 {} { flags := 4 }) 92), gives (read32 0) 0x10008000,
    gives (read32 4) 0x00000100]

/- `FileSizeSmallerThanMemSize_ValidateMemoryContents_ShouldTruncateToFileSize`. -/
#guard test [does (fromMemory (elf1 {} { filesz := 4 }) 92), gives (read32 0) 0x10008000,
    throwsMsg (read32 4) .busError ""]

/- `LoadFromSecondProgramHeaderEntry_ValidateMemoryContents`. -/
#guard test [does (fromMemory (({ phnum := 2 } : Ehdr).bytes ++ List.replicate 32 0
      ++ ({ offset := 116 } : Phdr).bytes ++ leBytes 4 0x10008000 ++ leBytes 4 0x00000100) 124),
    gives (read32 0) 0x10008000, gives (read32 4) 0x00000100]

/- `LoadFromSecondProgramHeaderEntryWithNonStandardEntrySize_ValidateMemoryContents`. -/
#guard test [does (fromMemory (({ phnum := 2, phentsize := 36 } : Ehdr).bytes ++ List.replicate 36 0
      ++ ({ offset := 124 } : Phdr).bytes ++ List.replicate 4 0 ++ leBytes 4 0xFFFFFFFF ++ leBytes 4 0) 132),
    gives (read32 0) 0xFFFFFFFF, gives (read32 4) 0]

end Verif.Tests.Elf
