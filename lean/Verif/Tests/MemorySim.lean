import Verif.Tests.Harness
/-
libCrashDebug/tests/MemorySimTest.cpp in the model. Generated by tools/memtests.py, one check per TEST, in the order
of the file; the tests with loops are at the end, written by hand.
-/
namespace Verif.Tests
open Verif MemSim

/-- The simulator after `setup()` (lines 29-32): allocations succeed. -/
def memSetup : Sim := init { fails := fun _ => false }

/-- `MallocFailureInject_FailAllocation(i)`: the i-th allocation from now on fails, the others do not. -/
def failAllocation (i : Nat) : Step Sim := sets fun s =>
  let n := s.heap.next
  { s with heap := { s.heap with fails := fun k => k + 1 = n + i } }

/-- `teardown()` (lines 34-40): after `MemorySim_Uninit` no block is left (CppUTest's leak detection). -/
def memTeardown : List (Step Sim) := [does uninit, holds fun s => s.heap.live = 0]

def memTest (steps : List (Step Sim)) : Bool := passes (steps ++ memTeardown) memSetup

/-- The text of `GetMemoryMapXML` as the tests write it. -/
def xmlText (s : String) : Str := asc s

/- `NoMemoryRegionsSetupShouldResultInAllReadsAndWritesThrowing`, line 58. -/
#guard memTest [
    throws (read32 0) .busError,
    throws (read16 0) .busError,
    throws (read8 0) .busError,
    throws (write32 0 0xFFFFFFFF) .busError,
    throws (write16 0 0xFFFF) .busError,
    throws (write8 0 0xFF) .busError]

/- `SimulateFourBytes_ShouldBeZeroFilledByDefault`, line 92. -/
#guard memTest [
    does (createRegion 4 4),
    gives (read32 4) 0]

/- `CreateRegionAtLowerAddressRange_MakeSureThatHighestPossibleWordThrows`, line 98. -/
#guard memTest [
    does (createRegion 0 4),
    throws (read32 0xFFFFFFFC) .busError]

/- `SimulateFourBytes_DefaultsToReadWrite_VerifyCanReadAndWrite`, line 105. -/
#guard memTest [
    does (createRegion 4 4),
    does (write32 4 0x11111111),
    gives (read32 4) 0x11111111,
    does (write16 4 0x2222),
    gives (read16 4) 0x2222,
    does (write8 4 0x33),
    gives (read8 4) 0x33]

/- `SimulateFourBytes_VerifyReadWritesOfPreviousWordThrows`, line 118. -/
#guard memTest [
    does (createRegion 4 4),
    throws (write32 0 0x11111111) .busError,
    throws (read32 0) .busError,
    throws (write16 2 0x2222) .busError,
    throws (read16 2) .busError,
    throws (write8 3 0x33) .busError,
    throws (read8 3) .busError]

/- `SimulateFourBytes_VerifyReadWritesOfNextWordThrows`, line 137. -/
#guard memTest [
    does (createRegion 4 4),
    throws (write32 8 0x11111111) .busError,
    throws (read32 8) .busError,
    throws (write16 8 0x2222) .busError,
    throws (read16 8) .busError,
    throws (write8 8 0x33) .busError,
    throws (read8 8) .busError]

/- `SimulateFourBytes_VerifyOverlappingReadWritesWillThrow`, line 157. -/
#guard memTest [
    does (createRegion 4 4),
    throws (write32 5 0x11111111) .busError,
    throws (read32 5) .busError,
    throws (write16 7 0x2222) .busError,
    throws (read16 7) .busError]

/- `SimulateFourBytes_VerifyCanMakeReadOnly`, line 172. -/
#guard memTest [
    does (createRegion 4 4),
    does (makeRegionReadOnly 4),
    throws (write32 4 0x11111111) .busError,
    throws (write16 4 0x2222) .busError,
    throws (write8 4 0x33) .busError,
    gives (read32 4) 0,
    gives (read16 4) 0,
    gives (read8 4) 0]

/- `CreateZeroLengthRegion_ShouldThrowWhenTryingToMakeReadOnly`, line 190. -/
#guard memTest [
    does (createRegion 0 0),
    throws (makeRegionReadOnly 0) .busError]

/- `SimulateFourBytes_VerifyCanReadBothHalfWords`, line 198. -/
#guard memTest [
    does (createRegion 4 4),
    does (write32 4 0x12345678),
    gives (read16 4) 0x5678,
    gives (read16 6) 0x1234]

/- `SimulateFourBytes_VerifyCanReadAllFourBytes`, line 208. -/
#guard memTest [
    does (createRegion 4 4),
    does (write32 4 0x12345678),
    gives (read8 4) 0x78,
    gives (read8 5) 0x56,
    gives (read8 6) 0x34,
    gives (read8 7) 0x12]

/- `SimulateTwoMemoryRegions`, line 238. -/
#guard memTest [
    does (createRegion 0 4),
    does (createRegion 0x10000000 4),
    does (write32 0 0x11111111),
    gives (read32 0) 0x11111111,
    does (write32 0x10000000 0x22222222),
    gives (read32 0x10000000) 0x22222222]

/- `SimulateThreeMemoryRegions`, line 251. -/
#guard memTest [
    does (createRegion 0 4),
    does (createRegion 0x10000000 4),
    does (createRegion 0x20000000 4),
    does (write32 0 0x11111111),
    gives (read32 0) 0x11111111,
    does (write32 0x10000000 0x22222222),
    gives (read32 0x10000000) 0x22222222,
    does (write32 0x20000000 0x33333333),
    gives (read32 0x20000000) 0x33333333]

/- `LoadFromFlashImage`, line 268. -/
#guard memTest [
    does (createRegion 0 8),
    does (loadFromFlashImage 0 (leBytes 4 0x10000004 ++ leBytes 4 0x200) 8),
    gives (read32 0) 0x10000004,
    gives (read32 4) 0x200]

/- `LoadFromFlashImage_UseDifferentBaseAddress`, line 278. -/
#guard memTest [
    does (createRegion 0x4000 8),
    does (loadFromFlashImage 0x4000 (leBytes 4 0x10000004 ++ leBytes 4 0x200) 8),
    gives (read32 0x4000) 0x10000004,
    gives (read32 0x4004) 0x200]

/- `AttemptLoadFromFlashImageToInvalidRegions_ShouldThrow`, line 288. -/
#guard memTest [
    throws (loadFromFlashImage 0 (leBytes 4 0x10000004 ++ leBytes 4 0x200) 8) .busError]

/- `CreateRegionsBasedOnFlashImage_TwoWordsOfFLASH_OneWordOfRAM_CheckRanges`, line 295. -/
#guard memTest [
    does (createRegionsFromFlashImage (leBytes 4 0x10000004 ++ leBytes 4 0x200) 8),
    gives (read32 0) 0x10000004,
    gives (read32 4) 0x200,
    throws (read32 8) .busError,
    throws (write32 0 0x12345678) .busError,
    throws (write32 4 0x12345678) .busError,
    does (write32 0x10000000 0x12345678),
    gives (read32 0x10000000) 0x12345678,
    throws (read32 0x10000004) .busError]

/- `CreateRegionsBasedOnFlashImage_ShouldThrowIfNotBigEnoughForInitialStackPointer`, line 376. -/
#guard memTest [
    throws (createRegionsFromFlashImage (leBytes 4 0x10000004) 3) .bufferOverrun]

/- `AttemptToSetBreakpointAtInvalidAddress_ShouldThrow`, line 385. -/
#guard memTest [
    throws (setHardwareBreakpoint 0 2) .busError]

/- `AttemptToClearBreakpointAtInvalidAddress_ShouldThrow`, line 392. -/
#guard memTest [
    throws (clearHardwareBreakpoint 0 2) .busError]

/- `SetAndClear2ByteHardwareBreakpoint_IssueReadsWhichHitAndMissBreakpoint`, line 416. -/
#guard memTest [
    does (createRegion 0 6),
    does (setHardwareBreakpoint 2 2),
    gives (read16 0) 0,
    throws (read16 2) .hardwareBreakpoint,
    gives (read16 4) 0,
    does (clearHardwareBreakpoint 2 2),
    gives (read16 2) 0]

/- `SetWordSizedHardwareBreakpoint_HitOnHalfWordAccessWithinRange`, line 431. -/
#guard memTest [
    does (createRegion 0 0xC),
    does (setHardwareBreakpoint 4 4),
    throws (read16 4) .hardwareBreakpoint,
    throws (read16 6) .hardwareBreakpoint]

/- `SetWordSizedHardwareBreakpoint_ShouldIgnoreWordAccesses`, line 443. -/
#guard memTest [
    does (createRegion 0 0xC),
    does (setHardwareBreakpoint 4 4),
    gives (read32 0) 0,
    gives (read32 4) 0,
    gives (read32 8) 0]

/- `HardwareBreakpoint_NoHitOnWrites`, line 454. -/
#guard memTest [
    does (createRegion 0 6),
    does (setHardwareBreakpoint 2 2),
    does (write16 0 0x1234),
    does (write16 2 0x1234),
    does (write16 4 0x1234)]

/- `SetAndVerifyTwoHardwareBreakpoints_SetInAscendingAddressOrder`, line 465. -/
#guard memTest [
    does (createRegion 0 8),
    does (setHardwareBreakpoint 2 2),
    does (setHardwareBreakpoint 4 2),
    gives (read16 0) 0,
    throws (read16 2) .hardwareBreakpoint,
    throws (read16 4) .hardwareBreakpoint,
    gives (read16 6) 0]

/- `SetAndVerifyTwoHardwareBreakpoints_SetInDescendingAddressOrder`, line 480. -/
#guard memTest [
    does (createRegion 0 8),
    does (setHardwareBreakpoint 4 2),
    does (setHardwareBreakpoint 2 2),
    gives (read16 0) 0,
    throws (read16 2) .hardwareBreakpoint,
    throws (read16 4) .hardwareBreakpoint,
    gives (read16 6) 0]

/- `SetAndClearTwoHardwareBreakpoints_ClearInSameOrderAsSet`, line 495. -/
#guard memTest [
    does (createRegion 0 8),
    does (setHardwareBreakpoint 2 2),
    does (setHardwareBreakpoint 4 2),
    gives (read16 0) 0,
    throws (read16 2) .hardwareBreakpoint,
    throws (read16 4) .hardwareBreakpoint,
    gives (read16 6) 0,
    does (clearHardwareBreakpoint 2 2),
    gives (read16 2) 0,
    throws (read16 4) .hardwareBreakpoint,
    does (clearHardwareBreakpoint 4 2),
    gives (read16 2) 0,
    gives (read16 4) 0]

/- `SetAndClearTwoHardwareBreakpoints_ClearInOppositeOrderAsSet`, line 521. -/
#guard memTest [
    does (createRegion 0 8),
    does (setHardwareBreakpoint 2 2),
    does (setHardwareBreakpoint 4 2),
    gives (read16 0) 0,
    throws (read16 2) .hardwareBreakpoint,
    throws (read16 4) .hardwareBreakpoint,
    gives (read16 6) 0,
    does (clearHardwareBreakpoint 4 2),
    throws (read16 2) .hardwareBreakpoint,
    gives (read16 4) 0,
    does (clearHardwareBreakpoint 2 2),
    gives (read16 2) 0,
    gives (read16 4) 0]

/- `SetAndVerifyThreeHardwareBreakpoints`, line 547. -/
#guard memTest [
    does (createRegion 0 0xA),
    does (setHardwareBreakpoint 2 2),
    does (setHardwareBreakpoint 4 2),
    does (setHardwareBreakpoint 6 2),
    gives (read16 0) 0,
    throws (read16 2) .hardwareBreakpoint,
    throws (read16 4) .hardwareBreakpoint,
    throws (read16 6) .hardwareBreakpoint,
    gives (read16 8) 0]

/- `SetSameBreakpointTwice_SecondShouldBeIgnored`, line 565. -/
#guard memTest [
    does (createRegion 0 2),
    does (setHardwareBreakpoint 0 2),
    does (setHardwareBreakpoint 0 2),
    throws (read16 0) .hardwareBreakpoint,
    does (clearHardwareBreakpoint 0 2),
    gives (read16 0) 0]

/- `TryClearingBreakpointWhichNoExist_ShouldBeIgnored`, line 581. -/
#guard memTest [
    does (createRegion 0 4),
    does (setHardwareBreakpoint 2 2),
    does (clearHardwareBreakpoint 0 2),
    gives (read16 0) 0]

/- `SetZeroLengthBreakpointInZeroLengthRegion_NoThrow`, line 591. -/
#guard memTest [
    does (createRegion 0 0),
    does (setHardwareBreakpoint 0 0),
    does (clearHardwareBreakpoint 0 0)]

/- `AttemptToSetWatchpointAtInvalidAddress_ShouldThrow`, line 621. -/
#guard memTest [
    throws (setHardwareWatchpoint 0 2 WATCHPOINT_READ) .busError]

/- `AttemptToClearWatchpointAtInvalidAddress_ShouldThrow`, line 628. -/
#guard memTest [
    throws (clearHardwareWatchpoint 0 2 WATCHPOINT_READ) .busError]

/- `SetAndClear2ByteHardwareWatchpoint_IssueReadsWhichHitAndMissWatchpoint`, line 652. -/
#guard memTest [
    does (createRegion 0 6),
    does (setHardwareWatchpoint 2 2 WATCHPOINT_READ),
    gives (read16 0) 0,
    gives (do return decide ((← wasWatchpointEncountered) = 0)) true,
    gives (read16 2) 0,
    gives (do return decide ((← wasWatchpointEncountered) = 0)) false,
    gives (read16 4) 0,
    does (clearHardwareWatchpoint 2 2 WATCHPOINT_READ),
    gives (do return decide ((← wasWatchpointEncountered) = 0)) true,
    gives (read16 2) 0,
    gives (do return decide ((← wasWatchpointEncountered) = 0)) true]

/- `SetAndClear4ByteHardwareWatchpoint_IssueReadsWhichHitAndMissBreakpoint`, line 670. -/
#guard memTest [
    does (createRegion 0 0xC),
    does (setHardwareWatchpoint 4 4 WATCHPOINT_READ),
    gives (read32 0) 0,
    gives (do return decide ((← wasWatchpointEncountered) = 0)) true,
    gives (read32 4) 0,
    gives (do return decide ((← wasWatchpointEncountered) = 0)) false,
    gives (read32 8) 0,
    does (clearHardwareWatchpoint 4 4 WATCHPOINT_READ),
    gives (read32 4) 0]

/- `Set4ByteHardwareWatchpoint_HitOnSmallerSize`, line 686. -/
#guard memTest [
    does (createRegion 0 0xC),
    does (setHardwareWatchpoint 4 4 WATCHPOINT_READ),
    gives (do return decide ((← wasWatchpointEncountered) = 0)) true,
    gives (read16 4) 0,
    gives (do return decide ((← wasWatchpointEncountered) = 0)) false,
    gives (do return decide ((← wasWatchpointEncountered) = 0)) true,
    gives (read16 6) 0,
    gives (do return decide ((← wasWatchpointEncountered) = 0)) false]

/- `HardwareReadWatchpoint_NoHitOnWrites`, line 701. -/
#guard memTest [
    does (createRegion 0 6),
    does (setHardwareWatchpoint 2 2 WATCHPOINT_READ),
    does (write16 0 0x1234),
    does (write16 2 0x1234),
    does (write16 4 0x1234),
    gives (do return decide ((← wasWatchpointEncountered) = 0)) true]

/- `HardwareWriteWatchpoint_NoHitOnReads`, line 713. -/
#guard memTest [
    does (createRegion 0 6),
    does (setHardwareWatchpoint 2 2 WATCHPOINT_WRITE),
    gives (read16 0) 0,
    gives (read16 2) 0,
    gives (read16 4) 0,
    gives (do return decide ((← wasWatchpointEncountered) = 0)) true]

/- `HardwareWriteWatchpoint_HitOnWrites`, line 725. -/
#guard memTest [
    does (createRegion 0 6),
    does (setHardwareWatchpoint 2 2 WATCHPOINT_WRITE),
    does (write16 0 0x1234),
    gives (do return decide ((← wasWatchpointEncountered) = 0)) true,
    does (write16 2 0x1234),
    gives (do return decide ((← wasWatchpointEncountered) = 0)) false,
    does (write16 4 0x1234),
    gives (do return decide ((← wasWatchpointEncountered) = 0)) true]

/- `HardwareReadWriteWatchpoint_HitsOnReadsAndWrites`, line 739. -/
#guard memTest [
    does (createRegion 0 6),
    does (setHardwareWatchpoint 2 2 WATCHPOINT_READ_WRITE),
    does (write16 0 0x1234),
    gives (read16 0) 0x1234,
    gives (do return decide ((← wasWatchpointEncountered) = 0)) true,
    does (write16 2 0x1234),
    gives (do return decide ((← wasWatchpointEncountered) = 0)) false,
    gives (read16 2) 0x1234,
    gives (do return decide ((← wasWatchpointEncountered) = 0)) false,
    does (write16 4 0x1234),
    gives (read16 4) 0x1234,
    gives (do return decide ((← wasWatchpointEncountered) = 0)) true]

/- `SetSameWatchpointTwice_SecondShouldBeIgnored`, line 757. -/
#guard memTest [
    does (createRegion 0 2),
    does (setHardwareWatchpoint 0 2 WATCHPOINT_READ),
    does (setHardwareWatchpoint 0 2 WATCHPOINT_READ),
    gives (do return decide ((← wasWatchpointEncountered) = 0)) true,
    does (read16 0),
    gives (do return decide ((← wasWatchpointEncountered) = 0)) false,
    does (clearHardwareWatchpoint 0 2 WATCHPOINT_READ),
    does (read16 0),
    gives (do return decide ((← wasWatchpointEncountered) = 0)) true]

/- `SetTwoDifferentWatchpointTypesAtSameAddress_BothShouldBeObserved`, line 775. -/
#guard memTest [
    does (createRegion 0 2),
    does (setHardwareWatchpoint 0 2 WATCHPOINT_READ),
    does (setHardwareWatchpoint 0 2 WATCHPOINT_WRITE),
    gives (do return decide ((← wasWatchpointEncountered) = 0)) true,
    does (write16 0 0x1234),
    gives (do return decide ((← wasWatchpointEncountered) = 0)) false,
    does (read16 0),
    gives (do return decide ((← wasWatchpointEncountered) = 0)) false]

/- `TryClearingWatchpointWhichNoExist_ShouldBeIgnored`, line 790. -/
#guard memTest [
    does (createRegion 0 4),
    does (setHardwareWatchpoint 2 2 WATCHPOINT_READ),
    does (clearHardwareWatchpoint 2 2 WATCHPOINT_WRITE),
    gives (do return decide ((← wasWatchpointEncountered) = 0)) true,
    does (write16 2 0x1234),
    gives (do return decide ((← wasWatchpointEncountered) = 0)) true,
    does (read16 2),
    gives (do return decide ((← wasWatchpointEncountered) = 0)) false]

/- `GetMemoryMapXML_NoRegions`, line 831. -/
#guard memTest [
    gives getMemoryMapXML (xmlText ("<?xml version=\"1.0\"?>" ++
      "<!DOCTYPE memory-map PUBLIC \"+//IDN gnu.org//DTD GDB Memory Map V1.0//EN\" \"http://sourceware.org/gdb/gdb-memory-map.dtd\">" ++
      "<memory-map>" ++
      "</memory-map>"))]

/- `GetMemoryMapXML_ShouldThrowIfOutOfMemory`, line 841. -/
#guard memTest [
    failAllocation 1,
    throws (getMemoryMapXML) .outOfMemory]

/- `GetMemoryMapXML_OneFlashRegion`, line 848. -/
#guard memTest [
    does (createRegion 0 0x100),
    does (makeRegionReadOnly 0),
    gives getMemoryMapXML (xmlText ("<?xml version=\"1.0\"?>" ++
      "<!DOCTYPE memory-map PUBLIC \"+//IDN gnu.org//DTD GDB Memory Map V1.0//EN\" \"http://sourceware.org/gdb/gdb-memory-map.dtd\">" ++
      "<memory-map>" ++
      "<memory type=\"flash\" start=\"0x0\" length=\"0x100\"> <property name=\"blocksize\">1</property></memory>" ++
      "</memory-map>"))]

/- `GetMemoryMapXML_OneRamRegion`, line 861. -/
#guard memTest [
    does (createRegion 0x10000000 0x100),
    gives getMemoryMapXML (xmlText ("<?xml version=\"1.0\"?>" ++
      "<!DOCTYPE memory-map PUBLIC \"+//IDN gnu.org//DTD GDB Memory Map V1.0//EN\" \"http://sourceware.org/gdb/gdb-memory-map.dtd\">" ++
      "<memory-map>" ++
      "<memory type=\"ram\" start=\"0x10000000\" length=\"0x100\"></memory>" ++
      "</memory-map>"))]

/- `GetMemoryMapXML_OneFlashAndOneRamRegion`, line 874. -/
#guard memTest [
    does (createRegionsFromFlashImage (leBytes 4 0x10008000 ++ leBytes 4 0x200) 8),
    gives getMemoryMapXML (xmlText ("<?xml version=\"1.0\"?>" ++
      "<!DOCTYPE memory-map PUBLIC \"+//IDN gnu.org//DTD GDB Memory Map V1.0//EN\" \"http://sourceware.org/gdb/gdb-memory-map.dtd\">" ++
      "<memory-map>" ++
      "<memory type=\"flash\" start=\"0x0\" length=\"0x8\"> <property name=\"blocksize\">1</property></memory>" ++
      "<memory type=\"ram\" start=\"0x10000000\" length=\"0x8000\"></memory>" ++
      "</memory-map>"))]

/- `MapSimulatedAddressForWrite_AttemptToMapWithNoRegions_ShouldThrow`, line 889. -/
#guard memTest [
    throws (mapForWrite 0 4) .busError]

/- `MapSimulatedAddressForWrite_MapValidAddressRegion`, line 895. -/
#guard memTest [
    does (createRegion 4 4),
    does (write32 4 0x11111111),
    gives (do hostRead (← mapForWrite 4 4) 4) (leBytes 4 0x11111111)]

/- `MapSimulatedAddressForWrite_AttemptToMapAddressBeforeAndAfterValidRegion_ShouldThrow`, line 904. -/
#guard memTest [
    does (createRegion 4 4),
    throws (mapForWrite 0 4) .busError,
    throws (mapForWrite 8 4) .busError]

/- `MapSimulatedAddressForWrite_AttemptToMapAddressThatOverflowRegions_ShouldThrow`, line 915. -/
#guard memTest [
    does (createRegion 4 4),
    throws (mapForWrite 4 5) .busError]

/- `MapSimulatedAddressForWrite_AttemptToMapAddressForWriteThatIsReadOnly_ShouldThrow`, line 924. -/
#guard memTest [
    does (createRegion 4 4),
    does (makeRegionReadOnly 4),
    throws (mapForWrite 4 4) .busError]

/- `MapSimulatedAddressForRead_ReadFromReadOnlyRegion`, line 934. -/
#guard memTest [
    does (createRegion 4 4),
    does (makeRegionReadOnly 4),
    gives (do hostRead (← mapForRead 4 4) 4) (leBytes 4 0)]

/- `MapSimulatedAddressForRead_AttemptToMapAddressToInvalidRegion_ShouldThrow`, line 945. -/
#guard memTest [
    throws (mapForRead 4 4) .busError]

/- `GetReadCount_OnNonExistentRegion_ShouldThrow`, line 952. -/
#guard memTest [
    throws (getFlashReadCount 0) .busError]

/- `GetReadCount_OnReadWriteRamRegion_ShouldThrow`, line 958. -/
#guard memTest [
    does (createRegion 0 2),
    throws (getFlashReadCount 0) .busError]

/- `GetReadCount_AddressOfHalfWordOverflowingOutOfRegion_ShouldThrow`, line 966. -/
#guard memTest [
    does (createRegion 0 3),
    does (makeRegionReadOnly 0),
    throws (getFlashReadCount 2) .busError]

/- `GetReadCount_CheckFlashRegionWithNoReads_ShouldReadCountOfZero`, line 975. -/
#guard memTest [
    does (createRegion 0 2),
    does (makeRegionReadOnly 0),
    gives (getFlashReadCount 0) 0]

/- `GetReadCount_CheckFlashRegionWithOneReads_ShouldReadCountOfOne`, line 984. -/
#guard memTest [
    does (createRegion 0 2),
    does (makeRegionReadOnly 0),
    does (read16 0),
    gives (getFlashReadCount 0) 1]

/- `GetReadCount_CheckFlashRegionWithTwoReads_ShouldReadCountOfTwo`, line 994. -/
#guard memTest [
    does (createRegion 0 2),
    does (makeRegionReadOnly 0),
    does (read16 0),
    does (read16 0),
    gives (getFlashReadCount 0) 2]

/- `GetReadCount_CheckFlashRegionWithMultipleHalfWordOnlyReadFromOne_ShouldReadCountsOfZeroAnd1`, line 1005. -/
#guard memTest [
    does (createRegion 0 6),
    does (makeRegionReadOnly 0),
    does (read16 2),
    gives (getFlashReadCount 0) 0,
    gives (getFlashReadCount 2) 1,
    gives (getFlashReadCount 4) 0]

/- `AliasToSimulateFourBytes_DefaultsToReadWrite_VerifyCanReadAndWrite`, line 1017. -/
#guard memTest [
    does (createRegion 4 4),
    does (createAlias 0x10000004 4 4),
    does (write32 4 0x11111111),
    gives (read32 4) 0x11111111,
    does (write16 4 0x2222),
    gives (read16 4) 0x2222,
    does (write8 4 0x33),
    gives (read8 4) 0x33,
    does (write32 0x10000004 0xAAAAAAAA),
    gives (read32 0x10000004) 0xAAAAAAAA,
    gives (read32 4) 0xAAAAAAAA,
    does (write16 0x10000004 0xBBBB),
    gives (read16 0x10000004) 0xBBBB,
    gives (read16 4) 0xBBBB,
    does (write8 0x10000004 0xCC),
    gives (read8 0x10000004) 0xCC,
    gives (read8 4) 0xCC,
    does (write32 4 0xAAAAAAAA),
    gives (read32 0x10000004) 0xAAAAAAAA,
    gives (read32 4) 0xAAAAAAAA,
    does (write16 4 0xBBBB),
    gives (read16 0x10000004) 0xBBBB,
    gives (read16 4) 0xBBBB,
    does (write8 4 0xCC),
    gives (read8 0x10000004) 0xCC,
    gives (read8 4) 0xCC]

/- `AliasToSimulateFourBytes_VerifyCanMakeReadOnly`, line 1054. -/
#guard memTest [
    does (createRegion 4 4),
    does (makeRegionReadOnly 4),
    does (createAlias 0x10000004 4 4),
    throws (write32 0x10000004 0x11111111) .busError,
    throws (write16 0x10000004 0x2222) .busError,
    throws (write8 0x10000004 0x33) .busError,
    gives (read32 0x10000004) 0,
    gives (read16 0x10000004) 0,
    gives (read8 0x10000004) 0]

/- `AliasToSetAndClear2ByteHardwareBreakpoint_IssueReadsWhichHitAndMissBreakpoint`, line 1074. -/
#guard memTest [
    does (createRegion 0 6),
    does (createAlias 0x10000004 0 6),
    does (setHardwareBreakpoint 0x10000006 2),
    gives (read16 0x10000004) 0,
    throws (read16 0x10000006) .hardwareBreakpoint,
    gives (read16 0x10000008) 0,
    gives (read16 0) 0,
    throws (read16 2) .hardwareBreakpoint,
    gives (read16 4) 0,
    does (clearHardwareBreakpoint 0x10000006 2),
    gives (read16 0x10000006) 0,
    does (setHardwareBreakpoint 2 2),
    gives (read16 0x10000004) 0,
    throws (read16 0x10000006) .hardwareBreakpoint,
    gives (read16 0x10000008) 0,
    does (clearHardwareBreakpoint 2 2),
    gives (read16 0x10000006) 0]

/- `AliasToSetAndClear4ByteHardwareWatchpoint_IssueReadsWhichHitAndMissBreakpoint`, line 1102. -/
#guard memTest [
    does (createRegion 0 0xC),
    does (createAlias 0x10000004 0 0xC),
    does (setHardwareWatchpoint 4 4 WATCHPOINT_READ),
    gives (read32 0x10000004) 0,
    gives (do return decide ((← wasWatchpointEncountered) = 0)) true,
    gives (read32 0x10000008) 0,
    gives (do return decide ((← wasWatchpointEncountered) = 0)) false,
    gives (read32 0x1000000C) 0,
    does (clearHardwareWatchpoint 4 4 WATCHPOINT_READ),
    gives (read32 0x10000008) 0,
    does (setHardwareWatchpoint 0x10000008 4 WATCHPOINT_READ),
    gives (read32 0) 0,
    gives (do return decide ((← wasWatchpointEncountered) = 0)) true,
    gives (read32 4) 0,
    gives (do return decide ((← wasWatchpointEncountered) = 0)) false,
    gives (read32 8) 0,
    does (clearHardwareWatchpoint 0x10000008 4 WATCHPOINT_READ),
    gives (read32 4) 0]

/- `GetMemoryMapXML_OneFlashAndOneRamRegionPlusAliasesForEach`, line 1128. -/
#guard memTest [
    does (createRegionsFromFlashImage (leBytes 4 0x10008000 ++ leBytes 4 0x200) 8),
    does (createAlias 0xA0000000 0 8),
    does (createAlias 0xB0000000 0x10000000 0x8000),
    gives getMemoryMapXML (xmlText ("<?xml version=\"1.0\"?>" ++
      "<!DOCTYPE memory-map PUBLIC \"+//IDN gnu.org//DTD GDB Memory Map V1.0//EN\" \"http://sourceware.org/gdb/gdb-memory-map.dtd\">" ++
      "<memory-map>" ++
      "<memory type=\"flash\" start=\"0x0\" length=\"0x8\"> <property name=\"blocksize\">1</property></memory>" ++
      "<memory type=\"ram\" start=\"0x10000000\" length=\"0x8000\"></memory>" ++
      "<memory type=\"flash\" start=\"0xA0000000\" length=\"0x8\"> <property name=\"blocksize\">1</property></memory>" ++
      "<memory type=\"ram\" start=\"0xB0000000\" length=\"0x8000\"></memory>" ++
      "</memory-map>"))]

/- `GetMemoryMapXML_OneFlashAndOneRamRegionPlusAliasesForEach_MakeAliasesTooLarge_ShouldBeTruncated`, line 1146. -/
#guard memTest [
    does (createRegionsFromFlashImage (leBytes 4 0x10008000 ++ leBytes 4 0x200) 8),
    does (createAlias 0xA0000000 0 0x10),
    does (createAlias 0xB0000000 0x10000000 0x10000),
    gives getMemoryMapXML (xmlText ("<?xml version=\"1.0\"?>" ++
      "<!DOCTYPE memory-map PUBLIC \"+//IDN gnu.org//DTD GDB Memory Map V1.0//EN\" \"http://sourceware.org/gdb/gdb-memory-map.dtd\">" ++
      "<memory-map>" ++
      "<memory type=\"flash\" start=\"0x0\" length=\"0x8\"> <property name=\"blocksize\">1</property></memory>" ++
      "<memory type=\"ram\" start=\"0x10000000\" length=\"0x8000\"></memory>" ++
      "<memory type=\"flash\" start=\"0xA0000000\" length=\"0x8\"> <property name=\"blocksize\">1</property></memory>" ++
      "<memory type=\"ram\" start=\"0xB0000000\" length=\"0x8000\"></memory>" ++
      "</memory-map>"))]

/- `MapSimulatedAddressForWrite_MapValidAddressRegionAndAliases`, line 1164. -/
#guard memTest [
    does (createRegion 4 4),
    does (createAlias 0x10000004 4 4),
    does (write32 4 0x11111111),
    gives (do hostRead (← mapForWrite 4 4) 4) (leBytes 4 0x11111111),
    gives (do hostRead (← mapForWrite 0x10000004 4) 4) (leBytes 4 0x11111111),
    gives (do return decide ((← mapForWrite 4 4) = (← mapForWrite 0x10000004 4))) true]

/- `GetReadCount_CheckFlashRegionWithOneAliasReads_ShouldReadCountOfOne`, line 1178. -/
#guard memTest [
    does (createRegion 0 2),
    does (makeRegionReadOnly 0),
    does (createAlias 0x10000004 0 2),
    does (read16 0x10000004),
    gives (getFlashReadCount 0) 1]

/- `AttemptToAliasNonExistentRegion_ShouldThrow`, line 1190. -/
#guard memTest [
    does (createRegion 4 4),
    throws (createAlias 0x10000004 8 4) .busError]

/- `BasicInitTakenCareOfInSetup`, line 48. -/
#guard memTest []

/- `ShouldThrowIfOutOfMemory`, line 74. -/
#guard memTest [
    failAllocation 1, throws (createRegion 4 4) .outOfMemory,
    failAllocation 2, throws (createRegion 4 4) .outOfMemory,
    failAllocation 3, does (createRegion 4 4)]

/- `SimulateLargerRegion_WriteReadAllWords`, line 220, with 256 bytes instead of 64 KB (`C01_read_returns_written` is
the general case). -/
#guard memTest ([does (createRegion 0x10000000 256)]
    ++ (List.range 64).map (fun i => does (write32 (0x10000000 + 4 * BitVec.ofNat 32 i) (0xFFFFFFFF - BitVec.ofNat 32 i)))
    ++ (List.range 64).map (fun i => gives (read32 (0x10000000 + 4 * BitVec.ofNat 32 i))
        (0xFFFFFFFF - BitVec.ofNat 32 i)))

/- `CreateRegionsBasedOnFlashImage_NonWordSizedFlash`, line 318. -/
#guard memTest ([does (createRegionsFromFlashImage (leBytes 4 0x10000004 ++ leBytes 4 0x00000200) 7)]
    ++ (List.range 7).map (fun i => gives (read8 (BitVec.ofNat 32 i))
        ((leBytes 4 0x10000004 ++ leBytes 4 0x00000200).getD i 0))
    ++ [throws (read8 7) .busError])

/- `CreateRegionsFromFlashImage_ShouldThrowIfOutOfMemory`, line 330. -/
#guard memTest ((List.range 5).flatMap (fun i => [failAllocation (i + 1),
      throws (createRegionsFromFlashImage (leBytes 4 0x10000004 ++ leBytes 4 0x00000200) 8) .outOfMemory])
    ++ [failAllocation 6, does (createRegionsFromFlashImage (leBytes 4 0x10000004 ++ leBytes 4 0x00000200) 8)])

/- `CreateRegionsFromFlashImage_MakeSureItHandlesOutOfMemoryWhenThereIsAnExistingRegion`, line 351. -/
#guard memTest ([does (createRegion 0xF0000000 4), does (write32 0xF0000000 0x12345678)]
    ++ (List.range 5).flatMap (fun i => [failAllocation (i + 1),
      throws (createRegionsFromFlashImage (leBytes 4 0x10000004 ++ leBytes 4 0x00000200) 8) .outOfMemory])
    ++ [gives (read32 0xF0000000) 0x12345678])

/- `SetBreakpointShouldThrowIfOutOfMemory`, line 399. -/
#guard memTest [does (createRegion 0 6),
    failAllocation 1, throws (setHardwareBreakpoint 0 2) .outOfMemory,
    failAllocation 2, does (setHardwareBreakpoint 0 2)]

/- `SetAndVerifySeveralBreakpoints`, line 599, with 128 bytes instead of 4 KB (`C20_breakpoint_iff` is the general
case). -/
#guard memTest ([does (createRegion 0 128)]
    ++ (List.range 32).map (fun i => does (setHardwareBreakpoint (4 * BitVec.ofNat 32 i) 2))
    ++ (List.range 32).map (fun i => gives (read16 (4 * BitVec.ofNat 32 i + 2)) 0)
    ++ (List.range 32).map (fun i => throws (read16 (4 * BitVec.ofNat 32 i)) .hardwareBreakpoint))

/- `SetWatchpointShouldThrowIfOutOfMemory`, line 635. -/
#guard memTest [does (createRegion 0 6),
    failAllocation 1, throws (setHardwareWatchpoint 0 2 WATCHPOINT_READ) .outOfMemory,
    failAllocation 2, does (setHardwareWatchpoint 0 2 WATCHPOINT_READ)]

/- `SetAndVerifySeveralWatchpoints`, line 804, with 128 bytes instead of 4 KB. -/
#guard memTest ([does (createRegion 0 128)]
    ++ (List.range 32).map (fun i => does (setHardwareWatchpoint (4 * BitVec.ofNat 32 i) 2 WATCHPOINT_READ))
    ++ (List.range 32).flatMap (fun i => [gives (read16 (4 * BitVec.ofNat 32 i + 2)) 0,
        gives (do return decide ((← wasWatchpointEncountered) = 0)) true])
    ++ (List.range 32).flatMap (fun i => [gives (read16 (4 * BitVec.ofNat 32 i)) 0,
        gives (do return decide ((← wasWatchpointEncountered) = 0)) false]))

end Verif.Tests
