/- `BasicInitTakenCareOfInSetup`, line 48. -/
#guard memTest []

/- `ShouldThrowIfOutOfMemory`, line 74. -/
#guard memTest [
    failAllocation 1, throws (createRegion 4 4) .outOfMemory,
    failAllocation 2, throws (createRegion 4 4) .outOfMemory,
    failAllocation 3, does (createRegion 4 4)]

/- `SimulateLargerRegion_WriteReadAllWords`, line 220, with 256 bytes instead of 64 KB (`C01_read_returns_written` is
the general case). -/
#guard memTest ([does (createRegion 0x10000000 256)]
    ++ (List.range 64).map (fun i => does (write32 (0x10000000 + 4 * BitVec.ofNat 32 i) (0xFFFFFFFF - BitVec.ofNat 32 i)))
    ++ (List.range 64).map (fun i => gives (read32 (0x10000000 + 4 * BitVec.ofNat 32 i))
        (0xFFFFFFFF - BitVec.ofNat 32 i)))

/- `CreateRegionsBasedOnFlashImage_NonWordSizedFlash`, line 318. -/
#guard memTest ([does (createRegionsFromFlashImage (leBytes 4 0x10000004 ++ leBytes 4 0x00000200) 7)]
    ++ (List.range 7).map (fun i => gives (read8 (BitVec.ofNat 32 i))
        ((leBytes 4 0x10000004 ++ leBytes 4 0x00000200).getD i 0))
    ++ [throws (read8 7) .busError])

/- `CreateRegionsFromFlashImage_ShouldThrowIfOutOfMemory`, line 330. -/
#guard memTest ((List.range 5).flatMap (fun i => [failAllocation (i + 1),
      throws (createRegionsFromFlashImage (leBytes 4 0x10000004 ++ leBytes 4 0x00000200) 8) .outOfMemory])
    ++ [failAllocation 6, does (createRegionsFromFlashImage (leBytes 4 0x10000004 ++ leBytes 4 0x00000200) 8)])

/- `CreateRegionsFromFlashImage_MakeSureItHandlesOutOfMemoryWhenThereIsAnExistingRegion`, line 351. -/
#guard memTest ([does (createRegion 0xF0000000 4), does (write32 0xF0000000 0x12345678)]
    ++ (List.range 5).flatMap (fun i => [failAllocation (i + 1),
      throws (createRegionsFromFlashImage (leBytes 4 0x10000004 ++ leBytes 4 0x00000200) 8) .outOfMemory])
    ++ [gives (read32 0xF0000000) 0x12345678])

/- `SetBreakpointShouldThrowIfOutOfMemory`, line 399. -/
#guard memTest [does (createRegion 0 6),
    failAllocation 1, throws (setHardwareBreakpoint 0 2) .outOfMemory,
    failAllocation 2, does (setHardwareBreakpoint 0 2)]

/- `SetAndVerifySeveralBreakpoints`, line 599, with 128 bytes instead of 4 KB (`C20_breakpoint_iff` is the general
case). -/
#guard memTest ([does (createRegion 0 128)]
    ++ (List.range 32).map (fun i => does (setHardwareBreakpoint (4 * BitVec.ofNat 32 i) 2))
    ++ (List.range 32).map (fun i => gives (read16 (4 * BitVec.ofNat 32 i + 2)) 0)
    ++ (List.range 32).map (fun i => throws (read16 (4 * BitVec.ofNat 32 i)) .hardwareBreakpoint))

/- `SetWatchpointShouldThrowIfOutOfMemory`, line 635. -/
#guard memTest [does (createRegion 0 6),
    failAllocation 1, throws (setHardwareWatchpoint 0 2 WATCHPOINT_READ) .outOfMemory,
    failAllocation 2, does (setHardwareWatchpoint 0 2 WATCHPOINT_READ)]

/- `SetAndVerifySeveralWatchpoints`, line 804, with 128 bytes instead of 4 KB. -/
#guard memTest ([does (createRegion 0 128)]
    ++ (List.range 32).map (fun i => does (setHardwareWatchpoint (4 * BitVec.ofNat 32 i) 2 WATCHPOINT_READ))
    ++ (List.range 32).flatMap (fun i => [gives (read16 (4 * BitVec.ofNat 32 i + 2)) 0,
        gives (do return decide ((← wasWatchpointEncountered) = 0)) true])
    ++ (List.range 32).flatMap (fun i => [gives (read16 (4 * BitVec.ofNat 32 i)) 0,
        gives (do return decide ((← wasWatchpointEncountered) = 0)) false]))
