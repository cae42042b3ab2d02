import Verif.Model.Base
import Verif.Model.MemorySim
import Verif.Model.IMemory
import Verif.Spec.MemSim
import Verif.Lemmas.Le
import Verif.Lemmas.MemSim
import Verif.Spec.History
import Verif.Props.Demo
import Verif.Lemmas.Create
import Verif.Props.MemAccess
import Verif.Lemmas.Watch
import Verif.Lemmas.Raw
import Verif.Lemmas.Leak
import Verif.Lemmas.History
import Verif.Lemmas.Load
import Verif.Lemmas.Flash
import Verif.Props.MemHistory
import Verif.Spec.Watch
import Verif.Lemmas.Observe
import Verif.Lemmas.Effects
import Verif.Props.MemWatch
import Verif.Spec.MemMap
import Verif.Lemmas.Xml
import Verif.Props.MemMap
import Verif.Model.Host
import Verif.Model.Dump
import Verif.Spec.Dump
import Verif.Lemmas.DumpMem
import Verif.Lemmas.Dump
import Verif.Lemmas.DumpFile
import Verif.Spec.Outcome
import Verif.Lemmas.Sat
import Verif.Lemmas.DumpSafe
import Verif.Lemmas.DumpHex
import Verif.Lemmas.DumpInv
import Verif.Props.Dump
import Verif.Model.Elf
import Verif.Spec.Elf
import Verif.Lemmas.Elf
import Verif.Lemmas.ElfLoad
import Verif.Lemmas.ElfSafe
import Verif.Props.Elf
import Verif.Model.Libc
import Verif.Model.GdbLog
import Verif.Spec.GdbLog
import Verif.Lemmas.GdbLine
import Verif.Lemmas.GdbFile
import Verif.Lemmas.GdbPass
import Verif.Lemmas.GdbLoad
import Verif.Lemmas.GdbSafe
import Verif.Props.GdbLog
import Verif.Props.GdbDemo
import Verif.Model.CommandLine
import Verif.Spec.CommandLine
import Verif.Lemmas.CmdParse
import Verif.Lemmas.CmdElf
import Verif.Lemmas.CmdInit
import Verif.Lemmas.CmdStages
import Verif.Lemmas.CmdCore
import Verif.Lemmas.CmdBin
import Verif.Lemmas.CmdWhole
import Verif.Lemmas.CmdTop
import Verif.Lemmas.CmdEnd
import Verif.Props.CommandLine
import Verif.Model.TryCatch
import Verif.Spec.TryCatch
import Verif.Lemmas.TryCatch
import Verif.Props.TryCatch
import Verif.Model.Comm
import Verif.Model.Platform
import Verif.Spec.Platform
import Verif.Lemmas.PlatReport
import Verif.Lemmas.PlatRegs
import Verif.Lemmas.PlatHist
import Verif.Lemmas.PlatPacket
import Verif.Props.Platform
import Verif.Model.Main
import Verif.Spec.Comm
import Verif.Spec.Main
import Verif.Props.Comm
import Verif.Props.Main
import Verif.Spec.Alloc
import Verif.Lemmas.Oom
import Verif.Lemmas.OomLoad
import Verif.Props.Alloc
import Verif.Props.MemMore
import Verif.Lemmas.ElfCut
import Verif.Lemmas.CmdFail
import Verif.Props.ElfCut
import Verif.Props.StartFail
import Verif.Props.Session
import Verif.Lemmas.Session
import Verif.Lemmas.PlatSafe
import Verif.Lemmas.RegsKept
import Verif.Spec.Number
import Verif.Lemmas.Number
import Verif.Props.Numbers
import Verif.Lemmas.Whole
import Verif.Props.Whole
import Verif.Spec.Cell
import Verif.Props.Cells
import Verif.Lemmas.OnlyNamed
import Verif.Props.OnlyNamed
import Verif.Lemmas.GdbDump
import Verif.Props.StartLog
import Verif.Props.Registers
import Verif.Spec.Alias
import Verif.Lemmas.CmdAlias
import Verif.Props.AliasStart
import Verif.Spec.Crash
import Verif.Props.Crash
import Verif.Props.Told
import Verif.Props.Deterministic
import Verif.Tests.Harness
import Verif.Tests.MemorySim
import Verif.Tests.Elf
import Verif.Tests.Dump
import Verif.Tests.GdbLog
import Verif.Tests.CommandLine
import Verif.Tests.Platform
import Verif.Tests.Comm
import Verif.Tests.Common
import Verif.Spec.Clash
import Verif.Lemmas.Clash
import Verif.Props.Clash
import Verif.Lemmas.ElfLeak
import Verif.Lemmas.Msg
import Verif.Props.Messages
import Verif.Lemmas.MapFlash
import Verif.Lemmas.AliasOrder
import Verif.Lemmas.PlatComm
import Verif.Spec.Channel
import Verif.Props.Channel
import Verif.Model.CommWindows
import Verif.Spec.CommWindows
import Verif.Props.Windows
import Verif.Model.Doubles.Inject
import Verif.Model.Doubles.PrintfSpy
import Verif.Model.Doubles.Console
import Verif.Model.Doubles.Icomm
import Verif.Spec.Doubles
import Verif.Spec.PrintfSpy
import Verif.Spec.Channels
import Verif.Props.Doubles
import Verif.Props.PrintfSpy
import Verif.Props.ConsoleMock
import Verif.Props.IcommMock
import Verif.Tests.Doubles
import Verif.Props.NoRoom
import Verif.Spec.Overread
import Verif.Props.Overread
import Verif.Spec.Arrange
import Verif.Props.Arrange
import Verif.Lemmas.NumberWord
import Verif.Spec.Aligned
import Verif.Props.Aligned
import Verif.Spec.More
import Verif.Props.More
import Verif.Spec.RunControl
import Verif.Props.RunControl
import Verif.Spec.Complete
import Verif.Lemmas.DumpRegs
import Verif.Props.Complete
import Verif.Spec.DumpComplaint
import Verif.Lemmas.DumpComplaint
import Verif.Props.DumpComplaint
import Verif.Spec.Diagnosis
import Verif.Lemmas.DumpOnce
import Verif.Lemmas.Diagnosis
import Verif.Props.Diagnosis
import Verif.Lemmas.BadHex
import Verif.Spec.SaysWhy
import Verif.Props.SaysWhy
import Verif.Spec.LogRegisters
import Verif.Props.LogRegisters
import Verif.Lemmas.LogRegisters
import Verif.Spec.AnyLog
import Verif.Lemmas.AnyLog
import Verif.Props.AnyLog
import Verif.Lemmas.Says
import Verif.Props.SaysAny
import Verif.Spec.AnyCrash
import Verif.Props.AnyCrash
import Verif.Props.CompleteLog
import Verif.Props.WholeIff
import Verif.Spec.Numbering
import Verif.Props.Numbering
import Verif.Spec.Text
import Verif.Lemmas.Text
import Verif.Spec.Transcribe
import Verif.Props.Transcribe
import Verif.Props.LogAgain
import Verif.Spec.Usage
import Verif.Props.Usage
import Verif.Spec.Recipe
import Verif.Lemmas.Recipe
import Verif.Props.Recipe
import Verif.Model.MemPtr
import Verif.Lemmas.MemPtr
import Verif.Lemmas.MemPtrAccess
import Verif.Lemmas.MemPtrRegions
import Verif.Lemmas.MemPtrMore
import Verif.Lemmas.MemPtrWatch
import Verif.Spec.MemPtr
import Verif.Props.MemPtr
import Verif.Spec.Pending
import Verif.Props.Pending
import Verif.Tests.Channels
import Verif.Spec.LineEnds
import Verif.Lemmas.LineEnds
import Verif.Props.LineEnds
import Verif.Model.Long
import Verif.Spec.Long
import Verif.Lemmas.Long
import Verif.Lemmas.LongLog
import Verif.Props.Long
import Verif.Spec.TextAround
import Verif.Props.TextAround
import Verif.Lemmas.MemPtrFrame
import Verif.Spec.Faithful
import Verif.Props.Faithful
import Verif.Model.Strict
import Verif.Spec.Strict
import Verif.Lemmas.Strict
import Verif.Lemmas.StrictLoad
import Verif.Props.Strict
import Verif.Model.Locals
import Verif.Lemmas.Locals
import Verif.Props.Locals
import Verif.Props.BadChar
import Verif.Model.Ctype
import Verif.Spec.Ctype
import Verif.Lemmas.Ctype
import Verif.Props.Ctype
import Verif.Props.AliasNumbers
import Verif.Spec.Again
import Verif.Lemmas.Again
import Verif.Lemmas.AgainSession
import Verif.Props.Again
import Verif.Model.Order
import Verif.Spec.Order
import Verif.Lemmas.Order
import Verif.Props.Order
import Verif.Model.OrderPacket
import Verif.Lemmas.OrderPacket
