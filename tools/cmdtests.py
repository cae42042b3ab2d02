#!/usr/bin/env python3
"""Translates /repo/libCrashDebug/tests/CrashDebugCommandLineTests.cpp into lean/Verif/Tests/CommandLine.lean."""
import re
src = open('/repo/libCrashDebug/tests/CrashDebugCommandLineTests.cpp').read()
def strs(t): return re.findall(r'"((?:[^"\\]|\\.)*)"', t)
def const(name): return re.search(name + r'\[\]\s*=\s*(.*?);\n', src, re.S).group(1)
FN = dict(re.findall(r'static const char\*\s+(g_\w+) = "(.*?)";', src))
def text(name): return ' ++\n  '.join('"%s"' % s for s in strs(const(name)))
def raw(name): return '[' + ', '.join('0x' + h for s in strs(const(name)) for h in re.findall(r'\\x(..)', s)) + ']'
def wrap(s, n=110):
    out=[]; line=''
    for w in s.split(' '):
        if len(line)+len(w)+1>n: out.append(line); line='  '+w
        else: line=(line+' '+w) if line else w
    return '\n'.join(out+[line])
REG = {'R%d' % i: i for i in range(13)}; REG.update(SP=13, LR=14, PC=15, XPSR=16, MSP=17, PSP=18)
out = ['''import Verif.Tests.Elf
import Verif.Model.CommandLine
/-
libCrashDebug/tests/CrashDebugCommandLineTests.cpp in the model, one check per TEST, in the order of the file. Generated
by tools/cmdtests.py.
-/
namespace Verif.Tests.CommandLine
open Verif MemSim CommandLine
open Verif.Tests.Elf (Ehdr Phdr)

/-- `sizeof(g_dumpDataV2)` and `sizeof(g_dumpDataV3)` count the terminating NUL, so the files have it. -/
def gdbV2 : Str := asc (
  %s) ++ [0]
def gdbV3 : Str := asc (
  %s) ++ [0]
def hexV2 : Str := asc (
  %s)
def hexV3 : Str := asc (
  %s)
def binV2 : Str := %s
def binV3 : Str := %s

/-- `initElfFile`, lines 236-243. -/
def elfFile (e : Ehdr := {}) (p : Phdr := {}) : Str := e.bytes ++ p.bytes ++ leBytes 4 0x10000004 ++ leBytes 4 0x00000100

/-- `createTestFiles`, lines 196-234. -/
def testFiles (elf : Str) : List (String × Str) :=
  [("image.bin", leBytes 4 0x10000004 ++ leBytes 4 0x00000100), ("image.elf", elf), ("gdb_v2.txt", gdbV2),
   ("crash_v2.txt", hexV2), ("crash_v2.dmp", binV2), ("gdb_v3.txt", gdbV3), ("crash_v3.txt", hexV3),
   ("crash_v3.dmp", binV3)]

/-- `setup`: the structure is filled with 0xFF before `CrashDebugCommandLine_Init`. `how` is what the test does to the
files, `fail` the allocation that fails (0: none). -/
def start (elf : Str) (how : File → Option File) (fail : Nat) : Prog :=
  { elf := some [0xFF], bin := some [0xFF], dump := some [0xFF], baseAddress := 0xFFFFFFFF
    host :=
      { mem := MemSim.init { fails := fun k => k + 1 = fail }
        ctx := { flags := 0xFFFFFFFF, r := List.replicate 19 0xFFFFFFFF, psr := 0xFFFFFFFF,
                 fpr := List.replicate 33 0xFFFFFFFF }
        files :=
          { opens := fun _ name =>
              match (testFiles elf).find? (fun e => asc e.1 = name) with
              | some e => how (File.of e.2)
              | none => none } } }

/-- `teardown`: the registers are as expected; nothing is left open or allocated. -/
def teardown (r : List U32) : List (Step Prog) :=
  [holds fun p => p.host.ctx.r = r, does CommandLine.uninit, holds fun p => p.host.files.live = 0,
   holds fun p => p.host.mem.heap.live = 0]

def test (args : List String) (steps : M Prog Unit → List (Step Prog)) (r : List U32) (elf : Str := [])
    (how : File → Option File := some) (fail : Nat := 0) : Bool :=
  passes (steps (CommandLine.init args.length (args.map asc)) ++ teardown r) (start elf how fail)

/-- `__try_and_catch( CrashDebugCommandLine_Init(...) ); validateExceptionThrownAndUsageStringDisplayed(c, msg);`: the
last three texts on stderr are the error, the copyright notice and the usage. -/
def refused (init : M Prog Unit) (c : Exc) (msg : String) : List (Step Prog) :=
  [throwsMsg init c msg, holds fun p => p.err = asc "ERROR: " ++ asc msg ++ asc "\\n" ++ copyrightNotice ++ usage,
   holds fun _ => (copyrightNotice.take 6 = asc "\\nCrash") && (usage.take 6 = asc "Usage:")]

/-- `CHECK(m_commandLine.pMemory == NULL);`. -/
def noMemory : Step Prog := holds fun p => p.memory = false

def reads (a v : U32) : Step Prog := gives (onMemory (Host.onMem (read32 a))) v

/-- The registers of the dumps; `m`, `p` are MSP and PSP. -/
def regs (m p : U32) : List U32 :=
  [%s,
   m, p]
def none19 : List U32 := List.replicate 19 0

''' % (text('g_dumpDataV2'), text('g_dumpDataV3'), text('g_hexCrashDumpV2'), text('g_hexCrashDumpV3'), wrap(raw('g_binCrashDumpV2')), wrap(raw('g_binCrashDumpV3')),
 '0x5A5A5A5A, ' + ', '.join('0x%s' % (('%X' % i) * 8) for i in range(1, 7)) + ',\n   ' + ', '.join('0x%s' % (('%X' % i) * 8) for i in range(7, 13)) + ',\n   ' + ', '.join('0x%s' % (('%X' % i) * 8) for i in range(13, 16)) + ', 0xF00DF00D')]
IMG = [0x10000004, 0x00000100]
for m in re.finditer(r'TEST\(CrashDebugCommandLine, (\w+)\)\n\{\n(.*?)\n\}\n', src, re.S):
    name, body = m.group(1), m.group(2)
    line = src[:m.start()].count('\n') + 1
    args = []
    for a in re.findall(r'addArg\((.*?)\);', body):
        args.append(a if a.startswith('"') else '"%s"' % FN[a])
    opts = ''
    if 'initElfFile' in body:
        e = '{ mag0 := 0x80 }' if 'EI_MAG0] += 1' in body else '{}'
        p = '{ paddr := 0x4000 }' if 'p_paddr = 0x4000' in body else '{}'
        opts += ' (elf := elfFile %s %s)' % (e, p)
    if 'fopenSetReturn(NULL)' in body: opts += ' (how := fun _ => none)'
    if 'fseekSetReturn(-1)' in body: opts += ' (how := fun f => some { f with seekEndFails := true, seekSetFails := true })'
    if 'freadFail(-1)' in body: opts += ' (how := fun f => some { f with bytes := [] })'
    mm = re.search(r'FailAllocation\((\d)\)', body)
    if mm: opts += ' (fail := %s)' % mm.group(1)
    v = re.search(r'DisplayedX?\((\w+)Exception, "((?:[^"\\]|\\.)*)"\)', body)
    steps = []
    if v: first = 'refused init .%s "%s"' % (v.group(1), v.group(2))
    else: first = '[does init]'
    assert ('__try_and_catch' in body) == bool(v)
    if 'CHECK(m_commandLine.pMemory == NULL)' in body: steps.append('noMemory')
    for a, b in re.findall(r'CHECK_EQUAL\((.*?), IMemory_Read32\(m_commandLine.pMemory, (0x\w+)\)\)', body):
        mm = re.fullmatch(r'g_imageData\[(\d)\]', a)
        steps.append('reads %s %s' % (b, '0x%08X' % IMG[int(mm.group(1))] if mm else a))
    r = dict(re.findall(r'm_expectedRegisters\.R\[(\w+)\]\s*= (\w+);', body))
    if r:
        for i in range(1, 13): assert int(r['R%d' % i], 16) == i * 0x11111111
        assert int(r['R0'], 16) == 0x5a5a5a5a and int(r['XPSR'], 16) == 0xF00DF00D
        assert [int(r[x], 16) for x in ('SP', 'LR', 'PC')] == [0xDDDDDDDD, 0xEEEEEEEE, 0xFFFFFFFF]
        rr = '(regs %s %s)' % (r['MSP'], r['PSP'])
    else: rr = 'none19'
    body_steps = first if not steps else first + ' ++ [\n      ' + ',\n      '.join(steps) + ']'
    out.append('/- `%s`, line %d. -/\n#guard test [%s]\n    (fun init => %s)\n    %s%s\n\n' % (name, line, ', '.join(args), body_steps, rr, opts))
out.append('end Verif.Tests.CommandLine\n')
open('/verif/lean/Verif/Tests/CommandLine.lean', 'w').write(''.join(out))
