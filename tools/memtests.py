#!/usr/bin/env python3
"""Translates /repo/libCrashDebug/tests/MemorySimTest.cpp, statement by statement, into lean/Verif/Tests/MemorySim.lean.
Tests with loops are left out here and written by hand at the end of the generated file."""
import re, sys
SRC = '/repo/libCrashDebug/tests/MemorySimTest.cpp'
OUT = '/verif/lean/Verif/Tests/MemorySim.lean'
src = open(SRC).read()
HEAD = '''import Verif.Tests.Harness
/-
libCrashDebug/tests/MemorySimTest.cpp in the model. Generated by tools/memtests.py, one check per TEST, in the order
of the file; the tests with loops are at the end, written by hand.
-/
namespace Verif.Tests
open Verif MemSim

/-- The simulator after `setup()` (lines 29-32): allocations succeed. -/
def memSetup : Sim := init { fails := fun _ => false }

/-- `MallocFailureInject_FailAllocation(i)`: the i-th allocation from now on fails, the others do not. -/
def failAllocation (i : Nat) : Step Sim := sets fun s =>
  let n := s.heap.next
  { s with heap := { s.heap with fails := fun k => k + 1 = n + i } }

/-- `teardown()` (lines 34-40): after `MemorySim_Uninit` no block is left (CppUTest's leak detection). -/
def memTeardown : List (Step Sim) := [does uninit, holds fun s => s.heap.live = 0]

def memTest (steps : List (Step Sim)) : Bool := passes (steps ++ memTeardown) memSetup

/-- The text of `GetMemoryMapXML` as the tests write it. -/
def xmlText (s : String) : Str := asc s

'''
SIZES = {'sizeof(uint16_t)': '2', 'sizeof(uint32_t)': '4', 'FLASH_BASE_ADDRESS': '0'}
def ev(e, env):
    for k, v in SIZES.items(): e = e.replace(k, v)
    if 'sizeof(flashBinary)' in e:
        e = e.replace('sizeof(flashBinary)', str(env['__size']))
    e = re.sub(r'\b([A-Za-z_]\w*)\b(?!\()', lambda m: str(env[m.group(1)]) if m.group(1) in env and isinstance(env[m.group(1)], int) else m.group(0), e)
    e = re.sub(r'flashBinary\[(\d)\]', lambda m: str(env['flashBinary'][int(m.group(1))]), e)
    return eval(e, {}, {})
def args(s):
    out=[]; d=0; cur=''
    for ch in s:
        if ch=='(' : d+=1
        if ch==')': d-=1
        if ch==',' and d==0: out.append(cur.strip()); cur=''
        else: cur+=ch
    out.append(cur.strip()); return out
W = {'WATCHPOINT_READ':'WATCHPOINT_READ','WATCHPOINT_WRITE':'WATCHPOINT_WRITE','WATCHPOINT_READ_WRITE':'WATCHPOINT_READ_WRITE'}
def hx(n): return '0x%X' % n if n >= 10 else str(n)
def call(c, env):
    m = re.fullmatch(r'(\w+)\((.*)\)', c.strip(), re.S)
    f, a = m.group(1), args(m.group(2))
    assert a[0] == 'm_pMemory', c
    a = a[1:]
    names = {'IMemory_Read32':'read32','IMemory_Read16':'read16','IMemory_Read8':'read8','IMemory_Write32':'write32',
      'IMemory_Write16':'write16','IMemory_Write8':'write8','MemorySim_CreateRegion':'createRegion',
      'MemorySim_MakeRegionReadOnly':'makeRegionReadOnly','MemorySim_CreateAlias':'createAlias',
      'MemorySim_SetHardwareBreakpoint':'setHardwareBreakpoint','MemorySim_ClearHardwareBreakpoint':'clearHardwareBreakpoint',
      'MemorySim_SetHardwareWatchpoint':'setHardwareWatchpoint','MemorySim_ClearHardwareWatchpoint':'clearHardwareWatchpoint',
      'MemorySim_WasWatchpointEncountered':'wasWatchpointEncountered','MemorySim_GetMemoryMapXML':'getMemoryMapXML',
      'MemorySim_MapSimulatedAddressToHostAddressForWrite':'mapForWrite','MemorySim_MapSimulatedAddressToHostAddressForRead':'mapForRead',
      'MemorySim_GetFlashReadCount':'getFlashReadCount'}
    if f in ('MemorySim_LoadFromFlashImage','MemorySim_CreateRegionsFromFlashImage'):
        fb = env['flashBinary']
        img = '(' + ' ++ '.join('leBytes 4 0x%X' % w for w in fb) + ')'
        size = ev(a[-1], env)
        if f == 'MemorySim_LoadFromFlashImage':
            return 'loadFromFlashImage %s %s %s' % (hx(ev(a[0], env)), img, size)
        return 'createRegionsFromFlashImage %s %s' % (img, size)
    l = []
    for x in a:
        l.append(W[x] if x in W else hx(ev(x, env)))
    return ' '.join([names[f]] + l)
EXC = {'busErrorException':'.busError','outOfMemoryException':'.outOfMemory','bufferOverrunException':'.bufferOverrun',
       'hardwareBreakpointException':'.hardwareBreakpoint'}
out = [HEAD]; skipped = []
for m in re.finditer(r'TEST\(MemorySim, (\w+)\)\n\{\n(.*?)\n\}\n', src, re.S):
    name, body = m.group(1), m.group(2)
    line = src[:m.start()].count('\n') + 1
    body = re.sub(r'(?m)^\s*//.*', '', body)
    if 'for (' in body or name in ('BasicInitTakenCareOfInSetup', 'Uninit_ShouldHandleNULLPointer'):
        skipped.append((name, line)); continue
    env = {}; steps = []; pend = None; ptr = {}
    for st in body.split(';'):
        st = ' '.join(st.split())
        if not st: continue
        mm = re.fullmatch(r'(?:static const )?uint32_t (\w+) = ((?!MemorySim).*)', st)
        if mm:
            env[mm.group(1)] = eval(mm.group(2))
            if mm.group(1) == 'flashBinary': env['flashBinary'] = [env['flashBinary']]; env['__size'] = 4
            continue
        mm = re.fullmatch(r'uint32_t flashBinary\[2\] = \{ (\w+), (\w+) \}', st)
        if mm: env['flashBinary'] = [int(mm.group(1),16), int(mm.group(2),16)]; env['__size'] = 8; continue
        mm = re.fullmatch(r'__try_and_catch\( (.*) \)', st)
        if mm: pend = call(mm.group(1), env); continue
        mm = re.fullmatch(r'validateExceptionThrown\((\w+)\)', st)
        if mm: steps.append('throws (%s) %s' % (pend, EXC[mm.group(1)])); pend = None; continue
        mm = re.fullmatch(r'MallocFailureInject_FailAllocation\((\d)\)', st)
        if mm: steps.append('failAllocation %s' % mm.group(1)); continue
        mm = re.fullmatch(r'uint32_t readCount = (.*)', st)
        if mm: env['__rc'] = call(mm.group(1), env); continue
        mm = re.fullmatch(r'CHECK_EQUAL\((\d+), readCount\)', st)
        if mm: steps.append('gives (%s) %s' % (env['__rc'], mm.group(1))); continue
        mm = re.fullmatch(r'(?:const )?char\* pText = (.*)', st)
        if mm: env['__xml'] = call(mm.group(1), env); continue
        if st in ('CHECK(pText != NULL)', 'CHECK(pAddress != NULL)'): continue
        mm = re.fullmatch(r'STRCMP_EQUAL\(pText, (.*)\)', st)
        if mm:
            parts = re.findall(r'"((?:[^"\\]|\\.)*)"', mm.group(1))
            steps.append('gives getMemoryMapXML (xmlText (' + ' ++\n      '.join('"%s"' % p for p in parts) + '))'); continue
        mm = re.fullmatch(r'(?:const )?void\* (\w+) = (.*)', st)
        if mm: ptr[mm.group(1)] = call(mm.group(2), env); continue
        mm = re.fullmatch(r'CHECK_EQUAL\((\w+), \*\((?:const )?uint32_t\*\)(\w+)\)', st)
        if mm: steps.append('gives (do hostRead (← %s) 4) (leBytes 4 %s)' % (ptr[mm.group(2)], hx(eval(mm.group(1))))); continue
        if st == 'CHECK_EQUAL(pvHostAddress1, pvHostAddress2)':
            steps.append('gives (do return decide ((← %s) = (← %s))) true' % (ptr['pvHostAddress1'], ptr['pvHostAddress2'])); continue
        mm = re.fullmatch(r'CHECK_(TRUE|FALSE)\((.*)\)', st)
        if mm: steps.append('gives (do return decide ((← %s) = 0)) %s' % (call(mm.group(2), env), 'false' if mm.group(1)=='TRUE' else 'true')); continue
        mm = re.fullmatch(r'CHECK_EQUAL\((.*)\)', st)
        if mm:
            a = args(mm.group(1)); steps.append('gives (%s) %s' % (call(a[1], env), hx(ev(a[0], env)))); continue
        steps.append('does (%s)' % call(st, env))
    assert pend is None
    out.append('/- `%s`, line %d. -/\n#guard memTest [\n    %s]\n\n' % (name, line, ',\n    '.join(steps)))
print(skipped, file=sys.stderr)
HAND = open('/verif/tools/memtests_hand.txt').read()
open(OUT, 'w').write(''.join(out) + HAND + '\nend Verif.Tests\n')
