#!/usr/bin/env python3
"""Translates /repo/libCrashDebug/tests/GdbLogParserTest.cpp into lean/Verif/Tests/GdbLog.lean."""
import re
src = open('/repo/libCrashDebug/tests/GdbLogParserTest.cpp').read()
out = ['''import Verif.Tests.Dump
import Verif.Model.GdbLog
/-
libCrashDebug/tests/GdbLogParserTest.cpp in the model, one check per TEST, in the order of the file. Generated by
tools/logtests.py. The tests hand out the lines through `fgets`
without a newline; here the lines but the last end in one, as in a file. (With a newline after the last line the two
tests with one word per line fail, in the model and in the code: `C39_short_line_witness`.)
-/
namespace Verif.Tests.GdbLog
open Verif MemSim Dump

def logFile (lines : List String) : Str := List.intercalate [0x0A] (lines.map asc)

/-- `setup`, lines 27-33, for a log with these lines. -/
def test (f : File) (steps : List (Step Host)) (expected : Regs) : Bool :=
  passes (steps ++ teardown expected) (hostWith fun _ _ => some f)

/-- The registers the test expects: `initRegisterContext`, then lines 30-31, then what the test sets. -/
def expect (flags : U32) (rs : List (Nat × U32)) (fs : List (Nat × U32)) : Regs :=
  { flags := flags
    r := rs.foldl (fun l e => l.set e.1 e.2) ((regs0.r.set regMSP DEFAULT_SP_VALUE).set regPSP DEFAULT_SP_VALUE)
    fpr := fs.foldl (fun l e => l.set e.1 e.2) regs0.fpr }

''']
REG = {'R%d' % i: i for i in range(13)}; REG.update(SP=13, LR=14, PC=15, XPSR=16, MSP=17, PSP=18)
def q(s): return '"%s"' % s
def lit(s): return s.replace('\t', '\\t')
for m in re.finditer(r'TEST\(GdbLogParser, (\w+)\)\n\{\n(.*?)\n\}\n', src, re.S):
    name, body = m.group(1), m.group(2)
    line = src[:m.start()].count('\n') + 1
    if name.startswith('InvalidLogFilename'):
        out.append('''/- `%s`, line %d. -/
#guard passes ([throwsMsg (Verif.GdbLog.parse (asc "invalid_file.log")) .file
    "Failed to open \\"invalid_file.log\\" GDB log."] ++ teardown regs0) (hostWith fun _ _ => none)

''' % (name, line)); continue
    lines = re.search(r'testLines\[\] = \{(.*?)\};', body, re.S)
    lines = [lit(x) for x in re.findall(r'"((?:[^"\\]|\\.)*)"', lines.group(1))] if lines else []
    steps = []
    f = '(File.of log)'
    if 'fseekSetReturn(-1)' in body: f = '{ File.of log with seekSetFails := true }'
    xml = re.search(r'xmlFor\w+ = (.*?);\n', body, re.S)
    if 'MallocFailureInject' in body: steps.append('failAllocation 1')
    parse = 'Verif.GdbLog.parse (asc "foo.log")'
    if '__try_and_catch' in body:
        exc = re.search(r'CHECK_EQUAL\((\w+)Exception, getExceptionCode', body).group(1)
        msg = re.search(r'STRCMP_EQUAL\("(.*)", getExceptionMessage', body)
        steps.append('throwsMsg (%s) .%s "%s"' % (parse, exc, msg.group(1)) if msg else 'throws (%s) .%s' % (parse, exc))
    else: steps.append('does (%s)' % parse)
    if xml:
        parts = re.findall(r'"((?:[^"\\]|\\.)*)"', xml.group(1))
        assert parts[2] == '<memory-map>'
        steps.append('mapIs (' + ' ++\n      '.join(q(p) for p in parts[3:]) + ')')
    for a, v in re.findall(r'CHECK_EQUAL\((0x\w+), IMemory_Read32\(m_pMem, (0x\w+)\)\)', body): steps.append('reads %s %s' % (v, a))
    rs = ['(%d, %s)' % (REG[r], v) for r, v in re.findall(r'm_expectedRegisters\.R\[([A-Z]\w*)\]\s*= (0x\w+);', body)]
    rs = '[' + ', '.join(rs) + ']'
    if 'm_expectedRegisters.R[i] = 0x11111111 * i' in body:
        rs = '((List.range 16).map (fun i => (i, BitVec.ofNat 32 i * 0x11111111)) ++ %s)' % rs
    fs = '[]'; flags = '0'
    if 'FLAGS_FLOATING_POINT' in body: flags = '1'
    if 'FPR[0] = -1' in body: fs = '[(0, 0xFFFFFFFF)]'
    if 'floatVal' in body:
        import struct
        fs = '[' + ', '.join('(%d, 0x%08x)' % (i, struct.unpack('<I', struct.pack('<f', float(i)))[0]) for i in range(32)) + ', (32, 1)]'
        fs = fs.replace('), (8', '),\n      (8').replace('), (16', '),\n      (16').replace('), (24', '),\n      (24')
    l = ',\n      '.join(q(x) for x in lines)
    out.append('/- `%s`, line %d. -/\n#guard (let log := logFile [\n      %s]\n    test %s [\n      %s]\n    (expect %s %s %s))\n\n'
               % (name, line, l, f, ',\n      '.join(steps), flags, rs.replace('), (8', '),\n      (8'), fs))
out.append('end Verif.Tests.GdbLog\n')
open('/verif/lean/Verif/Tests/GdbLog.lean', 'w').write(''.join(out))
