#!/usr/bin/env python3
"""Translates /repo/libCrashDebug/tests/mriPlatformExceptionTest.cpp into the generated part of
lean/Verif/Tests/Platform.lean; the rest of that file is tools/exctests_hand.txt."""
import re
src = open('/repo/libCrashDebug/tests/mriPlatformExceptionTest.cpp').read()
out = [open('/verif/tools/exctests_hand.txt').read()]
def expr(e):
    e = e.strip()
    m = re.fullmatch(r'1 << (\d+)', e)
    if m: return '(1 <<< %s)' % m.group(1)
    m = re.fullmatch(r'1 << \((\d+) \+ (\d+)\)', e)
    if m: return '(1 <<< (%s + %s))' % m.groups()
    return {'0': '0'}.get(e) or (e if re.fullmatch(r'0x\w+', e) else '(%s)' % e.replace('<<', '<<<').replace('|', '|||'))
for m in re.finditer(r'TEST\(mriPlatformException, (\w+)\)\n\{\n(.*?)\n\}\n', src, re.S):
    name, body = m.group(1), m.group(2)
    line = src[:m.start()].count('\n') + 1
    code = re.search(r'ExceptionCode = (\d+);', body).group(1)
    regs = ', '.join('(%s, %s)' % (a, expr(b)) for a, b in re.findall(r'setFaultRegister\((\w+), (.*?)\);', body))
    if 'setWaitForGdbConnect(TRUE)' in body:
        # mri prints nothing while it waits for GDB: all that is the platform's is the answer to "should it wait?".
        out.append('/- `%s`, line %d. -/\n#guard passes [does (setWaitForGdbConnect true), gives commShouldWaitForGdbConnect true] (start %s)\n\n' % (name, line, code))
        continue
    o = re.findall(r'appendExpectedOPacket\("(.*?)"\);', body)
    t = re.search(r'appendExpectedTPacket\((\w+), (\w+), (\w+), (\w+), (\w+)\)', body)
    out.append('/- `%s`, line %d. -/\n#guard report %s [%s] [%s]\n    .%s [%s]\n\n' % (
        name, line, code, regs, ', '.join('"%s"' % x for x in o), t.group(1), ', '.join(t.groups()[1:])))
out.append('end Verif.Tests.Platform\n')
open('/verif/lean/Verif/Tests/Platform.lean', 'w').write(''.join(out))
