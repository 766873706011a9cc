#!/usr/bin/env python3
"""Translates the checks of /repo/test/unit_test/runtime (fmt_test.cpp, fmt_units_test.cpp, math_test.cpp) into checks of the model (lean/Verif/ConformanceFormat.lean).

Usage: gen_conformance_text.py            writes the file and reports what was not translated
"""
import re, sys, os
from gen_conformance import Skip, Ctx, nm, hdrs, LEAN
from gen_conformance_core import P2, D, tokenize

TESTS = '/repo/test/unit_test/runtime'

def expr(src, ctx, env):
    src = src.replace('units::scaled_unit', 'scaled_unit').replace('units::ratio', 'ratio')
    p = P2(tokenize(src), ctx, D(), env); x = p.aexpr(); p.rest(); return x

def close(src, i):
    """the index after the parenthesis that closes the one before i"""
    dep = 1; ins = False
    while dep:
        ch = src[i]
        if ch == '"': ins = not ins
        if not ins: dep += (ch == '(') - (ch == ')')
        i += 1
    return i

def lean_str(s): return s      # the escapes \t and \n are the same in Lean

STR = r'"((?:[^"\\]|\\.)*)"'

def inserts(s):
    out = []
    for t in [x.strip() for x in s.split('<<')]:
        if not t: continue
        m = re.fullmatch(STR, t)
        if m: out.append('.text "%s"' % m.group(1)); continue
        m = re.fullmatch(r'std::setw\((\d+)\)', t)
        if m: out.append('.setw %s' % m.group(1)); continue
        m = re.fullmatch(r"std::setfill\('(.)'\)", t)
        if m: out.append(".setfill '%s'" % m.group(1)); continue
        if t in ('std::left', 'std::right'): out.append('.adjust .' + t[5:]); continue
        out.append(('x', t))
    return out

def run(fname):
    raw = open(os.path.join(TESTS, fname)).read()
    src = re.sub(r'//[^\n]*', '', raw)
    def keep(m): return '\n' * (m.group(1).count('\n') + 0) + m.group(2)
    src = re.sub(r'#if UNITS_DOWNCAST_MODE == 0(.*?)#else(.*?)#endif', keep, src, flags=re.S)
    src = re.sub(r'#ifdef UNITS_COMP_MSVC(.*?)#else(.*?)#endif', keep, src, flags=re.S)
    incs = [m for m in re.findall(r'#include <units/([^>]*)>', src) if m in hdrs]
    src = re.sub(r'^#.*$', '', src, flags=re.M)
    ctx = Ctx(); out = []; skipped = []; total = 0
    scopes = [dict()]      # the variables of each block
    last = [None]          # what was inserted last: (prefix, expression, suffix) or None
    i = 0
    def env():
        e = {}
        for s in scopes: e.update(s)
        return e
    local = False
    while i < len(src):
        line = src.count('\n', 0, i) + 1
        if src[i] == '{': scopes.append({}); last.append(last[-1]); ctx.push(''); i += 1; continue
        if src[i] == '}': scopes.pop(); last.pop(); ctx.pop(); i += 1; continue
        m = re.compile(r'struct [^;]*?\{\s*\};').match(src, i)
        if m: i = m.end(); continue
        m = re.compile(r'struct group\d.*?\n  \};', re.S).match(src, i)
        if m: i = m.end(); continue
        m = re.compile(r'using namespace ([\w:]+);').match(src, i)
        if m:
            if not m.group(1).startswith('Catch'): ctx.using(m.group(1))
            i = m.end(); continue
        m = re.compile(r'const auto (\w+) = ([^;]*);').match(src, i)
        if m:
            try: scopes[-1][m.group(1)] = expr(m.group(2), ctx, env())
            except (Skip, KeyError) as e: scopes[-1][m.group(1)] = None; print('   variable', line, m.group(2), e, file=sys.stderr)
            i = m.end(); continue
        m = re.compile(r'(?:const )?((?:length|energy|surface_tension)<[^;]*>) (\w+)\(([^;]*)\);').match(src, i)
        if m:
            try: scopes[-1][m.group(2)] = expr('%s(%s)' % (m.group(1), m.group(3)), ctx, env())
            except (Skip, KeyError) as e: scopes[-1][m.group(2)] = None; print('   variable', line, m.group(0), e, file=sys.stderr)
            i = m.end(); continue
        m = re.compile(r'os ((?:<<[^;]*)+);').match(src, i)
        if m:
            ins = inserts(m.group(1))
            k = [j for j, x in enumerate(ins) if isinstance(x, tuple)]
            assert len(k) == 1 and k[0] >= len(ins) - 2, ins
            suf = ins[k[0] + 1][7:-1] if k[0] + 1 < len(ins) else ''
            e = env()
            t = ins[k[0]][1]
            try: x = e[t] if t in e else expr(t, ctx, e)
            except (Skip, KeyError): x = None
            last[-1] = (ins[:k[0]], x, suf); i = m.end(); continue
        m = re.compile(r'(CHECK|REQUIRE|REQUIRE_THROWS_MATCHES)\(').match(src, i)
        if m:
            j = close(src, m.end()); body = src[m.end():j - 1]; total += 1; i = j
            try:
                mm = re.fullmatch(r'os\.str\(\) == ' + STR, body)
                if mm:
                    if last[-1][1] is None: raise Skip('variable')
                    out.append((line, '.stream [%s] (%s) "%s" "%s"' % (', '.join(last[-1][0]), last[-1][1], last[-1][2], mm.group(1)))); continue
                mm = re.match(r'fmt::format\(' + STR + ', ', body)
                if not mm and 'fmt' not in body:
                    p = P2(tokenize(body), ctx, D(), env()); x = p.check(); p.rest(); out.append((line, '.check (%s)' % x)); continue
                if not mm: raise Skip('form')
                if re.search(r'[aA]Q', mm.group(1)): raise Skip('hexadecimal floating point')
                k = close(body, len('fmt::format(')); x = body[mm.end():k - 1]; rest = body[k:].strip()
                e = env()
                if x in e:
                    if e[x] is None: raise Skip('variable')
                    y = e[x]
                else: y = expr(x, ctx, e)
                f = mm.group(1)
                if m.group(1) == 'REQUIRE_THROWS_MATCHES': out.append((line, '.throws "%s" (%s)' % (f, y))); continue
                if rest == '== os.str()':
                    if last[-1][0] or last[-1][2] or last[-1][1] != y: raise Skip('stream')
                    out.append((line, '.agree "%s" (%s)' % (f, y))); continue
                mm = re.fullmatch(r'== ' + STR, rest)
                if not mm: raise Skip('form ' + rest)
                out.append((line, '.fmt "%s" (%s) "%s"' % (f, y, mm.group(1))))
            except (Skip, KeyError) as e: skipped.append((line, body[:110], str(e)))
            continue
        i += 1
    return incs, out, skipped, total

FILES = [('fmt_test.cpp', 'Fmt'), ('fmt_units_test.cpp', 'FmtUnits'), ('math_test.cpp', 'RuntimeMath')]

if __name__ == '__main__':
    o = ['import Verif.ConformanceText', '', '/-!', '# Tests of text output and of the mathematical functions, replayed in the model (generated by tools/gen_conformance_text.py)', '',
         'The number of each check is its line in the test.', '-/', '', 'namespace Verif.Conformance', '', 'open Systems', '',
         'set_option maxRecDepth 100000', '']
    for f, n in FILES:
        incs, out, skipped, total = run(f)
        print(f, len(out), 'of', total, 'checks', file=sys.stderr)
        for s in skipped: print('   ', s, file=sys.stderr)
        o.append('/-- /repo/test/unit_test/runtime/%s. -/' % f)
        o.append('def test%s : List (Nat × CheckT) := [' % n)
        o.append(',\n'.join('  (%d, %s)' % x for x in out) + ']')
        o.append('')
        if 'generic/dimensionless.h' not in incs: incs = ['generic/dimensionless.h'] + incs
        o.append('#guard failuresT [%s] test%s = some []' % (', '.join(nm(x) for x in incs), n))
        o.append('')
    o.append('end Verif.Conformance')
    open(os.path.join(LEAN, 'ConformanceFormat.lean'), 'w').write('\n'.join(o) + '\n')
