#!/usr/bin/env python3
"""Translates static assertions of /repo/test/unit_test/static into checks of the model (lean/Verif/Conformance<Name>.lean).

Usage: gen_conformance.py            writes the files and reports what was not translated
"""
import re, sys, os

ROOT = os.path.dirname(os.path.dirname(os.path.abspath(__file__)))
LEAN = os.path.join(ROOT, 'lean/Verif')
TESTS = '/repo/test/unit_test/static'

# ---- names declared by the shipped headers, from the translated declarations ----
names = {}          # full name -> kind
spaces = set()
scope = None
hdrs = {}
for line in open(os.path.join(LEAN, 'SystemsData.lean')):
    m = re.match(r'  path := n!"([^"]*)"', line)
    if m: hdrs[m.group(1)] = True
    m = re.match(r'    \(\[n!"([^"]*)"', line)
    if m:
        scope = m.group(1); spaces.add(scope); continue
    m = re.match(r'      \.(\w+) n!"([^"]*)"', line)
    if m and scope is not None:
        names[scope + '::' + m.group(2)] = m.group(1)

UNITK = {'unit', 'named', 'namedScaled', 'prefixed', 'derived', 'aliasOf', 'prefixedAlias', 'using_'}
DIMK = {'baseDim', 'baseInst', 'derivedDim', 'derivedInst', 'using_'}
QK = {'quantityAlias', 'using_'}
REFK = {'reference', 'referenceCopy'}
LITK = {'literal', 'usingLiteral'}
REPK = {'repAlias', 'repAliasCopy'}

class Skip(Exception): pass

class Ctx:
    def __init__(self): self.path = ''; self.known = {'': []}; self.uses = [self.known['']]; self.stack = []
    def push(self, name):
        self.stack.append(self.path); self.path += '/' + name
        self.uses.append(self.known.setdefault(self.path, []))
    def pop(self): self.uses.pop(); self.path = self.stack.pop()
    def using(self, ns):
        full = [c for c in self.candidates_ns(ns)]
        self.uses[-1].append(full[0] if full else ns)
    def candidates_ns(self, ns):
        pre = [''] + [u for l in self.uses for u in l]
        for p in pre:
            f = (p + '::' + ns) if p else ns
            if any(s == f or s.startswith(f + '::') for s in spaces): yield f
            elif f.endswith('references') or f.endswith('literals'): 
                if any(s.startswith(f.rsplit('::', 1)[0]) for s in spaces): yield f
    def resolve(self, name, kinds):
        found = []
        name = name.lstrip(':')
        pre = [''] + [u for l in self.uses for u in l]
        for p in pre:
            base = (p + '::' + name) if p else name
            q, _, last = base.rpartition('::')
            tries = [base, (q + '::literals::' + last)]
            if q.endswith('::references'):
                par = q[:-len('references')]
                tries += [s + '::' + last for s in spaces if s.startswith(par) and s.endswith('_references') and '::' not in s[len(par):]]
            for t in tries:
                if names.get(t) in kinds and t not in found: found.append(t)
        if not found: raise Skip('unknown ' + name)
        return found

def nm(s): return 'n!"%s"' % s

TOK = re.compile(r"\s*(?:(?P<num>\d[\d']*\.?[\d']*(?:e[+-]?\d+)?|\.\d+)(?P<suf>_q_\w+|[lLfFuU]*)|(?P<id>(?:::)?[A-Za-z_]\w*(?:::[A-Za-z_]\w*)*)|(?P<str>\"[^\"]*\")|(?P<op>&&|\|\||==|!=|<=|>=|[-+*/%<>(){},!]))")

def tokenize(s):
    out = []; i = 0
    s = s.strip()
    while i < len(s):
        m = TOK.match(s, i)
        if not m or m.end() == i: raise Skip('token at ' + s[i:i+20])
        i = m.end()
        if m.group('num') is not None: out.append(('num', m.group('num').replace("'", ''), m.group('suf') or ''))
        elif m.group('id') is not None: out.append(('id', m.group('id')))
        elif m.group('str') is not None: out.append(('str', m.group('str')))
        else: out.append(('op', m.group('op')))
    return out

REPS = {'int': '.int .i32', 'double': '.flt .f64', 'float': '.flt .f32', 'std::int64_t': '.int .i64', 'int64_t': '.int .i64',
        'long': '.int .i64', 'long double': '.flt .f80', 'unsigned': '.int .u32', 'std::uint8_t': '.int .u8', 'uint8_t': '.int .u8',
        'short': '.int .i16', 'std::int32_t': '.int .i32', 'std::uint32_t': '.int .u32'}

def rat(t):
    from fractions import Fraction
    f = Fraction(t if not t.endswith('.') else t + '0')
    return str(f.numerator) if f.denominator == 1 else '(%d / %d)' % (f.numerator, f.denominator)

class P:
    def __init__(self, toks, ctx): self.t = toks; self.i = 0; self.c = ctx
    def peek(self, k=0): return self.t[self.i + k] if self.i + k < len(self.t) else ('end', '')
    def at(self, v): return self.peek()[0] in ('op', 'id') and self.peek()[1] == v
    def eat(self, v):
        if not self.at(v): raise Skip('expected %s got %s' % (v, self.peek()[1]))
        self.i += 1
    def eat2(self, v):
        if self.peek()[1] != v: raise Skip('expected ' + v)
        self.i += 1
    # checks
    def check(self):
        a = self.check1()
        while self.at('&&'):
            self.i += 1; b = self.check1(); a = '.both (%s) (%s)' % (a, b)
        return a
    def typeq(self):
        """a quantity type or decltype(x): returns ('ty', lean) or ('of', lean)"""
        if self.at('decltype'):
            self.i += 1; self.eat('('); x = self.expr(); self.eat(')'); return ('of', x)
        return ('ty', self.qtype())
    def check1(self):
        k = self.peek()
        if k[0] == 'id' and k[1] in ('is_same_v', 'std::is_same_v', 'compare'):
            exact = k[1] != 'compare'
            self.i += 1; self.eat('<'); a = self.typeq(); self.eat(','); b = self.typeq(); self.eat('>')
            if a[0] == 'ty' and b[0] == 'of': a, b = b, a
            if a[0] == 'of' and b[0] == 'ty': return '.type (%s) (%s)' % (a[1], b[1])
            if a[0] == 'of': return '.sameType (%s) (%s)' % (a[1], b[1])
            raise Skip('types')
        if k[0] == 'id' and k[1].endswith('::symbol'):
            u = self.c.resolve(k[1][:-8], UNITK)[0]
            self.i += 1; self.eat('==')
            t = self.peek()
            if t[0] == 'str': self.i += 1; return '.symbol %s %s %s' % (nm(u), t[1], t[1])
            self.eat('basic_symbol_text'); self.eat('('); a = self.peek()[1]; self.i += 1; self.eat(','); b = self.peek()[1]; self.i += 1; self.eat(')')
            return '.symbol %s %s %s' % (nm(u), a, b)
        if self.at('!'): raise Skip('negation')
        if k[1] in ('detail::unit_text', 'units::detail::unit_text'):
            self.i += 1; self.eat('<'); d = self.dimn(); self.eat(','); u = self.peek()[1]; self.i += 1; u = self.c.resolve(u, UNITK)[0]
            self.eat('>'); self.eat('('); self.eat(')'); self.eat('==')
            t = self.peek()
            if t[0] == 'str': self.i += 1; return '.unitText %s %s %s %s' % (d, nm(u), t[1], t[1])
            self.eat('basic_symbol_text'); self.eat('('); a = self.peek()[1]; self.i += 1; self.eat(','); b = self.peek()[1]; self.i += 1; self.eat(')')
            return '.unitText %s %s %s %s' % (d, nm(u), a, b)
        if k[1] in ('detail::quantity_ratio', 'units::detail::quantity_ratio'):
            self.i += 1; self.eat('<'); t = self.qtype(); self.eat('>'); self.eat('=='); self.i += 1; self.eat('(')
            xs = [self.integer()]
            while self.at(','): self.i += 1; xs.append(self.integer())
            self.eat(')')
            xs += ['1', '0'][len(xs) - 1:]
            return '.ratio (%s) %s' % (t, ' '.join('(%s)' % x for x in xs))
        if k[1].endswith('::ratio') and self.peek(2)[1] == 'dimension_unit':
            u = self.c.resolve(k[1][:-7], UNITK)[0]
            self.i += 3; self.eat('<'); d = self.dimn(); self.eat('>'); self.eat('::ratio'); self.eat('=='); self.eat('ratio'); self.eat('('); self.eat2('1'); self.eat(')')
            return '.coherent %s %s' % (d, nm(u))
        x = self.expr()
        o = self.peek()[1]
        cm = {'==': '.eq', '!=': '.ne', '<': '.lt', '<=': '.le', '>': '.gt', '>=': '.ge'}
        if o not in cm: raise Skip('no comparison: ' + str(o))
        self.i += 1
        y = self.expr()
        return '.cmp %s (%s) (%s)' % (cm[o], x, y)
    # expressions
    def expr(self):
        a = self.term()
        while self.at('+') or self.at('-'):
            o = self.peek()[1]; self.i += 1; b = self.term()
            a = '.op %s (%s) (%s)' % ('.add' if o == '+' else '.sub', a, b)
        return a
    def term(self):
        a = self.unary()
        while self.at('*') or self.at('/') or self.at('%'):
            o = self.peek()[1]; self.i += 1; b = self.unary()
            a = '.op %s (%s) (%s)' % ({'*': '.mul', '/': '.div', '%': '.mod'}[o], a, b)
        return a
    def unary(self):
        if self.at('-'): self.i += 1; return '.neg (%s)' % self.unary()
        a = self.prim()
        return a
    def unit(self):
        k = self.peek()
        if k[1] == 'scaled_unit':
            self.i += 1; self.eat('<'); self.eat('ratio'); self.eat('(')
            xs = [self.integer()]
            while self.at(','): self.i += 1; xs.append(self.integer())
            self.eat(')'); self.eat(','); u = self.unit(); self.eat('>')
            xs += ['1', '0'][len(xs) - 1:]
            return '.scaled %s (%s)' % (' '.join('(%s)' % x for x in xs), u)
        if k[0] != 'id': raise Skip('unit')
        self.i += 1
        return '.nm ' + nm(self.c.resolve(k[1], UNITK)[0])
    def integer(self):
        s = ''
        if self.at('-'): self.i += 1; s = '-'
        k = self.peek()
        if k[0] != 'num': raise Skip('integer')
        self.i += 1; return s + k[1]
    def rep(self):
        k = self.peek()
        if k[1] == 'long' and self.peek(1)[1] == 'double': self.i += 2; return REPS['long double']
        if k[1] in REPS: self.i += 1; return REPS[k[1]]
        raise Skip('representation ' + k[1])
    def qtype(self):
        k = self.peek()
        if k[0] != 'id': raise Skip('type')
        if k[1] in ('quantity', 'units::quantity'):
            self.i += 1; self.eat('<'); d = self.peek()[1]; self.i += 1; d = self.c.resolve(d, DIMK)[0]
            self.eat(','); u = self.unit(); r = '.flt .f64'
            if self.at(','): self.i += 1; r = self.rep()
            self.eat('>')
            return '.dim %s (%s) (%s)' % (nm(d), u, r)
        try: q = self.c.resolve(k[1], QK)[0]
        except Skip:
            q = self.c.resolve(k[1], REPK)[0]
            raise Skip('alias ' + q)
        self.i += 1; self.eat('<'); u = self.unit(); r = '.flt .f64'
        if self.at(','): self.i += 1; r = self.rep()
        self.eat('>')
        return '.alias %s (%s) (%s)' % (nm(q), u, r)
    def prim(self):
        k = self.peek()
        if self.at('('):
            self.i += 1; x = self.expr(); self.eat(')'); return self.post(x)
        if k[0] == 'num':
            self.i += 1
            v, s = k[1], k[2]
            fl = '.' in v or 'e' in v
            if s.startswith('_q_'):
                c = self.c.resolve(s, LITK)
                if len(c) > 1: c = [c[-1]]
                return '.lit %s %s %s' % (nm(c[0]), 'false' if fl else 'true', rat(v))
            if fl: r = {'': '.flt .f64', 'f': '.flt .f32', 'F': '.flt .f32', 'L': '.flt .f80', 'l': '.flt .f80'}[s]
            else: r = {'': '.int .i32' if int(v) < 2**31 else '.int .i64', 'L': '.int .i64', 'u': '.int .u32', 'U': '.int .u32', 'ull': '.int .u64'}.get(s)
            if r is None: raise Skip('suffix ' + s)
            return '.num (%s) %s' % (r, rat(v))
        if k[0] == 'id':
            if k[1] in ('std::int64_t', 'std::uint8_t', 'int') and self.peek(1)[1] == '{':
                self.i += 2; v = self.integer(); self.eat('}'); return '.num (%s) %s' % (REPS[k[1]], v)
            if k[1] in ('quantity_cast', 'units::quantity_cast'):
                self.i += 1; self.eat('<')
                save = self.i
                res = None
                for f, c in ((self.rep, 'castRep'), (self.qtype, 'cast'), (self.unit, 'castUnit'), (self.dimn, 'castDim')):
                    self.i = save
                    try:
                        t = f()
                        if self.at('>'): res = (t, c); break
                    except Skip: pass
                if res is None: raise Skip('cast')
                self.eat('>'); self.eat('('); x = self.expr(); self.eat(')')
                t, c = res
                return self.post('.%s %s (%s)' % (c, t if c == 'castDim' else '(%s)' % t, x))
            if self.peek(1) == ('op', '<') or k[1] in ('quantity',):
                save = self.i
                try:
                    t = self.qtype()
                    if self.at('('):
                        self.eat('('); x = self.expr(); self.eat(')'); return self.post('.make (%s) (%s)' % (t, x))
                    raise Skip('make')
                except Skip:
                    self.i = save
            c = self.c.resolve(k[1], REFK)
            self.i += 1
            return '.ref ' + nm(c[-1])
        raise Skip('primary ' + str(k))
    def dimn(self):
        k = self.peek(); self.i += 1
        return nm(self.c.resolve(k[1], DIMK)[0])
    def post(self, x):
        return x

def post_fix(src):
    return src

def strip(src):
    src = re.sub(r'//[^\n]*', lambda m: '', src)
    src = re.sub(r'/\*.*?\*/', lambda m: '\n' * m.group(0).count('\n'), src, flags=re.S)
    return src

def run(fname, extra_uses=()):
    raw = open(os.path.join(TESTS, fname)).read()
    src = strip(raw).replace('2 * ::m_per_s', '2 * (m / s)')
    ctx = Ctx()
    incs = [m for m in re.findall(r'#include <units/([^>]*)>', raw) if m in hdrs]
    out = []; skipped = []
    i = 0
    stack = []
    total = 0
    while i < len(src):
        m = re.compile(r'\bnamespace\s+([\w:]*)\s*\{|\bnamespace\s*\{').match(src, i)
        if m: ctx.push(m.group(1) or ''); stack.append('ns'); i = m.end(); continue
        m = re.compile(r'\busing namespace ([\w:]+);').match(src, i)
        if m: ctx.using(m.group(1)); i = m.end(); continue
        m = re.compile(r'\bstatic_assert\(').match(src, i)
        if m:
            j = m.end(); d = 1; ins = False
            while d:
                ch = src[j]
                if ch == '"': ins = not ins
                if not ins: d += (ch == '(') - (ch == ')')
                j += 1
            body = src[m.end():j-1]; line = src.count('\n', 0, i) + 1
            total += 1
            try:
                if '.number()' in body:
                    mm = re.match(r'\s*\((.*)\)\.number\(\) == (\d+)\s*$', body, re.S)
                    if not mm: raise Skip('number')
                    p = P(tokenize(mm.group(1)), ctx); x = p.expr()
                    if p.i != len(p.t): raise Skip('rest')
                    c = '.cmp .eq (.number (%s)) (.num (.int .i32) %s)' % (x, mm.group(2))
                else:
                    p = P(tokenize(body), ctx); c = p.check()
                    if p.i != len(p.t): raise Skip('rest ' + str(p.t[p.i:p.i+3]))
                out.append((line, c))
            except Skip as e:
                skipped.append((line, body.replace('\n', ' ')[:150], str(e)))
            i = j; continue
        if src[i] == '{': stack.append('b')
        elif src[i] == '}':
            if stack and stack.pop() == 'ns': ctx.pop()
        i += 1
    return incs, out, skipped, total

FILES = [('si_test.cpp', 'Si'), ('cgs_test.cpp', 'Cgs'), ('fps_test.cpp', 'Fps'), ('us_test.cpp', 'Us'), ('si_cgs_test.cpp', 'SiCgs'),
         ('si_fps_test.cpp', 'SiFps'), ('iec80000_test.cpp', 'Iec80000'), ('references_test.cpp', 'References')]

if __name__ == '__main__':
    o = ['import Verif.Conformance', '', '/-!', '# Static tests of the systems of units, replayed in the model (generated by tools/gen_conformance.py)', '',
         'The number of each check is the line of the assertion in the test.', '-/', '', 'namespace Verif.Conformance', '', 'open Systems', '', 'set_option Elab.async false',
         'set_option maxRecDepth 100000', '']
    for f, n in FILES:
        incs, out, skipped, total = run(f)
        print(f, len(out), 'of', total, file=sys.stderr)
        for s in skipped: print('   ', s, file=sys.stderr)
        o.append('/-- /repo/test/unit_test/static/%s: %d of its %d assertions. -/' % (f, len(out), total))
        o.append('def test%s : List (Nat × Check) := [' % n)
        o.append(',\n'.join('  (%d, %s)' % x for x in out) + ']')
        o.append('')
        o.append('#guard failures [%s] test%s = some []' % (', '.join(nm(x) for x in incs), n))
        o.append('')
    o.append('end Verif.Conformance')
    open(os.path.join(LEAN, 'ConformanceSystems.lean'), 'w').write('\n'.join(o) + '\n')
