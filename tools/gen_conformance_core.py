#!/usr/bin/env python3
"""Translates static assertions about quantities, points, kinds and point kinds of /repo/test/unit_test/static into checks of the model
(lean/Verif/ConformanceTemplates.lean).

Usage: gen_conformance_core.py            writes the file and reports what was not translated
"""
import re, sys, os
import gen_conformance as G
from gen_conformance import P, Skip, Ctx, nm, rat, strip, hdrs, LEAN, TESTS, UNITK, DIMK, QK, REFK, LITK

TOK = re.compile(r"\s*(?:(?P<num>(?:\d[\d']*\.?[\d']*|\.\d+)(?:e[+-]?\d+)?)(?P<suf>_q_\w+|[lLfFuU]+\b|s\b|h\b|)|(?P<id>(?:::)?~?[A-Za-z_]\w*(?:::[A-Za-z_]\w*)*)|(?P<str>\"[^\"]*\")|(?P<op><=>|&&|\|\||\+=|-=|\*=|/=|%=|\+\+|--|==|!=|<=|>=|[-+*/%<>(){},!.&=;\[\]]))")

def tokenize(s):
    out = []; i = 0; s = s.strip()
    while i < len(s):
        m = TOK.match(s, i)
        if not m or m.end() == i: raise Skip('token at ' + s[i:i+20])
        i = m.end()
        if m.group('num') is not None: out.append(('num', m.group('num').replace("'", ''), m.group('suf') or ''))
        elif m.group('id') is not None: out.append(('id', m.group('id')))
        elif m.group('str') is not None: out.append(('str', m.group('str')))
        else: out.append(('op', m.group('op')))
    return out

REPS = dict(G.REPS)
REPS.update({'long long': '.int .i64', 'unsigned long long': '.int .u64', 'std::chrono::seconds::rep': '.int .i64',
             'std::chrono::hours::rep': '.int .i64', 'sys_seconds::rep': '.int .i64', 'sys_days::rep': '.int .i64'})
OPS = {'+': '.add', '-': '.sub', '*': '.mul', '/': '.div', '%': '.mod'}
CMP = {'==': '.eq', '!=': '.ne', '<': '.lt', '<=': '.le', '>': '.gt', '>=': '.ge', '<=>': '.lt'}
FUN = {'std::plus': '.add', 'std::minus': '.sub', 'std::multiplies': '.mul', 'std::divides': '.div', 'std::modulus': '.mod'}
DUR = {'std::chrono::seconds': ('.int .i64', 1, 1), 'std::chrono::hours': ('.int .i64', 3600, 1)}
TIME = {'sys_seconds': ('"system_clock"', '.int .i64', 1, 1), 'sys_days': ('"system_clock"', '.int .i64', 86400, 1)}

class D:
    """the declarations of a test"""
    def __init__(self): self.name = ''; self.states = []; self.kinds = []; self.pkinds = []; self.decls = []; self.origins = {}; self.alias = {}; self.consts = {}; self.concepts = {}

class P2(P):
    def __init__(self, toks, ctx, d, env=None): super().__init__(toks, ctx); self.un = False; self.d = d; self.env = env or {}
    def rest(self):
        if self.i != len(self.t): raise Skip('rest ' + ' '.join(str(x[1]) for x in self.t[self.i:self.i+6]))
    # ---- types
    def rep(self):
        a, b, c = (self.peek(k)[1] for k in range(3))
        for n, s in ((3, '%s %s %s' % (a, b, c)), (2, '%s %s' % (a, b)), (1, a)):
            if s in REPS: self.i += n; return REPS[s]
        raise Skip('representation ' + str(a))
    def ratio(self):
        self.eat('ratio'); o = self.peek()[1]; self.i += 1
        xs = [self.integer()]
        while self.at(','): self.i += 1; xs.append(self.integer())
        self.eat(')' if o == '(' else '}')
        return xs + ['1', '0'][len(xs) - 1:]
    def unit(self):
        k = self.peek()
        if k[1] == 'scaled_unit':
            self.i += 1; self.eat('<'); xs = self.ratio(); self.eat(','); u = self.unit(); self.eat('>')
            return '.scaled %s (%s)' % (' '.join('(%s)' % x for x in xs), u)
        if k[1] == 'unknown_coherent_unit': self.i += 1; return '.unknown'
        return super().unit()
    def dim(self):
        k = self.peek()
        if k[1] in ('unknown_dimension', 'units::unknown_dimension'):
            self.i += 1; self.eat('<'); es = []
            while True:
                if self.peek()[1] not in ('exponent', 'units::exponent'): raise Skip('exponent')
                self.i += 1; self.eat('<'); b = self.peek()[1]; self.i += 1; self.eat(','); n = self.integer(); de = '1'
                if self.at(','): self.i += 1; de = self.integer()
                self.eat('>')
                es.append('(%s, (%s), (%s))' % (nm(self.c.resolve(b, DIMK)[0]), n, de))
                if not self.at(','): break
                self.i += 1
            self.eat('>')
            return '.unknown [%s]' % ', '.join(es)
        if k[0] != 'id': raise Skip('dimension')
        self.i += 1
        return '.nm ' + nm(self.c.resolve(k[1], DIMK)[0])
    def kind(self):
        k = self.peek()[1]; self.i += 1
        if k == 'downcast_kind':
            self.eat('<'); b = self.peek()[1]; self.i += 1; self.eat(','); d = self.dim(); self.eat('>')
            if b not in self.d.kinds: raise Skip('kind')
            return '.down "%s" (%s)' % (b, d)
        if k not in self.d.kinds: raise Skip('kind ' + str(k))
        return '.nm "%s"' % k
    def origin(self):
        k = self.peek()[1]; self.i += 1
        if k == 'dynamic_origin': self.eat('<'); d = self.dim(); self.eat('>'); return '.dyn (%s)' % d
        if k == 'clock_origin':
            self.eat('<'); c = self.peek()[1]; self.i += 1; self.eat('>'); return '.clock "%s"' % c.split('::')[-1]
        if k in self.d.origins:
            d = self.d.origins[k]
            if d is None: self.eat('<'); d = self.dim(); self.eat('>')
            return '.user "%s" (%s)' % (k, d)
        raise Skip('origin ' + str(k))
    def targs(self, defu=None):
        """the unit and the representation"""
        u = defu; r = '.flt .f64'
        if not self.at('>'):
            u = self.unit()
            if self.at(','): self.i += 1; r = self.rep()
        self.eat('>')
        if u is None: raise Skip('no unit')
        return '(%s) (%s)' % (u, r)
    def qtype(self):
        k = self.peek()[1]
        if k in ('std::remove_cvref_t',): raise Skip('remove')
        if k in DUR: self.i += 1; return '.dur (%s) %d %d' % DUR[k]
        if k in TIME: self.i += 1; return '.time %s (%s) %d %d' % TIME[k]
        if self.peek(1) == ('op', '<'):
            if k in ('quantity', 'units::quantity'):
                self.i += 2; d = self.dim(); self.eat(','); return '.qty (%s) %s' % (d, self.targs())
            if k == 'quantity_kind': self.i += 2; d = self.kind(); self.eat(','); return '.kd (%s) %s' % (d, self.targs())
            if k == 'quantity_point': self.i += 2; d = self.origin(); self.eat(','); return '.pt (%s) %s' % (d, self.targs())
            if k == 'quantity_point_kind':
                self.i += 2; d = self.peek()[1]; self.i += 1
                if d not in self.d.pkinds:
                    if d in self.d.kinds: raise Skip('point kind')
                    raise Skip('point kind ' + d)
                self.eat(','); return '.pk "%s" %s' % (d, self.targs())
            if k == 'reference':
                self.i += 2; d = self.dim(); self.eat(','); u = self.unit(); self.eat('>'); return '.ref (%s) (%s)' % (d, u)
            if k == 'time_point':
                self.i += 2; c = self.peek()[1]; self.i += 1; self.eat(','); return '.pt (.clock "%s") %s' % (c.split('::')[-1], self.targs())
            if k in self.d.alias:
                cls, arg, defu = self.d.alias[k]
                self.i += 2
                return '.%s %s %s' % (cls, arg, self.targs(defu))
            q = self.c.resolve(k, QK)[0]
            self.i += 2
            return '.alias %s %s' % (nm(q), self.targs())
        return '.rep (%s)' % self.rep()
    # ---- checks
    def check(self):
        a = self.check1()
        while self.at('&&'):
            self.i += 1; b = self.check1(); a = '.both (%s) (%s)' % (a, b)
        return a
    def typeq(self):
        if self.at('std::remove_cvref_t'):
            self.i += 1; self.eat('<'); a = self.typeq(); self.eat('>'); return a
        if self.at('decltype'):
            # the operand is not evaluated: a literal 0 is replaced by 1 lest the model divide by it
            self.i += 1; self.eat('('); self.un = True; x = self.aexpr(); self.un = False; self.eat(')')
            if self.at('&&'): self.i += 1
            return ('of', x)
        t = self.qtype()
        if self.at('&&'): self.i += 1
        return ('ty', t)
    def sample(self):
        a = self.typeq()
        return a[1] if a[0] == 'of' else '.obj (%s) 1' % a[1]
    def check1(self):
        k = self.peek()
        if self.at('!'):
            self.i += 1
            if self.at('constructible_or_convertible_from'):
                self.i += 1; self.eat('<'); t = self.qtype(); self.eat('>'); self.eat('('); x = self.aexpr()
                if self.at(','): raise Skip('two arguments')
                self.eat(')')
                return '.both (.not (.constructible (%s) (%s))) (.not (.convertible (%s) (%s)))' % (t, x, t, x)
            if self.at('('):
                self.i += 1; a = self.check(); self.eat(')'); return '.not (%s)' % a
            return '.not (%s)' % self.check1()
        if k[1] in ('is_same_v', 'std::is_same_v', 'compare'):
            self.i += 1; self.eat('<'); a = self.typeq()
            if self.peek()[0] == 'id': raise Skip('member type')
            self.eat(','); b = self.typeq(); self.eat('>')
            if a[0] == 'ty' and b[0] == 'of': a, b = b, a
            if a[0] == 'of' and b[0] == 'ty': return '.type (%s) (%s)' % (a[1], b[1])
            if a[0] == 'of': return '.sameType (%s) (%s)' % (a[1], b[1])
            raise Skip('types')
        if k[1] in ('std::constructible_from', 'std::is_constructible_v', 'std::is_assignable_v', 'std::convertible_to', 'std::is_convertible_v'):
            self.i += 1; self.eat('<'); a = self.qtype(); self.eat(','); b = self.qtype(); self.eat('>')
            if 'convertible' in k[1]: a, b = b, a
            return '.%s (%s) (.obj (%s) 1)' % ('constructible' if 'constructible' in k[1] else 'convertible', a, b)
        if k[1] == 'std::is_invocable_v':
            self.i += 1; self.eat('<'); f = FUN[self.peek()[1]]; self.i += 1; self.eat('<'); self.eat('>'); self.eat(',')
            a = self.sample(); self.eat(','); b = self.sample(); self.eat('>')
            return '.not (.rejected (.op %s (%s) (%s)))' % (f, a, b)
        if k[1] in ('std::equality_comparable_with', 'std::three_way_comparable_with'):
            self.i += 1; self.eat('<'); a = self.sample(); self.eat(','); b = self.sample(); self.eat('>')
            return '.%s (%s) (%s)' % ('eqWith' if 'equality' in k[1] else 'cmpWith', a, b)
        if k[1] in ('std::equality_comparable', 'std::three_way_comparable', 'std::totally_ordered'):
            self.i += 1; self.eat('<'); a = self.sample(); self.eat('>')
            return '.%s (%s) (%s)' % ('eqWith' if 'equality' in k[1] else 'cmpWith', a, a)
        if k[1] == 'same':
            self.i += 1; self.eat('('); x = self.aexpr(); self.eat(','); y = self.aexpr(); self.eat(')')
            return '.same (%s) (%s)' % (x, y)
        if k[1] in ('QuantityKind', 'QuantityPointKind', 'QuantityPoint'):
            self.i += 1; self.eat('<'); t = self.qtype(); self.eat('>')
            return '.isCls (%s) %s' % (t, {'QuantityKind': '.kd', 'QuantityPointKind': '.pk', 'QuantityPoint': '.pt'}[k[1]])
        if k[1] == 'QuantityKindOf':
            self.i += 1; self.eat('<'); t = self.qtype(); self.eat(','); x = self.kind(); self.eat('>')
            return '.kindOf (%s) (%s)' % (t, x)
        if k[1] == 'QuantityPointKindOf':
            self.i += 1; self.eat('<'); t = self.qtype(); self.eat(','); x = self.peek()[1]; self.i += 1; self.eat('>')
            if x not in self.d.pkinds: raise Skip('point kind')
            return '.pkindOf (%s) "%s"' % (t, x)
        if self.at('['): return self.pair()
        x = self.expr()
        o = self.peek()[1]
        if o not in CMP: raise Skip('no comparison: ' + str(o))
        self.i += 1
        y = self.expr()
        return '.cmp %s (%s) (%s)' % (CMP[o], x, y)
    def eats(self, s):
        for k in tokenize(s): self.eat2(k[1])
    def pair(self):
        """[](auto v) { auto vv = v++; return std::pair(v, vv); }(x) == std::pair(a, b)"""
        save = self.i
        try: self.eats('[](auto v) { auto vv =')
        except Skip:
            self.i = save; x = self.expr(); self.eat('=='); y = self.expr(); return '.cmp .eq (%s) (%s)' % (x, y)
        pre = not self.at('v')
        if not pre: self.i += 1
        o = {'++': '.add', '--': '.sub'}[self.peek()[1]]; self.i += 1
        if pre: self.eat('v')
        self.eats('; return std::pair(v, vv); } (')
        x = self.expr(); self.eats(') == std::pair('); a = self.expr(); self.eat(','); b = self.expr(); self.eat(')')
        new, res = ('.pre', '.pre') if pre else ('.postNew', '.post')
        return '.both (.same (%s %s (%s)) (%s)) (.same (%s %s (%s)) (%s))' % (new, o, x, a, res, o, x, b)
    # ---- expressions
    def aexpr(self):
        a = self.expr()
        k = self.peek()[1]
        if k == '=': self.i += 1; return '.assign (%s) (%s)' % (a, self.aexpr())
        if k in ('+=', '-=', '*=', '/=', '%='):
            self.i += 1; return '.assignOp %s (%s) (%s)' % (OPS[k[0]], a, self.aexpr())
        return a
    def unary(self):
        if self.at('-'): self.i += 1; return '.neg (%s)' % self.unary()
        if self.at('+'): self.i += 1; return '.pos (%s)' % self.unary()
        if self.at('++') or self.at('--'):
            o = {'++': '.add', '--': '.sub'}[self.peek()[1]]; self.i += 1; return '.pre %s (%s)' % (o, self.unary())
        return self.post(self.prim())
    def post(self, x):
        while True:
            if self.at('.'):
                self.i += 1; f = self.peek()[1]; self.i += 1; self.eat('('); self.eat(')')
                if f not in ('number', 'common', 'relative'): raise Skip('member ' + f)
                x = '.%s (%s)' % (f, x)
            elif self.at('++') or self.at('--'):
                o = {'++': '.add', '--': '.sub'}[self.peek()[1]]; self.i += 1; x = '.post %s (%s)' % (o, x)
            else: return x
    def args(self):
        """( x ) or { x }; None when empty"""
        o = self.peek()[1]
        if o not in ('(', '{'): raise Skip('arguments')
        c = ')' if o == '(' else '}'
        self.i += 1
        if self.at(c): self.i += 1; return None
        x = self.aexpr(); self.eat(c); return x
    def prim(self):
        k = self.peek()
        if self.at('('):
            self.i += 1; x = self.aexpr(); self.eat(')'); return x
        if self.at('['):
            save = self.i
            try:
                self.eats('[]{ std::uint8_t ui('); a = self.integer(); self.eats('); return ui %='); b = self.integer(); self.eats('; }()')
                return '.assignOp .mod (.num (.int .u8) %s) (.num (.int .i32) %s)' % (a, b)
            except Skip: self.i = save
            self.eats('[]() {'); t = self.qtype(); self.eat('l1'); a = self.args(); self.eats(', l2'); b = self.args(); self.eats('; return l2 =')
            if self.at('std::move'): self.eats('std::move(l1)')
            else: self.eat('l1')
            self.eats('; }()')
            return '.assign (%s) (%s)' % ('.make (%s) (%s)' % (t, b) if b else '.obj (%s) 0' % t, '.make (%s) (%s)' % (t, a))
        if k[0] == 'num':
            self.i += 1
            v, s = k[1], k[2]
            if self.un and v == '0': v = '1'
            fl = '.' in v or 'e' in v
            if s.startswith('_q_'):
                c = self.c.resolve(s, LITK)
                return '.lit %s %s %s' % (nm(c[-1]), 'false' if fl else 'true', rat(v))
            if s in ('s', 'h'): return '.dur (%s) %d 1 %s' % ('.flt .f80' if fl else '.int .i64', {'s': 1, 'h': 3600}[s], rat(v))
            if fl: r = {'': '.flt .f64', 'f': '.flt .f32', 'L': '.flt .f80'}[s]
            else: r = {'': '.int .i32' if int(v) < 2**31 else '.int .i64', 'L': '.int .i64', 'u': '.int .u32', 'ULL': '.int .u64'}[s]
            return '.num (%s) %s' % (r, rat(v))
        if k[0] != 'id': raise Skip('primary ' + str(k))
        n = k[1]
        if n in self.env: self.i += 1; return self.env[n]
        if n in self.d.consts: self.i += 1; return self.d.consts[n]
        if n == 'std::numeric_limits':
            self.i += 1; self.eat('<'); r = self.rep(); self.eat('>'); f = self.peek()[1]; self.i += 1; self.eat('('); self.eat(')')
            return '.limit (%s) %s' % (r, {'::max': 'true', '::lowest': 'false'}[f])
        if n == 'quotient_remainder_theorem':
            self.i += 1; self.eat('('); a = self.expr(); self.eat(','); b = self.expr(); self.eat(')')
            return '.op .add (.op .mul (.op .div (%s) (%s)) (%s)) (.op .mod (%s) (%s))' % (a, b, b, a, b)
        if n in ('construct_from_only', 'construct_and_convert_from'):
            self.i += 1; self.eat('<'); t = self.qtype(); self.eat('>'); x = self.args()
            return '.%s (%s) (%s)' % ('makeOnly' if n.endswith('only') else 'makeBoth', t, x)
        if n in ('quantity', 'quantity_point', 'quantity_kind', 'quantity_point_kind') and self.peek(1)[1] in ('(', '{'):
            self.i += 1; x = self.args()
            return '.%s (%s)' % ({'quantity': 'deduceQty', 'quantity_point': 'deducePt', 'quantity_kind': 'deduceKd', 'quantity_point_kind': 'deducePk'}[n], x)
        if n in TIME:
            self.i += 1; x = self.args(); c, r, a, b = TIME[n]
            return '.time %s (%s)' % (c, x)
        if n == 'sys_days::duration': self.i += 1; self.eat('{'); v = self.integer(); self.eat('}'); return '.dur (.int .i64) 86400 1 %s' % v
        if n in ('pow', 'sqrt', 'cbrt', 'abs'):
            self.i += 1; a, b = '1', '1'
            if n == 'pow':
                self.eat('<'); a = self.integer()
                if self.at(','): self.i += 1; b = self.integer()
                self.eat('>')
            x = self.args()
            return '.pow %s %s (%s)' % (a, b, x) if n == 'pow' else '.%s (%s)' % (n, x)
        if n in ('quantity_cast', 'quantity_point_cast', 'quantity_kind_cast', 'quantity_point_kind_cast'):
            self.i += 1; self.eat('<')
            save = self.i; res = None
            def two(f, c):
                def g():
                    a = f(); self.eat(','); u = self.unit(); return '.%s %s (%s)' % (c, a if c == 'pkindUnit' else '(%s)' % a, u)
                return g
            def pk():
                x = self.peek()[1]; self.i += 1
                if x not in self.d.pkinds: raise Skip('pk')
                return '"%s"' % x
            for f in (two(self.dim, 'dimUnit'), two(self.kind, 'kindUnit'), two(pk, 'pkindUnit'), lambda: '.ty (%s)' % self.qtype(),
                      lambda: '.kind (%s)' % self.kind(), lambda: '.pkind %s' % pk(), lambda: '.unit (%s)' % self.unit(), lambda: '.dim (%s)' % self.dim()):
                self.i = save
                try:
                    res = f()
                    if self.at('>'): break
                    res = None
                except Skip: res = None
            if res is None: raise Skip('cast')
            self.eat('>'); x = self.args()
            return '.cast (%s) (%s)' % (res, x)
        # a type
        save = self.i
        try: t = self.qtype()
        except Skip: t = None
        if t is not None:
            m = self.peek()[1]
            if m in ('::zero', '::one', '::min', '::max'): self.i += 1; self.eat('('); self.eat(')'); return '.special (%s) %s' % (t, m[1:].replace(':', '.'))
            x = self.args()
            return '.obj (%s) 0' % t if x is None else '.make (%s) (%s)' % (t, x)
        self.i = save
        c = self.c.resolve(n, REFK)
        self.i += 1
        return '.ref ' + nm(c[-1])

def split_args(ts):
    out = [[]]; d = 0
    for t in ts:
        if t[1] in ('<', '(', '{'): d += 1
        elif t[1] in ('>', ')', '}'): d -= 1
        if t == ('op', ',') and d == 0: out.append([])
        else: out[-1].append(t)
    return out

def subst(ts, m):
    out = []
    for t in ts:
        if t[0] == 'id' and t[1] in m: out += m[t[1]]
        else: out.append(t)
    return out

def params(ts, ctx, d):
    """requires(T a, U b): samples"""
    env = {}
    for p in split_args(ts):
        if not p: continue
        q = P2(p[:-1], ctx, d); t = q.qtype(); q.rest()
        env[p[-1][1]] = '.obj (%s) 1' % t
    return env

def closing(ts, i):
    o = ts[i][1]; c = {'{': '}', '(': ')', '<': '>'}[o]; n = 0
    for j in range(i, len(ts)):
        if ts[j] == ('op', o): n += 1
        elif ts[j] == ('op', c):
            n -= 1
            if n == 0: return j
    raise Skip('unbalanced')

def expand(name, args, ctx, d, line, out, skipped):
    """one check for each line of a concept"""
    ps, body = d.concepts[name]
    ts = subst(body, dict(zip(ps, args)))
    i = 0; env = {}
    if ts[0] == ('op', '!'): ts = [('id', 'requires'), ('op', '{'), ('id', 'requires')] + ts + [('op', ';'), ('op', '}')]   # with one statement
    assert ts[0] == ('id', 'requires'), ts[:3]
    i = 1
    if ts[i] == ('op', '('):
        j = closing(ts, i); env = params(ts[i+1:j], ctx, d); i = j + 1
    j = closing(ts, i); ts = ts[i+1:j]
    i = 0; n = 0; tot = 0
    while i < len(ts):
        j = i; dep = 0
        while not (ts[j] == ('op', ';') and dep == 0):
            if ts[j][1] in ('{', '('): dep += 1
            elif ts[j][1] in ('}', ')'): dep -= 1
            j += 1
        st = ts[i:j]; i = j + 1
        try:
            if st[0] != ('id', 'requires'): raise Skip('statement')
            if st[1] == ('op', '!') and st[2] == ('id', 'requires'):
                tot += 1
                k = 3; e = dict(env)
                if st[k] == ('op', '('):
                    c = closing(st, k); e.update(params(st[k+1:c], ctx, d)); k = c + 1
                c = closing(st, k); b = st[k+1:c]
                if b and b[-1] == ('op', ';'): b = b[:-1]
                if b[0] == ('id', 'typename'):
                    p = P2(b[1:], ctx, d); t = p.qtype(); p.rest(); out.append((line, '.badType (%s)' % t))
                else:
                    p = P2(b, ctx, d, e); x = p.aexpr()
                    o = p.peek()[1]
                    if o in CMP: p.i += 1; y = p.expr(); p.rest(); out.append((line, '.noCmp %s (%s) (%s)' % (CMP[o], x, y)))
                    else: p.rest(); out.append((line, '.rejected (%s)' % x))
                n += 1
            elif st[1][1] in d.concepts:
                c = closing(st, 2); expand(st[1][1], split_args(st[3:c]), ctx, d, line, out, skipped)
            else: raise Skip('requirement')
        except Skip as e:
            skipped.append((line, ' '.join(str(x[1]) for x in st)[:150], str(e)))

class Env(dict):
    """the state of the variables; each state is a definition"""
    def __init__(self, d, line): super().__init__(); self.d = d; self.line = line; self.n = 0
    def __setitem__(self, k, v):
        self.n += 1; s = 'state%s_%d_%d' % (self.d.name, self.line, self.n)
        self.d.states.append((s, v)); super().__setitem__(k, s)

def member_lambda(body, ctx, d, line0, out, skipped):
    """the statements of a lambda that asserts on a variable"""
    env = Env(d, line0)
    inner = body[body.index('{') + 1:body.rindex('}')]
    off = body[:body.index('{') + 1].count('\n')
    pos = 0
    for st in inner.split(';'):
        line = line0 + off + inner[:pos].count('\n') + (len(st) - len(st.lstrip('\n ')) and st[:len(st) - len(st.lstrip())].count('\n'))
        pos += len(st) + 1
        s = st.strip().replace('[[maybe_unused]] ', '').replace('const ', '')
        if not s or s == 'return true': continue
        def ex(src):
            p = P2(tokenize(src), ctx, d, env); x = p.aexpr(); p.rest(); return x
        m = re.match(r'assert\((.*)\)$', s, re.S)
        if m:
            parts = m.group(1).split(' && ')
            for a in parts:
                mm = re.match(r'&(\+\+|--)(\w) == &\2$', a)
                if mm: env[mm.group(2)] = '.pre %s (%s)' % ({'++': '.add', '--': '.sub'}[mm.group(1)], env[mm.group(2)]); continue
                mm = re.match(r'&\((\w) (.)= (.*)\) == &\1$', a)
                if mm: env[mm.group(1)] = '.assignOp %s (%s) (%s)' % (OPS[mm.group(2)], env[mm.group(1)], ex(mm.group(3))); continue
                p = P2(tokenize(a), ctx, d, env); c = p.check(); p.rest(); out.append((line, c))
                mm = re.match(r'\((\w)(\+\+|--)\)', a)
                if mm: env[mm.group(1)] = '.postNew %s (%s)' % ({'++': '.add', '--': '.sub'}[mm.group(2)], env[mm.group(1)])
            continue
        m = re.match(r'(\w) = (.*)$', s, re.S)
        if m: env[m.group(1)] = '.assign (%s) (%s)' % (env[m.group(1)], ex(m.group(2))); continue
        m = re.match(r'(.*) (\w)\((.*)\)$', s, re.S)
        if not m: raise Skip('statement ' + s)
        if m.group(1) == 'quantity_point_kind': env[m.group(2)] = '.deducePk (%s)' % ex(m.group(3))
        else: env[m.group(2)] = ex('%s(%s)' % (m.group(1), m.group(3)))

def run(fname, name):
    raw = open(os.path.join(TESTS, fname)).read()
    src = strip(raw)
    # the downcasting mode is not 0, and no special compiler
    src = re.sub(r'#if UNITS_DOWNCAST_MODE == 0(.*?)#else(.*?)#endif', lambda m: '\n' * (m.group(1).count('\n')) + m.group(2), src, flags=re.S)
    src = re.sub(r'#if  __cpp_lib_chrono.*?#endif', lambda m: '\n' * m.group(0).count('\n'), src, flags=re.S)
    src = re.sub(r'^#.*$', '', src, flags=re.M)
    src = src.replace('namespace si = isq::si;', '')
    if 'using namespace units::isq;' not in src:
        src = re.sub(r'(?<![\w:])si::', 'isq::si::', src)
        src = src.replace('using namespace si;', 'using namespace isq::si;')
    src = src.replace('using namespace references;', 'using namespace isq::si::references;')
    ctx = Ctx(); d = D(); d.name = name
    incs = [m for m in re.findall(r'#include <units/([^>]*)>', raw)]
    if 'chrono.h' in incs: incs.append('isq/si/time.h')
    if 'generic/dimensionless.h' not in incs: incs = ['generic/dimensionless.h'] + incs
    incs = [m for m in incs if m in hdrs]
    out = []; skipped = []; total = 0; i = 0; stack = []
    rebinds = []
    def line_at(i): return src.count('\n', 0, i) + 1
    while i < len(src):
        if src.startswith('namespace mylib', i) or src.startswith('namespace yourapp', i):
            j = src.index('}  // namespace' if '}  // namespace' in src[i:] else '}', i) if False else None
            dep = 0; j = src.index('{', i)
            while True:
                dep += (src[j] == '{') - (src[j] == '}'); j += 1
                if dep == 0: break
            for m in re.finditer(r'static_assert', src[i:j]): total += 1; skipped.append((line_at(i + m.start()), 'extensible interface', ''))
            i = j; continue
        m = re.compile(r'\bnamespace\s+([\w:]*)\s*\{|\bnamespace\s*\{').match(src, i)
        if m: ctx.push(m.group(1) or ''); stack.append('ns'); i = m.end(); continue
        m = re.compile(r'\busing namespace ([\w:]+);').match(src, i)
        if m: ctx.using(m.group(1)); i = m.end(); continue
        m = re.compile(r'struct (\w+) : kind<\1, ([\w:]+)> \{\};').match(src, i)
        if m:
            d.kinds.append(m.group(1)); d.decls.append('.kind "%s" (.nm %s)' % (m.group(1), nm(ctx.resolve(m.group(2), DIMK)[0]))); i = m.end(); continue
        m = re.compile(r'struct (\w+) : derived_kind<\1, ([\w:]+), (\w+)> \{\};').match(src, i)
        if m:
            d.kinds.append(m.group(1)); d.decls.append('.derived "%s" "%s" (.nm %s)' % (m.group(1), m.group(3), nm(ctx.resolve(m.group(2), DIMK)[0]))); i = m.end(); continue
        m = re.compile(r'struct (\w+) :\s+point_kind<(\w+), (\w+)(?:, (.*?))?> \{\};').match(src, i)
        if m:
            o = 'none'
            if m.group(4): p = P2(tokenize(m.group(4)), ctx, d); o = 'some (%s)' % p.origin(); p.rest()
            d.pkinds.append(m.group(1)); d.decls.append('.pkind "%s" "%s" "%s" (%s)' % (m.group(1), m.group(2), m.group(3), o)); i = m.end(); continue
        m = re.compile(r'struct (\w+) : point_origin<([\w:]+)> \{\};').match(src, i)
        if m: d.origins[m.group(1)] = '.nm ' + nm(ctx.resolve(m.group(2), DIMK)[0]); i = m.end(); continue
        m = re.compile(r'template<Dimension D>\s+struct (\w+) : point_origin<D> \{\s+template<Dimension D2>\s+using rebind = \1<D2>;\s+\};').match(src, i)
        if m: d.origins[m.group(1)] = None; rebinds.append(m.group(1)); i = m.end(); continue
        m = re.compile(r'template\s*<Unit U( = one)?, Representation Rep = double>\s+using (\w+) = (quantity_kind|quantity_point_kind)<(\w+), U, Rep>;').match(src, i)
        if m:
            a = ('kd', '(.nm "%s")' % m.group(4)) if m.group(3) == 'quantity_kind' else ('pk', '"%s"' % m.group(4))
            d.alias[m.group(2)] = a + ('.nm n!"units::one"' if m.group(1) else None,); i = m.end(); continue
        m = re.compile(r'template<((?:template<[^>]*> )?typename[^{]*?)>\s*concept (\w+) = ([^{]*)').match(src, i)
        if m:
            ps = [x.split()[-1] for x in re.sub(r'template<[^>]*> ', '', m.group(1)).split(',')]
            j = m.end(); dep = 0
            while True:
                dep += (src[j] == '{') - (src[j] == '}'); j += 1
                if dep == 0: break
            try: d.concepts[m.group(2)] = (ps, tokenize(src[m.start(3):j]))
            except Skip as e: print('concept', m.group(2), e, file=sys.stderr)
            i = j; continue
        m = re.compile(r'constexpr auto (\w+) = ([^;{]*);').match(src, i)
        if m:
            try: p = P2(tokenize(m.group(2)), ctx, d); x = p.aexpr(); p.rest(); d.consts[m.group(1)] = x
            except Skip as e: print('constant', m.group(1), e, file=sys.stderr)
            i = m.end(); continue
        m = re.compile(r'constexpr (quantity_point<[^{;]*>) (\w+)\{([^;]*)\};').match(src, i)
        if m:
            p = P2(tokenize('%s(%s)' % (m.group(1), m.group(3))), ctx, d); x = p.aexpr(); p.rest(); d.consts[m.group(2)] = x; i = m.end(); continue
        m = re.compile(r'\bstatic_assert\(').match(src, i)
        if m:
            j = m.end(); dep = 1; ins = False
            while dep:
                ch = src[j]
                if ch == '"': ins = not ins
                if not ins: dep += (ch == '(') - (ch == ')')
                j += 1
            body = src[m.end():j-1]; line = line_at(i); total += 1
            body = re.sub(r',\s*"[^"]*"\s*$', '', body)
            try:
                if 'return true' in body: member_lambda(body, ctx, d, line, out, skipped)
                else:
                    ts = tokenize(body)
                    if ts[0][1] in d.concepts:
                        c = closing(ts, 1); expand(ts[0][1], split_args(ts[2:c]), ctx, d, line, out, skipped)
                    else:
                        p = P2(ts, ctx, d); c = p.check(); p.rest(); out.append((line, c))
            except Skip as e:
                skipped.append((line, body.replace('\n', ' ')[:150], str(e)))
            i = j; continue
        if src[i] == '{': stack.append('b')
        elif src[i] == '}':
            if stack and stack.pop() == 'ns': ctx.pop()
        i += 1
    return incs, rebinds, d.decls, d.states, out, skipped, total

FILES = [('quantity_test.cpp', 'Quantity'), ('quantity_kind_test.cpp', 'Kind'), ('quantity_point_test.cpp', 'Point'), ('quantity_point_kind_test.cpp', 'PointKind'),
         ('chrono_test.cpp', 'Chrono'), ('math_test.cpp', 'Math')]

if __name__ == '__main__':
    o = ['import Verif.ConformanceCore', '', '/-!', '# Static tests of the class templates, replayed in the model (generated by tools/gen_conformance_core.py)', '',
         'The number of each check is the line of the assertion in the test.', '-/', '', 'namespace Verif.Conformance', '', 'open Systems', '',
         'set_option maxRecDepth 100000', '']
    for f, n in FILES:
        incs, rebinds, decls, states, out, skipped, total = run(f, n)
        bad = {s[0] for s in skipped}
        print(f, len(out), 'checks; assertions not translated (in part):', len(bad), 'of', total, file=sys.stderr)
        for s in skipped: print('   ', s, file=sys.stderr)
        o.append('/-- The kinds and point kinds of /repo/test/unit_test/static/%s. -/' % f)
        o.append('def decls%s : List Decl\' := [%s]' % (n, ',\n  '.join(decls)))
        o.append('')
        for a, b in states: o += ['/-- A state of the variable of a test of /repo/test/unit_test/static/%s (line %s). -/' % (f, a.split('_')[1]), 'def %s : Y := %s' % (a, b), '']
        for k in range(0, len(out), 150):
            part = out[k:k+150]; s = '%s%d' % (n, k // 150)
            o.append('/-- /repo/test/unit_test/static/%s. -/' % f)
            o.append('def test%s : List (Nat × Check2) := [' % s)
            o.append(',\n'.join('  (%d, %s)' % x for x in part) + ']')
            o.append('')
            o.append('#guard failures2 [%s] [%s] decls%s test%s = some []' % (', '.join(nm(x) for x in incs), ', '.join('"%s"' % r for r in rebinds), n, s))
            o.append('')
    o.append('end Verif.Conformance')
    open(os.path.join(LEAN, 'ConformanceTemplates.lean'), 'w').write('\n'.join(o) + '\n')
