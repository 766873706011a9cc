#!/usr/bin/env python3
"""Translates the static assertions of the two tests of custom representation types (custom_rep_test_min_expl.cpp, custom_rep_test_min_impl.cpp in
/repo/test/unit_test/static) into checks of the model (lean/Verif/ConformanceRep.lean).

Usage: gen_conformance_rep.py            writes the file and reports what was not translated
"""
import os, re

HERE = os.path.dirname(os.path.abspath(__file__))
LEAN = os.path.join(HERE, '..', 'lean', 'Verif', 'ConformanceRep.lean')
TESTS = '/repo/test/unit_test/static/'

HEAD = '''import Verif.Conformance
import Verif.RepOps

/-!
# The static tests of custom representation types, replayed in the model (generated by tools/gen_conformance_rep.py)

The number of each check is the line of the assertion in the test.  The results are tests of the model and not properties of the library.
-/

namespace Verif.Conformance

open Systems

set_option maxRecDepth 100000

/-- The value of an expression of a test: a value of a representation, or a quantity. -/
inductive XG (S : OpSys) where
  | val (t : S.Ty) (v : S.Val)
  | qty (q : QtyG S)

section
variable {S : OpSys} (E : Env)

/-- `quantity<D, U, Rep>(x)`. -/
def makeG (t : QTyG S) : XG S → C (QtyG S)
  | .val r v => mkG t (r, v)
  | .qty q => convertG E t q

/-- The implicit conversion to `quantity<D, U, Rep>`. -/
def implicitG (t : QTyG S) : XG S → C (QtyG S)
  | .val r v => if t.dim = .named dimOne ∧ t.unit = unitOne then mkG t (r, v) else .error .rejected
  | .qty q => convertG E t q

/-- `x op y`. -/
def binaryG (o : BinOp) (x y : C (XG S)) : C (XG S) := do
  let x ← x
  let y ← y
  match o, x, y with
  | _, .val t v, .val u w => do
    let z ← S.value o (t, v) (u, w)
    .ok (.val z.1 z.2)
  | .add, .qty a, .qty b => do
    let q ← addSubG E .add a b
    .ok (.qty q)
  | .sub, .qty a, .qty b => do
    let q ← addSubG E .sub a b
    .ok (.qty q)
  | .mul, .qty a, .qty b => do
    let q ← mulG E a b
    .ok (.qty q)
  | .div, .qty a, .qty b => do
    let q ← divG E a b
    .ok (.qty q)
  | .mod, .qty a, .qty b => do
    let q ← modG a b
    .ok (.qty q)
  | .mul, .val t v, .qty b => do
    let q ← scaleLeftG (t, v) b
    .ok (.qty q)
  | .div, .val t v, .qty b => do
    let q ← recipG E (t, v) b
    .ok (.qty q)
  | .mul, .qty a, .val t v => do
    let q ← scaleG .mul a (t, v)
    .ok (.qty q)
  | .div, .qty a, .val t v => do
    let q ← scaleG .div a (t, v)
    .ok (.qty q)
  | .mod, .qty a, .val t v => do
    let q ← scaleG .mod a (t, v)
    .ok (.qty q)
  | _, _, _ => .error .rejected

/-- `x op= y`. -/
def assignXG (o : BinOp) (x y : C (XG S)) : C (XG S) := do
  let x ← x
  let y ← y
  match x, y with
  | .qty a, .qty b => do
    let q ← assignG E o a b
    .ok (.qty q)
  | .qty a, .val t v => do
    let q ← assignNumG o a (t, v)
    .ok (.qty q)
  | _, _ => .error .rejected

/-- `-x`. -/
def negXG (x : C (XG S)) : C (XG S) := do
  let x ← x
  match x with
  | .qty a => do
    let q ← negG a
    .ok (.qty q)
  | _ => .error .rejected

/-- `x == y`. -/
def eqXG (x y : C (XG S)) : C Bool := do
  let x ← x
  let y ← y
  match x, y with
  | .qty a, .qty b => eqG E a b
  | .qty a, y => do
    let b ← implicitG E a.ty y
    eqG E a b
  | _, _ => .error .rejected

/-- `x <=> y`, which `<`, `>`, `<=` and `>=` are rewritten to. -/
def cmpXG (x y : C (XG S)) : C (Option Ordering) := do
  let x ← x
  let y ← y
  match x, y with
  | .qty a, .qty b => compareG E a b
  | _, _ => .error .rejected

end

/-- Accepted by the compiler. -/
def compiles {α : Type} (x : C α) : Bool :=
  match x with
  | .error .rejected => false
  | _ => true

/-- The dimension and the unit of `length<u>` or `dimensionless<u>`. -/
def typeG {S : OpSys} (s : Sys) (length : Bool) (u : Nm) (r : S.Ty) : C (QTyG S) := do
  let d ← resolveDim s.names [⟨"", 0⟩] (if length then n!"units::isq::si::dim_length" else n!"units::dim_one")
  let u ← resolveUnit s.names [⟨"", 0⟩] u
  .ok ⟨d.dim, u.unit, r⟩

/-- A check of a test. -/
inductive CheckG (S : OpSys) where
  | rep (t : S.Ty)
  | notRep (t : S.Ty)
  | constructible (b : Bool) (t : C (QTyG S)) (x : C (XG S))
  | convertible (b : Bool) (t : C (QTyG S)) (x : C (XG S))
  | eq (x y : C (XG S))
  | bad (x : C (XG S))
  | badEq (x y : C (XG S))
  | badCmp (x y : C (XG S))

/-- The outcome of a check. -/
def CheckG.eval {S : OpSys} (E : Env) : CheckG S → Bool
  | .rep t => S.representation t
  | .notRep t => !S.representation t
  | .constructible b t x => match (do let t ← t; let x ← x; .ok (t, x) : C (QTyG S × XG S)) with
    | .ok (t, x) => compiles (makeG E t x) == b
    | _ => false
  | .convertible b t x => match (do let t ← t; let x ← x; .ok (t, x) : C (QTyG S × XG S)) with
    | .ok (t, x) => compiles (implicitG E t x) == b
    | _ => false
  | .eq x y => match eqXG E x y with
    | .ok b => b
    | _ => false
  | .bad x => !compiles x
  | .badEq x y => !compiles (eqXG E x y)
  | .badCmp x y => !compiles (cmpXG E x y)

/-- The lines of the checks that do not hold. -/
def failuresG {S : OpSys} (cs : Sys → List (Nat × CheckG S)) : Option (List Nat) :=
  match includeAll [n!"generic/dimensionless.h", n!"isq/si/length.h"] with
  | .ok s => some (((cs s).filter fun x => !(x.2.eval (envOf s))).map (·.1))
  | .error _ => none

'''

HEAD += '''/-- `min_expl<Mode>`: one of the operations removed, test/unit_test/static/custom_rep_test_min_expl.cpp:42-85. -/
abbrev minExplMode (mode : Nat) : TypeSys :=
  { myRep nearest true with
    regular := fun t => decide (t ≠ none) || !decide (mode ∈ [1, 3, 4, 5, 6, 7])
    constructible := fun t u => (myRep nearest true).constructible t u && !(decide (mode = 2 ∧ t = none) && u.isSome)
    mulTy := fun t u => if mode = 8 ∧ t = none then none else (myRep nearest true).mulTy t u
    divTy := fun t u => if mode = 9 ∧ t = none then none else (myRep nearest true).divTy t u }

'''

TOK = re.compile(r'\s*(\d+\.?\d*|[A-Za-z_]\w*(?:::\w+)*|==|!=|<=|>=|\+\+|--|\+=|-=|\*=|/=|%=|<<|[-+*/%<>(){},!&;.])')

class Skip(Exception): pass

def toks(s):
    out = []; i = 0
    s = s.strip()
    while i < len(s):
        m = TOK.match(s, i)
        if not m: raise Skip('token ' + s[i:i+15])
        out.append(m.group(1)); i = m.end()
    return out

UNITS = {'metre': 'n!"units::isq::si::metre"', 'kilometre': 'n!"units::isq::si::kilometre"', 'one': 'n!"units::one"', 'percent': 'n!"units::percent"'}
ARITH = {'int': '.int .i32', 'double': '.flt .f64', 'std::intmax_t': '.int .i64'}
OPS = {'+': '.add', '-': '.sub', '*': '.mul', '/': '.div', '%': '.mod'}

class T:
    """The parser of one test."""
    def __init__(self, kind): self.kind = kind
    def arith(self, r): return f'(some ({ARITH[r]}))' if self.kind == 'expl' else f'(({ARITH[r]}, false))'
    def wrapped(self, r): return 'none' if self.kind == 'expl' else f'(({ARITH[r]}, true))'
    def num(self, r, v):
        if r == 'double':
            a, _, b = v.partition('.')
            b = b or '0'
            return f'(.f ({int(a + b)} / {10 ** len(b)}))'
        return f'(.i {v})'
    def parse(self, s):
        self.t = toks(s); self.i = 0
        return self
    def peek(self, k=0): return self.t[self.i + k] if self.i + k < len(self.t) else None
    def next(self): self.i += 1; return self.t[self.i - 1]
    def eat(self, x):
        if self.peek() != x: raise Skip(f'{x} expected, {self.peek()} found')
        self.i += 1
    def done(self): return self.i == len(self.t)
    # types: ('arith', r) | ('wrap', r) | ('qty', length?, unit, type)
    def type(self):
        x = self.next()
        if x in ARITH: return ('arith', x)
        if x == 'min_impl':
            self.eat('<'); r = self.next(); self.eat('>'); return ('wrap', r)
        if x == 'min_expl':
            if self.peek() == '<':
                self.eat('<')
                if self.peek() != '>': raise Skip('mode')
                self.eat('>')
            return ('wrap', 'std::intmax_t')
        if x in ('length', 'dimensionless'):
            self.eat('<'); u = self.next()
            if self.peek() == ',':
                self.eat(','); r = self.type()
            else: r = ('arith', 'double')
            self.eat('>')
            return ('qty', x == 'length', u, r)
        if x == 'Rep': return ('wrap', 'std::intmax_t')
        raise Skip('type ' + x)
    def rep(self, t): return self.arith(t[1]) if t[0] == 'arith' else self.wrapped(t[1])
    def under(self, t): return t[1]
    def ty(self, t):
        if t[0] != 'qty': raise Skip('not a quantity')
        return f'(typeG s {"true" if t[1] else "false"} {UNITS[t[2]]} {self.rep(t[3])})'
    def obj(self, t):
        """an object of the type"""
        one = lambda r: self.num(self.under(r), '1')
        if t[0] != 'qty': return f'(.ok (.val {self.rep(t)} {one(t)}))'
        return f'(do let t ← {self.ty(t)}; .ok (.qty ⟨t, {one(t[3])}⟩))'
    # expressions
    def prim(self):
        x = self.peek()
        if x == '(':
            self.eat('('); e = self.expr(); self.eat(')'); return e
        if re.match(r'\d', x):
            self.next()
            r = 'double' if '.' in x else 'int'
            return f'(.ok (.val {self.arith(r)} {self.num(r, x)}))'
        if x == 'quantity':
            self.next(); self.eat('{'); e, t = self.value(); self.eat('}')
            return f'(do let t ← typeG s false {UNITS["one"]} {t}; let x ← {e}; let q ← makeG E t x; .ok (.qty q))'
        if x in ('length', 'dimensionless'):
            t = self.type(); self.eat('('); e, _ = self.value(t[3]); self.eat(')')
            return f'(do let t ← {self.ty(t)}; let x ← {e}; let q ← makeG E t x; .ok (.qty q))'
        if x in ('min_impl', 'min_expl'):
            return self.value()[0]
        raise Skip('expression ' + x)
    def value(self, want=None):
        """a value with its type"""
        x = self.peek()
        if re.match(r'\d', x):
            self.next()
            r = 'double' if '.' in x else 'int'
            return f'(.ok (.val {self.arith(r)} {self.num(r, x)}))', self.arith(r)
        if x in ('min_impl', 'min_expl'):
            t = self.type(); self.eat('('); v = self.next(); self.eat(')')
            return f'(.ok (.val {self.rep(t)} {self.num(t[1], v)}))', self.rep(t)
        raise Skip('value ' + x)
    def mul(self):
        e = self.prim()
        while self.peek() in ('*', '/', '%'):
            o = self.next(); f = self.prim()
            e = f'(binaryG E {OPS[o]} {e} {f})'
        return e
    def expr(self):
        e = self.mul()
        while self.peek() in ('+', '-'):
            o = self.next(); f = self.mul()
            e = f'(binaryG E {OPS[o]} {e} {f})'
        return e

def assertion(k, s):
    p = T(k)
    m = re.match(r'(!?)\s*std::(constructible_from|convertible_to)<(.*)>$', s)
    if m:
        p.parse(m.group(3)); a = p.type(); p.eat(','); b = p.type()
        if not p.done(): raise Skip('rest')
        if m.group(2) == 'convertible_to': a, b = b, a
        name = 'constructible' if m.group(2) == 'constructible_from' else 'convertible'
        return f'.{name} {"false" if m.group(1) else "true"} {p.ty(a)} {p.obj(b)}'
    m = re.match(r'(!?)\s*Representation<(.*)>$', s)
    if m:
        mm = re.match(r'min_expl<(\d)>$', m.group(2))
        if mm: return ('mode', mm.group(1), bool(m.group(1)))
        p.parse(m.group(2)); t = p.type()
        return f'.{"notRep" if m.group(1) else "rep"} {p.rep(t)}'
    p.parse(s); a = p.expr(); p.eat('=='); b = p.expr()
    if not p.done(): raise Skip('rest')
    return f'.eq {a} {b}'

def mirror(s):
    """a line of `invalid_member_operations`"""
    m = re.match(r'\s*requires !requires(?:\((.*?) rhs\))? \{ (.*?); \};', s)
    p = T('expl')
    lhs = p.obj(('qty', True, 'metre', ('wrap', 'std::intmax_t')))
    rhs = None
    if m.group(1): rhs = p.obj(p.parse(m.group(1)).type())
    e = m.group(2)
    if e == '-lhs': return f'.bad (negXG {lhs})'
    mm = re.match(r'lhs (\S+) rhs$', e)
    if not mm: raise Skip(e)
    o = mm.group(1)
    if o in OPS: return f'.bad (binaryG E {OPS[o]} {lhs} {rhs})'
    if o[:-1] in OPS and o.endswith('='): return f'.bad (assignXG E {OPS[o[:-1]]} {lhs} {rhs})'
    if o in ('==', '!='): return f'.badEq {lhs} {rhs}'
    if o in ('<', '>', '<=', '>='): return f'.badCmp {lhs} {rhs}'
    raise Skip(e)

def main():
    out = HEAD
    modes = []
    for f, k, sysname, name in (('custom_rep_test_min_expl.cpp', 'expl', 'minExpl nearest', 'testMinExpl'), ('custom_rep_test_min_impl.cpp', 'impl', 'minImpl nearest', 'testMinImpl')):
        text = open(TESTS + f).read()
        checks = []; skipped = []
        for n, line in enumerate(text.split('\n'), 1):
            line = re.sub(r'//.*', '', line).strip()
            try:
                m = re.match(r'static_assert\((.*)\);$', line)
                if m:
                    c = assertion(k, m.group(1))
                    if isinstance(c, tuple): modes.append((n, c[1]))
                    else: checks.append((n, c))
                elif line.startswith('requires !requires'):
                    checks.append((n, mirror(line)))
            except (Skip, KeyError, IndexError, AttributeError) as e:
                skipped.append((n, line, repr(e)))
        out += f'/-- /repo/test/unit_test/static/{f}. -/\ndef {name} (s : Sys) : List (Nat × CheckG ({sysname})) :=\n  let E := envOf s\n  [\n'
        out += ',\n'.join(f'  ({n}, {c})' for n, c in checks) + ']\n\n'
        out += f'#guard failuresG {name} = some []\n\n'
        print(f, len(checks), 'checks')
        for x in skipped: print('  skipped', x)
    out += '/- Lines ' + f'{modes[0][0]}-{modes[-1][0]}' + ' of custom_rep_test_min_expl.cpp. -/\n'
    out += '\n'.join(f'#guard !(minExplMode {m}).representation none' for _, m in modes) + '\n\nend Verif.Conformance\n'
    open(LEAN, 'w').write(out)

main()
