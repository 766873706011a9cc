#!/usr/bin/env python3
"""Write lean/Verif/SystemsData.lean: the declarations of the headers under /repo/src/systems and of
units/generic, as data.  Names are kept as written; they are resolved by the model (Verif/Systems.lean)."""
import re, glob, os, sys

REPO = '/repo'
ROOTS = ['src/core/include', 'src/systems/isq/include', 'src/systems/si/include', 'src/systems/isq-iec80000/include',
         'src/systems/isq-natural/include', 'src/systems/si-cgs/include', 'src/systems/si-fps/include',
         'src/systems/si-iau/include', 'src/systems/si-imperial/include', 'src/systems/si-international/include',
         'src/systems/si-typographic/include', 'src/systems/si-uscs/include']
files = {}
for r in ROOTS:
    for f in glob.glob(os.path.join(REPO, r, 'units', '**', '*.h'), recursive=True):
        rel = os.path.relpath(f, os.path.join(REPO, r))
        if r != ROOTS[0] or rel.startswith('units/generic/'):
            files[rel] = os.path.relpath(f, REPO)

def qs(s):
    return '"' + s.replace('\\', '\\\\').replace('"', '\\"') + '"'

def q(s):
    return 'n!' + qs(s)

def strip_comments(t):
    t = re.sub(r'/\*.*?\*/', lambda m: '\n' * m.group(0).count('\n'), t, flags=re.S)
    out = []
    for l in t.split('\n'):
        # no string literal of these headers contains //
        out.append(re.sub(r'//.*', '', l))
    return '\n'.join(out)

def split_args(s):
    res, depth, cur, instr = [], 0, '', False
    for c in s:
        if c == '"': instr = not instr
        if not instr:
            if c in '<({': depth += 1
            if c in '>)}': depth -= 1
            if c == ',' and depth == 0:
                res.append(cur.strip()); cur = ''; continue
        cur += c
    if cur.strip(): res.append(cur.strip())
    return res

def sym(s):
    s = re.sub(r'\\u([0-9a-fA-F]{4})', lambda m: chr(int(m[1], 16)), s)
    m = re.fullmatch(r'"([^"]*)"', s)
    if m: return f'⟨{qs(m[1])}, {qs(m[1])}⟩'
    m = re.fullmatch(r'basic_symbol_text\s*\{\s*"([^"]*)"\s*,\s*"([^"]*)"\s*\}', s)
    if m: return f'⟨{qs(m[1])}, {qs(m[2])}⟩'
    raise Exception('symbol ' + s)

def integer(s):
    s = s.replace("'", '').strip()
    return int(s)

def ratio(s):
    m = re.fullmatch(r'ratio\s*\((.*)\)', s, flags=re.S)
    a = [integer(x) for x in split_args(m[1])]
    a += [1, 0][len(a) - 1:]
    return ' '.join(f'({x})' for x in a)

NAME = r'[\w:]+(?:<>)?'
def decl(st):
    """A Lean term for one statement (without trailing ; or body), or None if it declares nothing we model."""
    st = ' '.join(st.split())
    if st == '' or st.startswith('static_assert') or st.startswith('using namespace'): return None
    m = re.fullmatch(r'struct (\w+) : prefix_family', st)
    if m: return f'.family {q(m[1])}'
    m = re.fullmatch(r'struct (\w+) : (?:units::)?(\w+)<(.*)>', st)
    if m and m[2] in ('prefix', 'unit', 'named_unit', 'named_scaled_unit', 'prefixed_unit', 'derived_unit', 'alias_unit',
                      'prefixed_alias_unit', 'base_dimension', 'derived_dimension'):
        n, k, a = m[1], m[2], split_args(m[3])
        if k not in ('alias_unit', 'prefixed_alias_unit', 'base_dimension'):
            assert a[0] == n, st          # the child is the type being defined
            a = a[1:]
        if k == 'prefix': return f'.pre {q(n)} {q(a[0])} {sym(a[1])} {ratio(a[2])}'
        if k == 'unit': assert a == []; return f'.unit {q(n)}'
        if k == 'named_unit': return f'.named {q(n)} {sym(a[0])} {q(a[1])}'
        if k == 'named_scaled_unit': return f'.namedScaled {q(n)} {sym(a[0])} {q(a[1])} {ratio(a[2])} {q(a[3])}'
        if k == 'prefixed_unit': return f'.prefixed {q(n)} {q(a[0])} {q(a[1])}'
        if k == 'derived_unit': return f'.derived {q(n)} {q(a[0])} [{", ".join(map(q, a[1:]))}]'
        if k == 'alias_unit': return f'.aliasOf {q(n)} {q(a[0])} {sym(a[1])} {q(a[2])}'
        if k == 'prefixed_alias_unit': return f'.prefixedAlias {q(n)} {q(a[0])} {q(a[1])} {q(a[2])}'
        if k == 'base_dimension': return f'.baseDim {q(n)} {qs(a[0][1:-1])} {q(a[1])}'
        if k == 'derived_dimension':
            es = []
            for e in a[1:]:
                x = re.fullmatch(r'exponent<(' + NAME + r'), (-?\d+)(?:, (\d+))?>', e)
                es.append(f'({q(x[1])}, {x[2]}, {x[3] or 1})')
            return f'.derivedDim {q(n)} {q(a[0])} [{", ".join(es)}]'
    m = re.fullmatch(r'struct (\w+) : isq::(\w+)<(.*)>', st)
    if m:
        a = split_args(m[3])
        if len(a) == 1: return f'.baseInst {q(m[1])} {q("isq::" + m[2])} {q(a[0])}'
        assert a[0] == m[1], st
        return f'.derivedInst {q(m[1])} {q("isq::" + m[2])} {q(a[1])} [{", ".join(map(q, a[2:]))}]'
    m = re.fullmatch(r'template<Unit U(?: = (\w+))?> struct (\w+) : base_dimension<"([^"]*)", U>', st)
    if m:
        d = f'.baseTemplate {q(m[2])} {qs(m[3])}'
        # the instance with the default argument
        return [d, f'.baseInst {q(m[2] + "<>")} {q(m[2])} {q(m[1])}'] if m[1] else d
    if re.fullmatch(r'template ?<typename Child, Unit U, typename\.\.\.> struct \w+', st): return None
    m = re.fullmatch(r'template ?<typename Child, Unit U, (.*)> struct (\w+)<Child, U, ([^>]*)> : derived_dimension<Child, ?U, (.*)>', st)
    if m:
        ps = [re.fullmatch(r'DimensionOfT<(\w+)> (\w+)', p) for p in split_args(m[1])]
        names = [p[2] for p in ps]
        assert names == [x.strip() for x in m[3].split(',')]
        es = []
        for e in split_args(m[4]):
            x = re.fullmatch(r'exponent<(\w+), (-?\d+)(?:, (\d+))?>', e)
            es.append(f'({names.index(x[1])}, {x[2]}, {x[3] or 1})')
        return f'.derivedTemplate {q(m[2])} [{", ".join(q(p[1]) for p in ps)}] [{", ".join(es)}]'
    if re.match(r'template<typename T> concept|template <typename T> concept', st): return None
    m = re.fullmatch(r'template<UnitOf<(.*)> U, Representation Rep = double> using (\w+) = quantity<(.*), U, Rep>', st)
    if m:
        assert m[1] == m[3], st
        return f'.quantityAlias {q(m[2])} {q(m[1])}'
    m = re.fullmatch(r'constexpr auto operator"" _q_(\w+)\(unsigned long long l\) \{ gsl_ExpectsAudit\(std::in_range<std::int64_t>\(l\)\); '
                     r'return (' + NAME + r')<(' + NAME + r'), std::int64_t>\(static_cast<std::int64_t>\(l\)\); \}', st)
    if m: return f'.literal {q("_q_" + m[1])} true {q(m[2])} {q(m[3])}'
    m = re.fullmatch(r'constexpr auto operator"" _q_(\w+)\(long double l\) \{ return (' + NAME + r')<(' + NAME + r'), long double>\(l\); \}', st)
    if m: return f'.literal {q("_q_" + m[1])} false {q(m[2])} {q(m[3])}'
    m = re.fullmatch(r'inline constexpr auto (\w+) = reference<(' + NAME + r'), (' + NAME + r')>\{\}', st)
    if m: return f'.reference {q(m[1])} {q(m[2])} {q(m[3])}'
    m = re.fullmatch(r'inline constexpr auto (\w+) = (\w+)', st)
    if m: return f'.referenceCopy {q(m[1])} {q(m[2])}'
    m = re.fullmatch(r'template<Representation Rep = double> using (\w+) = (' + NAME + r')<(' + NAME + r'), Rep>', st)
    if m: return f'.repAlias {q(m[1])} {q(m[2])} {q(m[3])}'
    m = re.fullmatch(r'template<Representation Rep = double> using (\w+) = (\w+)<Rep>', st)
    if m: return f'.repAliasCopy {q(m[1])} {q(m[2])}'
    m = re.fullmatch(r'using (\w+) = (' + NAME + ')', st)
    if m: return f'.using_ {q(m[1])} {q(m[2])}'
    # the namespace `references` contains the directive `using namespace time_references`
    m = re.fullmatch(r'using si::references::s', st)
    if m: return '.using_ n!"s" n!"si::time_references::s"'
    m = re.fullmatch(r'using ([\w:]+)', st)
    if m: return f'.using_ {q(m[1].split("::")[-1])} {q(m[1])}'
    m = re.fullmatch(r'using si::literals::operator"" _q_(\w+)', st)
    if m: return f'.usingLiteral {q("_q_" + m[1])} n!"si::literals"'
    m = re.fullmatch(r'template<Representation Rep = double> inline constexpr auto (\w+) = (.*)', st)
    if m:
        def fac(s):
            x = re.fullmatch(r'(\w+)<(\w+), Rep>\(([\d\'.]+)(?:e(-?\d+))?\)', s)
            y = re.fullmatch(r'Rep\(([\d\'.]+)(?:e(-?\d+))?\)', s)
            d, e = (x[3], x[4]) if x else (y[1], y[2])
            d = d.replace("'", ''); e = int(e or 0)
            if '.' in d:
                e -= len(d.split('.')[1]); d = d.replace('.', '')
            return f'(.qty {q(x[1])} {q(x[2])} {int(d)} ({e}))' if x else f'(.number {int(d)} ({e}))'
        p = re.split(r' ([*/]) ', m[2])
        rest = 'none' if len(p) == 1 else f'(some ({"true" if p[1] == "/" else "false"}, {fac(p[2])}))'
        return f'.constant {q(m[1])} {fac(p[0])} {rest}'
    raise Exception('not understood: ' + st)

def reach(inc, stack=()):
    """The modelled headers an include brings in: itself, or what a header of the core library includes in turn."""
    if inc in files: return [inc]
    f = os.path.join(REPO, ROOTS[0], inc)
    if inc in stack or not os.path.exists(f): return []
    t = strip_comments(open(f).read())
    res = []
    for x in re.findall(r'^#\s*include <(units/[^>]*)>', t, flags=re.M):
        for y in reach(x, stack + (inc,)):
            if y not in res: res.append(y)
    return res

def parse(path):
    raw = open(os.path.join(REPO, path)).read()
    t = strip_comments(raw)
    incs = []
    for x in re.findall(r'^#\s*include <(units/[^>]*)>', t, flags=re.M):
        for y in reach(x, (path.split('include/', 1)[1],)):
            if y not in incs and y != path.split('include/', 1)[1]: incs.append(y)
    t = re.sub(r'^[ \t]*#.*$', '', t, flags=re.M)
    secs, stack, i, n = [], [], 0, len(t)
    lines = []
    while i < n:
        if t[i].isspace(): i += 1; continue
        if t[i] == '}':
            stack.pop(); i += 1
            continue
        m = re.compile(r'(?:inline )?namespace ([\w: ]+?)\s*\{').match(t, i)
        if m:
            stack.append([x.strip().removeprefix('inline ').strip() for x in m[1].split('::')])
            i = m.end(); continue
        # a statement: up to ; at depth 0 or a body { } for structs and functions
        j, depth, instr = i, 0, False
        while True:
            c = t[j]
            if c == '"': instr = not instr
            if not instr:
                if c in '{(': depth += 1
                if c in '})':
                    depth -= 1
                    # a function body ends a statement
                    if c == '}' and depth == 0 and t[i:j].lstrip().startswith('constexpr auto operator'):
                        j += 1; break
                if c == ';' and depth == 0: break
            j += 1
        st = t[i:j].strip()
        line = t[:i].count('\n') + 1
        st = re.sub(r'\s*\{\s*\}$', '', st) if not st.startswith('inline') else st
        ns = [x for s in stack for x in s]
        d = decl(st)
        if d is not None:
            if not secs or secs[-1][0] != ns: secs.append((ns, []))
            for x in (d if isinstance(d, list) else [d]): secs[-1][1].append(x)
            lines.append(line)
        i = j + (1 if j < n and t[j] == ';' else 0)
    assert stack == [], path
    return incs, secs, lines

out = ['''import Verif.Systems

/-!
# The declarations of the shipped systems of units

Generated by tools/gen_systems.py from the headers under src/systems and src/core/include/units/generic; one definition per
header.  Names are as written in the header; concepts, forward declarations and `using namespace` directives are left out.
-/

namespace Verif.Systems
''']
names = []
done = set()
order = []
parsed = {p: parse(files[p]) for p in files}
def visit(p):
    if p in done: return
    done.add(p)
    for i in parsed[p][0]: visit(i)
    order.append(p)
for p in sorted(files): visit(p)
count = 0
for p in order:
    incs, secs, lines = parsed[p]
    ident = 'h_' + re.sub(r'\W', '_', p.removeprefix('units/').removesuffix('.h'))
    names.append(ident)
    rng = f'{min(lines)}-{max(lines)}' if lines else '23-'
    if not lines:
        tl = open(os.path.join(REPO, files[p])).read().split('\n')
        il = [i + 1 for i, l in enumerate(tl) if l.startswith('#include')]
        rng = f'{il[0]}-{il[-1]}'
    out.append(f'/-- {files[p]}:{rng}. -/')
    out.append(f'def {ident} : Header where')
    out.append(f'  path := {q(p.removeprefix("units/"))}')
    out.append(f'  includes := [{", ".join(q(i.removeprefix("units/")) for i in incs)}]')
    if secs:
        out.append('  sections := [')
        for k, (ns, ds) in enumerate(secs):
            assert ns[0] == 'units'
            scopes = ['::'.join(ns[:i]) for i in range(len(ns), -1, -1)]
            out.append(f'    ([{", ".join(map(q, scopes))}], [')
            out.append(',\n'.join('      ' + d for d in ds) + '])' + (',' if k + 1 < len(secs) else ']'))
            count += len(ds)
    else:
        out.append('  sections := []')
    out.append('')
out.append('/-- All headers of src/systems and of src/core/include/units/generic. -/')
out.append('def headers : List Header :=\n  [' + ',\n   '.join(names) + ']')
out.append('\nend Verif.Systems')
open('/verif/lean/Verif/SystemsData.lean', 'w').write('\n'.join(out) + '\n')
print(len(order), 'headers', count, 'declarations')
