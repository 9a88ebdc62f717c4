#!/usr/bin/env python3
"""Transcribe the closed-form functions of the thermal part of qcd-sme into Lean (and Python).

The translator understands the subset of Rust used there: functions whose body is a list of
`let` bindings followed by an expression. It performs the typing Rust performs (types R, C and
generic parameters) in order to insert the promotions that mixed operations perform
(`T op R`: ofR, `T op C`, `R op C` and `.into()`: toC / ofR). The Lean output is read by a human:
it is committed, not regenerated at build time."""
import re, sys

TOK = re.compile(r"""\s+|//[^\n]*|(?P<num>\d+\.?\d*(?:[eE]-?\d+)?(?:f64|_f64)?)|(?P<id>[A-Za-z_][A-Za-z_0-9]*)|(?P<op>::|->|=>|&&|\|\||==|<=|>=|!=|[-+*/(){}\[\],.;:<>=&|!#?])""")

def tokenize(s):
    out = []; i = 0
    while i < len(s):
        m = TOK.match(s, i)
        if not m: raise SyntaxError(s[i:i+40])
        if m.lastgroup: out.append((m.lastgroup, m.group(m.lastgroup)))
        i = m.end()
    return out

class Fn:
    def __init__(s, **k): s.__dict__.update(k)

def find_functions(path, lo, hi):
    """Functions whose `fn` keyword is in lines lo..hi (1-based, inclusive)."""
    lines = open(path).read().split('\n')
    res = []; i = lo - 1
    while i < hi:
        m = re.match(r'\s*pub fn (\w+)', lines[i])
        if m:
            depth = 0; j = i; started = False
            while True:
                for ch in lines[j]:
                    if ch == '{': depth += 1; started = True
                    elif ch == '}': depth -= 1
                if started and depth == 0: break
                j += 1
            res.append(parse_fn('\n'.join(lines[i:j+1]), i+1, j+1))
            i = j
        i += 1
    return res

def parse_fn(src, l0, l1):
    m = re.match(r'\s*pub fn (\w+)\s*(<[^(]*>)?\s*\((.*?)\)\s*->\s*(\w+)\s*\{(.*)\}\s*$', src, re.S)
    name, gen, params, ret, body = m.groups()
    gens = []
    if gen:
        for g in re.findall(r'(T\d*)\s*:', gen): gens.append(g)
    ps = []
    for p in re.split(r',', params):
        p = p.strip()
        if p:
            a, t = [x.strip() for x in p.split(':')]
            ps.append((a, t))
    return Fn(name=name, gens=gens, params=ps, ret=ret, body=body, l0=l0, l1=l1)

class P:
    """Precedence-climbing parser producing (op, ...) trees."""
    def __init__(s, toks): s.t = toks; s.i = 0
    def peek(s, k=0): return s.t[s.i+k][1] if s.i+k < len(s.t) else None
    def eat(s, v=None):
        x = s.t[s.i]
        if v is not None and x[1] != v: raise SyntaxError(f'expected {v} got {x} at {s.t[max(0,s.i-5):s.i+5]}')
        s.i += 1; return x
    def block(s):
        lets = []
        while s.peek() == 'let':
            s.eat(); n = s.eat()[1]
            if s.peek() == ':': s.eat(); s.eat()
            s.eat('='); e = s.expr(); s.eat(';'); lets.append((n, e))
        e = s.expr()
        assert s.i == len(s.t), s.t[s.i:]
        return lets, e
    def expr(s):
        e = s.term()
        while s.peek() in ('+', '-'):
            o = s.eat()[1]; e = (o, e, s.term())
        return e
    def term(s):
        e = s.unary()
        while s.peek() in ('*', '/'):
            o = s.eat()[1]; e = (o, e, s.unary())
        return e
    def unary(s):
        if s.peek() == '-': s.eat(); return ('neg', s.unary())
        return s.postfix()
    def args(s):
        s.eat('('); a = []
        while s.peek() != ')':
            a.append(s.expr())
            if s.peek() == ',': s.eat()
        s.eat(')'); return a
    def postfix(s):
        k, v = s.eat()
        if k == 'num': e = ('num', v.replace('_f64','').replace('f64',''))
        elif v == '(':
            e = s.expr()
            if s.peek() == 'as': s.eat(); s.eat(); e = ('as', e)
            s.eat(')')
        elif k == 'id':
            path = [v]
            while s.peek() == '::':
                s.eat()
                if s.peek() == '<':
                    while s.eat()[1] != '>': pass
                else: path.append(s.eat()[1])
            if s.peek() == '(':
                a = s.args()
                if path == ['Into', 'into']: e = ('into', a[0])
                else: e = ('call', path, a)
            else: e = ('var', path[-1])
        else: raise SyntaxError((k, v))
        while s.peek() == '.':
            s.eat(); m = s.eat()[1]
            if s.peek() == '(':
                a = s.args()
                e = ('into', e) if m == 'into' else ('meth', m, e, a)
            else: e = ('field', m, e)
        return e

PREC = {'+': 65, '-': 65, '*': 70, '/': 70}

class Gen:
    """Typed code generation. Types: 'R', 'C', or the name of a generic parameter."""
    def __init__(s, table, consts, resolve): s.table = table; s.consts = consts; s.resolve = resolve
    # -- Lean ---------------------------------------------------------------
    def par(s, x, p): return x[0] if x[2] >= p else f'({x[0]})'
    def promote(s, x, t):
        if x[1] == t: return x
        if x[1] == 'R': return (f'(ofR {s.par(x, 1000)} : {LT(t)})', t, 1000)
        assert t == 'C', (x, t)
        return (f'toC {s.par(x, 1000)}', 'C', 100)
    def join(s, a, b):
        if a == b: return a
        if a == 'R': return b
        if b == 'R': return a
        return 'C'
    def ex(s, e, env):
        k = e[0]
        if k == 'num':
            v = e[1]; v = v[:-1] if v.endswith('.') else v
            if v.endswith('.0'): v = v[:-2]
            return (v, 'R', 1000, True)
        if k == 'var':
            if e[1] in env: return (e[1], env[e[1]], 1000)
            n, t = s.consts[e[1]]; return (n, t, 1000)
        if k == 'neg':
            x = s.ex(e[1], env); return ('-' + s.par(x, 75), x[1], 75)
        if k == 'into':
            x = s.ex(e[1], env)
            if x[1] == 'R': return (f'toC {s.num(x,1000)}', 'C', 100)
            if x[1] == 'C': return x
            return s.promote(x, 'C')
        if k == 'as':
            return s.ex(e[1], env)
        if k in PREC:
            a = s.ex(e[1], env); b = s.ex(e[2], env); t = s.join(a[1], b[1])
            a = s.promote(a, t); b = s.promote(b, t); p = PREC[k]
            return (f'{s.par(a, p)} {k} {s.par(b, p+1)}', t, p)
        if k == 'meth':
            m, x = e[1], s.ex(e[2], env)
            if m == 'inv': return (f'{s.par(x, 1000)}⁻¹', x[1], 1000)
            if m == 'ln': return (f'NumOps.ln {s.par(x, 1000)}', x[1], 100)
            if m == 'mul_add':
                a = s.ex(e[3][0], env); b = s.ex(e[3][1], env); t = 'R'
                assert x[1] == a[1] == b[1] == 'R'
                return (f'{s.par(x, 70)} * {s.par(a, 71)} + {s.par(b, 66)}', t, 65)
        if k == 'field':
            x = s.ex(e[2], env)
            if e[1] == 're': return (f'({x[0]}).re', 'R', 1000)
        if k == 'call':
            if e[1] == ['nc']: return ('(k.nc : ℝ)', 'R', 1000)
            n, fn = s.resolve(e[1])
            args = [s.ex(a, env) for a in e[2]]
            sub = {}
            out = []
            for (pn, pt), a in zip(fn.params, args):
                if pt in fn.gens:
                    assert sub.get(pt, a[1]) == a[1]; sub[pt] = a[1]
                else: assert pt == a[1], (e, pn, pt, a)
                out.append(s.par(a, 1000))
            assert len(fn.params) == len(args), e
            pre = ' k' if getattr(fn, 'uses_k', False) else ''
            return (f'{n}{pre} ' + ' '.join(out), sub.get(fn.ret, fn.ret), 100)
        raise Exception(e)
    def num(s, x, p): return s.par(x, p)

def LT(t): return {'R': 'ℝ', 'C': 'ℂ'}.get(t, t)

def uses_k(e, g):
    if isinstance(e, tuple):
        if e[0] == 'call':
            if e[1] == ['nc']: return True
            if getattr(g.resolve(e[1])[1], 'uses_k', False): return True
        return any(uses_k(x, g) for x in e)
    if isinstance(e, list): return any(uses_k(x, g) for x in e)
    return False

def lean_fn(fn, gen, rel, extra=''):
    toks = tokenize(fn.body)
    lets, e = P(toks).block()
    env = dict(fn.params)
    fn.uses_k = uses_k([x for _, x in lets] + [e], gen)
    lines = []
    for n, x in lets:
        v = gen.ex(x, env)
        lines.append(f'  let {n} : {LT(v[1])} := {v[0]}')
        env[n] = v[1]
    v = gen.ex(e, env)
    if v[1] != fn.ret:
        assert fn.ret == 'C' and False, (fn.name, v[1], fn.ret)
    if lines and v[0].startswith(('-', '(')): lines[-1] += ';'
    lines.append('  ' + v[0])
    sig = ''
    if fn.gens: sig += ' {' + ' '.join(fn.gens) + ' : Type}' + ''.join(f' [Num {g}]' for g in fn.gens)
    if fn.uses_k: sig += ' (k : Consts ℝ)'
    for n, t in fn.params: sig += f' ({n} : {LT(t)})'
    return f'/-- {rel} l.{fn.l0}-{fn.l1}.{extra} -/\nnoncomputable def {fn.name}{sig} : {LT(fn.ret)} :=\n' + '\n'.join(lines) + '\n'

# -- Python backend (numerical exploration only) --------------------------------
def py(e):
    k = e[0]
    if k == 'num': return e[1] + '0' if e[1].endswith('.') else e[1]
    if k == 'var': return {'I': '1j'}.get(e[1], e[1])
    if k == 'neg': return f'(-{py(e[1])})'
    if k == 'into': return f'complex({py(e[1])})'
    if k == 'as': return py(e[1])
    if k in PREC: return f'({py(e[1])} {k} {py(e[2])})'
    if k == 'meth':
        if e[1] == 'inv': return f'(1/({py(e[2])}))'
        if e[1] == 'ln': return f'LN({py(e[2])})'
        if e[1] == 'mul_add': return f'(({py(e[2])})*({py(e[3][0])})+({py(e[3][1])}))'
    if k == 'call': return 'F_' + '_'.join(e[1]) + '(' + ', '.join(py(a) for a in e[2]) + ')'
    raise Exception(e)

def py_fn(fn, rename, prefix):
    lets, e = P(tokenize(fn.body)).block()
    s = f'def {prefix}{fn.name}({", ".join(n for n, _ in fn.params)}):\n'
    for n, x in lets: s += f'    {n} = {rename(py(x))}\n'
    return s + f'    return {rename(py(e))}\n'

SRC = '/repo/qcd-sme/src/low_level/oneloop/thermal/'

def B(name, gens, params, ret): return Fn(name=name, gens=gens, params=params, ret=ret)
COMMON = {
  'energy': B('energy', ['T'], [('q','R'),('m','T')], 'T'),
  'bose_distribution_zero_chempot': B('bose_distribution_zero_chempot', ['T'], [('en','T'),('beta','R')], 'T'),
  'fermi_distribution_double': B('fermi_distribution_double', ['T1','T2'], [('en','T1'),('beta','R'),('mu','T2')], 'T1'),
  'fermi_distribution_double_zero_temp': B('fermi_distribution_double_zero_temp', ['T1','T2'], [('en','T1'),('mu','T2')], 'T1'),
}
CONSTS = {'PI2': ('PI2', 'R'), 'I': ('I', 'C'), 'PI': ('Real.pi', 'R')}

def module(fns, scopes, rel):
    """scopes: list of dicts name -> (lean name, Fn), searched in order."""
    own = {}
    out = []
    def resolve(path):
        n = path[-1]
        for d in [own] + scopes:
            if n in d: return d[n]
        raise KeyError(path)
    g = Gen(None, CONSTS, resolve)
    for fn in fns:
        out.append(lean_fn(fn, g, rel))
        own[fn.name] = (fn.name, fn)
    return '\n'.join(out), own

def qualify(own, ns): return {n: (ns + '.' + n, f) for n, (_, f) in own.items()}

def main():
    common = {n: (n, f) for n, f in COMMON.items()}
    gen_fns = find_functions(SRC + 'mod.rs', 552, 1266)
    txt0, own0 = module(gen_fns, [common], 'low_level/oneloop/thermal/mod.rs')
    mom_fns = find_functions(SRC + 'zero_momentum.rs', 260, 528)
    txt1, own1 = module(mom_fns, [common], 'low_level/oneloop/thermal/zero_momentum.rs')
    mat_fns = find_functions(SRC + 'zero_matsubara.rs', 318, 641)
    txt2, own2 = module(mat_fns, [common], 'low_level/oneloop/thermal/zero_matsubara.rs')
    hdr = '''import Verif.Model.Common

/-! # One-loop thermal integrands: `low_level/oneloop/thermal/{mod,zero_momentum,zero_matsubara}.rs`

Transcribed by `tools/rs2lean.py` from the `inlines` modules. `R` arguments are `ℝ`, generic
arguments (`T: Num`, and `T: Copy + Into<C>` for the mass difference `delta`) are arbitrary types
with `[Num T]`. Mixed operations carry explicit promotions (`ofR`, `toC`).
`x.mul_add(a, b)` is `x * a + b`. `PI2` is the constant `PI * PI` of each file.
The public (non-inline) functions of the same names in these files call these with the same
arguments and are not repeated. -/

namespace Qcd

/-- `const PI2: R = PI * PI` (mod.rs l.560, zero_momentum.rs l.267, zero_matsubara.rs l.325,
gluon.rs l.385, 914, 1341). -/
noncomputable def PI2 : ℝ := Real.pi * Real.pi

namespace thermal

'''
    open('/verif/lean/Verif/Model/Thermal.lean', 'w').write(
        hdr + txt0 + '\nnamespace zero_momentum\n\n' + txt1 + '\nend zero_momentum\n\nnamespace zero_matsubara\n\n'
        + txt2 + '\nend zero_matsubara\n\nend thermal\nend Qcd\n')
    # ghost / gluon integrands
    th = qualify(own0, 'thermal'); mo = qualify(own1, 'thermal.zero_momentum'); ma = qualify(own2, 'thermal.zero_matsubara')
    rel = 'low_level/oneloop/thermal/ghost.rs'
    g0, o = module(find_functions(SRC + 'ghost.rs', 70, 90), [th, common], rel)
    g1, o = module(find_functions(SRC + 'ghost.rs', 140, 160), [ma, th, common], rel)
    g2, o = module(find_functions(SRC + 'ghost.rs', 208, 228), [mo, th, common], rel)
    rel = 'low_level/oneloop/thermal/gluon.rs'
    l0, o = module(find_functions(SRC + 'gluon.rs', 386, 570), [th, common], rel)
    l1, o = module(find_functions(SRC + 'gluon.rs', 915, 1018), [ma, th, common], rel)
    l2, o = module(find_functions(SRC + 'gluon.rs', 1342, 1439), [mo, th, common], rel)
    hdr = '''import Verif.Model.Thermal
import Verif.Model.Consts

/-! # Thermal parts of the ghost self-energy and gluon polarization: integrands

`low_level/oneloop/thermal/{ghost,gluon}.rs`, the `inlines` modules, transcribed by
`tools/rs2lean.py`. The functions that read the global number of colours take the global
constants `k` as an explicit argument. -/

namespace Qcd
open consts (Consts)

'''
    s = hdr
    for kind, parts in (('ghost', (g0, g1, g2)), ('gluon', (l0, l1, l2))):
        s += f'namespace {kind}.thermal\n\n{parts[0]}\nnamespace zero_matsubara\n\n{parts[1]}\nend zero_matsubara\n\nnamespace zero_momentum\n\n{parts[2]}\nend zero_momentum\n\nend {kind}.thermal\n\n'
    open('/verif/lean/Verif/Model/ThermalParts.lean', 'w').write(s + 'end Qcd\n')

if __name__ == '__main__': main()
