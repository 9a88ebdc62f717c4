#!/usr/bin/env python3
"""Transcribe the integral wrappers (`*_w_method`, default methods) and the thermal dressing
functions of qcd-sme into Lean. Extends rs2lean.py with closures, tuples, early returns, calls of
`integrate` and sums over the quarks of a configuration."""
import re, sys
sys.path.insert(0, '/verif/tools')
import rs2lean as B
from rs2lean import tokenize, Fn, Gen, LT as LT0

def LT(t): return {'Integral': 'Integral ℝ', '&FieldConfig': 'FieldConfig'}.get(t, LT0(t))

class P(B.P):
    def postfix(s):
        if s.peek() == '|':
            s.eat(); v = s.eat()[1]; s.eat('|')
            if s.peek() == '{': s.eat(); e = s.expr(); s.eat('}')
            else: e = s.expr()
            return ('closure', v, e)
        if s.peek() == '(':
            # tuple?
            save = s.i; s.eat(); e = s.expr()
            if s.peek() == ',':
                s.eat(); f = s.expr(); s.eat(')'); return ('tuple', e, f)
            s.i = save
        return super().postfix()
    def fnbody(s):
        stmts = []
        while True:
            if s.peek() == 'let':
                s.eat(); n = s.eat()[1]
                if s.peek() == ':': s.eat(); s.eat()
                s.eat('='); e = s.expr(); s.eat(';'); stmts.append(('let', n, e))
            elif s.peek() == 'if':
                s.eat(); a = s.expr(); o = s.eat()[1]; b = s.expr()
                s.eat('{'); s.eat('return'); r = s.expr(); s.eat(';'); s.eat('}')
                if s.peek() == ';': s.eat()
                stmts.append(('ifret', (o, a, b), r))
            else: break
        e = s.expr()
        assert s.i == len(s.t), s.t[s.i:s.i+10]
        return stmts, e

class G(Gen):
    def ex(s, e, env):
        k = e[0]
        if k == 'call':
            p = e[1]
            if p == ['C', 'new']:
                assert e[2] == [('num','0.'),('num','0.')]; return ('(0 : ℂ)', 'C', 1000)
            if p == ['nf']: return ('(k.nf : ℝ)', 'R', 1000)
            if p == ['matsubara_reg']: return ('k.matsubara_reg', 'R', 1000)
            if p == ['get_default_integration_method']: return ('(get_default_integration_method k)', 'Integral', 1000)
            if p == ['integrate']:
                (c, v, body), rng, meth = e[2]; assert c == 'closure'
                b = s.ex(body, {**env, v: 'R'})
                r0 = s.ex(rng[1], env); r1 = s.ex(rng[2], env); m = s.ex(meth, env)
                assert m[1] == 'Integral' and r0[1] == r1[1] == 'R'
                f = {'R': 'real', 'C': 'cplx'}[b[1]]
                return (f'ig.{f} (fun {v} => {b[0]}) ({r0[0]}, {r1[0]}) {s.par(m,1000)}', b[1], 100)
            n, fn = s.resolve(p)
            args = [s.ex(a, env) for a in e[2]]
            assert len(fn.params) == len(args), e
            sub = {}; out = []
            for (pn, pt), a in zip(fn.params, args):
                if pt in fn.gens:
                    assert sub.get(pt, a[1]) == a[1]; sub[pt] = a[1]
                else: assert pt == a[1], (e, pn, pt, a)
                out.append(s.par(a, 1000))
            pre = (' ig' if getattr(fn, 'uses_ig', False) else '') + (' k' if getattr(fn, 'uses_k', False) else '')
            return (f'{n}{pre} ' + ' '.join(out), sub.get(fn.ret, fn.ret), 100)
        if k == 'field':
            if e[1] == 'gluon' and env[e[2][1]] == '&FieldConfig': return (f'{e[2][1]}.gluon', 'R', 1000)
            if e[1] == 'mq' and env[e[2][1]] == 'qi': return (f'{e[2][1]}.mq', 'R', 1000)
            if e[1] == 'nf' and env[e[2][1]] == 'qi': return (f'({e[2][1]}.nf : ℝ)', 'R', 1000)
        if k == 'meth' and e[1] == 'sum':
            m = e[2]; assert m[:2] == ('meth', 'map')
            it = m[2]; assert it[:2] == ('meth', 'iter')
            src = it[2]; assert src[:2] == ('field', 'quarks_internal') and env[src[2][1]] == '&FieldConfig'
            (c, v, body), = m[3]
            b = s.ex(body, {**env, v: 'qi'})
            return (f'({src[2][1]}.quarks_internal.map (fun {v} => {b[0]})).sum', b[1], 1000)
        if k == 'meth' and e[1] == 'abs':
            x = s.ex(e[2], env); assert x[1] == 'R'; return (f'|{x[0]}|', 'R', 1000)
        return super().ex(e, env)

def walk(e, f):
    if isinstance(e, tuple):
        if f(e): return True
        return any(walk(x, f) for x in e)
    if isinstance(e, list): return any(walk(x, f) for x in e)
    return False

def lean_fn(fn, g, rel):
    body = fn.body
    special = 'let (mut integral, dti)' in body
    if special:
        # the block that replaces the default tolerance; transcribed as a unit (see `repl`)
        pat = re.compile(r"""\s*let \(mut integral, dti\) = \(get_default_integration_method\(\), tol_integral\(\)\);
\s*if let crate::Integral::G7K15\(ti, mi\) = integral \{
\s*#\[allow\(clippy::float_cmp\)\]
\s*if ti == dti && mi == max_iter_integral\(\) \{
\s*integral = crate::Integral::G7K15\(DEFAULT_TOL_INT_REPL, mi\);
\s*\}
\s*\}\n""")
        body, n = pat.subn('', body); assert n == 1, body
    stmts, e = P(tokenize(body)).fnbody()
    env = dict(fn.params)
    allx = [stmts, e]
    def ig(x): return x[0] == 'call' and (x[1] == ['integrate'] or (x[1][0] not in ('C','nf','nc','matsubara_reg','get_default_integration_method') and getattr(g.resolve(x[1])[1], 'uses_ig', False)))
    def kk(x): return x[0] == 'call' and (x[1] in (['nf'],['nc'],['matsubara_reg'],['get_default_integration_method']) or (x[1] != ['integrate'] and x[1][0] != 'C' and getattr(g.resolve(x[1])[1], 'uses_k', False)))
    fn.uses_ig = walk(allx, ig); fn.uses_k = special or walk(allx, kk)
    lines = []
    if special:
        lines.append('  let integral : Integral ℝ := zero_matsubara_default_method k'); env['integral'] = 'Integral'
    for st in stmts:
        if st[0] == 'let':
            v = g.ex(st[2], env); lines.append(f'  let {st[1]} : {LT(v[1])} := {v[0]}'); env[st[1]] = v[1]
        else:
            o, a, b = st[1]; a = g.ex(a, env); b = g.ex(b, env); r = g.ex(st[2], env)
            assert r[1] == fn.ret
            o = {'<': '<', '<=': '≤', '==': '='}[o]
            lines.append(f'  if {a[0]} {o} {b[0]} then {r[0]} else')
    v = g.ex(e, env)
    assert v[1] == fn.ret, (fn.name, v, fn.ret)
    if lines and not lines[-1].endswith('else') and v[0].startswith(('-', '(')): lines[-1] += ';'
    lines.append('  ' + v[0])
    sig = ''
    if fn.gens: sig += ' {' + ' '.join(fn.gens) + ' : Type}' + ''.join(f' [Num {x}]' for x in fn.gens)
    if fn.uses_ig: sig += ' (ig : Integrator)'
    if fn.uses_k: sig += ' (k : Consts ℝ)'
    for n, t in fn.params: sig += f' ({n} : {LT(t)})'
    pre = '' 
    return f'/-- {rel} l.{fn.l0}-{fn.l1}. -/\nnoncomputable def {fn.name}{sig} : {LT(fn.ret)} :=\n' + ('  open Classical in\n' if any(l.endswith('else') for l in lines) else '') + '\n'.join(lines) + '\n'

CONSTS = {**B.CONSTS, 'PREFACTOR': ('PREFACTOR', 'R')}

def module(fns, resolve_ext, rel):
    own = {}; out = []
    def resolve(path):
        if len(path) == 1 and path[0] in own: return own[path[0]]
        return resolve_ext(path)
    g = G(None, CONSTS, resolve)
    for fn in fns:
        out.append(lean_fn(fn, g, rel)); own[fn.name] = (fn.name, fn)
    return '\n'.join(out), own

def parse_all(path, lo, hi):
    """Like find_functions but also accepts `&FieldConfig` parameters."""
    return B.find_functions(path, lo, hi)

S = '/repo/qcd-sme/src/'
TH = B.SRC
def parts_table(file, lo, hi, ns):
    res = {}
    for f in B.find_functions(TH + file, lo, hi):
        f.uses_k = 'quark' in f.name
        res[f.name] = (ns + '.' + f.name, f)
    return res

FM = Fn(name='fermi_momentum', gens=[], params=[('m','R'),('mu','R')], ret='R')

def build():
    gi = parts_table('ghost.rs',70,90,'ghost.thermal'); gmat = parts_table('ghost.rs',140,160,'ghost.thermal.zero_matsubara'); gmom = parts_table('ghost.rs',208,228,'ghost.thermal.zero_momentum')
    li = parts_table('gluon.rs',386,570,'gluon.thermal'); lmat = parts_table('gluon.rs',915,1018,'gluon.thermal.zero_matsubara'); lmom = parts_table('gluon.rs',1342,1439,'gluon.thermal.zero_momentum')
    def res(inl, gen=None):
        def r(path):
            if path == ['fermi_momentum']: return ('fermi_momentum', FM)
            if path[:3] == ['super','super','inlines']: return gen[path[3]]
            if path[0] == 'inlines': return inl[path[1]]
            raise KeyError(path)
        return r
    def sel(file, lo, hi): return [f for f in B.find_functions(TH+file, lo, hi) if not f.name.endswith('_i')]
    rg='low_level/oneloop/thermal/ghost.rs'; rl='low_level/oneloop/thermal/gluon.rs'
    t = {}
    t['g0'], og0 = module(sel('ghost.rs',16,38), res(gi), rg)
    t['gmat'], ogmat = module(sel('ghost.rs',93,126), res(gmat), rg)
    t['gmom'], ogmom = module(sel('ghost.rs',165,193), res(gmom), rg)
    t['l0'], ol0 = module(sel('gluon.rs',17,284), res(li), rl)
    t['lmat'], olmat = module(sel('gluon.rs',573,832), res(lmat, li), rl)
    t['lmom'], olmom = module(sel('gluon.rs',1021,1259), res(lmom), rl)
    s = '''import Verif.Model.ThermalParts
import Verif.Model.Integrator

/-! # Integrated thermal parts: `low_level/oneloop/thermal/{ghost,gluon}.rs`, modules `native`

Transcribed by `tools/rs2lean_wrappers.py`. The numerical integrator `ig` (peroxide's `integrate`)
and the global constants `k` are explicit arguments of exactly the functions that use them. -/

namespace Qcd
open consts (Consts Integral get_default_integration_method)

/-- The block `let (mut integral, dti) = ...; if let G7K15(ti, mi) = integral { if ti == dti && mi ==
max_iter_integral() { integral = G7K15(DEFAULT_TOL_INT_REPL, mi) } }`, repeated verbatim in gluon.rs
l.766-773, 777-784, 788-795, 799-806, 810-817, 821-828; `DEFAULT_TOL_INT_REPL` is l.584. -/
noncomputable def zero_matsubara_default_method (k : Consts ℝ) : Integral ℝ :=
  open Classical in
  let integral := get_default_integration_method k
  let dti := k.tol_integral
  match integral with
  | .G7K15 ti mi => if ti = dti ∧ mi = k.max_iter_integral then .G7K15 (1 / 10 ^ 8) mi else integral
  | _ => integral

'''
    for kind, a in (('ghost', ('g0','gmat','gmom')), ('gluon', ('l0','lmat','lmom'))):
        s += f'namespace {kind}.thermal\n\n{t[a[0]]}\nnamespace zero_matsubara\n\n{t[a[1]]}\nend zero_matsubara\n\nnamespace zero_momentum\n\n{t[a[2]]}\nend zero_momentum\n\nend {kind}.thermal\n\n'
    open('/verif/lean/Verif/Model/ThermalIntegrals.lean','w').write(s+'end Qcd\n')
    # --- dressings
    q = lambda own, ns: {n:(ns+'.'+n, f) for n,(_,f) in own.items()}
    tg = {'':q(og0,'Qcd.ghost.thermal'),'zero_matsubara':q(ogmat,'Qcd.ghost.thermal.zero_matsubara'),'zero_momentum':q(ogmom,'Qcd.ghost.thermal.zero_momentum')}
    tl = {'':q(ol0,'Qcd.gluon.thermal'),'zero_matsubara':q(olmat,'Qcd.gluon.thermal.zero_matsubara'),'zero_momentum':q(olmom,'Qcd.gluon.thermal.zero_momentum')}
    V = lambda n, ps, k=False: Fn(name=n, gens=['T'], params=ps, ret='T', uses_k=k)
    ymghost = {'dressing_inv_landau':('Qcd.ghost.dressing_inv_landau', V('x',[('s','T'),('g0','R')]))}
    ymgluon = {'dressing_inv_landau':('Qcd.ym.gluon.dressing_inv_landau', V('x',[('s','T'),('f0','R')]))}
    qcdgluon = {'dressing_inv_landau':('Qcd.qcd.gluon.dressing_inv_landau', V('x',[('s','T'),('mq','R'),('f0','R')],True)),
      'dressing_inv_landau_w_field_config':('Qcd.qcd.gluon.dressing_inv_landau_w_field_config', V('x',[('s','T'),('f0','R'),('config','&FieldConfig')],True))}
    def resd(vac, parts):
        def r(path):
            if path[0] in ('ghost_vac','gluon_vac'): return vac[path[1]]
            if path[0] == 'gluon_thermal_parts': return parts[path[1]]
            if len(path) == 1: return parts[path[0]]
            raise KeyError(path)
        return r
    ym = S+'ym/thermal.rs'; qc = S+'qcd/thermal.rs'
    out = '''import Verif.Model.ThermalIntegrals
import Verif.Model.Qcd

/-! # Thermal dressing functions and propagators: `ym/thermal.rs`, `qcd/thermal.rs`

Transcribed by `tools/rs2lean_wrappers.py`. `qcd::thermal::ghost` (qcd/thermal.rs l.3-5, 367-369,
636-638) re-exports `ym::thermal::ghost` and is not repeated. The iterator `.map(..).sum()` is
`List.map`/`List.sum`: in exact arithmetic the order of summation is immaterial. -/

namespace Qcd
open consts (Consts)

/-- `const PREFACTOR: R = (16. * PI * PI) / 3.`, repeated in every module of ym/thermal.rs
(l.7, 35, 79, 107, 153, 180) and qcd/thermal.rs (l.15, 378, 648). -/
noncomputable def PREFACTOR : ℝ := (16 * Real.pi * Real.pi) / 3

'''
    def emit(ns, path, lo, hi, vac, parts, rel):
        nonlocal out
        txt, own = module(B.find_functions(path, lo, hi), resd(vac, parts), rel)
        out += f'namespace {ns}\n\n{txt}\nend {ns}\n\n'
        ALL.append((ns, B_list(own)))
    ALL = []
    def B_list(own): return [f for _, f in own.values()]
    emit('ym.thermal.ghost', ym, 1, 27, ymghost, tg[''], 'ym/thermal.rs')
    emit('ym.thermal.gluon', ym, 28, 71, ymgluon, tl[''], 'ym/thermal.rs')
    emit('ym.thermal.zero_matsubara.ghost', ym, 72, 97, ymghost, tg['zero_matsubara'], 'ym/thermal.rs')
    emit('ym.thermal.zero_matsubara.gluon', ym, 98, 143, ymgluon, tl['zero_matsubara'], 'ym/thermal.rs')
    emit('ym.thermal.zero_momentum.ghost', ym, 144, 172, ymghost, tg['zero_momentum'], 'ym/thermal.rs')
    emit('ym.thermal.zero_momentum.gluon', ym, 173, 205, ymgluon, tl['zero_momentum'], 'ym/thermal.rs')
    emit('qcd.thermal.gluon', qc, 7, 286, qcdgluon, tl[''], 'qcd/thermal.rs')
    emit('qcd.thermal.zero_matsubara.gluon', qc, 366, 632, qcdgluon, tl['zero_matsubara'], 'qcd/thermal.rs')
    emit('qcd.thermal.zero_momentum.gluon', qc, 634, 906, qcdgluon, tl['zero_momentum'], 'qcd/thermal.rs')
    open('/verif/lean/Verif/Model/ThermalDressing.lean','w').write(out+'end Qcd\n')
    INT = [('ghost.thermal',B_list(og0)),('ghost.thermal.zero_matsubara',B_list(ogmat)),('ghost.thermal.zero_momentum',B_list(ogmom)),
           ('gluon.thermal',B_list(ol0)),('gluon.thermal.zero_matsubara',B_list(olmat)),('gluon.thermal.zero_momentum',B_list(olmom))]
    return INT, ALL

if __name__ == '__main__':
    I, A = build()
    for ns, l in I + A: print(ns, len(l))
