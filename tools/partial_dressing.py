#!/usr/bin/env python3
"""Writes lean/Verif/Model/DressingPartial.lean: the definitions of Model/ThermalIntegrals.lean and Model/ThermalDressing.lean
with results in PV T and the integrator replaced by a PIntegrator, in the namespace Qcd.P. Arguments stay numbers."""
import re, os
ROOT = os.path.join(os.path.dirname(os.path.abspath(__file__)), '..', 'lean', 'Verif', 'Model')

def pv(t):
    return 'PV ' + t if t in ('ℝ', 'ℂ') or re.fullmatch(r'T\d?', t) else t

def wrap(s):
    """arguments and constants become values"""
    s = re.sub(r'(?<![\w.(])\(?\bk\.matsubara_reg\b\)?', '(PV.val k.matsubara_reg)', s)
    return re.sub(r'(?<![\w.])(om|p|m|mq|beta|mu|q|t)(?![\w.])', r'(PV.val \1)', s)

def types(s):
    s = re.sub(r' : (T\d?|ℂ)\)', r' : PV \1)', s)
    s = re.sub(r'(?<![\w.])ofR\b', 'PV.ofR', s)
    return re.sub(r'(?<![\w.])toC\b', 'PV.toC', s)

def integral(s):
    m = re.match(r'  ig\.(real|cplx) \(fun (t|q) => (.*)\) \(0, (1|fermi_momentum mq mu)\) integral$', s)
    if m:
        kind, v, e, b = m.groups()
        mm = re.match(r'\((.*)\)\.re( / .*)?$', e)
        if mm:
            e = 'PV.re (%s)%s' % (mm.group(1), mm.group(2) or '')
        e = types(wrap(e)).replace('ghost.thermal.', 'Qcd.P.ghost.thermal.').replace('gluon.thermal.', 'Qcd.P.gluon.thermal.')
        if b == '1':
            return '  pg.%s (fun %s => %s) (0, 1) integral' % (kind, v, e)
        return '  PV.bind (Qcd.P.fermi_momentum (PV.val mq) (PV.val mu)) fun pf => pg.%s (fun %s => %s) (0, pf) integral' % (kind, v, e)
    if s.startswith('  if |mu|'):
        return '  if |mu| < |mq| then .val 0 else'
    return s.replace(' ig ', ' pg ')

def dressing(s):
    if 'config.gluon' in s:
        return s
    keep = []
    def hold(x):
        keep.append(x)
        return '«%d»' % (len(keep) - 1)
    s = re.sub(r'Qcd\.((?:ghost|gluon)\.thermal\.\S+) ig( k(?: [\w.]+)*)', lambda m: hold('Qcd.P.%s pg%s' % m.groups()), s)
    s = re.sub(r'(?<![\w.])((?:dressing|propagator)_\w+) ig( k(?: [\w.]+)*)', lambda m: hold('%s pg%s' % m.groups()), s)
    s = s.replace('Qcd.qcd.gluon.dressing_inv_landau k s (mq / m) f0',
                  hold('(PV.bind (PV.val mq / PV.val m) fun r => Qcd.qcd.gluon.dressing_inv_landau k s r f0)'))
    s = re.sub(r'\(((?:k|qi)\.nf : ℝ)\)', lambda m: hold('(PV.val (%s))' % m.group(1)), s)
    s = re.sub(r'\bPREFACTOR\b', lambda m: hold('(PV.val PREFACTOR)'), s)
    s = re.sub(r'^(\s*let \w+ : )(T\d?|ℝ|ℂ)( :=)', lambda m: m.group(1) + 'PV ' + m.group(2) + m.group(3), s)
    s = types(wrap(s))
    return re.sub(r'«(\d+)»', lambda m: keep[int(m.group(1))], s)

def convert(path, body):
    out = []
    for line in open(os.path.join(ROOT, path)).read().split('\n'):
        m = re.match(r'noncomputable def (\S+)(.*) : (\S+) :=$', line)
        if m:
            name, bs, ret = m.groups()
            bs = re.sub(r'\[Num (T\d?)\]', r'[Num \1] [NumDom \1]', bs).replace('(ig : Integrator)', '(pg : PIntegrator)')
            out.append('noncomputable def %s%s : %s :=' % (name, bs, pv(ret)))
        elif line.startswith('  '):
            out.append(body(line))
        else:
            out.append(line)
    s = '\n'.join(out)
    return s[s.index('namespace ghost.thermal') if 'namespace ghost.thermal' in s else s.index('namespace ym.thermal.ghost'):s.rindex('end Qcd')].strip()

HEAD = '''import Verif.Model.ThermalDressing
import Verif.Model.ThermalPartial
import Verif.Model.PartialIntegrator

/-! # Second interpretation of the thermal integrals, dressing functions and propagators: definedness

The definitions of `Model/ThermalIntegrals.lean` and `Model/ThermalDressing.lean`, with results that may be undefined
(`Model/PartialNum.lean`) and an integrator of integrands that may be undefined (`Model/PartialIntegrator.lean`). The arguments are
numbers. Written by `tools/partial_dressing.py` from those files, which see. -/

namespace Qcd.P
open consts (Consts Integral get_default_integration_method)

'''
if __name__ == '__main__':
    s = HEAD + convert('ThermalIntegrals.lean', integral) + '\n\n' + convert('ThermalDressing.lean', dressing) + '\n\nend Qcd.P\n'
    open(os.path.join(ROOT, 'DressingPartial.lean'), 'w').write(s)
