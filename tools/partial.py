#!/usr/bin/env python3
"""Writes lean/Verif/Model/ThermalPartial.lean: the definitions of Model/Thermal.lean and Model/ThermalParts.lean
with every type T replaced by PV T, in the namespace Qcd.P."""
import re, os
ROOT = os.path.join(os.path.dirname(os.path.abspath(__file__)), '..', 'lean', 'Verif', 'Model')

def typ(s):
    s = s.strip()
    return 'PV ' + s if s in ('ℝ', 'ℂ') or re.fullmatch(r'T\d?', s) else s

def body(s):
    s = re.sub(r'\(ofR \(k\.nc : ℝ\) : (T\d?|ℂ)\)', r'(PV.ofR (.val (k.nc : ℝ)) : PV \1)', s)
    s = s.replace('(k.nc : ℝ)', '(.val (k.nc : ℝ))') if '.val (k.nc' not in s else re.sub(r'(?<!\.val )\(k\.nc : ℝ\)', '(.val (k.nc : ℝ))', s)
    s = re.sub(r'^(\s*let \w+ : )(T\d?|ℝ|ℂ)( :=)', lambda m: m.group(1) + 'PV ' + m.group(2) + m.group(3), s)
    s = re.sub(r' : (T\d?|ℂ)\)', r' : PV \1)', s)
    s = re.sub(r'(?<![\w.])ofR\b', 'PV.ofR', s)
    s = re.sub(r'(?<![\w.])toC\b', 'PV.toC', s)
    s = re.sub(r'\bNumOps\.(ln|sqrt|exp)\b', r'PV.\1', s)
    s = re.sub(r'(?<![\w.])I\b', 'PV.I', s)
    s = re.sub(r'(?<![\w.])PI2\b', '(.val PI2)', s)
    return s

def convert(path):
    out = []
    for line in open(os.path.join(ROOT, path)).read().split('\n'):
        m = re.match(r'noncomputable def (\S+)(.*) : (\S+) :=$', line)
        if m:
            name, bs, ret = m.groups()
            if name == 'PI2':
                out.pop(); out.pop(); skip = True
                continue
            bs = re.sub(r'\[Num (T\d?)\]', r'[Num \1] [NumDom \1]', bs)
            bs = re.sub(r'\((\w+) : (T\d?|ℝ|ℂ)\)', lambda m: '(%s : PV %s)' % m.groups(), bs)
            out.append('noncomputable def %s%s : %s :=' % (name, bs, typ(ret)))
        elif line.startswith('noncomputable def PI2') or line.startswith('/-- `const PI2') or line.startswith('gluon.rs l.385'):
            continue
        elif line.startswith('  '):
            out.append(body(line))
        else:
            out.append(line)
    s = '\n'.join(out)
    return s[s.index('namespace Qcd') + len('namespace Qcd'):s.rindex('end Qcd')].replace('open consts (Consts)\n', '').strip()

HEAD = '''import Verif.Model.ThermalParts
import Verif.Model.PartialNum

/-! # Second interpretation of the thermal integrands: definedness

The definitions of `Model/Thermal.lean` and `Model/ThermalParts.lean`, over the types `PV T` of numbers that may be undefined
(`Model/PartialNum.lean`). Written by `tools/partial.py` from those files, which see. -/

namespace Qcd.P
open consts (Consts)

'''
if __name__ == '__main__':
    s = HEAD + convert('Thermal.lean') + '\n\n' + convert('ThermalParts.lean') + '\n\nend Qcd.P\n'
    open(os.path.join(ROOT, 'ThermalPartial.lean'), 'w').write(s)
