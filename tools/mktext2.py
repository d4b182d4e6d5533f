#!/usr/bin/env python3
"""Translates the stage kernels of the time integrators into Lean (lean/Verif/Text/Stage.lean): what one iteration of the loop does to the
values stored at its index. Fails if an iteration touches an element at any other index, or if the range is not the interior."""
import re
from mktext import *
KS = [('timeIntegration/rk2Stages.cpp', ['rk2s1', 'rk2s2']), ('timeIntegration/rk3Stages.cpp', ['rk3s1', 'rk3s2', 'rk3s3']),
      ('timeIntegration/rk34Stages.cpp', ['rk34s1', 'rk34s2', 'rk34s3', 'rk34s4']), ('timeIntegration/rk4Stages.cpp', ['rk4s1', 'rk4s2', 'rk4s3', 'rk4s4']),
      ('timeIntegration/maccormackStages.cpp', ['corrector']), ('timeIntegration/dualTime.cpp', ['dQdt', 'DTrk3s1', 'DTrk3s2', 'DTrk3s3'])]
FIELDS = ['Q', 'q', 'Q0', 'Q1', 'Q2', 'Q3', 'Qn', 'Qnm1', 'dQ']
RANGE = 'MDRange4 range_cc({b.ng, b.ng, b.ng, 0}, {b.ni + b.ng - 1, b.nj + b.ng - 1, b.nk + b.ng - 1, b.ne});'
IDX = [('var', c) for c in 'ijkl']

def place(e):
    n = e[1]; assert n.startswith('b.'); n = n[2:]
    if n == 'dtau': assert e[2] == IDX[:3], e
    else: assert n in FIELDS and e[2] == IDX, e
    return 'v.' + n

def ex(e):
    if e[0] == 'num': return num(e[1])
    if e[0] == 'var': assert e[1] == 'dt', e; return 'dt'
    if e[0] == 'neg': return '(-%s)' % ex(e[1])
    if e[0] == 'bin':
        assert e[1] in '+-*/'
        if e[1] == '/' and all(x[0] == 'num' and '.' not in x[1] for x in e[2:]): raise Exception('integer division')
        return '(%s %s %s)' % (ex(e[2]), e[1], ex(e[3]))
    return place(e)

out = []
for path, names in KS:
    t = strip(open(R + path).read())
    for f in functions(t):
        if f[0] not in names: continue
        ns = nests(f[2]); assert len(ns) == 1
        lab, rng, ps, body, off = ns[0]
        assert rng == 'range_cc' and ps == 'const int i, const int j, const int k, const int l', (rng, ps)
        assert RANGE in ' '.join(f[2].split()), f[0]
        L = []
        for s in P(tokens('{' + body + '}')).block():
            assert s[0] == 'asg' and s[1][0] == 'call', s
            p = place(s[1]); x = ex(s[3])
            if s[2] != '=': x = '(%s %s %s)' % (p, s[2][0], x)
            L.append('  let v : V := { v with %s := %s }' % (p[2:], x))
        a = t[:f[3]].count('\n') + 1; e = a + f[2].count('\n')
        dt = 'dt : ℝ' if 'dt' in f[1].split() or '&dt' in f[1] else '_dt : ℝ'
        out.append('/-- %s:%d-%d -/\nnoncomputable def %s (%s) (v : V) : V :=\n%s\n  v\n' % (path, a, e, f[0], dt, '\n'.join(L)))
open('/verif/lean/Verif/Text/Stage.lean', 'w').write("""import Mathlib.Data.Real.Basic
/-
Generated by tools/mktext2.py from the text of the stage kernels; do not edit. Each definition is one iteration of the loop of a kernel: what it
does to the values at its index (i,j,k,l). The translation fails on a kernel that touches another index or has another range than the interior.
-/
namespace PG.Text.Stage

/-- the values at one index of the arrays of a block that the stage kernels use (block_.hpp) -/
structure V where
""" + ''.join('  %s : ℝ\n' % f for f in FIELDS + ['dtau']) + '\n' + '\n'.join(out) + '\nend PG.Text.Stage\n')
