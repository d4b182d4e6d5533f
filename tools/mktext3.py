#!/usr/bin/env python3
"""Translates the kernels that compute cell values from the values around (applyFluxes, dq2FD, dq4FD, the switches, viscousSponge) into Lean
(lean/Verif/Text/Cell.lean): the range of the loop and what one iteration does to the values stored at its index. Fails if an iteration
stores at another index than its own, or reads a written array at another index."""
from mktext import *
KS = [('utils/applyFluxes.cpp', ['applyFlux', 'applyHybridFlux', 'applyDissipationFlux']), ('utils/dq2FD.cpp', ['dq2FD']), ('utils/dq4FD.cpp', ['dq4FD']),
      ('switches/jameson.cpp', ['jamesonPressure']), ('switches/vanAlbada.cpp', ['vanAlbadaPressure']), ('switches/vanLeer.cpp', ['vanLeer']),
      ('utils/viscousSponge.cpp', ['viscousSponge'])]
R4 = ['q', 'iF', 'jF', 'kF', 'phi']
R3 = ['J'] + ['d%sd%s' % (c, x) for c in 'ENC' for x in 'xyz'] + ['xc', 'yc', 'zc']
W4 = ['dQ', 'dqdx', 'dqdy', 'dqdz']          # written at the own (i,j,k,l)
W3 = ['phi_0', 'phi_1', 'phi_2', 'qt_0']     # written at the own (i,j,k)

class C(Gen):
    def init(s, names, four):
        s.written = set(); s.names_ = names; s.four = four
        for n in names: s.vars.add(n)
        return s
    def slot(s, n, args):
        v = n[2:]
        if len(args) != 4 or [a for a in args[:3]] != [('var', c) for c in 'ijk']: return None
        if args[3] == ('var', 'l') and v in W4: return v
        if args[3][0] == 'num' and v + '_' + args[3][1] in W3: return v + '_' + args[3][1]
    def access(s, n, args):
        assert n.startswith('b.')
        if n[2:] in s.written:
            p = s.slot(n, args); assert p, (n, args); return '(v.%s)' % p
        idx = ' '.join(str(s.iexpr(a)) for a in args[:3])
        if len(args) == 3: assert n[2:] in R3, n; return '(%s %s)' % (n, idx)
        assert n[2:] in R4, n
        c = 'l' if args[3] == ('var', 'l') else str(int(args[3][1]))
        return '(%s %s %s)' % (n, idx, c)
    def body(s, b):
        for t in b:
            if t[0] == 'asg' and t[1][0] == 'call': s.written.add(t[1][1][2:])
        L = []
        for t in b:
            if t[0] == 'decl':
                assert t[1] == 'double'
                if t[3] is not None: L.append('let %s : ℝ := %s' % (t[2], s.expr(t[3]))); s.vars.add(t[2])
            elif t[0] == 'darr':
                for q, e in enumerate(t[2]): L.append('let %s_%d : ℝ := %s' % (t[1], q, s.expr(e)))
                for q in range(len(t[2])): s.vars.add('%s_%d' % (t[1], q))
            elif t[0] == 'asg' and t[1][0] == 'var':
                x = s.expr(t[3]); n = t[1][1]
                if t[2] != '=': x = '(%s %s %s)' % (n, t[2][0], x)
                L.append('let %s : ℝ := %s' % (n, x)); s.vars.add(n)
            elif t[0] == 'asg':
                p = s.slot(t[1][1], t[1][2]); assert p, t
                assert (p in W4) == s.four
                x = s.expr(t[3])
                if t[2] != '=': x = '(v.%s %s %s)' % (p, t[2][0], x)
                L.append('let v : W := { v with %s := %s }' % (p, x))
            else: raise Exception(str(t))
        return L

out = []
for path, names in KS:
    t = strip(open(R + path).read())
    for f in functions(t):
        if f[0] not in names: continue
        ns = nests(f[2]); assert len(ns) == 1 and f[2].count('parallel_for') == 1
        lab, rng, ps, body, off = ns[0]
        m = re.search(r'MDRange([34]) %s\(\{([^}]*)\},\s*\{([^}]*)\}\);' % rng, f[2])
        n = int(m.group(1)); four = n == 4; ix = 'ijkl'[:n]
        assert [p.split()[-1] for p in ps.split(',')] == list(ix), ps
        lo = [x.strip() for x in m.group(2).split(',')]; hi = [x.strip() for x in m.group(3).split(',')]
        assert len(lo) == len(hi) == n
        if four: assert lo[3] == '0' and hi[3] == 'b.ne'
        r = ' ∧ '.join('%s ≤ %s ∧ %s < %s' % (a, c, c, b) for a, c, b in zip(lo[:3], ix, hi[:3])) + (' ∧ l < b.ne' if four else '')
        par = []
        for p in f[1].split(','):
            q = p.split()[-1].lstrip('&')
            if f[0] == 'viscousSponge': continue
            if 'double' in p and '[]' not in p: par.append(q)
        if f[0] == 'viscousSponge':
            assert ' '.join(f[1].split()) == 'block_ &b, const std::array<double, 3> &origin, const std::array<double, 3> &ending, double mult'
            par = ['%s_%d' % (a, q) for a in ('origin', 'ending') for q in range(3)] + ['mult']
        g = C('', [], {}, []).init(par, four)
        L = g.body(P(tokens('{' + body + '}')).block())
        a = t[:f[3]].count('\n') + 1; e = a + f[2].count('\n')
        l = ' (l : ℕ)' if four else ''
        out.append('/-- the range of the loop of %s:%d-%d -/\ndef %s_range (b : CBlk) (i j k : ℤ)%s : Prop :=\n  %s\n' % (path, a, e, f[0], l, r))
        out.append('/-- %s:%d-%d -/\nnoncomputable def %s (b : CBlk)%s (i j k : ℤ)%s (v : W) : W :=\n%s\n  v\n' % (path, a, e, f[0],
            ' (%s : ℝ)' % ' '.join(par) if par else '', l, '\n'.join('  ' + x for x in L)))
open('/verif/lean/Verif/Text/Cell.lean', 'w').write("""import Mathlib.Analysis.Real.Sqrt
/-
Generated by tools/mktext3.py from the text of kernels that compute values of a cell; do not edit. For each kernel, the range of its loop and
one iteration: what it does to the values stored at its index. The translation fails on a kernel that stores at another index than its own or
that reads an array it writes at another index. Doubles are reals.
-/
namespace PG.Text.Cell

/-- what the kernels read of a block without writing it (block_.hpp) -/
structure CBlk where
  ne : ℕ
  ng : ℤ
  ni : ℤ
  nj : ℤ
  nk : ℤ
""" + ''.join('  %s : ℤ → ℤ → ℤ → ℕ → ℝ\n' % f for f in R4) + ''.join('  %s : ℤ → ℤ → ℤ → ℝ\n' % f for f in R3) + """
/-- the values at one index of the arrays that the kernels write: at (i,j,k,l), or at (i,j,k) with the component in the name -/
structure W where
""" + ''.join('  %s : ℝ\n' % f for f in W4 + W3) + '\n' + '\n'.join(out) + '\nend PG.Text.Cell\n')
