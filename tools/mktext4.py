#!/usr/bin/env python3
"""Translates the two branches of an equation of state (cpg) into Lean (lean/Verif/Text/Thermo.lean): what one iteration does to the arrays of
its cell. Arrays of the cell and the local array Y are functions of the component; a loop is a fold over the variables it assigns. The lines
that differ between the two ways to compile (NSCOMPILE: where Y lives) are left out; what Y holds at the start is a parameter."""
from mktext import *
OWN = ['q', 'Q', 'qh']
TH1 = ['MW', 'cp0']

class T:
    def __init__(s): s.sc = set(); s.ar = set(OWN + ['Y']); s.ix = set()
    def clone(s):
        t = T(); t.sc = set(s.sc); t.ix = set(s.ix); return t
    def nat(s, e):
        if e[0] == 'num': return e[1]
        if e[0] == 'var': assert e[1] == 'ns' or e[1] in s.ix, e; return 'th.ns' if e[1] == 'ns' else e[1]
        assert e[0] == 'bin' and e[1] in '+-', e
        return '(%s %s %s)' % (s.nat(e[2]), e[1], s.nat(e[3]))
    def place(s, e):
        n, a = e[1], e[2]
        if n == 'Y': assert len(a) == 1; return 'Y', s.nat(a[0])
        if n[2:] in OWN and n.startswith('b.'):
            assert a[:3] == [('var', c) for c in 'ijk']; return n[2:], s.nat(a[3])
        raise Exception(str(e))
    def ex(s, e):
        k = e[0]
        if k == 'num': return num(e[1])
        if k == 'var':
            if e[1] == 'th.Ru': return e[1]
            assert e[1] in s.sc, 'unassigned ' + e[1]; return e[1]
        if k == 'neg': return '(-%s)' % s.ex(e[1])
        if k == 'bin':
            assert e[1] in '+-*/'
            if e[1] == '/' and all(x[0] == 'num' and '.' not in x[1] for x in e[2:]): raise Exception('integer division')
            return '(%s %s %s)' % (s.ex(e[2]), e[1], s.ex(e[3]))
        n, a = e[1], e[2]
        if n in FN: return '(%s %s %s)' % (FN[n], s.ex(a[0]), s.ex(a[1]))
        if n == 'sqrt': return '(Real.sqrt %s)' % s.ex(a[0])
        if n == 'pow': return '(%s ^ %d)' % (s.ex(a[0]), Fraction(a[1][1]))
        if n.startswith('th.') and n[3:] in TH1: return '(%s %s)' % (n, s.nat(a[0]))
        return '(%s %s)' % s.place(e)
    def assigned(s, b):
        out = []
        for t in b:
            if t[0] == 'asg':
                n = s.place(t[1])[0] if t[1][0] == 'call' else t[1][1]
                if n not in out: out.append(n)
            elif t[0] == 'for':
                g = s.clone(); g.ix.add(t[1])
                out += [n for n in g.assigned(t[4]) if n not in out]
            else: assert t[0] == 'if'; out += [n for n in s.assigned(t[2]) + s.assigned(t[3]) if n not in out]
        return out
    def ty(s, n): return 'ℕ → ℝ' if n in s.ar else 'ℝ'
    def tup(s, v): return v[0] if len(v) == 1 else '(%s)' % ', '.join(v)
    def tys(s, v): return ' × '.join('(%s)' % s.ty(n) for n in v)
    def projs(s, v, st): 
        if len(v) == 1: return [st]
        return [st + '.2' * q + ('.1' if q + 1 < len(v) else '') for q in range(len(v))]
    def run(s, b, pad):
        L = []
        for t in b:
            if t[0] == 'decl':
                assert t[1] == 'double'
                if t[3] is not None: L.append('%slet %s : ℝ := %s' % (pad, t[2], s.ex(t[3]))); s.sc.add(t[2])
            elif t[0] == 'asg' and t[1][0] == 'var':
                n = t[1][1]; x = s.ex(t[3])
                if t[2] != '=': assert n in s.sc; x = '(%s %s %s)' % (n, t[2][0], x)
                L.append('%slet %s : ℝ := %s' % (pad, n, x)); s.sc.add(n)
            elif t[0] == 'asg':
                n, c = s.place(t[1]); x = s.ex(t[3])
                if t[2] != '=': x = '((%s %s) %s %s)' % (n, c, t[2][0], x)
                L.append('%slet %s : ℕ → ℝ := upd %s %s %s' % (pad, n, n, c, x))
            elif t[0] == 'for':
                v, lo, c, body = t[1:5]
                assert lo == ('num', '0') and c[0] == 'bin' and c[1] in ('<', '<=') and c[2] == ('var', v)
                hi = s.nat(c[3]); hi = hi if c[1] == '<' else '(%s + 1)' % hi
                g = s.clone(); g.ix.add(v)
                car = g.assigned(body); assert all(n in s.ar or n in s.sc for n in car), car
                L.append('%slet st : %s := (List.range %s).foldl (fun (st : %s) (%s : ℕ) =>' % (pad, s.tys(car), hi, s.tys(car), v))
                L += ['%s    let %s : %s := %s' % (pad, n, s.ty(n), p) for n, p in zip(car, s.projs(car, 'st'))]
                L += g.run(body, pad + '    ') + ['%s    %s) %s' % (pad, s.tup(car), s.tup(car))]
                L += ['%slet %s : %s := %s' % (pad, n, s.ty(n), p) for n, p in zip(car, s.projs(car, 'st'))]
            elif t[0] == 'if':
                assert not t[3] and t[1][0] == 'bin' and t[1][1] == '>'
                car = s.assigned(t[2]); assert all(n in s.ar or n in s.sc for n in car)
                L.append('%slet st : %s := if %s > %s then' % (pad, s.tys(car), s.ex(t[1][2]), s.ex(t[1][3])))
                L += s.clone().run(t[2], pad + '    ') + ['%s    %s' % (pad, s.tup(car)), '%s  else %s' % (pad, s.tup(car))]
                L += ['%slet %s : %s := %s' % (pad, n, s.ty(n), p) for n, p in zip(car, s.projs(car, 'st'))]
            else: raise Exception(str(t))
        return L

out = []
path = 'thermo/cpg.cpp'
t0 = strip(open(R + path).read())
blank = lambda m: '\n' * m.group(0).count('\n')
t = re.sub(r'#ifdef NSCOMPILE\n#define(?s:.*?)#endif', blank, t0)
t = re.sub(r'#ifn?def NSCOMPILE(?s:.*?)#endif', blank, t)
t = re.sub(r'(const\s+)?std::string\s*&given', lambda m: m.group(0), t)
for f in functions(t):
    if f[0] != 'cpg': continue
    parts = re.findall(r'given\.compare\("(\w+)"\) == 0', f[2]); assert parts == ['prims', 'cons']
    ns = nests(f[2]); assert len(ns) == 2
    for name, (lab, rng, ps, body, off) in zip(parts, ns):
        assert rng == 'range' and ps == 'const int i, const int j, const int k'
        # a reference to an element is the element: no element with a constant component that is referred to may be stored later
        refs = set(re.findall(r'double &\w+ = b\.(\w+)\(i, j, k, (\d)\)', body))
        st = set(re.findall(r'b\.(\w+)\(i, j, k, (\d)\)\s*[-+*/]?=[^=]', body)); assert not refs & st, refs & st
        g = T(); L = g.run(P(tokens('{' + body + '}')).block(), '  ')
        a = t[:f[3] + off].count('\n') + 1; e = a + body.count('\n')
        out.append('/-- %s:%d-%d -/\nnoncomputable def cpg_%s (th : ThB) (q Q qh Y : ℕ → ℝ) : (ℕ → ℝ) × (ℕ → ℝ) × (ℕ → ℝ) :=\n%s\n  (q, Q, qh)\n' % (path, a, e, name, '\n'.join(L)))
open('/verif/lean/Verif/Text/Thermo.lean', 'w').write("""import Mathlib.Analysis.Real.Sqrt
/-
Generated by tools/mktext4.py from the text of cpg.cpp; do not edit. Each definition is one iteration of a loop: from the components that the
arrays q, Q, qh hold at its cell, and whatever the local array Y holds, to what they hold afterwards.
-/
namespace PG.Text.Thermo

/-- species data read by the kernels (thtrdat_.hpp) -/
structure ThB where
  ns : ℕ
  Ru : ℝ
  MW : ℕ → ℝ
  cp0 : ℕ → ℝ

/-- store into one component -/
def upd (f : ℕ → ℝ) (c : ℕ) (x : ℝ) : ℕ → ℝ := fun m => if m = c then x else f m

""" + '\n'.join(out) + '\nend PG.Text.Thermo\n')
