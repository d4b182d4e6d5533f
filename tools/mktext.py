#!/usr/bin/env python3
"""Translates the bodies of flux kernels in /repo/src/compute into Lean definitions (lean/Verif/Text/Flux.lean).

One definition per function with loops ("computeFlux") or per loop nest; it gives the value that the nest leaves at (i,j,k,.) of the array it
writes, as a function of the arrays it reads and of what that array held before. Statements are translated one by one, in order.
"""
import re, sys
from fractions import Fraction
R = '/repo/src/compute/'

def strip(t):
    t = re.sub(r'//[^\n]*', lambda m: '', t)
    t = re.sub(r'/\*.*?\*/', lambda m: '\n' * m.group(0).count('\n'), t, flags=re.S)
    return t

TOK = re.compile(r'\s*(?:(\d+\.\d*(?:[eE][-+]?\d+)?|\.\d+|\d+[eE][-+]?\d+|\d+)|([A-Za-z_]\w*)|(\+\+|--|\+=|-=|\*=|/=|==|!=|<=|>=|&&|\|\||[-+*/%<>=!?:;,.(){}\[\]&]))')
def tokens(t):
    out = []; p = 0; line = 1
    while p < len(t):
        m = TOK.match(t, p)
        if not m:
            if t[p:].strip() == '': break
            raise Exception('token %r' % t[p:p+40])
        line += t[p:m.start(m.lastindex)].count('\n')
        kind = 'num' if m.group(1) else 'id' if m.group(2) else 'op'
        out.append((kind, m.group(m.lastindex), line)); p = m.end()
    return out

class P:
    """recursive-descent parser of the statements that occur in the kernels"""
    def __init__(s, toks): s.t = toks; s.p = 0
    def peek(s, o=0): return s.t[s.p+o][1] if s.p+o < len(s.t) else None
    def kind(s): return s.t[s.p][0] if s.p < len(s.t) else None
    def next(s): s.p += 1; return s.t[s.p-1][1]
    def eat(s, x):
        if s.peek() != x: raise Exception('expected %s found %s line %s' % (x, s.t[s.p-3:s.p+3], s.t[s.p][2]))
        s.p += 1
    PREC = [['||'], ['&&'], ['==', '!='], ['<', '>', '<=', '>='], ['+', '-'], ['*', '/', '%']]
    def expr(s): 
        c = s.bin(0)
        if s.peek() == '?':
            s.next(); a = s.expr(); s.eat(':'); b = s.expr(); return ('cond', c, a, b)
        return c
    def bin(s, l):
        if l == len(s.PREC): return s.un()
        a = s.bin(l+1)
        while s.peek() in s.PREC[l]:
            o = s.next(); a = ('bin', o, a, s.bin(l+1))
        return a
    def un(s):
        if s.peek() == '-': s.next(); return ('neg', s.un())
        if s.peek() == '+': s.next(); return s.un()
        if s.peek() == '!': s.next(); return ('not', s.un())
        return s.atom()
    def atom(s):
        k = s.kind()
        if s.peek() == '(':
            s.next(); e = s.expr(); s.eat(')'); return e
        if k == 'num': return ('num', s.next())
        n = s.next()
        while s.peek() == '.': s.next(); n += '.' + s.next()
        if s.peek() == '(':
            s.next(); a = []
            while s.peek() != ')':
                a.append(s.expr())
                if s.peek() == ',': s.next()
            s.next(); return ('call', n, a)
        if s.peek() == '[':
            s.next(); e = s.expr(); s.eat(']'); return ('idx', n, e)
        return ('var', n)
    def block(s):
        if s.peek() == '{':
            s.next(); b = []
            while s.peek() != '}': b += s.stmt()
            s.next(); return b
        return s.stmt()
    def stmt(s):
        line = s.t[s.p][2]
        if s.peek() == ';': s.next(); return []
        if s.peek() == '{': return s.block()
        while s.peek() in ('const', 'constexpr'): s.next()
        if s.peek() in ('double', 'int'):
            ty = s.next(); out = []
            while s.peek() == 'const': s.next()
            while True:
                if s.peek() == '&': s.next()
                n = s.next()
                if s.peek() == '[':
                    s.next(); sz = s.expr(); s.eat(']')
                    init = None
                    if s.peek() == '=':
                        s.next(); s.eat('{'); init = []
                        while s.peek() != '}':
                            init.append(s.expr())
                            if s.peek() == ',': s.next()
                        s.next()
                    out.append(('darr', n, init, line))
                elif s.peek() == '=':
                    s.next(); out.append(('decl', ty, n, s.expr(), line))
                else: out.append(('decl', ty, n, None, line))
                if s.peek() == ',': s.next(); continue
                s.eat(';'); return out
        if s.peek() == 'if':
            s.next(); s.eat('('); c = s.expr(); s.eat(')'); a = s.block(); b = []
            if s.peek() == 'else': s.next(); b = s.block()
            return [('if', c, a, b, line)]
        if s.peek() == 'for':
            s.next(); s.eat('('); s.eat('int'); v = s.next(); s.eat('='); lo = s.expr(); s.eat(';'); c = s.expr(); s.eat(';')
            assert s.next() == v and s.next() == '++'; s.eat(')')
            return [('for', v, lo, c, s.block(), line)]
        lhs = s.atom(); o = s.next()
        if o == '++': s.eat(';'); return [('asg', lhs, '+=', ('num', '1'), line)]
        assert o in ('=', '+=', '-=', '*=', '/='), (o, line)
        e = s.expr(); s.eat(';')
        return [('asg', lhs, o, e, line)]

FN = {'fmax': 'max', 'fmin': 'min', 'max': 'max', 'min': 'min'}
def num(x):
    f = Fraction(x)
    return str(f.numerator) if f.denominator == 1 else '(%d / %d)' % (f.numerator, f.denominator)

class Gen:
    """statements -> lines of lets; scalars are Lean variables, ints are folded to constants or are integer variables"""
    def __init__(s, target, params, ints, reads): 
        s.target = target; s.params = params; s.ints = dict(ints); s.vars = set(); s.arr = {}; s.reads = reads; s.ren = {}; s.cnt = 0
        s.consts = {}
        s.intvars = {'i', 'j', 'k', 'iMod', 'jMod', 'kMod'}; s.spec = None
    def clone(s):
        g = Gen(s.target, s.params, s.ints, s.reads); g.vars = set(s.vars); g.arr = {k: v for k, v in s.arr.items()}
        g.intvars = set(s.intvars); g.spec = s.spec; g.consts = dict(s.consts); return g
    def iexpr(s, e):
        """integer expression: (coefficient form as text) or a constant"""
        k = e[0]
        if k == 'num': return int(e[1])
        if k == 'var':
            if e[1] in s.ints: return s.ints[e[1]]
            if e[1] in s.intvars: return e[1]
            raise Exception('int var %s' % e[1])
        if k == 'neg':
            a = s.iexpr(e[1]); return -a if isinstance(a, int) else '(-%s)' % a
        if k == 'bin':
            a, b = s.iexpr(e[2]), s.iexpr(e[3]); o = e[1]
            if isinstance(a, int) and isinstance(b, int):
                return {'+': a+b, '-': a-b, '*': a*b, '/': a//b if o == '/' else 0}[o]
            if o in '+-' and b == 0: return a
            assert o in '+-*'
            m = re.fullmatch(r'\((\w+) ([-+]) (\d+)\)', a) if isinstance(a, str) else None
            if m and o in '+-' and isinstance(b, int):   # (i + 1) - 2 is written i - 1
                v = (int(m.group(3)) if m.group(2) == '+' else -int(m.group(3))) + (b if o == '+' else -b)
                return m.group(1) if v == 0 else '(%s %s %d)' % (m.group(1), '+' if v > 0 else '-', abs(v))
            return '(%s %s %s)' % (a, o, b)
        if k == 'cond': return '(if %s then (%s : ℤ) else %s)' % (s.cond(e[1]), s.iexpr(e[2]), s.iexpr(e[3]))
        raise Exception(str(e))
    def isint(s, e):
        try: s.iexpr(e); return True
        except Exception: return False
    def comp(s, e):
        if s.spec and e in (('bin', '+', ('num', '5'), ('var', s.spec)), ('bin', '+', ('var', s.spec), ('num', '5'))): return '(5 + %s)' % s.spec
        if (s.spec and s.spec in s.names(e)) or 'b.ne' in s.names(e): return s.nexpr(e)
        a = s.iexpr(e)
        return str(a) if isinstance(a, int) else '(Int.toNat %s)' % a
    def nexpr(s, e):
        """component index with the species index or the number of equations, a natural number"""
        if e[0] == 'num': return str(int(e[1]))
        if e[0] == 'var': assert e[1] in (s.spec, 'b.ne'), e; return e[1]
        assert e[0] == 'bin' and e[1] in '+-', e
        return '(%s %s %s)' % (s.nexpr(e[2]), e[1], s.nexpr(e[3]))
    def access(s, name, args):
        if name == s.target:
            assert [s.iexpr(a) for a in args[:3]] == ['i', 'j', 'k']
            return '(F %s)' % s.comp(args[3])
        v = name[2:] if name.startswith('b.') else name
        if v not in s.reads and name not in s.params: raise Exception('view ' + name)
        idx = ' '.join(str(s.iexpr(a)) if not isinstance(s.iexpr(a), int) else '(%d)' % s.iexpr(a) for a in args[:3])
        full = name
        return '(%s %s%s)' % (full, idx, '' if len(args) == 3 else ' ' + s.comp(args[3]))
    def expr(s, e):
        k = e[0]
        if k == 'num': return num(e[1])
        if k == 'var':
            n = e[1]
            if n in s.vars: return n
            if n in s.consts: return num(s.consts[n])
            if n in s.ints: return str(s.ints[n])
            raise Exception('unassigned variable ' + n)
        if k == 'idx':
            i = s.iexpr(e[2]); n = '%s_%d' % (e[1], i)
            if n not in s.vars: raise Exception('unassigned element ' + n)
            return n
        if k == 'neg': return '(-%s)' % s.expr(e[1])
        if k == 'cond': return '(if %s then %s else %s)' % (s.cond(e[1]), s.expr(e[2]), s.expr(e[3]))
        if k == 'bin': 
            assert e[1] in '+-*/'
            if e[1] == '/' and e[2][0] == 'num' and e[3][0] == 'num' and '.' not in e[2][1] and '.' not in e[3][1]: raise Exception('integer division')
            return '(%s %s %s)' % (s.expr(e[2]), e[1], s.expr(e[3]))
        if k == 'call':
            n, a = e[1], e[2]
            if n in FN: return '(%s %s %s)' % (FN[n], s.expr(a[0]), s.expr(a[1]))
            if n in ('abs', 'fabs'): return '|%s|' % s.expr(a[0])
            if n == 'sqrt': return '(Real.sqrt %s)' % s.expr(a[0])
            if n == 'pow':
                assert a[1][0] == 'num' and Fraction(a[1][1]).denominator == 1
                return '(%s ^ %d)' % (s.expr(a[0]), Fraction(a[1][1]))
            return s.access(n, a)
        raise Exception(str(e))
    def cond(s, e):
        if e[0] == 'bin' and e[1] == '&&': return '(%s ∧ %s)' % (s.cond(e[2]), s.cond(e[3]))
        if e[0] == 'bin' and e[1] == '||': return '(%s ∨ %s)' % (s.cond(e[2]), s.cond(e[3]))
        assert e[0] == 'bin', e
        return '%s %s %s' % (s.expr(e[2]), {'<=': '≤', '>=': '≥', '<': '<', '>': '>'}[e[1]], s.expr(e[3]))
    def stored(s, b):
        """outer names assigned in a list of statements"""
        loc = set(); out = []
        for t in b:
            if t[0] == 'decl': loc.add(t[2])
            elif t[0] == 'asg':
                n = 'F' if t[1][0] == 'call' else t[1][1]
                if n not in loc and n not in out: out.append(n)
            elif t[0] == 'if':
                for n in s.stored(t[2]) + s.stored(t[3]):
                    if n not in loc and n not in out: out.append(n)
            elif t[0] == 'for':
                for n in s.stored(t[4]):
                    if n not in loc and n not in out: out.append(n)
        return out
    def names(s, x):
        if isinstance(x, (tuple, list)): return set().union(*[s.names(y) for y in x]) if x else set()
        return {x} if isinstance(x, str) else set()
    def run(s, b, ind, live=('F',)):
        L = []; pad = ' ' * ind
        for pos, t in enumerate(b):
            if t[0] == 'decl':
                _, ty, n, e, line = t
                if e is None: 
                    s.vars.discard(n)
                    continue
                if ty == 'int':
                    v = s.iexpr(e)
                    if isinstance(v, int): s.ints[n] = v
                    else: L.append('%slet %s : ℤ := %s' % (pad, n, v)); s.intvars.add(n)
                else:
                    L.append('%slet %s : ℝ := %s' % (pad, n, s.expr(e))); s.vars.add(n)
            elif t[0] == 'darr':
                s.arr[t[1]] = None
                for q, e in enumerate(t[2] or []):
                    L.append('%slet %s_%d : ℝ := %s' % (pad, t[1], q, s.expr(e))); s.vars.add('%s_%d' % (t[1], q))
            elif t[0] == 'asg':
                _, lhs, o, e, line = t
                if lhs[0] == 'var' and lhs[1] in s.ints:
                    v = s.iexpr(e); s.ints[lhs[1]] = v if o == '=' else s.ints[lhs[1]] + v; assert o in ('=', '+=')
                elif lhs[0] in ('var', 'idx'):
                    n = lhs[1] if lhs[0] == 'var' else '%s_%d' % (lhs[1], s.iexpr(lhs[2]))
                    x = s.expr(e)
                    if o != '=': x = '(%s %s %s)' % (s.expr(lhs), o[0], x)
                    L.append('%slet %s : ℝ := %s' % (pad, n, x)); s.vars.add(n)
                else:
                    assert lhs[1] == s.target, (lhs, s.target)
                    assert [s.iexpr(a) for a in lhs[2][:3]] == ['i', 'j', 'k'], lhs
                    c = s.comp(lhs[2][3]); x = s.expr(e)
                    if o != '=': x = '(F %s %s %s)' % (c, o[0], x)
                    L.append('%slet F : FluxV := set F %s %s' % (pad, c, x))
            elif t[0] == 'if':
                _, c, a, bb, line = t
                out = list(dict.fromkeys(s.stored(a) + s.stored(bb)))
                C = s.cond(c); rest = s.names(b[pos+1:]); dead = [v for v in out if v not in live and v not in rest and v != 'F']
                out = [v for v in out if v not in dead]
                for v in out:
                    ga, gb = s.clone(), s.clone()
                    if v != 'F' and not (v in s.vars or (v in s.stored(a) and v in s.stored(bb))): raise Exception('one-sided ' + v)
                    A = '\n'.join(ga.run(a, ind + 6, (v,)) + [' ' * (ind + 6) + v]); B = '\n'.join(gb.run(bb, ind + 6, (v,)) + [' ' * (ind + 6) + v])
                    L.append("%slet %s' : %s := if %s then\n%s\n%s    else\n%s" % (pad, v, 'FluxV' if v == 'F' else 'ℝ', C, A, pad, B))
                for v in out:
                    L.append("%slet %s : %s := %s'" % (pad, v, 'FluxV' if v == 'F' else 'ℝ', v)); s.vars.add(v) if v != 'F' else None
                for v in dead: s.vars.discard(v)
            elif t[0] == 'for':
                _, v, lo, c, body, line = t
                assert c[0] == 'bin' and c[2] == ('var', v)
                if c[3] == ('bin', '-', ('var', 'b.ne'), ('num', '5')):
                    assert c[1] == '<' and lo == ('num', '0')
                    g = s.clone(); g.spec = v
                    st = s.stored(body); rest = s.names(b[pos+1:])
                    carried = [x for x in st if x != 'F' and x in s.vars and (x in rest or x in live)]
                    if carried:
                        tup = ['F'] + carried
                        proj = ['st' + '.2' * q + ('.1' if q + 1 < len(tup) else '') for q in range(len(tup))]
                        for x in st:
                            if x not in carried: g.vars.discard(x)
                        lines = g.run(body, ind + 4, tup)
                        ty = ' × '.join(['FluxV'] + ['ℝ'] * len(carried))
                        L.append('%slet st : %s := (List.range (b.ne - 5)).foldl (fun (st : %s) (%s : ℕ) =>' % (pad, ty, ty, v))
                        L += ['%s    let %s : %s := %s' % (pad, x, 'FluxV' if x == 'F' else 'ℝ', y) for x, y in zip(tup, proj)]
                        L += lines + ['%s    (%s)) (%s)' % (pad, ', '.join(tup), ', '.join(tup))]
                        L += ['%slet %s : %s := %s' % (pad, x, 'FluxV' if x == 'F' else 'ℝ', y) for x, y in zip(tup, proj)]
                        for n in st:
                            if n not in tup: s.vars.discard(n)
                        continue
                    lines = g.run(body, ind + 4)
                    L.append('%slet F : FluxV := fun m => if 5 ≤ m ∧ m < b.ne then\n%s    let %s : ℕ := m - 5' % (pad, pad, v))
                    L += lines + ['%s    F m' % pad, '%s  else F m' % pad]
                    for n in st: s.vars.discard(n)
                else:
                    i = s.iexpr(lo); hi = s.iexpr(c[3]); hi = hi if c[1] == '<' else hi + 1
                    while i < hi:
                        s.ints[v] = i; L += s.run(body, ind); i += 1
                    del s.ints[v]
            else: raise Exception(str(t))
        return L

def balanced(t, p, o, c):
    d = 0
    for q in range(p, len(t)):
        if t[q] == o: d += 1
        elif t[q] == c:
            d -= 1
            if d == 0: return q
    raise Exception('unbalanced')

def functions(t):
    """(name, parameter text, body, offset) of each function"""
    out = []
    for m in re.finditer(r'(?:static\s+)?void\s+(\w+)\s*\(', t):
        q = balanced(t, m.end() - 1, '(', ')'); r = t.index('{', q); e = balanced(t, r, '{', '}')
        out.append((m.group(1), t[m.end():q], t[r+1:e], r + 1))
    return out

def nests(body):
    """(label, range name, parameters, body, offset) of each parallel loop"""
    out = []
    for m in re.finditer(r'Kokkos::parallel_for\(\s*"([^"]*)",\s*(\w+),\s*KOKKOS_LAMBDA\(([^)]*)\)\s*\{', body):
        e = balanced(body, m.end() - 1, '{', '}')
        out.append((m.group(1), m.group(2), m.group(3), body[m.end():e], m.start()))
    return out

V4 = ['q', 'Q', 'qh', 'phi']
V3 = [d + x for d in 'ijk' for x in ('sx', 'sy', 'sz', 'nx', 'ny', 'nz', 'S')]

def prelude(g, body):
    """declarations of constants before the loop"""
    out = []
    for m in re.finditer(r'^\s*((?:const|constexpr|double|int)[^;(]*;)', body.split('Kokkos::parallel_for')[0], flags=re.M):
        out += P(tokens(m.group(1))).block()
    return out

def kernel(path, name, V4=V4, V3=V3, B='Blk'):
    t = strip(open(R + path).read()); F = functions(t); out = []
    main = [f for f in F if f[0] == name][0]
    helpers = [f for f in F if f[0] != name]
    line = lambda off: t[:off].count('\n') + 1
    for h in helpers:
        ns = nests(h[2]); assert len(ns) == 1
        ps = [re.findall(r'(\w+)\s*$', p)[0] for p in h[1].split(',')]
        assert ps[0] == 'b' and ps[1] == 'iF' and ps[-3:] == ['iMod', 'jMod', 'kMod'], ps
        arrs = ps[2:-3]
        g = Gen('iF', arrs, {}, V4)
        pre = prelude(g, h[2])
        L = g.run(pre, 2) + g.run(P(tokens('{' + ns[0][3] + '}')).block(), 2)
        a, e = line(h[3]), line(h[3] + len(h[2]))
        out.append('/-- %s:%d-%d -/\nnoncomputable def %s_%s (b : %s)%s (iMod jMod kMod i j k : ℤ) (F : FluxV) : FluxV :=\n%s\n  F\n' % (path, a, e, name, h[0], B,
            ' (%s : Arr)' % ' '.join(arrs) if arrs else '', '\n'.join(L)))
    calls = [(c, ' '.join(a.split())) for c, a in re.findall(r'(\w+)\(([^()]*)\);', main[2])] if helpers else []
    dests = []
    for c, args in calls:
        if c not in [h[0] for h in helpers]: continue
        args = [x.strip() for x in args.split(',')]
        assert args[0] == 'b' and args[1].startswith('b.')
        d = args[1][2:]; assert d not in dests; dests.append(d)
        rest = ' '.join('(%s)' % x if x.startswith('-') else x for x in args[2:])
        out.append('/-- %s:%d -/\nnoncomputable def %s_%s (b : %s) (i j k : ℤ) (F : FluxV) : FluxV :=\n  %s_%s b %s i j k F\n' % (path,
            line(main[3] + main[2].index(', '.join(args[:2]))), name, d, B, name, c, rest))
    for lab, rng, ps, body, off in nests(main[2]):
        d = re.findall(r'b\.([ijk]F)\(', body)
        assert d and len(set(d)) == 1, (name, set(d)); d = d[0]; assert d not in dests; dests.append(d)
        g = Gen('b.' + d, [], {}, V4 + V3)
        pre = prelude(g, main[2])
        L = g.run(pre, 2) + g.run(P(tokens('{' + body + '}')).block(), 2)
        out.append('/-- %s:%d-%d -/\nnoncomputable def %s_%s (b : %s) (i j k : ℤ) (F : FluxV) : FluxV :=\n%s\n  F\n' % (path,
            line(main[3] + off), line(main[3] + off + len(body)), name, d, B, '\n'.join(L)))
    assert dests == ['iF', 'jF', 'kF'], (name, dests)
    return out

HEAD = """import Verif.Flux.Model
/-
Generated by tools/mktext.py from the text of the convective flux kernels; do not edit. Each definition is the body of one parallel loop,
statement by statement: what the loop leaves in the components of the flux array at (i,j,k), given what it held before (`F`).
Doubles are reals; `fmax`, `fmin`, `abs`, `sqrt` and integer powers are those of the reals.
-/
namespace PG.Text
open PG.Flux (FluxV)
open Verif.Text
"""
if __name__ == '__main__':
    K = ['KEEP', 'KEEPpe', 'KEPaEC', 'centralDifference', 'rusanov', 'hllc', 'scalarDissipation', 'fourthOrderKEEP', 'muscl2rusanov', 'muscl2hllc']
    if len(sys.argv) > 1: K = sys.argv[1:]
    o = []
    for k in K:
        try: o += kernel('advFlux/%s.cpp' % k, k)
        except Exception as ex:
            print(k, repr(ex)); 
            if len(sys.argv) > 1: raise
    H = HEAD.replace('open Verif.Text\n', '') + """
/-- a component of a block's face data, by cell index -/
abbrev Arr := ℤ → ℤ → ℤ → ℝ
/-- a field of a block with components -/
abbrev Arr4 := ℤ → ℤ → ℤ → ℕ → ℝ

/-- what the flux kernels read of a block (block_.hpp) -/
structure Blk where
  ne : ℕ
""" + ''.join('  %s : Arr4\n' % v for v in V4) + ''.join('  %s : Arr\n' % v for v in V3) + """
/-- store into one component -/
def set (F : FluxV) (c : ℕ) (x : ℝ) : FluxV := fun m => if m = c then x else F m

"""
    open('/verif/lean/Verif/Text/Flux.lean', 'w').write(H + '\n'.join(o) + '\nend PG.Text\n')
    D4 = ['q', 'Q', 'qh', 'qt', 'dqdx', 'dqdy', 'dqdz']
    D3 = ['xc', 'yc', 'zc'] + [d + x for d in 'ijk' for x in ('sx', 'sy', 'sz', 'nx', 'ny', 'nz', 'xc', 'yc', 'zc')]
    o = []
    for k in ['diffusiveFlux', 'alphaDampingFlux']: o += kernel('diffFlux/%s.cpp' % k, k, D4 + D3, [], 'DBlk')
    open('/verif/lean/Verif/Text/Diff.lean', 'w').write("""import Verif.Text.Flux
/-
Generated by tools/mktext.py from the text of the diffusive flux kernels; do not edit. A loop over the species that carries values from one
species to the next is a fold.
-/
namespace PG.Text
open PG.Flux (FluxV)

/-- what the diffusive flux kernels read of a block (block_.hpp) -/
structure DBlk where
  ne : ℕ
""" + ''.join('  %s : Arr4\n' % v for v in D4) + ''.join('  %s : Arr\n' % v for v in D3) + '\n' + '\n'.join(o) + '\nend PG.Text\n')
