#!/usr/bin/env python3
"""Extracts the reaction tables of a generated mechanism file of /repo/src/compute/chemistry into a Lean module.

Every statement of the rate and source parts must match one of the forms below, otherwise the script stops: nothing is skipped."""
import re, sys
from fractions import Fraction

def num(t):
    """decimal literal -> (m, e) with value m * 10^e"""
    m = re.fullmatch(r'(-?)(\d+)(?:\.(\d*))?(?:e([+-]?\d+))?', t)
    assert m, t
    s, i, f, e = m.groups()
    f = (f or '').rstrip('0')
    v = int(i + f) * (-1 if s else 1)
    e = int(e or 0) - len(f)
    while v % 10 == 0 and v != 0 and e < 0:
        v //= 10; e += 1
    if v == 0: e = 0
    return (v, e)
def dec(t, neg=False):
    v, e = num(t)
    if neg: v = -v
    return '⟨%d, %d⟩' % (v, e)
N = r'(\d+\.?\d*(?:e[+-]?\d+)?)'

def arr(e):
    """A T^b exp(-E/T)"""
    for pat, f in [
        (N, lambda g: (dec(g[0]), dec('0'), dec('0'))),
        (N + r' \* Tinv', lambda g: (dec(g[0]), dec('1', True), dec('0'))),
        (N + r' \* Tinv \* Tinv', lambda g: (dec(g[0]), dec('2', True), dec('0'))),
        (r'exp\(log\(' + N + r'\)(?: ([+-]) ' + N + r' \* logT)?(?: - \((-?)' + N + r' \* Tinv\))?\)',
         lambda g: (dec(g[0]), dec(g[2], g[1] == '-') if g[2] else dec('0'), dec(g[4], g[3] == '-') if g[4] else dec('0')))]:
        m = re.fullmatch(pat, e)
        if m: return '⟨%s, %s, %s⟩' % f(m.groups())
    raise Exception('rate ' + e)

def terms(e, v):
    """signed sum of optional-coefficient terms v[n] -> [(n, coefficient text, sign)]"""
    e = e.strip()
    out = []
    toks = re.findall(r'([+-]?)\s*(?:' + N + r' \* )?' + re.escape(v) + r'\[(\d+)\]', e)
    chk = ' '.join(((s + ' ') if (s and i) else s) + ((c + ' * ') if c else '') + '%s[%s]' % (v, n) for i, (s, c, n) in enumerate(toks))
    assert chk == e, (chk, e)
    return [(int(n), c or '1', s == '-') for s, c, n in toks]

def prod(e):
    """cs[a] * pow(cs[b], 2.0) ... -> [(a,1),(b,2)]"""
    out = []
    for f in e.split(' * '):
        m = re.fullmatch(r'cs\[(\d+)\]', f)
        if m: out.append((int(m.group(1)), 1)); continue
        m = re.fullmatch(r'pow\(cs\[(\d+)\], (\d)\.0\)', f)
        assert m, e
        out.append((int(m.group(1)), int(m.group(2))))
    return out
def lst(l): return '[' + ', '.join('(%s, %s)' % (a, b) for a, b in l) + ']'

def main(path, name):
    src = open(path).read()
    nsp = int(re.search(r'double cs\[(\d+)\]', src).group(1))
    nrx = int(re.search(r'double q\[(\d+)\]', src).group(1))
    i = src.index('// Reaction #0'); j = src.index('// ends scope of logT and prefRuT')
    line0 = src[:i].count('\n') + 1; line1 = src[:j].count('\n') + 1
    body = re.sub(r'\n\s*', ' ', src[i:j]).strip()
    assert body.endswith('}'); body = body[:-1]
    parts = re.split(r'// Reaction #', body)[1:]
    assert len(parts) == nrx
    rx = []
    for r, p in enumerate(parts):
        n, rest = p.split(' ', 1)
        assert int(n) == r
        rest = re.sub(r'//\s+(?:Three Body|Troe|Lindeman) Reaction #%d ' % r, '', rest)
        assert '//' not in rest, rest
        st = []
        for s in rest.split(';'):
            s = re.sub(r'\s+', ' ', s).strip().replace('( ', '(')
            if s: st.append(s)
        it = iter(st)
        def take(prefix):
            s = next(it)
            assert s.startswith(prefix), (r, prefix, s)
            return s[len(prefix):]
        k = arr(take('k_f = '))
        dG = [(n, int(Fraction(c)) * (-1 if s else 1)) for n, c, s in terms(take('dG = '), 'gbs')]
        kc = {'exp(-dG)': 0, 'prefRuT * exp(-dG)': 1, 'exp(-dG) / prefRuT': -1}[take('K_c = ')]
        s = next(it)
        mod = '.none'
        if s.startswith('cTBC = '):
            t = terms(s[7:], 'cs')
            assert not any(neg for _, _, neg in t)
            if len(t) == 1 and t[0][1] == '1': eff = '(.only %d)' % t[0][0]
            else:
                d = {n: c for n, c, _ in t}
                assert len(d) == len(t)
                eff = '(.all [' + ', '.join('(%d, %s)' % (n, dec(d.get(n, '0'))) for n in range(nsp) if d.get(n) != '1') + '])'
            s = next(it)
            if s == 'k_f *= cTBC':
                mod = '.three %s' % eff
            else:
                assert s.startswith('Fcent = ')
                fc = s[8:]
                if fc == '1.0':
                    k0 = arr(take('k0 = '))
                    assert next(it) == 'Pr = cTBC * k0 / k_f'
                    assert next(it) == 'pmod = Pr / (1.0 + Pr)'
                    mod = '.lind %s %s' % (eff, k0)
                else:
                    m = re.fullmatch(r'\(1\.0 - \(%s\)\) \* exp\(-T / \(%s\)\) \+ \(%s\) \* exp\(-T / \(%s\)\) \+ exp\(-\((-?)%s\) \* Tinv\)' % (N, N, N, N, N), fc)
                    assert m, fc
                    a, t3, a2, t1, sg, t2 = m.groups()
                    assert a == a2
                    assert next(it) == 'C = -0.4 - 0.67 * log10(Fcent)'
                    assert next(it) == 'N = 0.75 - 1.27 * log10(Fcent)'
                    k0 = arr(take('k0 = '))
                    assert next(it) == 'Pr = cTBC * k0 / k_f'
                    assert next(it) == 'A = log10(Pr) + C'
                    assert next(it) == 'f1 = A / (N - 0.14 * A)'
                    assert next(it) == 'F_pdr = pow(10.0, log10(Fcent) / (1.0 + f1 * f1))'
                    assert next(it) == 'pmod = Pr / (1.0 + Pr) * F_pdr'
                    mod = '.troe %s %s %s %s %s %s' % (eff, k0, dec(a), dec(t3), dec(t1), dec(t2, sg == '-'))
                assert next(it) == 'k_f *= pmod'
            s = next(it)
        assert s.startswith('q_f = k_f * '), s
        fwd = prod(s[12:])
        bwd = prod(take('q_b = -k_f / K_c * '))
        rev = {'q_f + q_b': 'true', 'q_f': 'false'}[take('q[%d] = ' % r)]
        assert next(it, None) is None
        rx.append('  ⟨%s, %s, %s, %d, %s, %s, %s⟩' % (k, mod, lst(dG), kc, lst(fwd), lst(bwd), rev))
    # source terms
    i = src.index('dYdt[0] ='); jj = src.index('dTdt = 0.0;', i)
    sl0 = src[:i].count('\n') + 1; sl1 = src[:jj].count('\n')
    sb = re.sub(r'\n\s*', ' ', src[i:jj])
    rows = []
    for n, s in enumerate(x.strip() for x in sb.split(';') if x.strip()):
        s = re.sub(r'\s+', ' ', s)
        m = re.fullmatch(r'dYdt\[%d\] = th\.MW\(%d\) \* \((.*)\)' % (n, n), s)
        assert m, s
        t = [] if m.group(1) == '0.0' else [(q, int(Fraction(c)) * (-1 if sg else 1)) for q, c, sg in terms(m.group(1), 'q')]
        rows.append(t)
    assert len(rows) == nsp
    names = re.findall(r'// Y\(\s*(\d+)\) = (\S+)', src)
    assert [int(a) for a, _ in names] == list(range(nsp))
    f = 'src/compute/chemistry/' + path.split('/')[-1]
    o = ['import Verif.Chem.Model', '/-!', 'Generated from `%s` by `tools/genchem.py`: do not edit. %d species, %d reactions.' % (f, nsp, nrx), '-/', 'namespace PG.Chem.%s' % name, 'open PG.Chem', '']
    o += ['/-- names of the species, from the head of the file -/', 'def names : List String := [' + ', '.join('"%s"' % b for _, b in names) + ']', '']
    C = 20
    ch = []
    for a in range(0, nrx, C):
        nm = 'rx%d' % a; ch.append(nm)
        o += ['/-- reactions %d to %d, within %s:%d-%d -/' % (a, min(a + C, nrx) - 1, f, line0, line1), 'def %s : List Rxn := [' % nm, ',\n'.join(rx[a:a + C]) + ']', '']
    ch2 = []
    for a in range(0, nsp, C):
        nm = 'src%d' % a; ch2.append(nm)
        o += ['/-- source terms of species %d to %d, within %s:%d-%d -/' % (a, min(a + C, nsp) - 1, f, sl0, sl1), 'def %s : List (List (ℕ × ℤ)) := [' % nm, ',\n'.join('  ' + lst(t) for t in rows[a:a + C]) + ']', '']
    o += ['/-- the mechanism of %s -/' % f, 'def mech : Mech := ⟨%d, %s, %s⟩' % (nsp, ' ++ '.join(ch), ' ++ '.join(ch2)), '', 'end PG.Chem.%s' % name, '']
    open('/verif/lean/Verif/Chem/%s.lean' % name, 'w').write('\n'.join(o))
    print(name, nsp, nrx, len(rows))

R = '/repo/src/compute/chemistry/'
main(R + 'chem_CH4_O2_FFCMY.cpp', 'FFCMY')
main(R + 'chem_C2H4_Air_Skeletal.cpp', 'Skeletal')
main(R + 'chem_GRI30.cpp', 'GRI30')
