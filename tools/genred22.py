#!/usr/bin/env python3
"""Extract the tables of chem_C2H4_Air_Red22.cpp statement by statement. Stops at any statement it does not know."""
import re, sys
F = '/repo/src/compute/chemistry/chem_C2H4_Air_Red22.cpp'
L = open(F).read().split('\n')
def stm(a, b):
    t = ' '.join(x.split('//')[0].strip() for x in L[a-1:b])
    t = re.sub(r'\s+', ' ', t)
    return [s.strip() for s in t.replace('{', ';').replace('}', ';').split(';') if s.strip()]
def find(pat, start=1):
    for i in range(start, len(L)+1):
        if re.search(pat, L[i-1]): return i
    sys.exit('no ' + pat)
N = r'[0-9.]+(?:e-?\d+)?'
def dec(s):
    m = re.fullmatch(r'(-?)\s*(\d+)(?:\.(\d*))?(?:e(-?\d+))?', s)
    if not m: sys.exit('literal ' + s)
    fr = m.group(3) or ''
    v = int(m.group(2) + fr); e = int(m.group(4) or 0) - len(fr)
    while v != 0 and v % 10 == 0 and e < 0: v //= 10; e += 1
    if v == 0: e = 0
    if m.group(1): v = -v
    return '⟨%s, %s⟩' % (v, e)
sg = lambda s: '-' if s == '-' else ''
def bad(s): sys.exit('unknown statement: ' + s)
def arr(s):
    m = re.fullmatch(r'exp\((-?%s)(?: ([-+]) (%s) \* logT)?(?: ([-+]) (%s) \* Tinv)?\)' % (N, N, N), s)
    if not m: bad(s)
    return '⟨%s, %s, %s⟩' % (dec(m.group(1)), dec(sg(m.group(2)) + m.group(3)) if m.group(3) else '⟨0, 0⟩',
                             dec(sg(m.group(4)) + m.group(5)) if m.group(5) else '⟨0, 0⟩')
# --- 1. rate constants, equilibrium constants
a0 = find(r'double RF\[206\], RB\[206\]'); a1 = find(r'end scope', a0)
NR = 206
R = [dict() for _ in range(NR)]
cur = -1
for s in stm(a0, a1):
    if s in ('double RF[206], RB[206]', 'double EQK', 'double prefRuT = 1013250.0 / (8.31451e7 * T)'): continue
    m = re.fullmatch(r'RF\[(\d+)\] = (.*)', s)
    if m:
        r = int(m.group(1)); e = m.group(2)
        if r != cur + 1: bad(s)
        cur = r
        if re.fullmatch(N, e): k = '.const %s' % dec(e)
        elif re.fullmatch(r'RF\[\d+\]', e): k = '.scaled ⟨1, 0⟩ %s' % e[3:-1]
        elif re.fullmatch(N + r' \* RF\[\d+\]', e):
            x = re.fullmatch('(' + N + r') \* RF\[(\d+)\]', e); k = '.scaled %s %s' % (dec(x.group(1)), x.group(2))
        else: k = '.arr ' + arr(e)
        R[r]['k'] = k; continue
    m = re.fullmatch(r'EQK = (.*)', s)
    if m:
        toks = re.findall(r'[*/]|EG\[\d+\]|prefRuT|\S+', m.group(1))
        op = '*'; pr = []; re_ = []; pz = 0; exp = True
        for t in toks:
            if t in '*/':
                op = t; continue
            g = re.fullmatch(r'EG\[(\d+)\]', t)
            if g: (pr if op == '*' else re_).append(int(g.group(1)))
            elif t == 'prefRuT': pz += 1 if op == '*' else -1
            else: bad(s)
        R[cur].update(prods=pr, reacs=re_, pref=pz); continue
    if s == 'RB[%d] = RF[%d] / EQK' % (cur, cur):
        R[cur]['rb'] = True; continue
    bad(s)
assert cur == NR-1 and all('rb' in x and 'prods' in x for x in R)
# --- 2. third bodies, fall-off, concentrations
b0 = find(r'start scope', a1); b1 = find(r'end scope', b0)
ctb = None; fall = None; pc = None
def getmod(kind): return kind
for s in stm(b0, b1):
    if s in ('double CTB, PR, PCOR, PRLOG, RKLOW', 'double FCENT, XN, CPRLOG, FLOG, FCLOG, FC'): continue
    if s.startswith('CTB = '):
        if not re.fullmatch(r'CTB = CTOT(?: [-+] (?:' + N + r' \* )?cs\[\d+\])*', s): bad(s)
        ctb = [(int(n), dec(sg(o) + (c or '1'))) for o, c, n in re.findall(r' ([-+]) (?:(' + N + r') \* )?cs\[(\d+)\]', s)]
        continue
    if s.startswith('RKLOW = '): fall = dict(k0=arr(s[8:]), ctb=ctb, st=1); continue
    m = re.fullmatch(r'PR = RKLOW \* CTB / RF\[(\d+)\]', s)
    if m:
        assert fall['st'] == 1; fall.update(st=2, r=int(m.group(1))); assert 'used' not in R[fall['r']]; continue
    if s == 'PCOR = PR / (1.0 + PR)': assert fall['st'] == 2; fall['st'] = 3; fall['kind'] = 'lind'; continue
    if s == 'PRLOG = log10(PR)': assert fall['st'] == 3; fall['st'] = 4; continue
    m = re.fullmatch(r'FCENT = (-?%s) \* exp\(-T / (%s)\) \+ (%s) \* exp\(-T / (%s)\) \+ exp\((-?%s) / T\)' % (N, N, N, N, N), s)
    if m: assert fall['st'] == 4; fall['st'] = 5; fall['fc'] = [dec(x) for x in m.groups()]; continue
    seq = ['FCLOG = log10(FCENT)', 'XN = 0.75 - 1.27 * FCLOG', 'CPRLOG = PRLOG - (0.4 + 0.67 * FCLOG)',
           'FLOG = FCLOG / (1.0 + pow(CPRLOG / (XN - 0.14 * CPRLOG), 2.0))', 'FC = pow(10.0, FLOG)', 'PCOR = FC * PCOR']
    if s in seq:
        assert fall['st'] == 5 + seq.index(s); fall['st'] += 1
        if s == seq[-1]: fall['kind'] = 'troe'
        continue
    m = re.fullmatch(r'(RF|RB)\[(\d+)\] = \1\[\2\]((?: \* (?:cs\[\d+\]|CTB|PCOR))+)', s)
    if not m: bad(s)
    d, r = m.group(1), int(m.group(2))
    x = R[r]; x['used'] = True
    for t in m.group(3).split(' * ')[1:]:
        if t == 'CTB':
            md = '.three ' + '[%s]' % ', '.join('(%d, %s)' % p for p in ctb)
        elif t == 'PCOR':
            assert fall['r'] == r and fall['st'] in (3, 11)
            l = '[%s]' % ', '.join('(%d, %s)' % p for p in fall['ctb'])
            md = '.lind %s %s' % (l, fall['k0']) if fall['kind'] == 'lind' else '.troe %s %s %s' % (l, fall['k0'], ' '.join(fall['fc']))
        else:
            x.setdefault('c' + d, []).append(int(t[3:-1])); continue
        assert x.get('mod', md) == md; x['mod'] = md
        assert not x.get('m' + d); x['m' + d] = True
# --- 3. quasi-steady-state algebra
c0 = find(r'start scope', b1); c1 = find(r'double XQ\[10\]', c0)
zero = []; rows = []; prog = []; phase = 0; den = None
TERM = r'(R[FB])\[(\d+)\]'
tt = lambda e: [(x == 'RF', int(n)) for x, n in re.findall(TERM, e)]
full = lambda e: re.fullmatch(TERM + r'(?: \+ ' + TERM + ')*', e)
for s in stm(c0, c1):
    if s in ('double DEN', 'double XQ[10]'): continue
    m = re.fullmatch(TERM + ' = 0.0', s)
    if m: assert not rows; zero.append((m.group(1) == 'RF', int(m.group(2)))); continue
    m = re.fullmatch(r'DEN = (R.*)', s)
    if m:
        assert not prog and full(m.group(1)); rows.append(dict(den=tt(m.group(1)), a=[])); continue
    m = re.fullmatch(r'double A(\d+)_(\d+) = \((.*)\) / DEN', s)
    if m:
        assert not prog and full(m.group(3)); i = int(m.group(1)); assert i == len(rows)
        rows[-1]['a'].append((int(m.group(2)), tt(m.group(3)))); continue
    m = re.fullmatch(r'A(\d+)_(\d+) = A\1_\2 \+ A(\d+)_(\d+) \* A(\d+)_(\d+)', s)
    if m: prog.append('.acc (%s, %s) false (%s, %s) (%s, %s)' % m.groups()); continue
    m = re.fullmatch(r'double A(\d+)_(\d+) = A(\d+)_(\d+) \* A(\d+)_(\d+)', s)
    if m: prog.append('.acc (%s, %s) true (%s, %s) (%s, %s)' % m.groups()); continue
    m = re.fullmatch(r'DEN = 1.0 - A(\d+)_(\d+) \* A(\d+)_(\d+)', s)
    if m: prog.append('.den (%s, %s) (%s, %s)' % m.groups()); continue
    m = re.fullmatch(r'A(\d+)_(\d+) = A\1_\2 / DEN', s)
    if m: prog.append('.div (%s, %s)' % m.groups()); continue
    bad(s)
assert len(rows) == 10
d1 = find(r'end scope', c1)
xq = []; mult = []
for s in stm(c1+1, d1):
    m = re.fullmatch(r'XQ\[(\d+)\] = A(\d+)_0((?: \+ A\2_\d+ \* XQ\[\d+\])*)', s)
    if m:
        assert not mult
        ks = re.findall(r'A\d+_(\d+) \* XQ\[(\d+)\]', m.group(3))
        xq.append((int(m.group(1)), int(m.group(2)), [(int(a), int(b)) for a, b in ks])); continue
    m = re.fullmatch(r'(RF|RB)\[(\d+)\] = \1\[\2\] \* XQ\[(\d+)\]', s)
    if m: mult.append((m.group(1), int(m.group(2)), int(m.group(3)))); R[int(m.group(2))].setdefault('x' + m.group(1), []).append(int(m.group(3))); continue
    bad(s)
# --- 4. source terms
e0 = find(r'start scope', d1); e1 = find(r'end scope', e0); cur = -1
for s in stm(e0, e1):
    if s == 'double ROP': continue
    m = re.fullmatch(r'ROP = RF\[(\d+)\] - RB\[(\d+)\]', s)
    if m:
        assert m.group(1) == m.group(2) and int(m.group(1)) == cur + 1; cur += 1; R[cur]['src'] = []; continue
    m = re.fullmatch(r'dYdt\[(\d+)\] = dYdt\[\1\]((?: [-+] ROP)+)', s)
    if m: R[cur]['src'].append((int(m.group(1)), m.group(2).count('+') - m.group(2).count('-'))); continue
    bad(s)
assert cur == NR-1
wt = [None]*22
for s in stm(find(r'double cs\[22\]')+1, find(r'double SUM = 0.0')-1):
    m = re.fullmatch(r'cs\[(\d+)\] = Y\[\1\] / (%s)' % N, s)
    if not m: bad(s)
    wt[int(m.group(1))] = dec(m.group(2))
assert all(wt)
# --- output
b = lambda x: 'true' if x else 'false'
term = lambda t: '(%s, %d)' % (b(t[0]), t[1])
terms = lambda l: '[%s]' % ', '.join(term(t) for t in l)
def wrap(l, ind='  ', w=116):
    out = []; c = ind
    for x in l:
        if len(c) + len(x) > w: out.append(c.rstrip()); c = ind
        c += x + ' '
    out.append(c.rstrip()); return '\n'.join(out)
o = ["import Verif.Chem.Red22Model", "",
 "/-! Generated by `tools/genred22.py` from `src/compute/chemistry/chem_C2H4_Air_Red22.cpp`; do not edit. -/",
 "namespace PG.Chem.Red22", "",
 "/-- molecular weights used for the concentrations, chem_C2H4_Air_Red22.cpp:95-116 -/",
 "def weights : List Dec := [\n" + wrap([w + (',' if i < 21 else '') for i, w in enumerate(wt)]) + "]", "",
 "/-- the 206 reactions: rate constants and equilibrium constants (lines %d-%d), third bodies, fall-off and concentrations" % (a0, a1),
 "    (%d-%d), factors `XQ` (%d-%d), sources (%d-%d) -/" % (b0, b1, c1+1, d1, e0, e1)]
CH = 30
names = []
for c in range(0, NR, CH):
    nm = 'rx%d' % (c//CH); names.append(nm)
    rowsL = []
    for r in range(c, min(c+CH, NR)):
        x = R[r]
        rowsL.append('  ⟨%s, %s, %s, %d, %s, %s, %s, %s, %s, %s, %s, [%s]⟩' % (x['k'], x['prods'], x['reacs'], x['pref'],
            x.get('mod', '.none'), b(x.get('mRF')), b(x.get('mRB')), x.get('cRF', []), x.get('cRB', []), x.get('xRF', []), x.get('xRB', []),
            ', '.join('(%d, %d)' % p for p in x['src'])))
    o.append('def %s : List Rx := [\n%s]' % (nm, ',\n'.join(rowsL)))
    if c == 0: o.insert(len(o)-1, '') if False else None
    o.append('')
    if c + CH < NR: o.append('/-- continued -/')
o += ["/-- all reactions in order -/", "def rxns : List Rx := " + ' ++ '.join(names), "",
 "/-- directions set to zero, lines %d-%d -/" % (c0+2, c0+7), "def zeroed : List Dir := " + terms(zero), "",
 "/-- the balances `DEN`, `A<i>_<k>` of the ten quasi-steady species before elimination (i = 1..10) -/", "def rows : List Row := ["]
ro = []
for x in rows:
    ro.append('  ⟨%s,\n   [%s]⟩' % (terms(x['den']), ',\n    '.join('(%d, %s)' % (k, terms(l)) for k, l in x['a'])))
o.append(',\n'.join(ro) + ']')
o += ["", "/-- the elimination statements in order, up to line %d -/" % (c1-1), "def prog : List Stmt := [",
 wrap([p + (',' if i+1 < len(prog) else '') for i, p in enumerate(prog)]) + ']', "",
 "/-- the assignments to `XQ[]` in order, lines %d-%d: target, row of `A`, terms (column of `A`, index of `XQ`) -/" % (c1+1, c1+12),
 "def back : List Back := [",
 wrap(['⟨%d, %d, [%s]⟩' % (t, i, ', '.join('(%d, %d)' % p for p in ks)) + (',' if j+1 < len(xq) else '') for j, (t, i, ks) in enumerate(xq)]) + ']', "",
 "end PG.Chem.Red22", ""]
open('/verif/lean/Verif/Chem/Red22.lean', 'w').write('\n'.join(o))
print(len(prog), len(xq), len(mult), zero, (a0, a1, b0, b1, c0, c1, d1, e0, e1))
