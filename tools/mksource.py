#!/usr/bin/env python3
"""Extract from /repo/src/compute the elements every kernel of a run reads or writes: array, offset, range of components, index
box.  Writes lean/Verif/Safe/Table.lean."""
import re, sys, pathlib, itertools
import importlib.util
sys.argv = sys.argv[:1]
here = pathlib.Path(__file__).parent
src = (here / "mkfootprint.py").read_text()
ns = {}
exec(src[:src.rindex("lean()")], ns)
strip_comments, matching, split_args = ns["strip_comments"], ns["matching"], ns["split_args"]
repo = pathlib.Path("/repo/src/compute")
problems = []

class Lin(dict):
    """linear form over symbols; '1' is the constant"""
    def __add__(s, o): return Lin({k: v for k in {**s, **o} if (v := s.get(k, 0) + o.get(k, 0))})
    def __neg__(s): return Lin({k: -v for k, v in s.items()})
    def __sub__(s, o): return s + (-o)
    def __mul__(s, o):
        if set(s) <= {"1"}: return Lin({k: v * s.get("1", 0) for k, v in o.items() if v * s.get("1", 0)})
        if set(o) <= {"1"}: return o * s
        raise ValueError("not linear")
    def key(s): return tuple(sorted(s.items()))

SYM = {"b.ng": Lin({"ng": 1}), "ng": Lin({"ng": 1}), "b.ni": Lin({"ni": 1}), "b.nj": Lin({"nj": 1}), "b.nk": Lin({"nk": 1}),
       "b.ne": Lin({"ns": 1, "1": 4}), "ne": Lin({"ns": 1, "1": 4}), "ns": Lin({"ns": 1}), "th.ns": Lin({"ns": 1}),
       "iMod": Lin({"mod": 1}), "jMod": Lin({"mod": 1}), "kMod": Lin({"mod": 1})}

def lin(t, env={}):
    t = re.sub(r"\s+", "", t)
    t = re.sub(r"static_cast<\w+>", "", t)
    d = re.fullmatch(r"(\w+)/(\d+)", t)
    if d:  # integer division of constants
        x = lin(d.group(1), env); assert set(x) <= {"1"}
        return Lin({"1": x.get("1", 0) // int(d.group(2))})
    toks = re.findall(r"[A-Za-z_][\w.]*|\d+|[-+*()]", t)
    if "".join(toks) != t: raise ValueError(t)
    names = {}
    e = []
    for w in toks:
        if re.match(r"[A-Za-z_]", w):
            if w in env: v = env[w]
            elif w in SYM: v = SYM[w]
            else: raise ValueError(f"{w} in {t}")
            names[f"v{len(names)}"] = v; e.append(f"v{len(names)-1}")
        elif w.isdigit():
            names[f"v{len(names)}"] = Lin({"1": int(w)}) if int(w) else Lin(); e.append(f"v{len(names)-1}")
        else: e.append(w)
    return eval("".join(e), {}, names)

GEO = {"xc": 0, "yc": 1, "zc": 2, "S": 3, "sx": 4, "sy": 5, "sz": 6, "nx": 7, "ny": 8, "nz": 9}
MET = {m: q for q, m in enumerate(["dEdx", "dEdy", "dEdz", "dNdx", "dNdy", "dNdz", "dCdx", "dCdy", "dCdz"])}
def canon(name):
    """array name -> (group, component or None)"""
    n = name[2:] if name.startswith("b.") else name
    param = not name.startswith("b.")
    if n in ("xc", "yc", "zc"): return "centre", GEO[n]
    if n in ("dqdx", "dqdy", "dqdz"): return "grad", None
    if n in MET: return "metric", MET[n]
    if n in ("J", "dtau"): return n, 0
    if n in ("q", "Q", "qh", "qt", "dQ", "omega", "phi", "Qn", "Qnm1", "Q0", "Q1", "Q2", "Q3"): return n, None
    if n[0] in "ijk" and n[1:] in GEO: return ("face" if param else "face" + n[0]), GEO[n[1:]]
    if n[0] in "ijk" and n[1:] == "F": return ("flux" if param else "flux" + n[0]), None
    return None, None

def loops(body, pos):
    """for loops and definitions enclosing a position: variable -> (lo text, hi text)"""
    r = {}
    for m in re.finditer(r"for\s*\(\s*int\s+(\w+)\s*=\s*([^;]+);\s*(\w+)\s*(<=|<)\s*([^;]+);\s*(?:\w+\+\+|\+\+\w+)\s*\)\s*", body):
        if body[m.end()] == "{": e = matching(body, m.end(), "{", "}")
        else:
            nx = re.match(r"for\b", body[m.end():])
            if nx:
                q = body.index("{", m.end()); e = matching(body, q, "{", "}")
            else: e = body.index(";", m.end())
        if m.end() <= pos <= e: r[m.group(1)] = (m.group(2), m.group(5), m.group(4))
    return r

def merge(rs):
    """maximal runs of component ranges (pairs of linear forms in ns)"""
    rs = [list(x) for x in {(r[0].key(), r[1].key()): r for r in rs}.values()]
    ch = True
    while ch:
        ch = False
        for a, c in itertools.permutations(range(len(rs)), 2):
            A, C = rs[a], rs[c]
            def const(x): return set(x) <= {"1"}
            # contained, or adjacent / overlapping
            def le(x, y):
                """x <= y for every ns >= 1"""
                w = y - x
                return set(w) <= {"1", "ns"} and w.get("ns", 0) >= 0 and w.get("1", 0) + w.get("ns", 0) >= 0
            if le(A[0], C[0]) and le(C[1], A[1]):
                rs = [r for q, r in enumerate(rs) if q != c]; ch = True; break
            d = A[1] - C[0]
            if const(d) and d.get("1", 0) >= 0 and const(C[0] - A[0]) and (C[0] - A[0]).get("1", 0) >= 0:
                hi = C[1] - A[1]
                if not le(A[0], C[0]): continue
                if const(hi): new = [A[0], C[1] if hi.get("1", 0) >= 0 else A[1]]
                elif hi.get("ns", 0) > 0: 
                    if hi.get("ns") + hi.get("1", 0) < 0: continue
                    new = [A[0], C[1]]
                else: continue
                rs = [r for q, r in enumerate(rs) if q not in (a, c)] + [new]
                ch = True
                break
    return rs

def zl(l, m={"1": "", "ns": "ns", "ng": "d.ng", "ni": "d.ni", "nj": "d.nj", "nk": "d.nk"}):
    s = ""
    for k in ("ni", "nj", "nk", "ng", "ns"):
        v = l.get(k, 0)
        if v:
            t = m[k] if abs(v) == 1 else f"{abs(v)} * {m[k]}"
            s += (f" + {t}" if s else t) if v > 0 else (f" - {t}" if s else f"-{t}")
    v = l.get("1", 0)
    if v or not s: s += (f" + {v}" if v >= 0 else f" - {-v}") if s else str(v)
    return s

vol, face = [], []
WANT = {"KEEP", "KEEPpe", "KEPaEC", "centralDifference", "fourthOrderKEEP", "hllc", "muscl2hllc", "muscl2rusanov", "rusanov",
        "scalarDissipation"}
SKIP = {"ausmPlusUp", "myKEEP", "diffusiveFlux", "dq4FD", "axpby", "sendRecvBuffer"}
for f in sorted(repo.rglob("*.cpp")):
    if f.stem in SKIP: continue
    raw = f.read_text()
    s = strip_comments(raw)
    for m in re.finditer(r"KOKKOS_LAMBDA\s*\(", s):
        e = matching(s, m.end() - 1, "(", ")")
        idx = [p.split()[-1] for p in split_args(s[m.end():e]) if re.match(r"const int\b", p)]
        b0 = s.index("{", e); b1 = matching(s, b0, "{", "}")
        body = s[b0:b1 + 1]
        line, line1 = s.count("\n", 0, m.start()) + 1, s.count("\n", 0, b1) + 1
        head = s[:m.start()]
        fns = list(re.finditer(r"^(?:[\w:<>,]+ )+\s*(\w+)\s*\(", head, flags=re.M))
        fn = fns[-1].group(1)
        fhead = head[fns[-1].start():]
        func = f.stem if fn == "computeFlux" else fn
        # range
        call = s[:m.start()].rstrip().rstrip(",").rstrip()
        rname = re.search(r"(\w+)$", call).group(1)
        rr = list(re.finditer(r"MDRange[234]\s+" + rname + r"\s*(?:=\s*MDRange[234]\s*)?\(\s*\{", fhead))
        isface = f.parent.name == "boundaryConditions"
        box = None
        hi4 = None
        if rr and not isface:
            a0 = fhead.index("{", rr[-1].start()); a1 = matching(fhead, a0, "{", "}")
            c0 = fhead.index("{", a1); c1 = matching(fhead, c0, "{", "}")
            lo = [lin(x) for x in split_args(fhead[a0 + 1:a1])]
            hi = [lin(x) for x in split_args(fhead[c0 + 1:c1])]
            box = list(zip(lo, hi))
            if len(idx) == 4:
                hi4 = box[3]; box = box[:3]
        # local integer definitions
        env = {}
        for a in re.finditer(r"const(?:expr)?\s+int\s*&?\s*(\w+)\s*=\s*([\w.\-+*/ ]+);", fhead + body):
            try: env[a.group(1)] = lin(a.group(2), env)
            except ValueError: pass
        if isface and len(idx) == 3: hi4 = (Lin(), SYM["ne"])
        sub = {}
        for a in re.finditer(r"(\w+)\s*=\s*getFaceSlice\(\s*b\.(\w+)\s*,\s*face\._nface\s*,\s*(\w+)\s*\)", fhead):
            sub.setdefault(a.group(1), []).append((a.group(2), a.group(3)))
        acc = {}
        for a in re.finditer(r"(?<![\w.])((?:b\.|th\.|face\.)?[A-Za-z_]\w*)\s*\(", body):
            name = a.group(1)
            c = matching(body, a.end() - 1, "(", ")")
            args = [re.sub(r"\s+", "", x) for x in split_args(body[a.end():c])]
            if name.startswith("th."): continue
            where = f"{f.name}:{line} {name}({','.join(args)})"
            lp = loops(s[fns[-1].start():], b0 - fns[-1].start() + a.start())
            def cands(text):
                """component range of an expression"""
                vs = [v for v in re.findall(r"[A-Za-z_]\w*", text)]
                en = dict(env)
                for v in vs:
                    if v in idx and len(idx) == 4 and v == idx[3] or (isface and len(idx) == 3 and v == idx[2]):
                        en[v] = None; rng = hi4
                        assert text == v, where
                        return rng
                    if v in lp:
                        lo, hi, op = lp[v]
                        lo_, hi_ = lin(lo, env), lin(hi, env)
                        if op == "<=": hi_ = hi_ + Lin({"1": 1})
                        b = lin(text, {**env, v: Lin()})
                        return (lo_ + b, hi_ + b)
                x = lin(text, env)
                return (x, x + Lin({"1": 1}))
            if isface:
                if name == "face.qBcVals" or name == "face.QBcVals": g, role, comp = "bc", "target", args[2]
                elif name == "face.intervalAlphas": g, role, comp = "alphas", "target", "12"
                elif name.startswith("face.periodicRotMatrix"): g, role, comp = "rot", "target", "9"
                elif name in sub:
                    arrs = sub[name]
                    role = arrs[-1][1]
                    if name in ("nx", "ny", "nz"):
                        g = "normal" if {x[0][0] for x in arrs} == {"i", "j", "k"} else "normal" + arrs[0][0][0]
                        comp = str(GEO[name])
                    else:
                        g, _ = canon("b." + arrs[-1][0]); comp = args[2]
                else: continue
                try:
                    r = {"12": (Lin(), Lin({"1": 12})), "9": (Lin(), Lin({"1": 9}))}[comp] if g in ("alphas", "rot") else cands(comp)
                except ValueError as x:
                    problems.append(f"{where}: {x}"); continue
                acc.setdefault((g, role), []).append(r)
                continue
            g, comp = canon(name)
            if g is None or (not name.startswith("b.") and len(args) < 3): continue
            if not name.startswith("b.") and not re.search(r"View|view", fhead.split("{")[0]): continue
            guard = any(g.end() <= a.start() <= matching(body, g.end() - 1, "{", "}") for g in re.finditer(r"if \(viscous\) \{", body))
            # offsets: enumerate the loops with constant bounds
            vs = sorted({v for q in range(3) for v in re.findall(r"[A-Za-z_]\w*", args[q]) if v in lp})
            envs = [dict()]
            order = list(lp)
            used = [v for v in order if v in vs or any(v in re.findall(r"\w+", lp[w][0] + " " + lp[w][1]) for w in vs)]
            try:
                for v in used:
                    nxt = []
                    for en in envs:
                        lo, hi, op = lp[v]
                        l_, h_ = lin(lo, {**env, **en}).get("1", 0), lin(hi, {**env, **en}).get("1", 0)
                        for x in range(l_, h_ + (1 if op == "<=" else 0)): nxt.append({**en, v: Lin({"1": x}) if x else Lin()})
                    envs = nxt
                if comp is not None: rng = (Lin({"1": comp}) if comp else Lin(), Lin({"1": comp + 1}))
                else:
                    ct = args[3]
                    if ct == "phiIndex": rng = (Lin(), Lin({"1": 3}))
                    elif func == "invertDQ" and name == "b.dQ" and ct in ("perm(l)", "q", "l"): rng = (Lin(), SYM["ne"])
                    else: rng = cands(ct)
                for en in envs:
                    offs, mods = [], []
                    for q in range(3):
                        x = lin(args[q], {**env, **en, idx[q]: Lin({"@": 1})}) - Lin({"@": 1})
                        assert set(x) <= {"1", "mod"}, where
                        offs.append(x.get("1", 0)); mods.append(x.get("mod", 0))
                    assert len(set(mods)) == 1, where
                    acc.setdefault((g, tuple(offs), mods[0], guard), []).append(rng)
            except ValueError as x:
                problems.append(f"{where}: {x}")
        for k in acc: acc[k] = merge(acc[k])
        rec = dict(file=str(f.relative_to("/repo")), line=line, line1=line1, func=func, box=box, acc=acc)
        if isface:
            terms = re.findall(r'terms\.compare\("(\w+)"\)', raw[fns[-1].start():m.start()])
            rec["terms"] = terms[-1] if terms else "?"
            rec["loop"] = "for (int g = 0" in fhead[fhead.rfind("terms.compare"):] if terms else False
            face.append(rec)
        else: vol.append(rec)

for k in vol + face:
    print(k["file"].split("/", 2)[2], k["line"], k["func"], k.get("terms", ""), [(zl(a), zl(b)) for a, b in k["box"]] if k["box"] else "")
    for a, r in k["acc"].items(): print("    ", a, [(zl(x), zl(y)) for x, y in r])
for p in problems: print("PROBLEM", p)

def box_term(box):
    ax = ["i", "j", "k"]
    parts = []
    for q, (lo, hi) in enumerate(box):
        for l in (lo, hi):
            mod = l.get("mod", 0)
            t = zl(Lin({k: v for k, v in l.items() if k != "mod"}))
            if mod: t += f" + (e.v {mod}).{['1', '2.1', '2.2'][q]}"
            parts.append(t)
    dd = "d" if any("d." in p for p in parts) else "_"
    ee = "e" if any("e.v" in p for p in parts) else "_"
    return f"some fun {dd} {ee} => [{', '.join(parts)}]"

def rng(r):
    lo, hi = r
    a = "ns" if lo.get("ns") else "_"; b = "ns" if hi.get("ns") else "_"
    return f"fun {a} => {zl(lo)}, fun {b} => {zl(hi)}"

def lean_source():
    L = ["import Verif.Safe.Model", "/-!", "# The elements the kernels of `src/compute` address", "",
      "Generated by `tools/mksource.py` from the text of `/repo/src/compute`: one entry for each `KOKKOS_LAMBDA` that a run can launch,",
      "with the Python submodule it belongs to (the directory), its file and line, the C++ function, the index box where it is written",
      "out (`none` where it comes from `getRange3`) and every access to an array of the block: the array, the offset from the work",
      "index (`o`), the multiple of the face direction (`m`, for `i - iMod, j - jMod, k - kMod`), whether it is under `if (viscous)`, and a half-open range of components",
      "`lo ns ≤ c < hi ns` (loops over components are replaced by their range, adjacent ranges merged; the names xc, yc, zc and so on",
      "are numbered as components of one array). Kernels of the boundary conditions name the slice by the index variable given to",
      "`getFaceSlice`. Left out: `ausmPlusUp`, `myKEEP`, `diffusiveFlux`, `dq4FD` (not reachable in a run), `axpby`, `sendRecvBuffer`",
      "(arrays passed from Python), the set-up of the metrics, the species tables and kernel-private scratch arrays.", "-/", "",
      "namespace PG.Safe.Src", "open PG.Safe (Dims Dir)", "",
      "/-- an access in the text of a kernel (see the head of this file) -/",
      "structure SAcc where", "  arr : String", "  o : ℤ × ℤ × ℤ", "  m : ℤ", "  viscous : Bool", "  lo : ℤ → ℤ", "  hi : ℤ → ℤ", "",
      "/-- a kernel over cells or faces of a block (see the head of this file) -/",
      "structure SKernel where", "  dir : String", "  file : String", "  line : ℕ", "  func : String",
      "  box : Option (Dims → Dir → List ℤ)", "  acc : List SAcc", "",
      "/-- an access in the text of a kernel of a boundary condition (see the head of this file) -/",
      "structure FAcc where", "  arr : String", "  slice : String", "  lo : ℤ → ℤ", "  hi : ℤ → ℤ", "",
      "/-- a kernel over a slice parallel to a face (see the head of this file) -/",
      "structure FKernel where", "  file : String", "  line : ℕ", "  func : String", "  terms : String", "  acc : List FAcc", ""]
    for nm, ks in (("v", vol), ("f", face)):
        for n, k in enumerate(ks):
            fl = k["file"].split("/")
            L.append(f"/-- `{k['file']}:{k['line']}-{k['line1']}`, `{k['func']}` -/")
            L.append(f"def {nm}{n:02d} : {'SKernel' if nm == 'v' else 'FKernel'} where")
            if nm == "v": L.append(f"  dir := \"{fl[2]}\"")
            L.append(f"  file := \"{'/'.join(fl[2:])}\"\n  line := {k['line']}\n  func := \"{k['func']}\"")
            if nm == "v":
                L.append("  box := " + (box_term(k["box"]) if k["box"] else "none"))
                it = [f"⟨\"{a[0]}\", ({a[1][0]}, {a[1][1]}, {a[1][2]}), {a[2]}, {'true' if a[3] else 'false'}, {rng(r)}⟩" for a, rs in k["acc"].items() for r in rs]
            else:
                L.append(f"  terms := \"{k['terms']}\"")
                it = [f"⟨\"{a[0]}\", \"{a[1]}\", {rng(r)}⟩" for a, rs in k["acc"].items() for r in rs]
            L.append("  acc := [" + ",\n    ".join(it) + "]")
            L.append("")
    L.append("/-- every kernel over cells or faces that a run can launch -/")
    L.append("def volume : List SKernel := [" + ", ".join(f"v{n:02d}" for n in range(len(vol))) + "]\n")
    L.append("/-- every kernel of the boundary conditions -/")
    L.append("def onFaces : List FKernel := [" + ", ".join(f"f{n:02d}" for n in range(len(face))) + "]\n")
    L.append("end PG.Safe.Src\n")
    out = []
    for l in L:  # wrap long lists
        if len(l) > 130 and l.startswith("def "):
            words, cur = l.split(" "), ""
            for w in words:
                if len(cur) + len(w) > 125: out.append(cur); cur = "  " + w
                else: cur = f"{cur} {w}" if cur else w
            out.append(cur)
        else: out.append(l)
    pathlib.Path("/verif/lean/Verif/Safe/Table.lean").write_text("\n".join(out))
assert not problems
lean_source()
