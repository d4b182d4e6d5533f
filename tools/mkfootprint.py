#!/usr/bin/env python3
"""Extract from /repo/src/compute the array accesses of every parallel kernel and write lean/Verif/Par/Table.lean."""
import re, pathlib, sys
repo = pathlib.Path("/repo/src/compute")
out = []
problems = []

def strip_comments(s):
    s = re.sub(r"//[^\n]*", lambda m: " " * len(m.group(0)), s)
    return re.sub(r"/\*.*?\*/", lambda m: re.sub(r"[^\n]", " ", m.group(0)), s, flags=re.S)

def matching(s, i, o, c):
    d = 0
    while i < len(s):
        if s[i] == o: d += 1
        if s[i] == c:
            d -= 1
            if d == 0: return i
        i += 1
    raise ValueError

def split_args(a):
    r, d, cur = [], 0, ""
    for ch in a:
        if ch in "([{": d += 1
        if ch in ")]}": d -= 1
        if ch == "," and d == 0: r.append(cur.strip()); cur = ""
        else: cur += ch
    r.append(cur.strip())
    return r

def offset(arg, var):
    a = re.sub(r"\s+", "", arg)
    if a == var: return 0
    m = re.fullmatch(re.escape(var) + r"([+-]\d+)", a)
    return int(m.group(1)) if m else None

for f in sorted(repo.rglob("*.cpp")):
    raw = f.read_text()
    s = strip_comments(raw)
    for m in re.finditer(r"(KOKKOS_LAMBDA|KOKKOS_CLASS_LAMBDA)\s*\(", s):
        e = matching(s, m.end() - 1, "(", ")")
        params = split_args(s[m.end():e])
        idx = [p.split()[-1] for p in params if re.match(r"const int\b", p)]
        red = [p.split()[-1].lstrip("&") for p in params if "&" in p]
        b0 = s.index("{", e)
        b1 = matching(s, b0, "{", "}")
        body = s[b0:b1 + 1]
        line = s.count("\n", 0, m.start()) + 1
        line1 = s.count("\n", 0, b1) + 1
        head = s[:m.start()]
        lab = re.findall(r'"([^"\n;]*)"', raw[max(0, m.start() - 400):m.start()])
        func = re.findall(r"^(?:[\w:<>,]+ )+\s*(\w+)\s*\(", head, flags=re.M)
        fn = func[-1] if func else "?"
        fstart = head.rfind("\n" + [l for l in re.findall(r"^(?:[\w:<>,]+ )+\s*\w+\s*\(", head, flags=re.M)][-1]) if func else 0
        fhead = head[fstart:]
        # subviews of the function: name -> array
        sub = {}
        for a in re.finditer(r"(\w+)\s*=\s*getFaceSlice\(\s*(?:b|face)?\.?([\w.]+)", fhead): sub[a.group(1)] = a.group(2).replace("b.", "")
        # view parameters of the function
        sig = fhead[:fhead.index("{")] if "{" in fhead else ""
        views = re.findall(r"(?:one|two|three|four|five)D(?:view|subview)\s*&?\s*(\w+)", sig)
        local = set(re.findall(r"\b(?:double|int)\s+(\w+)\s*\[", body)) | set(re.findall(r"\b(?:double|int)\s+(\w+)\s*\(", body))
        # references
        refs = {}
        for a in re.finditer(r"(?:double|auto)\s*&\s*(\w+)\s*=\s*((?:b\.|th\.|face\.)?\w+)\s*\(", body):
            refs[a.group(1)] = a.group(2)
        acc = []
        for a in re.finditer(r"(?<![\w.])((?:b\.|th\.|face\.)?[A-Za-z_]\w*)\s*\(", body):
            name = a.group(1)
            c = matching(body, a.end() - 1, "(", ")")
            args = split_args(body[a.end():c])
            base = name
            if name.startswith("b."): arr = name[2:]
            elif name.startswith("th.") or name.startswith("face."): arr = name
            elif name in sub: arr = sub[name]
            elif name in views: arr = "param"
            else:
                continue
            # a write?
            rest = body[c + 1:].lstrip()
            w = bool(re.match(r"([-+*/]?=)(?!=)", rest))
            pre = body[:a.start()].rstrip()
            r = re.search(r"(?:double|auto)\s*&\s*(\w+)\s*=$", pre)
            if r and re.search(r"(?<![\w&])" + r.group(1) + r"\s*[-+*/]?=(?!=)", body[c:]): w = True
            offs = []
            if True:
                for q, v in enumerate(idx):
                    offs.append(offset(args[q], v) if q < len(args) else None)
            acc.append((arr, name, offs, w, re.sub(r"\s+", "", ",".join(args))))
        out.append(dict(file=str(f.relative_to("/repo")), line=line, line1=line1, fn=fn, lab=lab[-1] if lab else "", idx=idx, red=red, acc=acc))

if __name__ == "__main__" and len(sys.argv) > 1:
    for k in out:
        W = sorted({a[0] for a in k["acc"] if a[3]})
        bad = [(a[1], a[4], a[3]) for a in k["acc"] if a[0] in W and (a[2] is None or any(o != 0 for o in a[2]))]
        R = sorted({a[0] for a in k["acc"]} - set(W))
        print(k["file"].split("/")[-1], k["line"], k["fn"], repr(k["lab"]), k["idx"], "W:", W, "R:", len(R), "RED" if k["red"] else "")
        if bad: print("     BAD", bad[:6])

def lean():
    def o(x): return "none" if x is None else f"some ({x})" if x < 0 else f"some {x}"
    L = ["/-!", "# The parallel kernels of `src/compute` and what they access", "",
      "Generated by `tools/mkfootprint.py` from the text of `/repo/src/compute`: one entry for each",
      "`KOKKOS_LAMBDA`, with the file and lines, the C++ function, the number of work indices, and every access to a",
      "shared array (or to a face slice of one, or to an array passed as an argument, called `param`): the name of the",
      "array, the offset from the work index in each direction (`none` where the index is not the work index plus a",
      "constant), and whether it is written.  Later indices (species, variable, plane of a slice) are left free.",
      "Constant tables of the gas (`th.`) and of the boundary (`face.`) are included.  Scratch arrays handed out by",
      "`UniqueToken` are private to a work item while it runs and are not listed (their stale contents are C77).", "-/", "",
      "namespace PG.Par", "",
      "/-- An access to a shared array: the array, the offset from each work index, and whether it is written",
      "(the listing of `src/compute`, see the head of this file). -/",
      "structure Access where", "  arr : String", "  offs : List (Option Int)", "  write : Bool", "deriving DecidableEq", "",
      "/-- A parallel kernel: where it is, how many work indices it has, and its accesses",
      "(the listing of `src/compute`, see the head of this file). -/",
      "structure Kernel where", "  file : String", "  line : Nat", "  func : String", "  dim : Nat", "  reduce : Bool", "  acc : List Access", ""]
    names = []
    for n, k in enumerate(out):
        acc = []
        for a in k["acc"]:
            e = (a[0], tuple(a[2]), a[3])
            if e not in acc: acc.append(e)
        nm = f"k{n:02d}"
        names.append(nm)
        L.append(f"/-- `{k['file']}:{k['line']}-{k['line1']}`, `{k['fn']}` -/")
        L.append(f"def {nm} : Kernel where")
        L.append(f"  file := \"{k['file']}\"\n  line := {k['line']}\n  func := \"{k['fn']}\"\n  dim := {len(k['idx'])}\n  reduce := {'true' if k['red'] else 'false'}")
        L.append("  acc := [" + ",\n    ".join(f"⟨\"{x}\", [{', '.join(o(v) for v in y)}], {'true' if w else 'false'}⟩" for x, y, w in acc) + "]")
        L.append("")
    L.append("/-- Every parallel kernel of `src/compute`. -/")
    L.append("def kernels : List Kernel := [" + ", ".join(names) + "]")
    L += ["", "end PG.Par", ""]
    pathlib.Path("/verif/lean/Verif/Par/Table.lean").write_text("\n".join(L))
lean()
