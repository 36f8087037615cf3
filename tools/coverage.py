"""Which lines of /repo are cited by a definition of the model (comments of the form file.py:a-b, c, d-e)."""
import re, glob, os
cited = {}
for f in glob.glob("/verif/lean/Verif/Model/*.lean"):
    s = open(f).read()
    for q in re.finditer(r"(\w+\.py):((?:\d+(?:-\d+)?)(?:(?:,\s+|\s+and\s+)\d+(?:-\d+)?)*)", s):
        for r in re.findall(r"(\d+)(?:-(\d+))?", q.group(2)):
            a = int(r[0]); b = int(r[1] or a)
            cited.setdefault(q.group(1), set()).update(range(a, b + 1))
tot = cov = 0
for p in sorted(glob.glob("/repo/reliabilityassessment/*/*.py")):
    n = os.path.basename(p)
    if n in ("__init__.py",) or n.startswith("test"): continue
    L = open(p).read().split("\n")
    doc = False; code = []
    for i, l in enumerate(L, 1):
        t = l.strip()
        if doc:
            if '"""' in t: doc = False
            continue
        if t.startswith('"""') or t.startswith('r"""'):
            if t.count('"""') == 1: doc = True
            continue
        if not t or t.startswith("#") or t.startswith("import ") or t.startswith("from "): continue
        code.append(i)
    c = cited.get(n, set())
    miss = [i for i in code if i not in c]
    tot += len(code); cov += len(code) - len(miss)
    def ranges(x):
        out = []
        for i in x:
            if out and i - out[-1][1] <= 3: out[-1][1] = i
            else: out.append([i, i])
        return ", ".join(f"{a}-{b}" if a != b else str(a) for a, b in out)
    print(f"{n:28s} {len(code)-len(miss):4d}/{len(code):4d}  missing: {ranges(miss)}")
print(cov, tot)
