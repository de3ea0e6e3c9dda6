#!/usr/bin/env python3
"""Keep source citations of the Lean model accurate.

Rewrites  src/x.c:N-M `fn`  so that N-M is the line range of function / macro `fn` in /repo,
and lists definitions whose doc comment carries no citation (model files only)."""
import re, sys, glob, os
ROOT = os.path.join(os.path.dirname(os.path.abspath(__file__)), "..", "lean", "Verif")
cache = {}
def index(path):
    if path in cache: return cache[path]
    lines = open("/repo/" + path, errors="replace").read().split("\n")
    idx = {}
    for i, l in enumerate(lines):
        m = re.match(r"(?:static\s+)?(?:[\w\s\*]*?\b)?(\w+)\(", l)
        if m and not l.startswith("#") and not l.startswith(" "):
            name = m.group(1)
            # find whether a body follows
            j = i
            while j < len(lines) and not lines[j].rstrip().endswith(("{", ";")): j += 1
            if j < len(lines) and lines[j].rstrip().endswith("{"):
                k = j
                while k < len(lines) and not lines[k].startswith("}"): k += 1
                s = i
                while s > 0 and lines[s-1].strip() and not lines[s-1].startswith(("}", "#", " ", "/")): s -= 1
                idx.setdefault(name, (s + 1, k + 1))
        m = re.match(r"(?:typedef )?(?:struct|enum|union) (\w+) \{", l)
        if m:
            k = i
            while not lines[k].startswith("}"): k += 1
            idx.setdefault(m.group(1), (i + 1, k + 1))
            m2 = re.match(r"\} (\w+);", lines[k])
            if m2: idx.setdefault(m2.group(1), (i + 1, k + 1))
        m = re.match(r"#\s*define\s+(\w+)", l)
        if m:
            k = i
            while lines[k].endswith("\\"): k += 1
            idx.setdefault(m.group(1), (i + 1, k + 1))
        m = re.match(r"(?:static )?(?:const )?[\w \*]+?\b(\w+)(?:\[[\w ]*\])* =(?: |$)", l)
        if m:
            k = i
            while not lines[k].rstrip().endswith(";"): k += 1
            idx.setdefault(m.group(1), (i + 1, k + 1))
    cache[path] = idx
    return idx
bad = 0
for f in sorted(glob.glob(ROOT + "/**/*.lean", recursive=True)):
    t = open(f).read()
    def sub(m):
        global bad
        path, name = m.group(1), m.group(3)
        try: r = index(path).get(name)
        except FileNotFoundError: r = None
        if r is None:
            print(f"{f}: unknown {path} {name}"); bad += 1
            return m.group(0)
        return f"{path}:{r[0]}-{r[1]}{m.group(4)}`{name}`"
    t2 = re.sub(r"((?:src|include)/[\w/\.]+\.[ch]):(\d+(?:-\d+)?)(?=(\s)`(\w+)`)\s`\w+`",
        lambda m: sub(type("M", (), {"group": lambda self, i=0: [m.group(0), m.group(1), m.group(2), m.group(4), m.group(3)][i]})()), t)
    if t2 != t: open(f, "w").write(t2)
    if "--list" in sys.argv:
        for m in re.finditer(r"(?:src|include)/[\w/\.]+\.[ch]:\d+(?:-\d+)?(?![\d-]| `)", t2):
            print("anon", f, m.group(0))
    # definitions without citation
    if "# Model" in t2:
        for m in re.finditer(r"(/--(?:(?!-/).)*-/\s*)?(?:@\[[^\]]*\]\s*)?^(def|structure|abbrev) (\w[\w.']*)", t2, re.S | re.M):
            d = m.group(1) or ""
            if not re.search(r"(src|include)/", d):
                print("no citation:", f, m.group(3)); bad += 1
print("issues:", bad)
