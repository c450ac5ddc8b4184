#!/usr/bin/env python3
"""Which Lean definitions of the model cite which function of the Python package.

Reads the doc comments in lean/Verif/Model (a comment cites `file.py:10-20`, or `lines 10-20` of the file named
first in the module's header) and prints a Markdown table: one row per Python function with the definitions whose
comment cites lines inside it, or a dash.  Usage: coverage.py [/repo/src/ciceroscm]
"""
import ast, os, re, sys
root = os.path.dirname(os.path.dirname(os.path.abspath(__file__)))
src = sys.argv[1] if len(sys.argv) > 1 else "/repo/src/ciceroscm"
model = os.path.join(root, "lean", "Verif", "Model")
rng = r"\d+(?:\s*[-–]\s*\d+)?"
cite = re.compile(r"(?:(\w+\.py)`?(?::|,? lines? )|[Ll]ines? )(%s(?:(?:,? and |, ?)(?:lines? )?%s)*)" % (rng, rng))
decl = re.compile(r"/--(.*?)-/\s*(?:@\[[^\]]*\]\s*)?(?:noncomputable )?(?:private )?(?:def|structure|inductive|abbrev|class) (\S+)", re.S)
cites = {}
for f in sorted(os.listdir(model)):
    t = open(os.path.join(model, f)).read()
    default = re.search(r"(\w+\.py)", t).group(1)
    m = re.search(r"Line numbers refer to `(\w+\.py)`", t)
    if m:
        default = m.group(1)
    for d in decl.finditer(t):
        cur = default
        for c in cite.finditer(d.group(1)):
            cur = c.group(1) or cur
            for r in re.findall(rng, c.group(2)):
                n = [int(x) for x in re.findall(r"\d+", r)]
                cites.setdefault(cur, []).append((n[0], n[-1], f[:-5] + "." + d.group(2)))
print("| Python function | lines | Lean definitions citing it |\n|---|---|---|")
for d, _, fs in sorted(os.walk(src)):
    for f in sorted(fs):
        if not f.endswith(".py") or f == "_version.py":
            continue
        p = os.path.join(d, f)
        tree = ast.parse(open(p).read())
        def walk(node, pre):
            for n in ast.iter_child_nodes(node):
                if isinstance(n, ast.ClassDef):
                    walk(n, pre + n.name + ".")
                elif isinstance(n, ast.FunctionDef):
                    a, b = n.lineno, n.end_lineno
                    ds = []
                    for x, y, l in cites.get(f, []):
                        if x <= b and y >= a and l not in ds:
                            ds.append(l)
                    print(f"| {os.path.relpath(p, src)} `{pre}{n.name}` | {a}-{b} | {', '.join(ds) or '-'} |")
                    walk(n, pre + n.name + ".")
        walk(tree, "")
