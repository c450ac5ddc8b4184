#!/usr/bin/env python3
"""Fill in the generated tables of DESIGN.md (between the begin/end markers).

    python3 tools/design.py            properties and coverage
    python3 tools/design.py --axioms   also the axioms of every property theorem (needs a built project)
"""
import json, os, re, subprocess, sys, tempfile

root = os.path.dirname(os.path.dirname(os.path.abspath(__file__)))


def load(p):
    return json.load(open(os.path.join(root, p)))


def properties():
    how = load("tools/how.json")
    claims = {c["property"]: c for c in load("MANIFEST.json")["claims"]}
    notes = load("tools/notes.json")
    out = ["| id | property | modelled | how proved | status, theorems |", "|---|---|---|---|---|"]
    for line in open(os.path.join(root, "properties.jsonl")):
        p = json.loads(line)
        c = claims[p["id"]]
        names = ", ".join("`%s`" % t.split(".")[-1] for t in c["theorems"])
        a, b = how[p["id"]]
        out.append(f"| {p['id']} | {p['title']} | {a} | {b} | {c['status']}: {names} |")
    out += ["", "Notes on single properties (what is missing where the status is partial):", ""]
    for k in sorted(notes):
        if notes[k].get("note"):
            out.append(f"* **{k}** {notes[k]['note']}")
    return "\n".join(out)


def coverage():
    return subprocess.run([sys.executable, os.path.join(root, "tools/coverage.py")], capture_output=True, text=True,
                          check=True).stdout.strip()


AX = r"""
import Verif
import Lean
open Lean Elab Command
run_cmd do
  let env ← getEnv
  let mut rows : Array String := #[]
  for (n, ci) in env.constants.toList do
    if let .thmInfo _ := ci then
      if (`Verif).isPrefixOf n && (n.components.getLast!.toString.startsWith "C") && ((n.components.getLast!.toString.toList.drop 1).take 2).all Char.isDigit then
        let axs ← liftCoreM (collectAxioms n)
        let ax := axs.toList.map toString |>.toArray.qsort (· < ·) |>.toList
        rows := rows.push s!"AX {n.components.getLast!} {ax}"
  for r in rows.qsort (· < ·) do
    IO.println r
"""


def axioms():
    with tempfile.NamedTemporaryFile("w", suffix=".lean", dir="/tmp", delete=False) as f:
        f.write(AX)
    r = subprocess.run(["lake", "env", "lean", f.name], cwd=os.path.join(root, "lean"), capture_output=True, text=True)
    os.unlink(f.name)
    groups = {}
    for m in re.finditer(r"AX (C\d\d_\w+) \[(.*)\]", r.stdout):
        groups.setdefault(m[2], []).append(m[1])
    if not groups:
        raise SystemExit(r.stdout + r.stderr)
    out = []
    for g in sorted(groups, key=lambda g: -len(groups[g])):
        out += [f"Axioms {g or 'none'} ({len(groups[g])} theorems):", "", ", ".join(f"`{t}`" for t in groups[g]), ""]
    return "\n".join(out).strip()


def fill(text, tag, body):
    b, e = f"<!-- begin {tag} -->", f"<!-- end {tag} -->"
    i, j = text.index(b) + len(b), text.index(e)
    return text[:i] + "\n\n" + body + "\n\n" + text[j:]


p = os.path.join(root, "DESIGN.md")
t = open(p).read()
t = fill(t, "properties", properties())
t = fill(t, "coverage", coverage())
if "--axioms" in sys.argv:
    t = fill(t, "axioms", axioms())
open(p, "w").write(t)
