#!/usr/bin/env python3
"""Try wrong programs against the theorems.

usage: [MUT_ROOT=COPY_OF_LEAN_DIR] mutate.py MUTANTS.json [--log]   (run `lake build` there first)

MUTANTS.json is a list of {"file", "definition", "edit", "old", "new", "claim", "expect"}; `file` is
relative to lean/Verif, `old` must occur exactly once (or give "nth"), `expect` lists properties
whose theorems must fail. For each mutant all modules that depend on the edited one are joined into
one file in /tmp/mut, so that Lean goes on after an error; the theorems of Verif/Props that then
depend on `sorryAx` (or are gone) are those that no longer prove. A lemma shared by many theorems
takes all of them down, so look at "first_errors" (where Lean's errors are), too.
MUT_TARGETS=Props.X,Props.Y restricts this to what these modules import.
"""
import json, re, subprocess, sys, os
from concurrent.futures import ThreadPoolExecutor

ROOT = os.environ.get("MUT_ROOT", "/verif/lean")
mods = re.findall(r"^import Verif\.(\S+)", open(ROOT + "/Verif.lean").read(), re.M)
mods = [m for m in mods if not m.startswith("Tests.")]  # not theorems
path = lambda m: f"{ROOT}/Verif/{m.replace('.', '/')}.lean"
text = {m: open(path(m)).read() for m in mods}
imps = {m: [x for x in re.findall(r"^import (\S+)", text[m], re.M)] for m in mods}


def closure(m):
    out = set()
    todo = [m]
    while todo:
        x = todo.pop()
        for i in imps[x]:
            if i.startswith("Verif.") and i[6:] not in out:
                out.add(i[6:])
                todo.append(i[6:])
    return out


order, seen = [], set()


def visit(m):
    if m in seen:
        return
    seen.add(m)
    for i in imps[m]:
        if i.startswith("Verif."):
            visit(i[6:])
    order.append(m)


for m in mods:
    visit(m)
clo = {m: closure(m) for m in mods}
targets = [t for t in os.environ.get("MUT_TARGETS", "").split(",") if t]


def run(n, mu):
    m = mu["file"].removesuffix(".lean").replace("/", ".")
    src = text[m]
    cnt = src.count(mu["old"])
    if "nth" in mu:
        parts = src.split(mu["old"])
        k = mu["nth"]
        new = mu["old"].join(parts[:k]) + mu["new"] + mu["old"].join(parts[k:])
    else:
        if cnt != 1:
            return {"error": f"old occurs {cnt} times"}
        new = src.replace(mu["old"], mu["new"])
    dep = [x for x in order if (x == m or m in clo[x])
           and (not targets or any(x == t or x in clo[t] for t in targets))]
    heads, body, lines, cur = [], [], [], 0
    for x in dep:
        for i in imps[x]:
            if not (i.startswith("Verif.") and i[6:] in dep) and i not in heads:
                heads.append(i)
    out = "\n".join("import " + i for i in heads) + "\n"
    names = []
    for x in dep:
        s = new if x == m else text[x]
        s = re.sub(r"^import .*\n", "", s, flags=re.M)
        out += f"-- MODULE {x}\n" + s + "\n"
        if x.startswith("Props."):
            names += re.findall(r"^theorem ([\w.']+)", s, re.M)
    for t in names:
        out += f"#print axioms Zcc.{t}\n"
    f = f"/tmp/mut/m{n}.lean"
    open(f, "w").write(out)
    r = subprocess.run(["lake", "env", "lean", f], cwd=ROOT, capture_output=True, text=True, timeout=3000)
    o = r.stdout + r.stderr
    ls = out.split("\n")
    failed = []
    for t in names:
        k = re.search(rf"'Zcc\.{re.escape(t)}' (does not depend|depends on axioms: \[([^\]]*)\])", o, re.S)
        if not k or (k.group(2) and "sorryAx" in k.group(2)):
            failed.append(t)
    where = []
    for k in re.finditer(r":(\d+):\d+: error", o):
        i = int(k.group(1)) - 1
        while i > 0 and not re.match(r"(theorem|example|def|instance|abbrev|structure|#print)", ls[i]):
            i -= 1
        w = ls[i][:60]
        mod = next((ls[j][10:] for j in range(i, -1, -1) if ls[j].startswith("-- MODULE")), "")
        w = f"{mod}: {w}"
        if w not in where and "#print" not in w:
            where.append(w)
    broken = [w for w in where if w.startswith(("Model.", "Spec."))]
    if broken:
        return {"error": f"does not compile: {broken}"}
    return {"failed": failed, "where": where}


if __name__ == "__main__":
    mus = json.load(open(sys.argv[1]))
    log = "--log" in sys.argv
    with ThreadPoolExecutor(2) as ex:
        for n, (mu, res) in enumerate(zip(mus, ex.map(lambda a: run(*a), enumerate(mus)))):
            if "error" in res:
                print(f"#{n} {mu['definition']}: BAD MUTANT {res['error']}")
                continue
            want = mu.get("expect", [])
            miss = [p for p in want if not any(t.startswith(p.lower() + "_") for t in res["failed"])]
            print(f"#{n} {mu['definition']}: {mu['edit']}\n   failed: {res['failed']}\n   at: {res['where'][:12]}"
                  + (f"\n   *** NOT CAUGHT BY {miss}" if miss or not res["failed"] else ""), flush=True)
            if log:
                with open("/verif/seeded/LOG.jsonl", "a") as g:
                    g.write(json.dumps({"definition": mu["definition"], "edit": mu["edit"], "claim": mu["claim"],
                                        "failed": ["Zcc." + t for t in res["failed"]], "first_errors": res["where"][:6],
                                        "tightened": mu.get("tightened", [])}) + "\n")
