#!/usr/bin/env python3
"""Translate /repo/zigpy_cc/definition.py into lean/Verif/Model/Definition.lean.

The Python file is parsed as text with `ast` (it is neither imported nor run).
Every command dict becomes one `Cmd` literal carrying the source line it starts at.
"""
import ast, sys

SRC = "/repo/zigpy_cc/definition.py"
OUT = sys.argv[1] if len(sys.argv) > 1 else "/verif/lean/Verif/Model/Definition.lean"

tree = ast.parse(open(SRC).read())
definition = None
for node in tree.body:
    if isinstance(node, ast.Assign) and node.targets[0].id == "Definition":
        definition = node.value


def attr(n):
    return n.value.id, n.attr


def params(n):
    out = []
    for d in n.elts:
        f = {k.id: v for k, v in zip(d.keys, d.values)}
        assert set(f) == {"name", "parameterType"}
        out.append((f["name"].value, attr(f["parameterType"])[1]))
    return out


def lean_params(ps):
    return "[" + ", ".join('("%s", .%s)' % (n, t) for n, t in ps) + "]"


SUB = {}
chunks = []
for k, v in zip(definition.keys, definition.values):
    sub = attr(k)[1]
    cmds = []
    for d in v.elts:
        f = {kk.id: vv for kk, vv in zip(d.keys, d.values)}
        assert set(f) <= {"name", "ID", "type", "request", "response"}
        assert "request" in f
        req = lean_params(params(f["request"]))
        rsp = "none" if "response" not in f else "some " + lean_params(params(f["response"]))
        cmds.append(
            "  -- definition.py:%d-%d\n  { name := \"%s\", id := %d, type := .%s,\n    request := %s,\n    response := %s }"
            % (d.lineno, d.end_lineno, f["name"].value, f["ID"].value, attr(f["type"])[1], req, rsp)
        )
    chunks.append((sub, v.lineno, v.end_lineno, cmds))

if __name__ == "__main__":
    w = open(OUT, "w")
    w.write(
        "import Verif.Model.Types\n\n"
        "/-!\nGENERATED by tools/gen_definition.py from /repo/zigpy_cc/definition.py:14-2624\n"
        "(the file is parsed as text; nothing of the repository is run).\n"
        "One `Cmd` literal per Python dict, in source order, with its source lines.\n-/\n\nnamespace Zcc\n\n"
    )
    for sub, a, b, cmds in chunks:
        w.write("/-- `Definition[Subsystem.%s]`, definition.py:%d-%d -/\n" % (sub, a, b))
        w.write("def def%s : List Cmd := [\n" % sub)
        w.write(",\n".join(cmds))
        w.write("]\n\n")
    w.write(
        "/-- The dict `Definition` (definition.py:14-2624): subsystem to command list.\n"
        "`none` is Python's `KeyError` (subsystems with no entry). -/\n"
        "def definition : Subsystem → Option (List Cmd)\n"
    )
    for sub, a, b, cmds in chunks:
        w.write("  | .%s => some def%s\n" % (sub, sub))
    w.write("  | _ => none\n\nend Zcc\n")
