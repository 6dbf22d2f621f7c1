#!/usr/bin/env python3
"""Translate the class statements of /repo/bip38/cryptocurrencies.py into Verif/Src/Cryptocurrencies.lean.

usage: gen_classes.py [REPO] [OUTFILE]
"""
import ast
import os
import sys

HERE = os.path.dirname(os.path.abspath(__file__))
REPO = sys.argv[1] if len(sys.argv) > 1 else "/repo"
OUT = sys.argv[2] if len(sys.argv) > 2 else os.path.join(HERE, "..", "lean", "Verif", "Src", "Cryptocurrencies.lean")


def die(n, msg):
    sys.exit("gen_classes: %s at line %s" % (msg, getattr(n, "lineno", "?")))


def q(s):
    if any(ord(c) < 32 or ord(c) > 126 or c in '"\\' for c in s):
        sys.exit("gen_classes: text %r" % s)
    return '"%s"' % s


def expr(e):
    if isinstance(e, ast.Dict):
        ks = [k.value if isinstance(k, ast.Constant) and isinstance(k.value, str) else die(e, "key") for k in e.keys]
        if len(set(ks)) != len(ks):
            die(e, "duplicate key")
        return "(eDict [%s])" % ", ".join("(%s, %s)" % (q(k), expr(v)) for k, v in zip(ks, e.values))
    if isinstance(e, ast.Constant) and e.value is None:
        return "(eConst .none)"
    if isinstance(e, ast.Constant) and type(e.value) is int:
        return "(eConst (.int 0x%x))" % e.value
    if isinstance(e, ast.Constant) and isinstance(e.value, str):
        return "(eConst (.str %s.toList))" % q(e.value)
    die(e, "expression")


def main():
    src = open(os.path.join(REPO, "bip38", "cryptocurrencies.py"), encoding="utf-8").read()
    out = ["import Verif.Src.Class", "/-!", "# `bip38/cryptocurrencies.py` (generated by `tools/gen_classes.py`, do not edit)", "-/",
           "namespace Bip38.Src", ""]
    names = []
    for n in ast.parse(src).body:
        if isinstance(n, ast.ImportFrom) and n.module == "typing":
            continue
        if not isinstance(n, ast.ClassDef) or n.keywords or n.decorator_list:
            die(n, "statement")
        body = []
        for k in n.body:
            if isinstance(k, ast.AnnAssign) and isinstance(k.target, ast.Name):
                if k.value is not None:
                    body.append((k.target.id, k.value))
            elif isinstance(k, ast.Assign) and len(k.targets) == 1 and isinstance(k.targets[0], ast.Name):
                body.append((k.targets[0].id, k.value))
            else:
                die(k, "class body")
        bases = [b.id if isinstance(b, ast.Name) else die(b, "base") for b in n.bases]
        ident = "class_%s_L%d" % (n.name, n.lineno)
        names.append(ident)
        out += ["/-- `bip38/cryptocurrencies.py:%d-%d` -/" % (n.lineno, n.end_lineno), "def %s : ClassText :=" % ident,
                "  ⟨%s, [%s], [%s]⟩" % (q(n.name), ", ".join(map(q, bases)), ", ".join("(%s, %s)" % (q(a), expr(v)) for a, v in body)), ""]
    out += ["/-- The class statements of the module, in order. -/", "def cryptocurrencies : List ClassText :=",
            "  [" + ",\n   ".join(", ".join(names[i:i + 4]) for i in range(0, len(names), 4)) + "]", "", "end Bip38.Src", ""]
    open(OUT, "w").write("\n".join(out))
    print(len(names), "classes")


main()
