#!/usr/bin/env python3
"""Translate the module level of every file of /repo/bip38 into Lean data (Verif/Model/ImportText.lean).

usage: gen_import.py [REPO] [OUTFILE] [REPO whose function bodies were translated]

Each statement at module level becomes one `Top`: a relative or absolute `from`, an `import`, a statement that binds a name (with the names
it reads while the module runs: bases, decorators, defaults, annotations, right-hand sides, class bodies), or a statement that only runs.
`reads` lists for every function the names its body takes from outside, and `links` what `gen_src.py` took each name for.
"""
import ast
import os
import runpy
import sys
import tempfile

HERE = os.path.dirname(os.path.abspath(__file__))
REPO = sys.argv[1] if len(sys.argv) > 1 else "/repo"
OUT = sys.argv[2] if len(sys.argv) > 2 else os.path.join(HERE, "..", "lean", "Verif", "Model", "ImportText.lean")
BODIES = sys.argv[3] if len(sys.argv) > 3 else REPO


def die(node, msg):
    sys.exit("gen_import: %s at line %s: %s" % (msg, getattr(node, "lineno", "?"), ast.dump(node)[:300]))


def s(x):
    return '"%s"' % x


def lst(xs):
    return "[" + ", ".join(xs) + "]"


def mod(m):
    return lst(s(x) for x in m.split(".")) if m else "[]"


def walk(x):
    """the nodes of an expression, in the order of the text"""
    yield x
    if isinstance(x, ast.IfExp):
        children = [x.test, x.body, x.orelse]
    elif isinstance(x, ast.Dict):
        children = [y for k, v in zip(x.keys, x.values) for y in (k, v)]
    else:
        children = ast.iter_child_nodes(x)
    for c in children:
        yield from walk(c)


def names_in(nodes):
    """names read by expressions, in order, without the variables of comprehensions"""
    out = []
    for node in nodes:
        if node is None:
            continue
        own = {t.id for c in ast.walk(node) if isinstance(c, ast.comprehension) for t in ast.walk(c.target) if isinstance(t, ast.Name)}
        for x in walk(node):
            if isinstance(x, (ast.Lambda, ast.NamedExpr)):
                die(x, "lambda or :=")
            if isinstance(x, ast.Name) and x.id not in own and x.id not in out:
                out.append(x.id)
    return out


def def_uses(f):
    a = f.args
    nodes = list(f.decorator_list) + list(a.defaults) + [d for d in a.kw_defaults if d]
    nodes += [p.annotation for p in a.posonlyargs + a.args + a.kwonlyargs]
    nodes += [x.annotation for x in (a.vararg, a.kwarg) if x] + [f.returns]
    return names_in(nodes)


def is_doc(n):
    return isinstance(n, ast.Expr) and isinstance(n.value, ast.Constant)


def class_uses(c):
    out = names_in(list(c.decorator_list) + list(c.bases) + [k.value for k in c.keywords])
    scope = set()
    for n in c.body:
        if isinstance(n, ast.FunctionDef):
            us, b = def_uses(n), n.name
        elif isinstance(n, ast.AnnAssign) and isinstance(n.target, ast.Name):
            us, b = names_in([n.value, n.annotation]), n.target.id if n.value is not None else None
        elif isinstance(n, ast.Assign) and all(isinstance(t, ast.Name) for t in n.targets):
            us, b = names_in([n.value]), n.targets[0].id
        elif is_doc(n) or isinstance(n, ast.Pass):
            continue
        else:
            die(n, "class body")
        out += [u for u in us if u not in scope and u not in out]
        if b:
            scope.add(b)
    return out


def mangled(cls, n):
    return "_%s%s" % (cls.lstrip("_"), n) if cls and n.startswith("__") and not n.endswith("__") else n


def fn_reads(f, cls):
    a = f.args
    local = {p.arg for p in a.posonlyargs + a.args + a.kwonlyargs} | {x.arg for x in (a.vararg, a.kwarg) if x}
    comp, reads = set(), []
    body = [x for st in f.body for x in walk(st)]
    skip = set()     # annotations of local variables are not evaluated
    for x in body:
        if isinstance(x, (ast.FunctionDef, ast.Lambda, ast.ClassDef, ast.Global, ast.Nonlocal, ast.Import, ast.ImportFrom)):
            die(x, "inside a function")
        if isinstance(x, ast.AnnAssign):
            skip |= {id(y) for y in ast.walk(x.annotation)}
        if isinstance(x, ast.Name) and isinstance(x.ctx, (ast.Store, ast.Del)):
            local.add(x.id)
        if isinstance(x, ast.ExceptHandler) and x.name:
            local.add(x.name)
    for x in body:
        if isinstance(x, ast.Name) and isinstance(x.ctx, ast.Load) and id(x) not in skip and x.id not in local:
            n = mangled(cls, x.id)
            if n not in reads:
                reads.append(n)
    return reads


def main():
    files = []
    for d, _, fs in sorted(os.walk(os.path.join(REPO, "bip38"))):
        if "__pycache__" in d:
            continue
        for f in sorted(fs):
            if f.endswith(".py"):
                files.append(os.path.relpath(os.path.join(d, f), REPO))
    texts, reads, order = {}, {}, []
    for f in files:
        parts = f[:-3].split("/")
        pkg = parts[-1] == "__init__"
        m = ".".join(parts[:-1] if pkg else parts)
        body, fns = [], []
        for n in ast.parse(open(os.path.join(REPO, f), encoding="utf-8").read()).body:
            if is_doc(n):
                continue
            if isinstance(n, ast.ImportFrom):
                if any(a.name == "*" for a in n.names):
                    die(n, "import *")
                t = ".from %d %s %s" % (n.level, mod(n.module or ""), lst("(%s, %s)" % (s(a.name), s(a.asname or a.name)) for a in n.names))
            elif isinstance(n, ast.Import):
                if len(n.names) != 1 or n.names[0].asname or "." in n.names[0].name:
                    die(n, "import")
                t = ".import %s" % s(n.names[0].name)
            elif isinstance(n, ast.FunctionDef):
                t = ".bind %s %s" % (s(n.name), lst(map(s, def_uses(n))))
                fns.append((n.name, fn_reads(n, None)))
            elif isinstance(n, ast.ClassDef):
                t = ".bind %s %s" % (s(n.name), lst(map(s, class_uses(n))))
                fns += [("%s.%s" % (n.name, k.name), fn_reads(k, n.name)) for k in n.body if isinstance(k, ast.FunctionDef)]
            elif isinstance(n, ast.AnnAssign) and isinstance(n.target, ast.Name) and n.value is not None:
                t = ".bind %s %s" % (s(n.target.id), lst(map(s, names_in([n.value, n.annotation]))))
            elif isinstance(n, ast.Assign) and len(n.targets) == 1 and isinstance(n.targets[0], ast.Name):
                t = ".bind %s %s" % (s(n.targets[0].id), lst(map(s, names_in([n.value]))))
            elif isinstance(n, ast.If) and not n.orelse and all(isinstance(k, ast.Raise) for k in n.body):
                t = ".run %s" % lst(map(s, names_in([n.test])))
            else:
                die(n, "module level")
            body.append("    %s,  -- %d" % (t, n.lineno))
        if body:
            i = body[-1].rindex(",  -- ")
            body[-1] = body[-1][:i] + "  " + body[-1][i + 3:]
        order.append(m)
        texts[m] = (f, pkg, body)
        reads[m] = fns
    links = link_table()
    out = ["import Verif.Model.Import", "/-!", "# The module level of `/repo/bip38` (generated by `tools/gen_import.py`, do not edit)", "-/",
           "namespace Bip38.Import", ""]
    for m in order:
        f, pkg, body = texts[m]
        out += ["/-- The statements at module level of `%s`, with their lines. -/" % f,
                "def text_%s : Text :=" % m.replace(".", "_"), "  ⟨%s, [" % ("true" if pkg else "false")] + body + ["  ]⟩", ""]
    out += ["/-- The files of the package `bip38`. -/", "def package : Program :=",
            "  [" + ",\n   ".join("(%s, text_%s)" % (mod(m), m.replace(".", "_")) for m in order) + "]", ""]
    out += ["/-- For every function of the package the names that its body takes from outside. -/",
            "def reads : List (Mod × String × List String) :=",
            "  [" + ",\n   ".join("(%s, %s, %s)" % (mod(m), s(f), lst(map(s, r))) for m in order for f, r in reads[m]) + "]", ""]
    out += ["/-- What the translation of the function bodies (`tools/gen_src.py`) took each name of each module for. -/",
            "def links : List (Mod × String × Site) :=",
            "  [" + ",\n   ".join("(%s, %s, %s)" % (mod(m), s(n), t) for m, n, t in links) + "]", "", "end Bip38.Import", ""]
    with open(OUT, "w") as f:
        f.write("\n".join(out))
    print(len(order), "modules", sum(len(r) for r in reads.values()), "functions", len(links), "links")


def link_table():
    """(module, name, site) for every entry of the scopes that gen_src.py built"""
    argv = sys.argv
    sys.argv = ["gen_src.py", BODIES, tempfile.mkdtemp()]
    so, sys.stdout = sys.stdout, open(os.devnull, "w")
    try:
        g = runpy.run_path(os.path.join(HERE, "gen_src.py"))
    finally:
        sys.argv, sys.stdout = argv, so
    home = {}        # entity -> (module, name): the module whose text defines it
    for path, lean, prefix, _ in g["MODULES"]:
        tree = ast.parse(open(os.path.join(BODIES, *path.split(".")) + ".py", encoding="utf-8").read())
        for n in tree.body:
            nm = (n.name if isinstance(n, (ast.FunctionDef, ast.ClassDef)) else n.target.id if isinstance(n, ast.AnnAssign)
                  else n.targets[0].id if isinstance(n, ast.Assign) else None)
            if nm and nm in g["exports"][path]:
                home[g["exports"][path][nm]] = (path, nm)
    res = []
    for path, _, _, _ in g["MODULES"]:
        for n, e in g["exports"][path].items():
            if e[0] == "ext":
                m, _, k = e[1].rpartition(".")
                t = ".external %s %s" % (mod(m), s(k)) if m else ".module %s" % s(e[1])
            elif e[0] == "value" and e[1] == "eConst (.coin .base)":
                t = ".own %s %s" % (mod("bip38.cryptocurrencies"), s("ICryptocurrency"))
            elif e[0] == "value" and e[1].startswith("eConst (.coin (.coin Coins."):
                t = ".own %s %s" % (mod("bip38.cryptocurrencies"), s(e[1][len("eConst (.coin (.coin Coins."):-2]))
            else:
                t = ".own %s %s" % (mod(home[e][0]), s(home[e][1]))
            res.append((path, n, t))
    return res


main()
