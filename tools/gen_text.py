#!/usr/bin/env python3
"""Write Verif/Py/Of*.lean: the text of each module of the repository, word for word, and the theorem that it defines the functions of
Verif/Src.  usage: gen_text.py [REPO] [OUTDIR]

Also Verif/PyX/*.lean: the same for the terms of Verif/SrcX; Verif/PyX/Meaning.lean is Verif/Py/Meaning.lean with the constructs of Verif/SrcX.

Nothing here is trusted except that the text is copied: the kernel reads the text (Verif/Py/Syntax.lean) and gives it its meaning
(Verif/Py/Meaning.lean)."""
import ast, os, re, sys
REPO = sys.argv[1] if len(sys.argv) > 1 else "/repo"
here = os.path.dirname(os.path.abspath(__file__))
OUT = sys.argv[2] if len(sys.argv) > 2 else os.path.join(here, "..", "lean", "Verif", "Py")
OUTX = os.path.join(OUT, "..", "PyX")
os.makedirs(OUTX, exist_ok=True)
m = open(os.path.join(OUT, "Meaning.lean")).read()
m = m.replace("import Verif.Src.Builtin", "import Verif.SrcX.Builtin").replace("namespace Bip38.Py\nopen Bip38.Src", "namespace Bip38.SrcX.Text\nopen Bip38.Src Bip38.Py").replace("end Bip38.Py", "end Bip38.SrcX.Text")
m = m.replace("Src.pyInt", "SrcX.pyInt").replace("(Val → List Val → Run Val)", "(Val → List Val → Src.Run Val)")
a, b = m.index("/-!"), m.index("-/") + 2
m = m[:a] + """/-!
# What a module of Python means, with the calls of external functions as events

`Verif/Py/Meaning.lean` with the constructs of `Verif/SrcX/Sem.lean` in place of those of `Verif/Src/Sem.lean`, otherwise word for word (written by
`tools/gen_text.py`).
-/""" + m[b:]
open(os.path.join(OUTX, "Meaning.lean"), "w").write(m)
SRC = os.path.join(OUT, "..", "Src")
MODULES = [("bip38.exceptions", "Exceptions", "exceptions"), ("bip38.const", "Const", "const"), ("bip38.utils", "Utils", "utils"),
           ("bip38.libs.base58", "Base58", "base58"), ("bip38.libs.ripemd160", "Ripemd160", "ripemd160"), ("bip38.crypto", "Crypto", "crypto"),
           ("bip38.secp256k1.point", "Point", ""), ("bip38.secp256k1.public_key", "PublicKey", ""), ("bip38.secp256k1.private_key", "PrivateKey", ""),
           ("bip38.wif", "Wif", "wif"), ("bip38.p2pkh_address", "P2pkhAddress", ""), ("bip38.bip38", "Bip38", "")]
EXC = {"Error": "error", "CryptocurrencyError": "cryptocurrencyError", "NetworkError": "networkError", "Secp256k1Error": "secp256k1Error",
       "AddressError": "addressError", "WIFError": "wifError", "PassphraseError": "passphraseError"}
INSTANCE = {"Point", "PublicKey", "PrivateKey", "BIP38"}
lean_of = {m: l for m, l, p in MODULES}
v = lambda s: 'v!"%s"' % s
doc = lambda n: isinstance(n, ast.Expr) and isinstance(n.value, ast.Constant)
earlier = []            # modules with methods
for path, lean, prefix in MODULES:
    file = path.replace(".", "/") + ".py"
    text = open(os.path.join(REPO, file), encoding="utf-8").read()
    assert '"#' not in text
    defs, orders, deps = [], [], []
    world = []
    for n in ast.parse(text).body:
        if isinstance(n, ast.ImportFrom) and n.level:
            mod = ".".join(path.split(".")[:-n.level] + ([n.module] if n.module else []))
            if mod not in deps: deps.append(mod)
        elif isinstance(n, ast.FunctionDef):
            defs.append("(%s, .fn (%s_%s H))" % (v(n.name), prefix, n.name.strip("_")))
        elif isinstance(n, (ast.Assign, ast.AnnAssign)):
            t = n.targets[0] if isinstance(n, ast.Assign) else n.target
            defs.append("(%s, .value (eGlobal (%s_%s H)))" % (v(t.id), prefix, t.id.strip("_")))
        elif isinstance(n, ast.ClassDef):
            bases = [b.id for b in n.bases if isinstance(b, ast.Name)]
            if n.name in EXC:
                defs.append("(%s, .exc .%s (Error_init H) (Error_str H))" % (v(n.name), EXC[n.name]))
            elif not n.bases:
                mem, kinds = [], {}
                for m in n.body:
                    if isinstance(m, ast.FunctionDef):
                        k = m.decorator_list[0].id if m.decorator_list else "method"
                        k = "ctor" if m.name == "__init__" else "method" if k == "method" else "fn"
                        kinds["%s_%s" % (n.name, m.name.strip("_"))] = (m.name, k)
                        mem.append("(%s, .%s (%s_%s H))" % (v(m.name), k, n.name, m.name.strip("_")))
                    elif isinstance(m, ast.AnnAssign) and m.value is not None:
                        mem.append("(%s, .attr (%s_%s H))" % (v(m.target.id), n.name, m.target.id))
                defs.append("(%s, .cls %s\n    [%s])" % (v(n.name), "(some .%s)" % n.name if n.name in INSTANCE else "none", ",\n     ".join(mem)))
                src = open(os.path.join(SRC, lean + ".lean")).read()
                order = []
                for d in re.findall(r"^def (\w+) \(H : Host\) : Fn", src, re.M):
                    m, k = kinds[d]
                    order.append("(%s, %s)" % (v(m), "some (.%s, %s H)" % (n.name, d) if k == "method" and n.name in INSTANCE else "none"))
                orders += order
    pk = path.split(".")[:-1]
    packages = [".".join(pk[:i]) for i in range(len(pk), 0, -1)]
    imps = []
    for d in deps:
        if d == "bip38.cryptocurrencies":
            world.append('(%s, [(v!"ICryptocurrency", .value (eConst (.coin .base))), (v!"Bitcoin", .value (eConst (.coin (.coin Coins.Bitcoin))))])' % v(d))
        elif d == "bip38.secp256k1":
            world.append("(%s, PointDefs H ++ PublicKeyDefs H ++ PrivateKeyDefs H)" % v(d))
            imps += ["Point", "PublicKey", "PrivateKey"]
        else:
            world.append("(%s, %sDefs H)" % (v(d), lean_of[d]))
            imps.append(lean_of[d])
    imps += [e for e in earlier if e not in imps]
    before = " ++ ".join("allMethods (%sOrder H)" % e for e in earlier)
    if orders:
        mf = "fun n => " + (before + " ++ " if before else "") + "methodsBefore n (%sOrder H)" % lean
    else:
        mf = "fun _ => " + (before or "[]")
    out = ["import Verif.Py.Text\n%s" % "".join("import Verif.Src.%s\n" % m for m in dict.fromkeys(["Exceptions", lean])) + "".join("import Verif.Py.Of%s\n" % i for i in dict.fromkeys(imps))]
    out.append("/-!\n# The text of `%s` (generated by `tools/gen_text.py`, do not edit)\n-/\nset_option maxRecDepth 100000\nset_option linter.unusedVariables false\nset_option linter.style.longLine false\nnamespace Bip38.Py\nopen Bip38.Src\n" % file)
    out.append("/-- `%s`, lines 1-%d, word for word -/\ndef %sText : String := r#\"%s\"#\n" % (file, text.count("\n"), lean, text))
    out.append("/-- What `%s` defines. -/\ndef %sDefs (H : Host) : Scope :=\n  [%s]\n" % (file, lean, ",\n   ".join(defs)))
    if orders:
        out.append("/-- The functions of the class in `%s`. -/\ndef %sOrder (H : Host) : List (Nat × Option (Cls × Fn)) :=\n  [%s]\n" % (file, lean, ",\n   ".join(orders)))
        earlier.append(lean)
    out.append("/-- The modules that `%s` imports from. -/\ndef %sWorld (H : Host) : List (Nat × Scope) :=\n  [%s]\n" % (file, lean, ",\n   ".join(world)))
    low = lean[0].lower() + lean[1:]
    out.append("def %(l)sChars : List Char := chars%% %(L)sText\ndef %(l)sTokens : List Tok := eval%% ((lex (%(l)sChars.map Char.toNat)).getD [])\ndef %(l)sTree : List PS := eval%% (((ps depth (.stmts []) %(l)sTokens).map (·.1)).getD [])\n" % dict(l=low, L=lean))
    out.append("theorem %(l)s_chars : %(L)sText = String.ofList %(l)sChars := by by_kernel\ntheorem %(l)s_lex : lex (%(l)sChars.map Char.toNat) = some %(l)sTokens := by by_kernel\ntheorem %(l)s_ps : ps depth (.stmts []) %(l)sTokens = some (%(l)sTree, []) := by by_kernel\n" % dict(l=low, L=lean))
    out.append("theorem %(l)s_parse : parseModule (%(L)sText.toList.map Char.toNat) = some %(l)sTree :=\n  parseModule_eq %(l)s_chars %(l)s_lex %(l)s_ps\n" % dict(l=low, L=lean))
    pks = "[%s]" % ", ".join(v(p) for p in packages)
    out.append("theorem %(l)s_imports (H : Host) : imports %(p)s (%(L)sWorld H) %(l)sTree = some ((imports %(p)s (%(L)sWorld H) %(l)sTree).getD []) := by by_kernel\n" % dict(l=low, L=lean, p=pks))
    out.append("theorem %(l)s_definitions (H : Host) :\n    definitions { lib := library H, scope := %(L)sDefs H ++ (imports %(p)s (%(L)sWorld H) %(l)sTree).getD [], methods := (%(m)s) 0, str := Error_str H }\n      (%(m)s) %(l)sTree = some (%(L)sDefs H) := by by_kernel\n" % dict(l=low, L=lean, p=pks, m=mf))
    out.append("theorem %(l)s_defines (H : Host) :\n    Defines H (Error_str H) %(p)s (%(L)sWorld H) (%(m)s) %(L)sText (%(L)sDefs H) :=\n  ⟨%(l)sTree, _, %(l)s_parse, %(l)s_imports H, %(l)s_definitions H⟩\n" % dict(l=low, L=lean, p=pks, m=mf))
    out.append("end Bip38.Py\n")
    open(os.path.join(OUT, "Of%s.lean" % lean), "w").write("\n".join(out))
    x = ["import Verif.Py.Of%s\nimport Verif.PyX.Meaning\n" % lean + "".join("import Verif.SrcX.%s\n" % m for m in dict.fromkeys(["Exceptions", lean])) + "".join("import Verif.PyX.Of%s\n" % i for i in dict.fromkeys(imps))]
    x.append("/-!\n# The text of `%s`, with external calls as events (generated by `tools/gen_text.py`, do not edit)\n-/\nset_option maxRecDepth 100000\nset_option linter.unusedVariables false\nset_option linter.style.longLine false\nnamespace Bip38.SrcX.Text\nopen Bip38.Src Bip38.Py\n" % file)
    for o in out:
        if o.startswith("/-- What `") or o.startswith("/-- The functions of the class") or o.startswith("/-- The modules that"):
            x.append(o)
        elif o.startswith("theorem %s_imports" % low) or o.startswith("theorem %s_definitions" % low) or o.startswith("theorem %s_defines" % low):
            x.append(o)
    x.append("end Bip38.SrcX.Text\n")
    open(os.path.join(OUTX, "Of%s.lean" % lean), "w").write("\n".join(x))

text = open(os.path.join(REPO, "bip38/cryptocurrencies.py"), encoding="utf-8").read()
assert '"#' not in text
open(os.path.join(OUT, "OfCryptocurrencies.lean"), "w").write('''import Verif.Py.Text
import Verif.Py.Classes
import Verif.Src.Cryptocurrencies
/-!
# The text of `bip38/cryptocurrencies.py` (generated by `tools/gen_text.py`, do not edit)
-/
set_option maxRecDepth 100000
set_option linter.style.longLine false
namespace Bip38.Py
open Bip38.Src

/-- `bip38/cryptocurrencies.py`, lines 1-%d, word for word -/
def CryptocurrenciesText : String := r#"%s"#

def cryptocurrenciesChars : List Char := chars%% CryptocurrenciesText
def cryptocurrenciesTokens : List Tok := eval%% ((lex (cryptocurrenciesChars.map Char.toNat)).getD [])
def cryptocurrenciesTree : List PS := eval%% (((ps depth (.stmts []) cryptocurrenciesTokens).map (·.1)).getD [])

theorem cryptocurrencies_chars : CryptocurrenciesText = String.ofList cryptocurrenciesChars := by by_kernel
theorem cryptocurrencies_lex : lex (cryptocurrenciesChars.map Char.toNat) = some cryptocurrenciesTokens := by by_kernel
theorem cryptocurrencies_ps : ps depth (.stmts []) cryptocurrenciesTokens = some (cryptocurrenciesTree, []) := by by_kernel

theorem cryptocurrencies_parse : parseModule (CryptocurrenciesText.toList.map Char.toNat) = some cryptocurrenciesTree :=
  parseModule_eq cryptocurrencies_chars cryptocurrencies_lex cryptocurrencies_ps

theorem cryptocurrencies_classes : classTexts cryptocurrenciesTree = some cryptocurrencies := by by_kernel

theorem cryptocurrencies_defines : DefinesClasses CryptocurrenciesText cryptocurrencies :=
  ⟨cryptocurrenciesTree, cryptocurrencies_parse, cryptocurrencies_classes⟩

end Bip38.Py
''' % (text.count("\n"), text))

# the other files, and the module level of all
files = []
for d, _, fs in sorted(os.walk(os.path.join(REPO, "bip38"))):
    if "__pycache__" not in d:
        files += sorted(os.path.relpath(os.path.join(d, f), REPO) for f in fs if f.endswith(".py"))
known = {m.replace(".", "/") + ".py": l for m, l, p in MODULES}
known["bip38/cryptocurrencies.py"] = "Cryptocurrencies"
new = {"bip38/__init__.py": "Package", "bip38/libs/__init__.py": "Libs", "bip38/secp256k1/__init__.py": "Secp256k1", "bip38/info.py": "Info"}
out = ["import Verif.Py.Text\nimport Verif.Py.Tops\nimport Verif.Model.ImportText\n" + "".join("import Verif.Py.Of%s\n" % l for l in known.values())]
out.append("/-!\n# The files of the package (generated by `tools/gen_text.py`, do not edit)\n-/\nset_option maxRecDepth 100000\nset_option linter.style.longLine false\nnamespace Bip38.Py\n")
rows = []
for f in files:
    if f in new:
        l = new[f]
        text = open(os.path.join(REPO, f), encoding="utf-8").read()
        assert '"#' not in text
        low = l[0].lower() + l[1:]
        out.append("/-- `%s`, word for word -/\ndef %sText : String := r#\"%s\"#\n" % (f, l, text))
        out.append("def %(l)sChars : List Char := chars%% %(L)sText\ndef %(l)sTokens : List Tok := eval%% ((lex (%(l)sChars.map Char.toNat)).getD [])\ndef %(l)sTree : List PS := eval%% (((ps depth (.stmts []) %(l)sTokens).map (·.1)).getD [])\n" % dict(l=low, L=l))
        out.append("theorem %(l)s_chars : %(L)sText = String.ofList %(l)sChars := by by_kernel\ntheorem %(l)s_lex : lex (%(l)sChars.map Char.toNat) = some %(l)sTokens := by by_kernel\ntheorem %(l)s_ps : ps depth (.stmts []) %(l)sTokens = some (%(l)sTree, []) := by by_kernel\ntheorem %(l)s_parse : parseModule (%(L)sText.toList.map Char.toNat) = some %(l)sTree :=\n  parseModule_eq %(l)s_chars %(l)s_lex %(l)s_ps\n" % dict(l=low, L=l))
    else:
        l = known.pop(f)
        low = l[0].lower() + l[1:]
    parts = f[:-3].split("/")
    m = parts[:-1] if parts[-1] == "__init__" else parts
    out.append("theorem %s_tops : tops %sTree = some Import.text_%s.body := by by_kernel\n" % (low, low, "_".join(m)))
    rows.append(("([%s], %sText)" % (", ".join('"%s"' % p for p in parts), l), low))
assert not known
out.append("/-- The files of the package, with their paths without `.py`. -/\ndef packageFiles : List (List String × String) :=\n  [%s]\n" % ",\n   ".join(r for r, _ in rows))
out.append("theorem package_files : Files packageFiles Import.package :=\n  ⟨%s, trivial⟩\n" % ",\n   ".join("by decide +kernel, by decide +kernel, ⟨_, %s_parse, %s_tops⟩" % (l, l) for _, l in rows))
counts = {}
for m in re.findall(r'^ *[\[(]+\(?((?:\["[^\]]*\])), "[^"]*", \[', open(os.path.join(OUT, "..", "Model", "ImportText.lean")).read().split("def reads")[1].split("def links")[0], re.M):
    counts[m] = counts.get(m, 0) + 1
k, steps = 0, []
for (r, l), f in zip(rows, files):
    parts = f[:-3].split("/")
    m = parts[:-1] if parts[-1] == "__init__" else parts
    n = counts.get("[%s]" % ", ".join('"%s"' % x for x in m), 0)
    out.append("theorem %s_frees : Import.reads.drop %d = (frees %sTree).map (fun r => (moduleOf [%s], r)) ++ Import.reads.drop %d := by by_kernel\n" % (l, k, l, ", ".join('"%s"' % x for x in parts), k + n))
    k += n
    steps.append("⟨_, ⟨_, %s_parse, %s_frees⟩, " % (l, l))
out.append("theorem files_frees : Frees packageFiles Import.reads :=\n  %s" % "\n   ".join(x.rstrip() for x in steps) + " rfl" + "⟩" * len(steps) + "\n")
out.append("end Bip38.Py\n")
open(os.path.join(OUT, "OfFiles.lean"), "w").write("\n".join(out))
