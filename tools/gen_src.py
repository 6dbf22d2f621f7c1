#!/usr/bin/env python3
"""Translate the text of /repo/bip38 into Lean terms built from the combinators of Verif/Src/Sem.lean.

usage: gen_src.py [REPO] [OUTDIR]

One combinator per syntactic construct; every statement becomes a definition named after its function and line.  Names are resolved as
Python does: parameters and assigned names are local, other names are looked up in the module (its own functions, its imports), then in
the built-ins.  Anything the script does not know stops it.
"""
import ast
import os
import sys

REPO = sys.argv[1] if len(sys.argv) > 1 else "/repo"
OUT = sys.argv[2] if len(sys.argv) > 2 else os.path.join(os.path.dirname(os.path.abspath(__file__)), "..", "lean", "Verif", "Src")

MODULES = [  # (module path, Lean file, prefix of Lean names, imports of the Lean file)
    ("bip38.exceptions", "Exceptions", "exceptions", ["Verif.Src.Builtin", "Verif.Src.Attr"]),
    ("bip38.const", "Const", "const", ["Verif.Src.Builtin", "Verif.Src.Attr"]),
    ("bip38.utils", "Utils", "utils", ["Verif.Src.Exceptions"]),
    ("bip38.libs.base58", "Base58", "base58", ["Verif.Src.Exceptions"]),
    ("bip38.libs.ripemd160", "Ripemd160", "ripemd160", ["Verif.Src.Exceptions"]),
    ("bip38.crypto", "Crypto", "crypto", ["Verif.Src.Utils", "Verif.Src.Const", "Verif.Src.Ripemd160"]),
    ("bip38.secp256k1.point", "Point", "", ["Verif.Src.Utils", "Verif.Src.Const"]),
    ("bip38.secp256k1.public_key", "PublicKey", "", ["Verif.Src.Point"]),
    ("bip38.secp256k1.private_key", "PrivateKey", "", ["Verif.Src.PublicKey"]),
    ("bip38.wif", "Wif", "wif", ["Verif.Src.Crypto", "Verif.Src.Base58", "Verif.Src.Point"]),
    ("bip38.p2pkh_address", "P2pkhAddress", "", ["Verif.Src.Crypto", "Verif.Src.Base58", "Verif.Src.PublicKey"]),
    ("bip38.bip38", "Bip38", "", ["Verif.Src.Wif", "Verif.Src.P2pkhAddress", "Verif.Src.PrivateKey"]),
]
SKIP_CLASSES = {"TestFrameworkKey"}       # unit tests inside libs/ripemd160.py
INSTANCE_CLASSES = {"Point", "PublicKey", "PrivateKey", "BIP38"}

EXC = {"Error": "error", "CryptocurrencyError": "cryptocurrencyError", "NetworkError": "networkError",
       "Secp256k1Error": "secp256k1Error", "AddressError": "addressError", "WIFError": "wifError",
       "PassphraseError": "passphraseError"}
PYEXC = {"ValueError": "valueError", "TypeError": "typeError"}
PYCATCH = {"ValueError": ".valueError", "TypeError": ".typeError", "AttributeError": ".attributeError"}

EXTFN = {
    "hashlib.sha256": "xSha256 H", "hashlib.new": "xHashNew H", "scrypt.hash": "xScrypt H",
    "unicodedata.normalize": "xNormalize H", "os.urandom": "xUrandom H", "pyaes.AESModeOfOperationECB": "xAes",
    "ecdsa.SigningKey.from_string": "xSigningFromString", "ecdsa.VerifyingKey.from_string": "xVerifyingFromString",
    "ecdsa.VerifyingKey.from_public_point": "xVerifyingFromPoint", "ecdsa.ellipticcurve.Point": "xPoint",
    "ecdsa.ellipticcurve.PointJacobi.from_bytes": "xPointFromBytes H",
    "ecdsa.ellipticcurve.PointJacobi.from_affine": "xFromAffine", "struct.pack": "xPack", "struct.unpack": "xUnpack",
    "len": "pyLen", "isinstance": "pyIsinstance", "issubclass": "pyIssubclass", "type": "pyType", "int": "pyInt H",
    "list": "pyList", "range": "pyRange", "enumerate": "pyEnumerate", "divmod": "pyDivmod", "bytes": "pyBytes",
    "bytearray": "pyBytearray", "bytes.fromhex": "pyFromhex", "int.from_bytes": "pyFromBytes",
}
EXTVAL = {
    "hashlib.algorithms_available": "eGlobal (xAlgorithms H)", "six.binary_type": "eConst (.type .bytes)",
    "six.string_types": "eConst (.tuple [.type .str])", "ecdsa.ecdsa.curve_secp256k1": "eConst .curve",
    "ecdsa.curves.SECP256k1": "eConst .curve",
    "bytes": "eConst (.type .bytes)", "str": "eConst (.type .str)", "list": "eConst (.type .list)",
}
BUILTIN_METHOD = {
    "hex": "mHex", "bit_length": "mBitLength", "to_bytes": "(mToBytes H)", "decode": "mDecode", "encode": "mEncode", "find": "mFind",
    "lstrip": "mLstrip", "startswith": "mStartswith", "keys": "mKeys", "join": "mJoin", "digest": "mDigest",
    "encrypt": "(mEncrypt H)", "decrypt": "(mDecrypt H)", "x": "mX", "y": "mY", "to_string": "mToString",
    "get_verifying_key": "mGetVerifyingKey",
}
MUTATORS = {"append": "uAppend", "extend": "uExtend", "reverse": "uReverse"}
BIN = {ast.Add: "add", ast.Sub: "sub", ast.Mult: "mul", ast.FloorDiv: "floordiv", ast.Mod: "mod", ast.Pow: "pow",
       ast.BitXor: "xor", ast.BitAnd: "and", ast.BitOr: "or", ast.LShift: "shl", ast.RShift: "shr"}
CMP = {ast.Eq: "eq", ast.NotEq: "ne", ast.Lt: "lt", ast.LtE: "le", ast.Gt: "gt", ast.GtE: "ge", ast.In: "in", ast.NotIn: "notIn"}

exports = {}          # module -> name -> entity
methods = {}          # method name -> [(class, Lean function)], in order of definition
class_members = {}    # class -> member -> ("method" | "classmethod" | "staticmethod" | "attr", Lean name)


def die(node, msg):
    sys.exit("gen_src: %s at line %s: %s" % (msg, getattr(node, "lineno", "?"), ast.dump(node)[:300]))


def q(s):
    out = '"'
    for c in s:
        if c in '"\\':
            out += "\\" + c
        elif c == "\n":
            out += "\\n"
        elif 32 <= ord(c) < 127:
            out += c
        else:
            out += "\\u%04x" % ord(c)
    return out + '"'


def ident(name):
    """Lean identifier: without the underscores around `__init__` and the like"""
    return name.strip("_")


def v(name):
    return "v!" + q(name)


class Module:
    def __init__(self, path, lean, prefix, imports):
        self.path, self.lean, self.prefix, self.imports = path, lean, prefix, imports
        p = os.path.join(REPO, *path.split("."))
        self.file = "/".join(path.split(".")) + ".py"
        self.text = open(p + ".py", encoding="utf-8").read()
        self.lines = self.text.split("\n")
        self.scope = {}
        self.out = []
        self.cls = None

    # --- names -----------------------------------------------------------------------------------------------------
    def imported(self, node):
        if isinstance(node, ast.Import):
            for a in node.names:
                self.scope[a.asname or a.name] = ("ext", a.name)
            return
        if node.level == 0:
            base = node.module
            for a in node.names:
                self.scope[a.asname or a.name] = ("ext", base + "." + a.name)
            return
        pkg = self.path.split(".")[:-node.level]
        mod = ".".join(pkg + ([node.module] if node.module else []))
        for a in node.names:
            self.scope[a.asname or a.name] = self.repo_name(mod, a.name, node)

    def repo_name(self, mod, name, node):
        if mod == "bip38.cryptocurrencies":
            if name == "ICryptocurrency":
                return ("value", "eConst (.coin .base)")
            return ("value", "eConst (.coin (.coin Coins.%s))" % name)
        if mod == "bip38.secp256k1":
            init = open(os.path.join(REPO, "bip38/secp256k1/__init__.py")).read()
            for n in ast.parse(init).body:
                if isinstance(n, ast.ImportFrom) and n.level == 1 and any(a.name == name and not a.asname for a in n.names):
                    return self.repo_name("bip38.secp256k1." + n.module, name, node)
        if mod not in exports or name not in exports[mod]:
            die(node, "unknown import %s.%s" % (mod, name))
        return exports[mod][name]

    def resolve(self, node):
        """entity of a global name or dotted name, or None"""
        if isinstance(node, ast.Name):
            if node.id in self.locals:
                return None
            if node.id in self.scope:
                return self.scope[node.id]
            return ("ext", node.id)
        if isinstance(node, ast.Attribute):
            r = self.resolve(node.value)
            if r is None:
                return None
            if r[0] == "ext":
                return ("ext", r[1] + "." + node.attr)
            if r[0] == "class":
                return ("member", r[1], node.attr)
            return None
        return None

    # --- expressions -----------------------------------------------------------------------------------------------
    def exprs(self, es):
        return "[" + ", ".join(self.expr(e) for e in es) + "]"

    def kws(self, ks, node):
        for k in ks:
            if k.arg is None:
                die(node, "** in a call")
        return "[" + ", ".join("(%s, %s)" % (v(k.arg), self.expr(k.value)) for k in ks) + "]"

    def const(self, node):
        x = node.value
        if x is None:
            return "eConst .none"
        if x is True or x is False:
            return "eConst (.bool %s)" % str(x).lower()
        if isinstance(x, int):
            return "eConst (.int %s)" % ast.get_source_segment(self.text, node)
        if isinstance(x, str):
            return "eConst (.str %s.toList)" % q(x)
        if isinstance(x, bytes):
            return "eConst (.bytes [%s])" % ", ".join(str(b) for b in x)
        die(node, "constant")

    def table(self, name):
        return "[" + ", ".join("(.%s, %s H)" % (c, f) for c, f in methods.get(name, [])) + "]"

    def expr(self, e):
        s = self.expr0(e)
        return "(%s)" % s if " " in s else s

    def expr0(self, e):
        if isinstance(e, ast.Constant):
            return self.const(e)
        if isinstance(e, ast.Name):
            if e.id in self.locals:
                return "eName %s" % v(e.id)
            return self.value(self.resolve(e), e)
        if isinstance(e, ast.Attribute):
            if isinstance(e.value, ast.Name) and e.value.id == "cls" and self.kind == "classmethod":
                return self.value(("member", self.cls, e.attr), e)
            r = self.resolve(e)
            if r is not None:
                return self.value(r, e)
            return "eAttr %s %s" % (self.expr(e.value), v(e.attr))
        if isinstance(e, ast.Subscript):
            r = self.resolve(e.value)
            if r == ("ext", "typing.Type"):
                if not (isinstance(e.slice, ast.Name) and e.slice.id == "ICryptocurrency"):
                    die(e, "typing")
                return 'eConst (.typing "typing.Type[bip38.cryptocurrencies.ICryptocurrency]".toList)'
            if isinstance(e.slice, ast.Slice):
                sl = e.slice
                if sl.step is not None:
                    ok = sl.lower is None and sl.upper is None and isinstance(sl.step, ast.UnaryOp) and \
                        isinstance(sl.step.op, ast.USub) and isinstance(sl.step.operand, ast.Constant) and sl.step.operand.value == 1
                    if not ok:
                        die(e, "slice step")
                    return "eReverse %s" % self.expr(e.value)
                b = lambda x: "none" if x is None else "(some %s)" % self.expr(x)
                return "eSlice %s %s %s" % (self.expr(e.value), b(sl.lower), b(sl.upper))
            return "eIndex %s %s" % (self.expr(e.value), self.expr(e.slice))
        if isinstance(e, ast.Call):
            return self.call(e)
        if isinstance(e, ast.BinOp):
            op = BIN.get(type(e.op)) or die(e, "operator")
            t = {"add": ("__add__", "__radd__"), "mul": ("__mul__", "__rmul__")}.get(op)
            tabs = (self.table(t[0]), self.table(t[1])) if t else ("[]", "[]")
            return "eBin %s %s .%s %s %s" % (tabs[0], tabs[1], op, self.expr(e.left), self.expr(e.right))
        if isinstance(e, ast.UnaryOp):
            f = {ast.Not: "eNot", ast.USub: "eNeg", ast.Invert: "eInvert"}.get(type(e.op)) or die(e, "unary operator")
            return "%s %s" % (f, self.expr(e.operand))
        if isinstance(e, ast.BoolOp):
            f = "eAnd" if isinstance(e.op, ast.And) else "eOr"
            s = self.expr(e.values[-1])
            for x in reversed(e.values[:-1]):
                s = "(%s %s %s)" % (f, self.expr(x), s)
            return s[1:-1]
        if isinstance(e, ast.Compare):
            rest = []
            for op, c in zip(e.ops, e.comparators):
                if isinstance(op, (ast.Is, ast.IsNot)):
                    if not (isinstance(c, ast.Constant) and c.value is None):
                        die(e, "is")
                    o = "isNone" if isinstance(op, ast.Is) else "isNotNone"
                else:
                    o = CMP[type(op)]
                rest.append("(.%s, %s)" % (o, self.expr(c)))
            return "eCompare %s [%s]" % (self.expr(e.left), ", ".join(rest))
        if isinstance(e, ast.IfExp):
            return "eIf %s %s %s" % (self.expr(e.test), self.expr(e.body), self.expr(e.orelse))
        if isinstance(e, ast.List):
            return "eList %s" % self.exprs(e.elts)
        if isinstance(e, ast.Tuple):
            return "eTuple %s" % self.exprs(e.elts)
        if isinstance(e, ast.Dict):
            items = []
            for k, x in zip(e.keys, e.values):
                if not (isinstance(k, ast.Constant) and isinstance(k.value, str)):
                    die(e, "dictionary key")
                items.append("(%s, %s)" % (q(k.value), self.expr(x)))
            return "eDict [%s]" % ", ".join(items)
        if isinstance(e, ast.JoinedStr):
            parts = []
            for x in e.values:
                if isinstance(x, ast.Constant):
                    parts.append(".lit %s" % q(x.value))
                else:
                    if x.conversion != -1 or x.format_spec is not None:
                        die(e, "format")
                    parts.append(".val %s" % self.expr(x.value))
            return "eFormat [%s]" % ", ".join(parts)
        if isinstance(e, (ast.ListComp, ast.GeneratorExp)):
            g = e.generators
            if len(g) != 1 or g[0].ifs or not isinstance(g[0].target, ast.Name):
                die(e, "comprehension")
            it = self.expr(g[0].iter)
            n = g[0].target.id
            had = n in self.locals
            self.locals.add(n)
            body = self.expr(e.elt)
            if not had:
                self.locals.discard(n)
            return "eComprehension %s %s %s" % (body, v(n), it)
        die(e, "expression")

    def value(self, r, node):
        if r[0] == "ext":
            if r[1] in EXTVAL:
                return EXTVAL[r[1]]
            die(node, "unknown name %s" % r[1])
        if r[0] == "value":
            return r[1]
        if r[0] == "global":
            return "eGlobal (%s H)" % r[1]
        if r[0] == "class":
            return "eConst (.type (.cls .%s))" % r[1]
        if r[0] == "member":
            m = class_members[r[1]].get(r[2])
            if m and m[0] == "attr":
                return "eGlobal (%s H)" % m[1]
        die(node, "value %s" % (r,))

    def call(self, e):
        f = e.func
        if len(e.args) == 1 and isinstance(e.args[0], ast.Starred):
            r = self.resolve(f)
            if e.keywords or not r or r[0] != "fn":
                die(e, "starred call")
            return "eCallStar (%s H) %s" % (r[1], self.expr(e.args[0].value))
        if any(isinstance(a, ast.Starred) for a in e.args):
            die(e, "starred argument")
        args, kw = self.exprs(e.args), None
        # self.m(..), cls.m(..), cls(..), self.__class__(..)
        if isinstance(f, ast.Name) and f.id == "cls" and self.kind == "classmethod":
            return "eCall (%s H) %s %s" % (class_members[self.cls]["__init__"][1], args, self.kws(e.keywords, e))
        if isinstance(f, ast.Attribute) and isinstance(f.value, ast.Name) and self.cls:
            if f.value.id == "self" and self.kind == "method" and f.attr == "__class__":
                return "eCall (%s H) %s %s" % (class_members[self.cls]["__init__"][1], args, self.kws(e.keywords, e))
            if f.value.id == "self" and self.kind == "method" and f.attr in class_members[self.cls]:
                m = class_members[self.cls][f.attr]
                if m[0] == "method":
                    return "eCall (%s H) %s %s" % (m[1], self.exprs([f.value] + e.args), self.kws(e.keywords, e))
                die(e, "call on self")
            if f.value.id == "cls" and self.kind == "classmethod":
                m = class_members[self.cls].get(f.attr)
                if m and m[0] in ("classmethod", "staticmethod"):
                    return "eCall (%s H) %s %s" % (m[1], args, self.kws(e.keywords, e))
                die(e, "call on cls")
        r = self.resolve(f)
        if r is None:
            if not isinstance(f, ast.Attribute):
                die(e, "call")
            if isinstance(f.value, ast.Name) and f.value.id == self.kwargs and f.attr == "get":
                if e.keywords or len(e.args) != 2 or not isinstance(e.args[0], ast.Constant):
                    die(e, "kwargs.get")
                return "eKwargsGet %s %s %s" % (self.expr(f.value), v(e.args[0].value), self.expr(e.args[1]))
            b = BUILTIN_METHOD.get(f.attr, "noMethod")
            return "eMethod %s %s %s %s %s" % (self.table(f.attr), b, self.expr(f.value), args, self.kws(e.keywords, e))
        kw = self.kws(e.keywords, e)
        if r[0] == "fn":
            return "eCall (%s H) %s %s" % (r[1], args, kw)
        if r[0] == "class":
            return "eCall (%s H) %s %s" % (class_members[r[1]]["__init__"][1], args, kw)
        if r[0] == "exc":
            return "eCall (Error_init H .%s) %s %s" % (r[1], args, kw)
        if r[0] == "member":
            m = class_members[r[1]].get(r[2])
            if m and m[0] in ("classmethod", "staticmethod"):
                return "eCall (%s H) %s %s" % (m[1], args, kw)
            die(e, "call of member")
        if r[0] == "ext":
            if r[1] == "dict":
                if e.args:
                    die(e, "dict")
                return "eDict [%s]" % ", ".join("(%s, %s)" % (q(k.arg), self.expr(k.value)) for k in e.keywords)
            if r[1] in PYEXC:
                return "eCall (pyException .%s) %s %s" % (PYEXC[r[1]], args, kw)
            if r[1] in EXTFN:
                g = EXTFN[r[1]]
                return "eCall %s %s %s" % ("(%s)" % g if " " in g else g, args, kw)
        # a method call on a value of the module level, e.g. Bitcoin.NETWORKS
        die(e, "call of %s" % (r,))

    # --- statements ------------------------------------------------------------------------------------------------
    def target(self, t):
        if isinstance(t, ast.Name):
            return ".name %s" % v(t.id)
        if isinstance(t, ast.Attribute) and isinstance(t.value, ast.Name) and t.value.id in self.locals:
            return ".attr %s %s" % (v(t.value.id), v(t.attr))
        die(t, "target")

    def block(self, body):
        """Lean list of the statements; emits their definitions"""
        return "[" + ", ".join(self.stmt(s) for s in body if not self.is_doc(s)) + "]"

    @staticmethod
    def is_doc(s):
        return isinstance(s, ast.Expr) and isinstance(s.value, ast.Constant) and isinstance(s.value.value, str)

    def stmt(self, s):
        term = self.stmt0(s)
        base = "%s_L%d" % (self.fn, s.lineno)
        name, k = base, 0
        while name in self.names:
            k += 1
            name = base + "abcdefgh"[k]
        self.names.add(name)
        first = self.lines[s.lineno - 1].strip().replace("-/", "- /")
        self.out.append("/-- `%s:%d`: `%s` -/" % (self.file, s.lineno, first))
        self.out.append("@[src] def %s (H : Host) : Stmt := fun env =>\n  %s env\n" % (name, term))
        return "%s H" % name

    def stmt0(self, s):
        if isinstance(s, (ast.Assign, ast.AnnAssign)):
            if isinstance(s, ast.Assign):
                if len(s.targets) != 1:
                    die(s, "chained assignment")
                t = s.targets[0]
            else:
                t = s.target
                if s.value is None:
                    die(s, "annotation")
            if isinstance(t, ast.Tuple):
                return "sUnpack [%s] %s" % (", ".join(self.target(x) for x in t.elts), self.expr(s.value))
            return "sAssign (%s) %s" % (self.target(t), self.expr(s.value))
        if isinstance(s, ast.AugAssign):
            load = ast.parse(ast.unparse(s.target), mode="eval").body
            e = ast.BinOp(left=load, op=s.op, right=s.value)
            ast.copy_location(e, s)
            return "sAssign (%s) %s" % (self.target(s.target), self.expr(e))
        if isinstance(s, ast.Expr):
            c = s.value
            if isinstance(c, ast.Call) and isinstance(c.func, ast.Attribute) and isinstance(c.func.value, ast.Name) \
                    and c.func.value.id in self.locals and c.func.attr in MUTATORS and not c.keywords:
                return "sMutate %s %s %s" % (v(c.func.value.id), MUTATORS[c.func.attr], self.exprs(c.args))
            return "sExpr %s" % self.expr(c)
        if isinstance(s, ast.Pass):
            return "sPass"
        if isinstance(s, ast.Return):
            return "sReturn %s" % (self.expr(s.value) if s.value else "(eConst .none)")
        if isinstance(s, ast.Assert):
            if s.msg:
                die(s, "assert")
            return "sAssert %s" % self.expr(s.test)
        if isinstance(s, ast.If):
            c, a, b = self.expr(s.test), self.block(s.body), self.block(s.orelse)
            return "sIf %s %s %s" % (c, a, b)
        if isinstance(s, ast.While):
            if s.orelse:
                die(s, "while else")
            return "sWhile %s %s" % (self.expr(s.test), self.block(s.body))
        if isinstance(s, ast.For):
            if s.orelse:
                die(s, "for else")
            it, body = self.expr(s.iter), self.block(s.body)
            if isinstance(s.target, ast.Tuple):
                return "sForUnpack [%s] %s %s" % (", ".join(v(t.id) for t in s.target.elts), it, body)
            return "sFor %s %s %s" % (v(s.target.id), it, body)
        if isinstance(s, ast.Raise):
            if s.exc is None:
                die(s, "re-raise")
            return "sRaise (Error_str H) %s" % self.expr(s.exc)
        if isinstance(s, ast.Try):
            if s.orelse or s.finalbody:
                die(s, "try else/finally")
            body = self.block(s.body)
            assigned = sorted(self.assigned(s.body))
            hs = []
            for h in s.handlers:
                types = h.type.elts if isinstance(h.type, ast.Tuple) else [h.type]
                cs = []
                for t in types:
                    r = self.resolve(t)
                    if r[0] == "ext" and r[1] in PYCATCH:
                        cs.append(PYCATCH[r[1]])
                    elif r == ("ext", "ecdsa.keys.MalformedPointError"):
                        cs.append(".malformedPoint")
                    elif r[0] == "exc" and r[1] != "error":
                        cs.append(".only .%s" % r[1])
                    else:
                        die(h, "except")
                if h.name:
                    for n in ast.walk(h):
                        if isinstance(n, ast.Name) and n.id == h.name and not any(
                                isinstance(r, ast.Raise) and r.cause is n for r in ast.walk(h)):
                            die(h, "use of the exception")
                hs.append("([%s], %s)" % (", ".join(cs), self.block(h.body)))
            return "sTry [%s] %s [%s]" % (", ".join(v(n) for n in assigned), body, ", ".join(hs))
        die(s, "statement")

    @staticmethod
    def assigned(body):
        out = set()
        for s in body:
            for n in ast.walk(s):
                if isinstance(n, ast.Name) and isinstance(n.ctx, ast.Store):
                    out.add(n.id)
        return out

    # --- definitions -----------------------------------------------------------------------------------------------
    def params(self, f, drop):
        a = f.args
        if a.posonlyargs or a.vararg or a.kwonlyargs:
            die(f, "parameters")
        ps = a.args[drop:]
        defaults = [None] * (len(ps) - len(a.defaults)) + list(a.defaults)
        out = []
        for p, d in zip(ps, defaults):
            if d is None:
                out.append("⟨%s, none⟩" % v(p.arg))
            else:
                save, self.locals = self.locals, set()
                out.append("⟨%s, some (%s Env.empty)⟩" % (v(p.arg), self.expr(d)))
                self.locals = save
        return "[" + ", ".join(out) + "]"

    def function(self, f, fn, kind):
        self.fn, self.kind, self.names = fn, kind, set()
        self.locals = self.assigned(f.body) | {a.arg for a in f.args.args}
        if kind == "classmethod":
            self.locals.discard("cls")
        self.kwargs = f.args.kwarg.arg if f.args.kwarg else None
        if self.kwargs:
            self.locals.add(self.kwargs)
        for n in ast.walk(f):
            if isinstance(n, (ast.Global, ast.Nonlocal, ast.Lambda, ast.Await, ast.Yield, ast.NamedExpr)):
                die(n, "construct")
        init = f.name == "__init__"
        drop = 1 if kind == "classmethod" or init else 0
        ps = self.params(f, drop)
        body = self.block(f.body)
        doc = "/-- `%s:%d-%d` `%s` -/" % (self.file, f.lineno, f.end_lineno, (self.cls + "." if self.cls else "") + f.name)
        self.out.append(doc)
        if init and self.cls == "Error":
            self.out.append("def %s (H : Host) (c : ExcClass) : Fn :=\n  defclass (.exc c) %s\n    %s\n" % (fn, ps, body))
        elif init:
            self.out.append("def %s (H : Host) : Fn :=\n  defclass .%s %s\n    %s\n" % (fn, self.cls, ps, body))
        else:
            rest = "(some %s)" % v(self.kwargs) if self.kwargs else "none"
            self.out.append("def %s (H : Host) : Fn :=\n  defun %s %s\n    %s\n" % (fn, ps, rest, body))

    def constant(self, name, value, node):
        self.locals, self.kind, self.kwargs = set(), None, None
        self.out.append("/-- `%s:%d` `%s` -/" % (self.file, node.lineno, name.split("_", 1)[1]))
        self.out.append("def %s (H : Host) : Run Val :=\n  %s Env.empty\n" % (name, self.expr(value)))

    def klass(self, c):
        if c.name in SKIP_CLASSES:
            return
        bases = [b.id for b in c.bases]
        if self.path == "bip38.exceptions":
            if c.name != "Error":
                if bases != ["Error"] or len(c.body) != 1 or not isinstance(c.body[0], ast.Pass) or c.name not in EXC:
                    die(c, "exception class")
                self.scope[c.name] = ("exc", EXC[c.name])
                return
            if bases != ["Exception"]:
                die(c, "base class")
            self.scope[c.name] = ("exc", EXC[c.name])
        else:
            if bases or c.decorator_list:
                die(c, "base classes")
            self.scope[c.name] = ("class", c.name)
        self.cls = c.name
        mem = class_members.setdefault(c.name, {})
        todo = []
        for n in c.body:
            if isinstance(n, ast.FunctionDef):
                decs = [d.id for d in n.decorator_list]
                kind = decs[0] if decs else "method"
                if len(decs) > 1 or kind not in ("method", "classmethod", "staticmethod"):
                    die(n, "decorator")
                first = n.args.args[0].arg if n.args.args else None
                if {"method": "self", "classmethod": "cls"}.get(kind, first) != first:
                    die(n, "first parameter")
                mem[n.name] = (kind, "%s_%s" % (c.name, ident(n.name)))
                todo.append((n, kind))
            elif isinstance(n, ast.AnnAssign):
                if n.value is not None:
                    mem[n.target.id] = ("attr", "%s_%s" % (c.name, n.target.id))
                    self.constant("%s_%s" % (c.name, n.target.id), n.value, n)
            elif not self.is_doc(n):
                die(n, "class body")
        # methods in an order in which every method comes after the methods of the class that it calls
        done = set()
        while todo:
            for n, kind in todo:
                need = {x.attr for x in ast.walk(n) if isinstance(x, ast.Attribute) and isinstance(x.value, ast.Name)
                        and x.value.id in ("self", "cls") and mem.get(x.attr, ("attr",))[0] != "attr" and x.attr != n.name
                        and not any(isinstance(y, ast.Attribute) and y.value is x for y in ast.walk(n))}
                need = {m for m in need if any(isinstance(y, ast.Call) and isinstance(y.func, ast.Attribute) and y.func.attr == m
                                               and isinstance(y.func.value, ast.Name) for y in ast.walk(n))}
                if n.name != "__init__":
                    need.add("__init__") if "__init__" in mem and self.uses_ctor(n) else None
                if need <= done:
                    self.function(n, mem[n.name][1], kind)
                    done.add(n.name)
                    todo.remove((n, kind))
                    if kind == "method" and n.name != "__init__" and c.name in INSTANCE_CLASSES:
                        methods.setdefault(n.name, []).append((c.name, mem[n.name][1]))
                    break
            else:
                die(c, "recursive methods")
        self.cls = None

    @staticmethod
    def uses_ctor(n):
        return any((isinstance(x, ast.Name) and x.id == "cls") or (isinstance(x, ast.Attribute) and x.attr == "__class__")
                   for x in ast.walk(n))

    def run(self):
        for n in ast.parse(self.text).body:
            if isinstance(n, (ast.Import, ast.ImportFrom)):
                if isinstance(n, ast.ImportFrom) and n.level == 0 and n.module == "typing":
                    for a in n.names:
                        self.scope[a.name] = ("ext", "typing." + a.name)
                else:
                    self.imported(n)
            elif isinstance(n, ast.FunctionDef):
                fn = "%s_%s" % (self.prefix, ident(n.name))
                self.function(n, fn, "function")
                self.scope[n.name] = ("fn", fn)
            elif isinstance(n, ast.ClassDef):
                self.klass(n)
            elif isinstance(n, (ast.Assign, ast.AnnAssign)):
                t = n.targets[0] if isinstance(n, ast.Assign) else n.target
                name = "%s_%s" % (self.prefix, ident(t.id))
                self.constant(name, n.value, n)
                self.scope[t.id] = ("global", name)
            elif self.is_doc(n):
                pass
            elif isinstance(n, ast.If) and self.path == "bip38.libs.ripemd160":
                pass    # struct.calcsize check
            else:
                die(n, "module level")
        exports[self.path] = dict(self.scope)

    def lean_text(self):
        head = "".join("import %s\n" % i for i in self.imports)
        head += "/-!\n# `%s` (generated by `tools/gen_src.py`, do not edit)\n-/\n" % self.file
        head += "set_option linter.unusedVariables false\nset_option linter.style.longLine false\n"
        head += "namespace Bip38.Src\n\n"
        return head + "\n".join(self.out) + "\nend Bip38.Src\n"


def main():
    os.makedirs(OUT, exist_ok=True)
    for m in MODULES:
        mod = Module(*m)
        mod.locals, mod.kind, mod.kwargs = set(), None, None
        mod.run()
        with open(os.path.join(OUT, m[1] + ".lean"), "w") as f:
            f.write(mod.lean_text())
        print(m[0], sum(1 for l in mod.out if l.startswith("def ")))


main()
