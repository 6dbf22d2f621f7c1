"""Writes seeded/LOG.jsonl from the result files of the mutation runs and tools/tightened.json.
The results are kept in tools/mutation_results: `gen_log.py --collect` copies them there from the scratch directories of the runs.
Runs 1-8: edits of the model (Lean definitions). T: edits of the Python text made by a program, translated again.
X, Y, I: edits of the Python text made by hand, translated again (faults, calls and arguments; order of calls and what becomes of a fault; imports).
C: edits of the characters in Verif/Py/Of*.lean, everything else kept. S: edits of the lexer, the parser and the meaning in Verif/Py."""
import json, os, sys, glob
here = os.path.dirname(os.path.abspath(__file__))
res = os.path.join(here, "mutation_results")
FILES = {str(n): f"/tmp/mc/muts{n}_out*.jsonl" for n in range(2, 10)}
FILES["1"] = "/tmp/mc/out[01].jsonl"
FILES.update(T="/tmp/tm/b1_out*.jsonl", T2="/tmp/tm/b2_out*.jsonl", X="/tmp/xm/out.jsonl", Y="/tmp/ym/out.jsonl", I="/tmp/im/out.jsonl", P="/tmp/tm/again.jsonl", C="/tmp/pm/text.jsonl", S="/tmp/pm/syntax.jsonl")
if "--collect" in sys.argv:
    for k, pat in FILES.items():
        seen = {}
        for f in sorted(glob.glob(pat)):
            for n, l in enumerate(open(f)):
                x = json.loads(l)
                seen[x.setdefault("i", n)] = x
        if seen:
            with open(os.path.join(res, k + ".jsonl"), "w") as o:
                for i in sorted(seen):
                    o.write(json.dumps({a: b for a, b in seen[i].items() if a not in ("log", "secs", "badsrc", "start", "end")}, ensure_ascii=False) + "\n")
tight = json.load(open(os.path.join(here, "tightened.json")))
manifest = {t.split(".")[-1] for c in json.load(open(os.path.join(here, "..", "MANIFEST.json")))["claims"] for t in c["theorems"]}
deps = json.load(open(os.path.join(res, "dependents.json"))) if os.path.exists(os.path.join(res, "dependents.json")) else {}
OF = {"utils.py": "C81", "crypto.py": "C81", "exceptions.py": "C81", "libs/base58.py": "C82", "libs/ripemd160.py": "C83", "wif.py": "C85", "p2pkh_address.py": "C85", "bip38.py": "C86"}
MOD = {"exceptions.py": "Exceptions", "const.py": "Const", "utils.py": "Utils", "libs/base58.py": "Base58", "libs/ripemd160.py": "Ripemd160", "crypto.py": "Crypto", "secp256k1/point.py": "Point", "secp256k1/public_key.py": "PublicKey", "secp256k1/private_key.py": "PrivateKey", "wif.py": "Wif", "p2pkh_address.py": "P2pkhAddress", "bip38.py": "Bip38", "cryptocurrencies.py": "Cryptocurrencies"}
# the theorems about the characters of a file, by the prefix of the lemmas about it
CHARS = {v[0].lower() + v[1:]: "_characters_" + "".join("_" + c.lower() if c.isupper() else c for c in v[0].lower() + v[1:]) for v in MOD.values()}
CHARS.update(package="C96_characters", files="C96_characters", cryptocurrencies="C97_characters")
isC = lambda b: len(b) > 3 and b[0] == "C" and b[1:3].isdigit() and b[3] == "_"
def read(k):
    p = os.path.join(res, k + ".jsonl")
    return [json.loads(l) for l in open(p)] if os.path.exists(p) else []
again = {x["i"]: x for x in read("P")}
rows = []
for k in [str(n) for n in range(1, 10)] + ["T", "T2", "X", "Y", "I", "C", "S"]:
    for x in read(k):
        key = f'{k}/{x["i"]}'
        t = tight.get(key, {})
        if k.isdigit():
            failed = set(x["broken"]) | {f for f in x["fails"] if not f.startswith("example@")}
            row = dict(definition=f'{x["definition"]} ({x["file"]})', what=x["desc"], claims=x["claims"], survived=x["ok"])
        elif k[0] == "T":
            failed = set(x.get("fails", [])) | set(x.get("theorems", []))
            if k == "T" and x["i"] in again: failed |= set(again[x["i"]]["fails"])
            where = f'bip38/{x["file"]}:{x["line"]} {x["fn"]}'
            row = dict(definition=where, what=f'generated ({x["kind"]}); the text is translated again', claims=[OF.get(x["file"], "C84")], survived=x["status"] in ("survived", "same term"))
        elif k == "C":
            failed = set(x["fails"])
            row = dict(definition=f'{MOD[x["file"]]}Text (Verif/Py/Of{MOD[x["file"]]}.lean), line {x["line"]} of bip38/{x["file"]}', what="the characters edited, everything else kept", claims=[OF.get(x["file"], "C84")], survived=x["rc"] == 0)
        elif k == "S":
            failed = {f[3].lower() + f[4:] + "_ps" if f.startswith("?Of") else f for f in x["fails"]}
            row = dict(definition=x["file"], what=x["what"], claims=["C96"] if "Tops" in x["file"] else ["C97"] if "Classes" in x["file"] else ["C81", "C82", "C83", "C84", "C85", "C86"], survived=not x["fails"])
        elif k == "I":
            failed = set(x["failed"])
            row = dict(definition=f'bip38/{x["file"]}', what=x["edit"], claims=["C97"] if "cryptocurrencies.py" in x["file"] else ["C96"], survived=x["result"] == "survived")
        else:
            failed = set(x.get("fails", []))
            row = dict(definition=f'bip38/{x["file"]}', what=x["desc"], claims=x["claims"], survived=x["status"] == "survived")
        lem = sorted(b for b in failed if not isC(b))
        ths = {b for b in failed if isC(b)}
        if not k.isdigit():
            for b in lem: ths |= set(deps.get(b.split(".")[-1], []))
        if k in "CS":
            for b in lem:
                c = CHARS.get(b.split("_")[0])
                if c: ths |= {t for t in manifest if t == c or c[0] == "_" and t.endswith(c)} | ({"C96_characters_names"} if b.startswith("files") else set())
                if b.startswith("bip38_"): ths.add("C86_characters")
                if "Program" in x["file"] or b.startswith("program"): ths |= {"C86_characters", "C86_characters_program"}
        ths = sorted(b for b in ths if b in manifest or k.isdigit())
        row = dict(run=key, definition=row["definition"], edit=f'{x["old"]!r} -> {x["new"]!r}', what=row["what"], claims_broken=t.get("claims", row["claims"]),
                   theorems_failed=ths, lemmas_failed=lem, survived=row["survived"], theorems_tightened=t.get("tightened", []))
        if x.get("status") in ("untranslatable", "gen_sim"):
            row["note"] = "the edited text leaves the part of Python that the translation takes, so no model is made of it: " + x.get("note", "").strip()[:200]
        if k == "C" and x["rc"] and not x["fails"]:
            row["note"] = "not accepted: the kernel, comparing what the edited text defines with the terms, runs out of the memory it is given"
        if "note" in t:
            row["note"] = t["note"]
        rows.append(row)
with open(os.path.join(here, "..", "seeded", "LOG.jsonl"), "w") as f:
    for r in rows:
        f.write(json.dumps(r, ensure_ascii=False) + "\n")
print(len(rows), "edits,", sum(r["survived"] for r in rows), "survived,", sum(not r["survived"] and not r["theorems_failed"] and not r.get("note", "").startswith("the edited") for r in rows), "without a failed theorem")
for r in rows:
    if not r["survived"] and not r["theorems_failed"] and not r.get("note") or r["survived"] and not r.get("note"): print("  ", r["run"], r["definition"], r["edit"][:100], r["lemmas_failed"][:3], r["survived"])
