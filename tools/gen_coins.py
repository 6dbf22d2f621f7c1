#!/usr/bin/env python3
"""Reads /repo/bip38/cryptocurrencies.py as text and writes lean/Verif/Model/Coins.lean.
The file is parsed with `ast` (never imported or executed)."""
import ast, os
src = open("/repo/bip38/cryptocurrencies.py", encoding="utf-8").read()
tree = ast.parse(src)
coins = []
for node in tree.body:
    if not isinstance(node, ast.ClassDef) or node.name == "ICryptocurrency":
        continue
    assert [b.id for b in node.bases] == ["ICryptocurrency"], node.name
    nets, alpha = None, None
    for st in node.body:
        if isinstance(st, ast.Assign):
            tgt = st.targets[0].id
            if tgt == "NETWORKS":
                nets = ast.literal_eval(st.value)
            elif tgt == "ALPHABET":
                alpha = ast.literal_eval(st.value)
            else:
                raise SystemExit("unknown attribute " + tgt)
        else:
            raise SystemExit("unknown statement in " + node.name)
    for d in nets.values():
        assert set(d) == {"wif_prefix", "address_prefix"}
    coins.append((node.name, node.lineno, node.end_lineno, nets, alpha))
w = []
w.append('''import Verif.Model.Base58
/-!
# Model of `bip38/cryptocurrencies.py` (generated by `tools/gen_coins.py`, do not edit)
-/
namespace Bip38

/-- One entry of a `NETWORKS` dictionary (`bip38/cryptocurrencies.py:14`). -/
structure Net where
  wifPrefix : Nat
  addressPrefix : Nat
  deriving DecidableEq, Repr

/-- A subclass of `ICryptocurrency` (`bip38/cryptocurrencies.py:12-15`): its `NETWORKS` dictionary in insertion
order and its optional `ALPHABET`. -/
structure Coin where
  name : String
  networks : List (String × Net)
  alphabet : Option Str
  deriving DecidableEq, Repr

/-- `list(cryptocurrency.NETWORKS.keys())`. -/
def Coin.networkNames (c : Coin) : List String := c.networks.map (·.1)

/-- `cryptocurrency.NETWORKS[network]`; `none` is Python's `KeyError`. -/
def Coin.net? (c : Coin) (network : String) : Option Net := c.networks.lookup network

namespace Coins
''')
for name, a, b, nets, alpha in coins:
    body = ", ".join('("%s", ⟨0x%x, 0x%x⟩)' % (n, d["wif_prefix"], d["address_prefix"]) for n, d in nets.items())
    al = "none" if alpha is None else '(some "%s".toList)' % alpha
    w.append("/-- `bip38/cryptocurrencies.py:%d-%d` -/\ndef %s : Coin := ⟨\"%s\", [%s], %s⟩\n" % (a, b, name, name, body, al))
w.append("/-- All %d cryptocurrency classes of the module. -/\ndef all : List Coin := [" % len(coins))
w.append(",\n".join("  " + ", ".join(c[0] for c in coins[i:i+8]) for i in range(0, len(coins), 8)) + "]\n")
w.append("end Coins\nend Bip38\n")
out = os.path.join(os.path.dirname(os.path.abspath(__file__)), "..", "lean", "Verif", "Model", "Coins.lean")
open(out, "w", encoding="utf-8").write("\n".join(w))
print(len(coins), sum(len(c[3]) for c in coins))
