{"i": 12, "file": "libs/base58.py", "line": 32, "old": "val >= len(alphabet)", "new": "(not (val >= len(alphabet)))", "rc": 1, "fails": ["base58_definitions"], "err": ["(kernel) declaration type mismatch, 'Bip38.Py.base58_definitions' has type"], "tail": ""}
{"i": 24, "file": "p2pkh_address.py", "line": 59, "old": ", alphabet=kwargs.get(\n                \"alphabet\", cls.alphabet\n            )", "new": "", "rc": 1, "fails": ["p2pkhAddress_definitions"], "err": ["(kernel) declaration type mismatch, 'Bip38.Py.p2pkhAddress_definitions' has type"], "tail": ""}
{"i": 44, "file": "libs/base58.py", "line": 17, "old": "256", "new": "255", "rc": 1, "fails": ["base58_definitions", "base58_defines"], "err": ["(kernel) deterministic timeout", "(kernel) unknown constant 'Bip38.Py.base58_definitions'"], "tail": ""}
{"i": 65, "file": "wif.py", "line": 146, "old": "0", "new": "1", "rc": 1, "fails": ["wif_definitions"], "err": ["(kernel) declaration type mismatch, 'Bip38.Py.wif_definitions' has type"], "tail": ""}
{"i": 75, "file": "bip38.py", "line": 409, "old": "in", "new": "not in", "rc": 134, "fails": [], "err": [], "tail": "libc++abi: terminating due to uncaught exception of type std::bad_alloc: std::bad_alloc\n"}
{"i": 94, "file": "wif.py", "line": 48, "old": "private_key", "new": "wif_payload", "rc": 1, "fails": ["wif_definitions"], "err": ["(kernel) declaration type mismatch, 'Bip38.Py.wif_definitions' has type"], "tail": ""}
{"i": 99, "file": "crypto.py", "line": 29, "old": "in", "new": "not in", "rc": 1, "fails": ["crypto_definitions"], "err": ["(kernel) declaration type mismatch, 'Bip38.Py.crypto_definitions' has type"], "tail": ""}
{"i": 106, "file": "utils.py", "line": 35, "old": "TypeError(\"Agreement must be either 'bytes' or 'string'!\")", "new": "(\"Agreement must be either 'bytes' or 'string'!\")", "rc": 1, "fails": ["utils_definitions"], "err": ["(kernel) declaration type mismatch, 'Bip38.Py.utils_definitions' has type"], "tail": ""}
{"i": 120, "file": "libs/base58.py", "line": 17, "old": "256", "new": "257", "rc": 1, "fails": ["base58_definitions", "base58_defines"], "err": ["(kernel) deterministic timeout", "(kernel) unknown constant 'Bip38.Py.base58_definitions'"], "tail": ""}
{"i": 141, "file": "secp256k1/point.py", "line": 48, "old": "curve_secp256k1, point", "new": "point, curve_secp256k1", "rc": 1, "fails": ["point_definitions"], "err": ["(kernel) declaration type mismatch, 'Bip38.Py.point_definitions' has type"], "tail": ""}
{"i": 142, "file": "wif.py", "line": 124, "old": "wif_type == \"wif\"", "new": "(not (wif_type == \"wif\"))", "rc": 1, "fails": ["wif_definitions"], "err": ["(kernel) declaration type mismatch, 'Bip38.Py.wif_definitions' has type"], "tail": ""}
{"i": 161, "file": "wif.py", "line": 124, "old": "\"wif\"", "new": "\"wifx\"", "rc": 1, "fails": ["wif_definitions"], "err": ["(kernel) declaration type mismatch, 'Bip38.Py.wif_definitions' has type"], "tail": ""}
{"i": 185, "file": "p2pkh_address.py", "line": 59, "old": "\"alphabet\", cls.alphabet", "new": "cls.alphabet, \"alphabet\"", "rc": 1, "fails": ["p2pkhAddress_definitions"], "err": ["(kernel) declaration type mismatch, 'Bip38.Py.p2pkhAddress_definitions' has type"], "tail": ""}
{"i": 210, "file": "libs/base58.py", "line": 16, "old": "enumerate(data[::-1])", "new": "(data[::-1])", "rc": 1, "fails": ["base58_definitions"], "err": ["(kernel) declaration type mismatch, 'Bip38.Py.base58_definitions' has type"], "tail": ""}
{"i": 211, "file": "libs/base58.py", "line": 32, "old": ">=", "new": ">", "rc": 1, "fails": ["base58_definitions"], "err": ["(kernel) declaration type mismatch, 'Bip38.Py.base58_definitions' has type"], "tail": ""}
{"i": 214, "file": "utils.py", "line": 77, "old": "False", "new": "True", "rc": 1, "fails": ["utils_definitions"], "err": ["(kernel) declaration type mismatch, 'Bip38.Py.utils_definitions' has type"], "tail": ""}
{"i": 230, "file": "p2pkh_address.py", "line": 49, "old": "not ", "new": "", "rc": 1, "fails": ["p2pkhAddress_definitions"], "err": ["(kernel) declaration type mismatch, 'Bip38.Py.p2pkhAddress_definitions' has type"], "tail": ""}
{"i": 286, "file": "libs/ripemd160.py", "line": 78, "old": "32", "new": "33", "rc": 1, "fails": ["ripemd160_definitions"], "err": ["(kernel) declaration type mismatch, 'Bip38.Py.ripemd160_definitions' has type"], "tail": ""}
{"i": 299, "file": "utils.py", "line": 96, "old": "False", "new": "True", "rc": 1, "fails": ["utils_definitions"], "err": ["(kernel) declaration type mismatch, 'Bip38.Py.utils_definitions' has type"], "tail": ""}
{"i": 304, "file": "libs/base58.py", "line": 44, "old": "chk", "new": "raw", "rc": 1, "fails": ["base58_definitions"], "err": ["(kernel) declaration type mismatch, 'Bip38.Py.base58_definitions' has type"], "tail": ""}
{"i": 311, "file": "exceptions.py", "line": 21, "old": "expected", "new": "message", "rc": 1, "fails": ["exceptions_definitions"], "err": ["(kernel) declaration type mismatch, 'Bip38.Py.exceptions_definitions' has type"], "tail": ""}
{"i": 324, "file": "p2pkh_address.py", "line": 49, "old": "not isinstance(public_key, PublicKey)", "new": "(not (not isinstance(public_key, PublicKey)))", "rc": 1, "fails": ["p2pkhAddress_definitions"], "err": ["(kernel) declaration type mismatch, 'Bip38.Py.p2pkhAddress_definitions' has type"], "tail": ""}
{"i": 352, "file": "libs/base58.py", "line": 39, "old": "0", "new": "1", "rc": 1, "fails": ["base58_definitions"], "err": ["(kernel) declaration type mismatch, 'Bip38.Py.base58_definitions' has type"], "tail": ""}
{"i": 374, "file": "libs/base58.py", "line": 60, "old": "256", "new": "257", "rc": 1, "fails": ["base58_definitions"], "err": ["(kernel) declaration type mismatch, 'Bip38.Py.base58_definitions' has type"], "tail": ""}
{"i": 377, "file": "libs/ripemd160.py", "line": 84, "old": "h2", "new": "block", "rc": 1, "fails": ["ripemd160_definitions"], "err": ["(kernel) declaration type mismatch, 'Bip38.Py.ripemd160_definitions' has type"], "tail": ""}
{"i": 436, "file": "p2pkh_address.py", "line": 95, "old": "raise AddressError(f\"Invalid prefix (expected: {address_prefix}, got: {prefix_got})\")", "new": "pass", "rc": 1, "fails": ["p2pkhAddress_definitions"], "err": ["(kernel) declaration type mismatch, 'Bip38.Py.p2pkhAddress_definitions' has type"], "tail": ""}
{"i": 447, "file": "wif.py", "line": 55, "old": "encode(wif_compressed_payload + get_checksum(wif_compressed_payload))", "new": "(wif_compressed_payload + get_checksum(wif_compressed_payload))", "rc": 1, "fails": ["wif_definitions"], "err": ["(kernel) declaration type mismatch, 'Bip38.Py.wif_definitions' has type"], "tail": ""}
