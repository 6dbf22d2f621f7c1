{"i": 0, "file": "Verif/Py/Syntax.lean", "what": "`+` and `*` exchange their precedence", "old": "  | 8 => if", "new": "  | 99 => if", "fails": ["base58_definitions"], "err": ["Verif/Py/OfBase58.lean:118:8: (kernel) declaration type mismatch, 'Bip38.Py.base58_definitions' has type", "Lean exited with code 1", "build failed"]}
{"i": 1, "file": "Verif/Py/Syntax.lean", "what": "binary operators group to the right", "old": "| some op => match pe f (.level (n + 1)) ts", "new": "| some op => match pe f (.level n) ts", "fails": ["?OfWif"], "err": ["Verif/Py/OfRipemd160.lean:189:8: (kernel) declaration type mismatch, 'Bip38.Py.ripemd160_definitions' has type", "Lean exited with code 1", "build failed"]}
{"i": 2, "file": "Verif/Py/Syntax.lean", "what": "`a if c else b` with the branches exchanged", "old": "some (.ite c a b, ts)", "new": "some (.ite c b a, ts)", "fails": ["utils_definitions"], "err": ["Verif/Py/OfUtils.lean:157:8: (kernel) declaration type mismatch, 'Bip38.Py.utils_definitions' has type", "Lean exited with code 1", "build failed"]}
{"i": 100, "file": "Verif/Py/Program.lean", "what": "a module under the wrong name", "old": "(v!\"bip38.const\", m.const), (v!\"bip38.utils\", m.utils)", "new": "(v!\"bip38.const\", m.utils), (v!\"bip38.utils\", m.const)", "fails": ["crypto_imports_in", "wif_imports_in", "point_imports_in", "publicKey_imports_in", "privateKey_imports_in", "p2pkhAddress_imports_in", "bip38_imports_in"], "err": ["Verif/Py/OnlyProgram.lean:121:8: (kernel) declaration type mismatch, 'Bip38.Py.crypto_imports_in' has type", "Verif/Py/OnlyProgram.lean:145:8: (kernel) declaration type mismatch, 'Bip38.Py.wif_imports_in' has type"]}
{"i": 101, "file": "Verif/Py/Program.lean", "what": "the meaning of one file left open", "old": "  const : Defines H (strOf m.exceptions) [v!\"bip38\"] m.world (fun _ => []) ConstText m.const\n", "new": "  const : True\n", "fails": ["program_means", "program_only"], "err": ["Verif/Py/OnlyProgram.lean:534:23: Application type mismatch: The argument", "Verif/Py/OnlyProgram.lean:542:129: Application type mismatch: The argument"]}
{"i": 102, "file": "Verif/Py/Program.lean", "what": "the methods of a class not those of its text", "old": "(fun n => methodsBefore n (classMethods pointNames m.point)) PointText", "new": "(fun n => methodsBefore n (classMethods pointNames m.privateKey)) PointText", "fails": ["program_means", "program_only"], "err": ["Verif/Py/OnlyProgram.lean:534:104: Application type mismatch: The argument", "Verif/Py/OnlyProgram.lean:552:88: Application type mismatch: The argument"]}
{"i": 103, "file": "Verif/Py/Program.lean", "what": "a method listed before one that it calls", "old": "v!\"underlying_object\", v!\"x\", v!\"y\", v!\"raw_encoded\", v!\"raw_decoded\",\n  v!\"raw\", ", "new": "v!\"underlying_object\", v!\"x\", v!\"y\", v!\"raw\", v!\"raw_encoded\", v!\"raw_decoded\",\n  ", "fails": ["point_order"], "err": ["Verif/Py/OnlyProgram.lean:22:8: (kernel) declaration type mismatch, 'Bip38.Py.point_order' has type", "Lean exited with code 1"]}
{"i": 104, "file": "Verif/Py/Program.lean", "what": "`secp256k1/__init__.py` hands on what another file imports", "old": "m.world Secp256k1Text m.secp256k1", "new": "m.world PointText m.secp256k1", "fails": ["secp256k1_means", "program_only"], "err": ["Verif/Py/OnlyProgram.lean:532:0: maximum recursion depth has been reached", "Verif/Py/OnlyProgram.lean:558:62: maximum recursion depth has been reached"]}
{"i": 105, "file": "Verif/Py/Program.lean", "what": "the bundled base58 replaced by another text", "old": "Base58Text m.base58", "new": "Ripemd160Text m.base58", "fails": ["secp256k1_means", "program_only"], "err": ["Verif/Py/OnlyProgram.lean:532:0: maximum recursion depth has been reached", "Verif/Py/OnlyProgram.lean:550:97: maximum recursion depth has been reached"]}
{"i": 106, "file": "Verif/Py/Program.lean", "what": "functions counted as methods", "old": "| some (.method f) => some (c, f)", "new": "| some (.method f) => some (c, f)\n    | some (.fn f) => some (c, f)", "fails": ["point_order", "publicKey_order", "privateKey_order", "bip38_order"], "err": ["Verif/Py/OnlyProgram.lean:22:8: (kernel) declaration type mismatch, 'Bip38.Py.point_order' has type", "Verif/Py/OnlyProgram.lean:23:8: (kernel) declaration type mismatch, 'Bip38.Py.publicKey_order' has type"]}
