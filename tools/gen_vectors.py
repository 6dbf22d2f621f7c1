import json
v=json.load(open('/repo/tests/data/values.json'))
def s(x): return json.dumps(x,ensure_ascii=False)
def o(x): return "none" if x is None else "(some %s)"%x
L=[]
b=v['bip38']
for t in b['intermediate_code']:
    sal = ".none" if not t['owner_salt'] else '(.str %s.toList)'%s(t['owner_salt'])
    L.append('chk "inter" (intermediateCode P %s.toList %s %s %s []) (.ok %s.toList)'%(s(t['passphrase']),o(t['lot']),o(t['sequence']),sal,s(t['intermediate_passphrase'])))
for t in b['encrypt']:
    L.append('chk "enc" (do let x ← BIP38.new (.coin Coins.Bitcoin) %s; x.encrypt P %s.toList %s.toList) (.ok %s.toList)'%(s(t['network']),s(t['wif']),s(t['passphrase']),s(t['encrypted_wif'])))
for t in b['create_new_encrypted_wif']:
    L.append('chk "create" (do let x ← BIP38.new (.coin Coins.Bitcoin); x.createNewEncryptedWif P %s.toList %s (.str %s.toList) none []) (.ok ⟨%s.toList,%s.toList,%s.toList,%s.toList,%s,%s.toList⟩)'%(s(t['intermediate_passphrase']),s(t['wif_type']),s(t['seed']),s(t['encrypted_wif']),s(t['confirmation_code']),s(t['public_key']),s(t['seed']),s(t['public_key_type']),s(t['address'])))
for t in b['confirm_code']:
    L.append('chk "confirm" (do let x ← BIP38.new (.coin Coins.Bitcoin); x.confirmCode P %s.toList %s.toList none true) (.ok (.detail ⟨%s.toList,%s,%s.toList,%s,%s⟩))'%(s(t['passphrase']),s(t['confirmation_code']),s(t['public_key']),s(t['public_key_type']),s(t['address']),o(t['lot']),o(t['sequence'])))
for t in b['decrypt']:
    L.append('chk "decrypt" (do let x ← BIP38.new (.coin Coins.Bitcoin) %s; x.decrypt P %s.toList %s.toList none true) (.ok (.detail ⟨%s.toList,%s.toList,%s,%s.toList,%s,%s,%s.toList,%s,%s⟩))'%(s(t['network']),s(t['encrypted_wif']),s(t['passphrase']),s(t['wif']),s(t['private_key']),s(t['wif_type']),s(t['public_key']),s(t['public_key_type']),"none" if t['seed'] is None else '(some %s.toList)'%s(t['seed']),s(t['address']),o(t['lot']),o(t['sequence'])))
c=v['crypto']
L.append('chk "rip" (ripemd160 P (.str %s.toList)) (.ok ((fromHex %s.toList).getD []))'%(s(c['data']),s(c['ripemd160'])))
L.append('chk "sha" (sha256 P (.str %s.toList)) (.ok ((fromHex %s.toList).getD []))'%(s(c['data']),s(c['sha256'])))
L.append('chk "dsha" (doubleSha256 P (.str %s.toList)) (.ok ((fromHex %s.toList).getD []))'%(s(c['data']),s(c['double_sha256'])))
L.append('chk "chksum" (getChecksum P (.str %s.toList)) (.ok ((fromHex %s.toList).getD []))'%(s(c['data']),s(c['get_checksum'])))
L.append('chk "h160" (hash160 P (.str %s.toList)) (.ok ((fromHex %s.toList).getD []))'%(s(c['data']),s(c['hash160'])))
for k in ('compressed','uncompressed'):
    t=v['p2pkh_address'][k]
    L.append('chk "addr" (p2pkhEncode P (.data (.str %s.toList)) 0 %s) (.ok %s.toList)'%(s(t['public_key']),s(k),s(t['encode'])))
    L.append('chk "addrd" (p2pkhDecode P %s.toList 0) (.ok %s.toList)'%(s(t['encode']),s(t['decode'])))
    w=v['wif'][k]
    for n in ('mainnet','testnet','regtest'):
        ty=w['wif_type']
        L.append('chk "wif" (privateKeyToWif P (.str %s.toList) %s Coins.Bitcoin %s) (.ok %s.toList)'%(s(v['wif']['private_key']),s(ty),s(n),s(w['wif'][n])))
        L.append('chk "wif2" (wifToPrivateKey %s.toList Coins.Bitcoin %s) (.ok %s.toList)'%(s(w['wif'][n]),s(n),s(v['wif']['private_key'])))
        L.append('chk "wift" (getWifType %s.toList Coins.Bitcoin %s) (.ok %s)'%(s(w['wif'][n]),s(n),s(ty)))
        L.append('chk "wifc" (getWifChecksum %s.toList Coins.Bitcoin %s) (.ok %s.toList)'%(s(w['wif'][n]),s(n),s(w['wif_checksum'][n])))
    pk=v['secp256k1'][k]
    L.append('chk "pk" ((PublicKey.fromBytes ((fromHex %s.toList).getD [])).map fun k => (k.rawCompressed, k.rawUncompressed, k.x, k.y)) (.ok ((fromHex %s.toList).getD [], (fromHex %s.toList).getD [], %d, %d))'%(s(pk['public_key']),s(v['secp256k1']['compressed']['public_key']),s(v['secp256k1']['uncompressed']['public_key']),pk['point']['x'],pk['point']['y']))
    L.append('chk "pt" ((Point.fromBytes ((fromHex %s.toList).getD []))) (.ok (.aff %d %d))'%(s(pk['point']['encode']),pk['point']['x'],pk['point']['y']))
sk=v['secp256k1']
L.append('chk "sk" ((PrivateKey.fromBytes ((fromHex %s.toList).getD [])).map fun k => (hex k.raw, hex k.publicKey.rawCompressed)) (.ok (%s.toList, %s.toList))'%(s(sk['private_key']),s(sk['private_key']),s(sk['compressed']['public_key'])))
for m,h in [("","9c1185a5c5e9fc54612808977ee8f548b2258d31"),("a","0bdc9d2d256b3ee9daae347be6f4dc835a467ffe"),("abc","8eb208f7e05d987a9b044a8e98c6b087f15a0bfc"),("abcdbcdecdefdefgefghfghighijhijkijkljklmklmnlmnomnopnopq","12a053384a9c0c88e405a06c27dcf49ada62eb2b"),("1234567890"*8,"9b752e45573d4b39f4dbd3323cab82bf63326bfb")]:
    L.append('chk "rmd" (.ok (Ripemd.ripemd160 (utf8 %s.toList))) (.ok ((fromHex %s.toList).getD []))'%(s(m),s(h)))
open('Main.lean','w').write('''import Verif
open Bip38
def P : Prims := Std.prims id
def chk {α} [DecidableEq α] [Repr α] (n : String) (a b : Py α) : IO Unit := do
  if a = b then IO.println s!"ok {n}" else IO.println s!"FAIL {n} {repr a}"
def main : IO Unit := do
'''+"\n".join("  "+l for l in L)+"\n")
print(len(L))
