import Verif.Src.Exceptions
/-!
# `bip38/libs/ripemd160.py` (generated by `tools/gen_src.py`, do not edit)
-/
set_option linter.unusedVariables false
set_option linter.style.longLine false
namespace Bip38.Src

/-- `bip38/libs/ripemd160.py:18` `ML` -/
def ripemd160_ML (H : Host) : Run Val :=
  (eList [(eConst (.int 0)), (eConst (.int 1)), (eConst (.int 2)), (eConst (.int 3)), (eConst (.int 4)), (eConst (.int 5)), (eConst (.int 6)), (eConst (.int 7)), (eConst (.int 8)), (eConst (.int 9)), (eConst (.int 10)), (eConst (.int 11)), (eConst (.int 12)), (eConst (.int 13)), (eConst (.int 14)), (eConst (.int 15)), (eConst (.int 7)), (eConst (.int 4)), (eConst (.int 13)), (eConst (.int 1)), (eConst (.int 10)), (eConst (.int 6)), (eConst (.int 15)), (eConst (.int 3)), (eConst (.int 12)), (eConst (.int 0)), (eConst (.int 9)), (eConst (.int 5)), (eConst (.int 2)), (eConst (.int 14)), (eConst (.int 11)), (eConst (.int 8)), (eConst (.int 3)), (eConst (.int 10)), (eConst (.int 14)), (eConst (.int 4)), (eConst (.int 9)), (eConst (.int 15)), (eConst (.int 8)), (eConst (.int 1)), (eConst (.int 2)), (eConst (.int 7)), (eConst (.int 0)), (eConst (.int 6)), (eConst (.int 13)), (eConst (.int 11)), (eConst (.int 5)), (eConst (.int 12)), (eConst (.int 1)), (eConst (.int 9)), (eConst (.int 11)), (eConst (.int 10)), (eConst (.int 0)), (eConst (.int 8)), (eConst (.int 12)), (eConst (.int 4)), (eConst (.int 13)), (eConst (.int 3)), (eConst (.int 7)), (eConst (.int 15)), (eConst (.int 14)), (eConst (.int 5)), (eConst (.int 6)), (eConst (.int 2)), (eConst (.int 4)), (eConst (.int 0)), (eConst (.int 5)), (eConst (.int 9)), (eConst (.int 7)), (eConst (.int 12)), (eConst (.int 2)), (eConst (.int 10)), (eConst (.int 14)), (eConst (.int 1)), (eConst (.int 3)), (eConst (.int 8)), (eConst (.int 11)), (eConst (.int 6)), (eConst (.int 15)), (eConst (.int 13))]) Env.empty

/-- `bip38/libs/ripemd160.py:27` `MR` -/
def ripemd160_MR (H : Host) : Run Val :=
  (eList [(eConst (.int 5)), (eConst (.int 14)), (eConst (.int 7)), (eConst (.int 0)), (eConst (.int 9)), (eConst (.int 2)), (eConst (.int 11)), (eConst (.int 4)), (eConst (.int 13)), (eConst (.int 6)), (eConst (.int 15)), (eConst (.int 8)), (eConst (.int 1)), (eConst (.int 10)), (eConst (.int 3)), (eConst (.int 12)), (eConst (.int 6)), (eConst (.int 11)), (eConst (.int 3)), (eConst (.int 7)), (eConst (.int 0)), (eConst (.int 13)), (eConst (.int 5)), (eConst (.int 10)), (eConst (.int 14)), (eConst (.int 15)), (eConst (.int 8)), (eConst (.int 12)), (eConst (.int 4)), (eConst (.int 9)), (eConst (.int 1)), (eConst (.int 2)), (eConst (.int 15)), (eConst (.int 5)), (eConst (.int 1)), (eConst (.int 3)), (eConst (.int 7)), (eConst (.int 14)), (eConst (.int 6)), (eConst (.int 9)), (eConst (.int 11)), (eConst (.int 8)), (eConst (.int 12)), (eConst (.int 2)), (eConst (.int 10)), (eConst (.int 0)), (eConst (.int 4)), (eConst (.int 13)), (eConst (.int 8)), (eConst (.int 6)), (eConst (.int 4)), (eConst (.int 1)), (eConst (.int 3)), (eConst (.int 11)), (eConst (.int 15)), (eConst (.int 0)), (eConst (.int 5)), (eConst (.int 12)), (eConst (.int 2)), (eConst (.int 13)), (eConst (.int 9)), (eConst (.int 7)), (eConst (.int 10)), (eConst (.int 14)), (eConst (.int 12)), (eConst (.int 15)), (eConst (.int 10)), (eConst (.int 4)), (eConst (.int 1)), (eConst (.int 5)), (eConst (.int 8)), (eConst (.int 7)), (eConst (.int 6)), (eConst (.int 2)), (eConst (.int 13)), (eConst (.int 14)), (eConst (.int 0)), (eConst (.int 3)), (eConst (.int 9)), (eConst (.int 11))]) Env.empty

/-- `bip38/libs/ripemd160.py:36` `RL` -/
def ripemd160_RL (H : Host) : Run Val :=
  (eList [(eConst (.int 11)), (eConst (.int 14)), (eConst (.int 15)), (eConst (.int 12)), (eConst (.int 5)), (eConst (.int 8)), (eConst (.int 7)), (eConst (.int 9)), (eConst (.int 11)), (eConst (.int 13)), (eConst (.int 14)), (eConst (.int 15)), (eConst (.int 6)), (eConst (.int 7)), (eConst (.int 9)), (eConst (.int 8)), (eConst (.int 7)), (eConst (.int 6)), (eConst (.int 8)), (eConst (.int 13)), (eConst (.int 11)), (eConst (.int 9)), (eConst (.int 7)), (eConst (.int 15)), (eConst (.int 7)), (eConst (.int 12)), (eConst (.int 15)), (eConst (.int 9)), (eConst (.int 11)), (eConst (.int 7)), (eConst (.int 13)), (eConst (.int 12)), (eConst (.int 11)), (eConst (.int 13)), (eConst (.int 6)), (eConst (.int 7)), (eConst (.int 14)), (eConst (.int 9)), (eConst (.int 13)), (eConst (.int 15)), (eConst (.int 14)), (eConst (.int 8)), (eConst (.int 13)), (eConst (.int 6)), (eConst (.int 5)), (eConst (.int 12)), (eConst (.int 7)), (eConst (.int 5)), (eConst (.int 11)), (eConst (.int 12)), (eConst (.int 14)), (eConst (.int 15)), (eConst (.int 14)), (eConst (.int 15)), (eConst (.int 9)), (eConst (.int 8)), (eConst (.int 9)), (eConst (.int 14)), (eConst (.int 5)), (eConst (.int 6)), (eConst (.int 8)), (eConst (.int 6)), (eConst (.int 5)), (eConst (.int 12)), (eConst (.int 9)), (eConst (.int 15)), (eConst (.int 5)), (eConst (.int 11)), (eConst (.int 6)), (eConst (.int 8)), (eConst (.int 13)), (eConst (.int 12)), (eConst (.int 5)), (eConst (.int 12)), (eConst (.int 13)), (eConst (.int 14)), (eConst (.int 11)), (eConst (.int 8)), (eConst (.int 5)), (eConst (.int 6))]) Env.empty

/-- `bip38/libs/ripemd160.py:45` `RR` -/
def ripemd160_RR (H : Host) : Run Val :=
  (eList [(eConst (.int 8)), (eConst (.int 9)), (eConst (.int 9)), (eConst (.int 11)), (eConst (.int 13)), (eConst (.int 15)), (eConst (.int 15)), (eConst (.int 5)), (eConst (.int 7)), (eConst (.int 7)), (eConst (.int 8)), (eConst (.int 11)), (eConst (.int 14)), (eConst (.int 14)), (eConst (.int 12)), (eConst (.int 6)), (eConst (.int 9)), (eConst (.int 13)), (eConst (.int 15)), (eConst (.int 7)), (eConst (.int 12)), (eConst (.int 8)), (eConst (.int 9)), (eConst (.int 11)), (eConst (.int 7)), (eConst (.int 7)), (eConst (.int 12)), (eConst (.int 7)), (eConst (.int 6)), (eConst (.int 15)), (eConst (.int 13)), (eConst (.int 11)), (eConst (.int 9)), (eConst (.int 7)), (eConst (.int 15)), (eConst (.int 11)), (eConst (.int 8)), (eConst (.int 6)), (eConst (.int 6)), (eConst (.int 14)), (eConst (.int 12)), (eConst (.int 13)), (eConst (.int 5)), (eConst (.int 14)), (eConst (.int 13)), (eConst (.int 13)), (eConst (.int 7)), (eConst (.int 5)), (eConst (.int 15)), (eConst (.int 5)), (eConst (.int 8)), (eConst (.int 11)), (eConst (.int 14)), (eConst (.int 14)), (eConst (.int 6)), (eConst (.int 14)), (eConst (.int 6)), (eConst (.int 9)), (eConst (.int 12)), (eConst (.int 9)), (eConst (.int 12)), (eConst (.int 5)), (eConst (.int 15)), (eConst (.int 8)), (eConst (.int 8)), (eConst (.int 5)), (eConst (.int 12)), (eConst (.int 9)), (eConst (.int 12)), (eConst (.int 5)), (eConst (.int 14)), (eConst (.int 6)), (eConst (.int 8)), (eConst (.int 13)), (eConst (.int 6)), (eConst (.int 5)), (eConst (.int 15)), (eConst (.int 13)), (eConst (.int 11)), (eConst (.int 11))]) Env.empty

/-- `bip38/libs/ripemd160.py:54` `KL` -/
def ripemd160_KL (H : Host) : Run Val :=
  (eList [(eConst (.int 0)), (eConst (.int 0x5a827999)), (eConst (.int 0x6ed9eba1)), (eConst (.int 0x8f1bbcdc)), (eConst (.int 0xa953fd4e))]) Env.empty

/-- `bip38/libs/ripemd160.py:57` `KR` -/
def ripemd160_KR (H : Host) : Run Val :=
  (eList [(eConst (.int 0x50a28be6)), (eConst (.int 0x5c4dd124)), (eConst (.int 0x6d703ef3)), (eConst (.int 0x7a6d76e9)), (eConst (.int 0))]) Env.empty

/-- `bip38/libs/ripemd160.py:63`: `return x ^ y ^ z` -/
@[src] def ripemd160_fi_L63 (H : Host) : Stmt := fun env =>
  sReturn (eBin [] [] .xor (eBin [] [] .xor (eName v!"x") (eName v!"y")) (eName v!"z")) env

/-- `bip38/libs/ripemd160.py:65`: `return (x & y) | (~x & z)` -/
@[src] def ripemd160_fi_L65 (H : Host) : Stmt := fun env =>
  sReturn (eBin [] [] .or (eBin [] [] .and (eName v!"x") (eName v!"y")) (eBin [] [] .and (eInvert (eName v!"x")) (eName v!"z"))) env

/-- `bip38/libs/ripemd160.py:67`: `return (x | ~y) ^ z` -/
@[src] def ripemd160_fi_L67 (H : Host) : Stmt := fun env =>
  sReturn (eBin [] [] .xor (eBin [] [] .or (eName v!"x") (eInvert (eName v!"y"))) (eName v!"z")) env

/-- `bip38/libs/ripemd160.py:69`: `return (x & z) | (y & ~z)` -/
@[src] def ripemd160_fi_L69 (H : Host) : Stmt := fun env =>
  sReturn (eBin [] [] .or (eBin [] [] .and (eName v!"x") (eName v!"z")) (eBin [] [] .and (eName v!"y") (eInvert (eName v!"z")))) env

/-- `bip38/libs/ripemd160.py:71`: `return x ^ (y | ~z)` -/
@[src] def ripemd160_fi_L71 (H : Host) : Stmt := fun env =>
  sReturn (eBin [] [] .xor (eName v!"x") (eBin [] [] .or (eName v!"y") (eInvert (eName v!"z")))) env

/-- `bip38/libs/ripemd160.py:73`: `assert False` -/
@[src] def ripemd160_fi_L73 (H : Host) : Stmt := fun env =>
  sAssert (eConst (.bool false)) env

/-- `bip38/libs/ripemd160.py:70`: `elif i == 4:` -/
@[src] def ripemd160_fi_L70 (H : Host) : Stmt := fun env =>
  sIf (eCompare (eName v!"i") [(.eq, (eConst (.int 4)))]) [ripemd160_fi_L71 H] [ripemd160_fi_L73 H] env

/-- `bip38/libs/ripemd160.py:68`: `elif i == 3:` -/
@[src] def ripemd160_fi_L68 (H : Host) : Stmt := fun env =>
  sIf (eCompare (eName v!"i") [(.eq, (eConst (.int 3)))]) [ripemd160_fi_L69 H] [ripemd160_fi_L70 H] env

/-- `bip38/libs/ripemd160.py:66`: `elif i == 2:` -/
@[src] def ripemd160_fi_L66 (H : Host) : Stmt := fun env =>
  sIf (eCompare (eName v!"i") [(.eq, (eConst (.int 2)))]) [ripemd160_fi_L67 H] [ripemd160_fi_L68 H] env

/-- `bip38/libs/ripemd160.py:64`: `elif i == 1:` -/
@[src] def ripemd160_fi_L64 (H : Host) : Stmt := fun env =>
  sIf (eCompare (eName v!"i") [(.eq, (eConst (.int 1)))]) [ripemd160_fi_L65 H] [ripemd160_fi_L66 H] env

/-- `bip38/libs/ripemd160.py:62`: `if i == 0:` -/
@[src] def ripemd160_fi_L62 (H : Host) : Stmt := fun env =>
  sIf (eCompare (eName v!"i") [(.eq, (eConst (.int 0)))]) [ripemd160_fi_L63 H] [ripemd160_fi_L64 H] env

/-- `bip38/libs/ripemd160.py:60-73` `fi` -/
def ripemd160_fi (H : Host) : Fn :=
  defun [⟨v!"x", none⟩, ⟨v!"y", none⟩, ⟨v!"z", none⟩, ⟨v!"i", none⟩] none
    [ripemd160_fi_L62 H]

/-- `bip38/libs/ripemd160.py:78`: `return ((x << i) | ((x & 0xffffffff) >> (32 - i))) & 0xffffffff` -/
@[src] def ripemd160_rol_L78 (H : Host) : Stmt := fun env =>
  sReturn (eBin [] [] .and (eBin [] [] .or (eBin [] [] .shl (eName v!"x") (eName v!"i")) (eBin [] [] .shr (eBin [] [] .and (eName v!"x") (eConst (.int 0xffffffff))) (eBin [] [] .sub (eConst (.int 32)) (eName v!"i")))) (eConst (.int 0xffffffff))) env

/-- `bip38/libs/ripemd160.py:76-78` `rol` -/
def ripemd160_rol (H : Host) : Fn :=
  defun [⟨v!"x", none⟩, ⟨v!"i", none⟩] none
    [ripemd160_rol_L78 H]

/-- `bip38/libs/ripemd160.py:84`: `al, bl, cl, dl, el = h0, h1, h2, h3, h4` -/
@[src] def ripemd160_compress_L84 (H : Host) : Stmt := fun env =>
  sUnpack [.name v!"al", .name v!"bl", .name v!"cl", .name v!"dl", .name v!"el"] (eTuple [(eName v!"h0"), (eName v!"h1"), (eName v!"h2"), (eName v!"h3"), (eName v!"h4")]) env

/-- `bip38/libs/ripemd160.py:86`: `ar, br, cr, dr, er = h0, h1, h2, h3, h4` -/
@[src] def ripemd160_compress_L86 (H : Host) : Stmt := fun env =>
  sUnpack [.name v!"ar", .name v!"br", .name v!"cr", .name v!"dr", .name v!"er"] (eTuple [(eName v!"h0"), (eName v!"h1"), (eName v!"h2"), (eName v!"h3"), (eName v!"h4")]) env

/-- `bip38/libs/ripemd160.py:88`: `x = [struct.unpack("<L", block[4*i:4*(i+1)])[0] for i in range(16)]` -/
@[src] def ripemd160_compress_L88 (H : Host) : Stmt := fun env =>
  sAssign (.name v!"x") (eComprehension (eIndex (eCall xUnpack [(eConst (.str "<L".toList)), (eSlice (eName v!"block") (some (eBin [] [] .mul (eConst (.int 4)) (eName v!"i"))) (some (eBin [] [] .mul (eConst (.int 4)) (eBin [] [] .add (eName v!"i") (eConst (.int 1))))))] []) (eConst (.int 0))) v!"i" (eCall pyRange [(eConst (.int 16))] [])) env

/-- `bip38/libs/ripemd160.py:92`: `rnd = j >> 4` -/
@[src] def ripemd160_compress_L92 (H : Host) : Stmt := fun env =>
  sAssign (.name v!"rnd") (eBin [] [] .shr (eName v!"j") (eConst (.int 4))) env

/-- `bip38/libs/ripemd160.py:94`: `al = rol(al + fi(bl, cl, dl, rnd) + x[ML[j]] + KL[rnd], RL[j]) + el` -/
@[src] def ripemd160_compress_L94 (H : Host) : Stmt := fun env =>
  sAssign (.name v!"al") (eBin [] [] .add (eCall (ripemd160_rol H) [(eBin [] [] .add (eBin [] [] .add (eBin [] [] .add (eName v!"al") (eCall (ripemd160_fi H) [(eName v!"bl"), (eName v!"cl"), (eName v!"dl"), (eName v!"rnd")] [])) (eIndex (eName v!"x") (eIndex (eGlobal (ripemd160_ML H)) (eName v!"j")))) (eIndex (eGlobal (ripemd160_KL H)) (eName v!"rnd"))), (eIndex (eGlobal (ripemd160_RL H)) (eName v!"j"))] []) (eName v!"el")) env

/-- `bip38/libs/ripemd160.py:95`: `al, bl, cl, dl, el = el, al, bl, rol(cl, 10), dl` -/
@[src] def ripemd160_compress_L95 (H : Host) : Stmt := fun env =>
  sUnpack [.name v!"al", .name v!"bl", .name v!"cl", .name v!"dl", .name v!"el"] (eTuple [(eName v!"el"), (eName v!"al"), (eName v!"bl"), (eCall (ripemd160_rol H) [(eName v!"cl"), (eConst (.int 10))] []), (eName v!"dl")]) env

/-- `bip38/libs/ripemd160.py:97`: `ar = rol(ar + fi(br, cr, dr, 4 - rnd) + x[MR[j]] + KR[rnd], RR[j]) + er` -/
@[src] def ripemd160_compress_L97 (H : Host) : Stmt := fun env =>
  sAssign (.name v!"ar") (eBin [] [] .add (eCall (ripemd160_rol H) [(eBin [] [] .add (eBin [] [] .add (eBin [] [] .add (eName v!"ar") (eCall (ripemd160_fi H) [(eName v!"br"), (eName v!"cr"), (eName v!"dr"), (eBin [] [] .sub (eConst (.int 4)) (eName v!"rnd"))] [])) (eIndex (eName v!"x") (eIndex (eGlobal (ripemd160_MR H)) (eName v!"j")))) (eIndex (eGlobal (ripemd160_KR H)) (eName v!"rnd"))), (eIndex (eGlobal (ripemd160_RR H)) (eName v!"j"))] []) (eName v!"er")) env

/-- `bip38/libs/ripemd160.py:98`: `ar, br, cr, dr, er = er, ar, br, rol(cr, 10), dr` -/
@[src] def ripemd160_compress_L98 (H : Host) : Stmt := fun env =>
  sUnpack [.name v!"ar", .name v!"br", .name v!"cr", .name v!"dr", .name v!"er"] (eTuple [(eName v!"er"), (eName v!"ar"), (eName v!"br"), (eCall (ripemd160_rol H) [(eName v!"cr"), (eConst (.int 10))] []), (eName v!"dr")]) env

/-- `bip38/libs/ripemd160.py:91`: `for j in range(80):` -/
@[src] def ripemd160_compress_L91 (H : Host) : Stmt := fun env =>
  sFor v!"j" (eCall pyRange [(eConst (.int 80))] []) [ripemd160_compress_L92 H, ripemd160_compress_L94 H, ripemd160_compress_L95 H, ripemd160_compress_L97 H, ripemd160_compress_L98 H] env

/-- `bip38/libs/ripemd160.py:101`: `return h1 + cl + dr, h2 + dl + er, h3 + el + ar, h4 + al + br, h0 + bl + cr` -/
@[src] def ripemd160_compress_L101 (H : Host) : Stmt := fun env =>
  sReturn (eTuple [(eBin [] [] .add (eBin [] [] .add (eName v!"h1") (eName v!"cl")) (eName v!"dr")), (eBin [] [] .add (eBin [] [] .add (eName v!"h2") (eName v!"dl")) (eName v!"er")), (eBin [] [] .add (eBin [] [] .add (eName v!"h3") (eName v!"el")) (eName v!"ar")), (eBin [] [] .add (eBin [] [] .add (eName v!"h4") (eName v!"al")) (eName v!"br")), (eBin [] [] .add (eBin [] [] .add (eName v!"h0") (eName v!"bl")) (eName v!"cr"))]) env

/-- `bip38/libs/ripemd160.py:81-101` `compress` -/
def ripemd160_compress (H : Host) : Fn :=
  defun [⟨v!"h0", none⟩, ⟨v!"h1", none⟩, ⟨v!"h2", none⟩, ⟨v!"h3", none⟩, ⟨v!"h4", none⟩, ⟨v!"block", none⟩] none
    [ripemd160_compress_L84 H, ripemd160_compress_L86 H, ripemd160_compress_L88 H, ripemd160_compress_L91 H, ripemd160_compress_L101 H]

/-- `bip38/libs/ripemd160.py:107`: `state = (0x67452301, 0xefcdab89, 0x98badcfe, 0x10325476, 0xc3d2e1f0)` -/
@[src] def ripemd160_ripemd160_L107 (H : Host) : Stmt := fun env =>
  sAssign (.name v!"state") (eTuple [(eConst (.int 0x67452301)), (eConst (.int 0xefcdab89)), (eConst (.int 0x98badcfe)), (eConst (.int 0x10325476)), (eConst (.int 0xc3d2e1f0))]) env

/-- `bip38/libs/ripemd160.py:110`: `args = list(state) + [data[64*b:64*(b+1)]]` -/
@[src] def ripemd160_ripemd160_L110 (H : Host) : Stmt := fun env =>
  sAssign (.name v!"args") (eBin [] [] .add (eCall pyList [(eName v!"state")] []) (eList [(eSlice (eName v!"data") (some (eBin [] [] .mul (eConst (.int 64)) (eName v!"b"))) (some (eBin [] [] .mul (eConst (.int 64)) (eBin [] [] .add (eName v!"b") (eConst (.int 1))))))])) env

/-- `bip38/libs/ripemd160.py:111`: `state = compress(*args)` -/
@[src] def ripemd160_ripemd160_L111 (H : Host) : Stmt := fun env =>
  sAssign (.name v!"state") (eCallStar (ripemd160_compress H) (eName v!"args")) env

/-- `bip38/libs/ripemd160.py:109`: `for b in range(len(data) >> 6):` -/
@[src] def ripemd160_ripemd160_L109 (H : Host) : Stmt := fun env =>
  sFor v!"b" (eCall pyRange [(eBin [] [] .shr (eCall pyLen [(eName v!"data")] []) (eConst (.int 6)))] []) [ripemd160_ripemd160_L110 H, ripemd160_ripemd160_L111 H] env

/-- `bip38/libs/ripemd160.py:113`: `pad = b"\x80" + b"\x00" * ((119 - len(data)) & 63)` -/
@[src] def ripemd160_ripemd160_L113 (H : Host) : Stmt := fun env =>
  sAssign (.name v!"pad") (eBin [] [] .add (eConst (.bytes [128])) (eBin [] [] .mul (eConst (.bytes [0])) (eBin [] [] .and (eBin [] [] .sub (eConst (.int 119)) (eCall pyLen [(eName v!"data")] [])) (eConst (.int 63))))) env

/-- `bip38/libs/ripemd160.py:114`: `fin = data[len(data) & ~63:] + pad + struct.pack("<Q", 8 * len(data))` -/
@[src] def ripemd160_ripemd160_L114 (H : Host) : Stmt := fun env =>
  sAssign (.name v!"fin") (eBin [] [] .add (eBin [] [] .add (eSlice (eName v!"data") (some (eBin [] [] .and (eCall pyLen [(eName v!"data")] []) (eInvert (eConst (.int 63))))) none) (eName v!"pad")) (eCall xPack [(eConst (.str "<Q".toList)), (eBin [] [] .mul (eConst (.int 8)) (eCall pyLen [(eName v!"data")] []))] [])) env

/-- `bip38/libs/ripemd160.py:117`: `args = list(state) + [fin[64*b:64*(b+1)]]` -/
@[src] def ripemd160_ripemd160_L117 (H : Host) : Stmt := fun env =>
  sAssign (.name v!"args") (eBin [] [] .add (eCall pyList [(eName v!"state")] []) (eList [(eSlice (eName v!"fin") (some (eBin [] [] .mul (eConst (.int 64)) (eName v!"b"))) (some (eBin [] [] .mul (eConst (.int 64)) (eBin [] [] .add (eName v!"b") (eConst (.int 1))))))])) env

/-- `bip38/libs/ripemd160.py:118`: `state = compress(*args)` -/
@[src] def ripemd160_ripemd160_L118 (H : Host) : Stmt := fun env =>
  sAssign (.name v!"state") (eCallStar (ripemd160_compress H) (eName v!"args")) env

/-- `bip38/libs/ripemd160.py:116`: `for b in range(len(fin) >> 6):` -/
@[src] def ripemd160_ripemd160_L116 (H : Host) : Stmt := fun env =>
  sFor v!"b" (eCall pyRange [(eBin [] [] .shr (eCall pyLen [(eName v!"fin")] []) (eConst (.int 6)))] []) [ripemd160_ripemd160_L117 H, ripemd160_ripemd160_L118 H] env

/-- `bip38/libs/ripemd160.py:120`: `return b"".join(struct.pack("<L", h & 0xffffffff) for h in state)` -/
@[src] def ripemd160_ripemd160_L120 (H : Host) : Stmt := fun env =>
  sReturn (eMethod [] mJoin (eConst (.bytes [])) [(eComprehension (eCall xPack [(eConst (.str "<L".toList)), (eBin [] [] .and (eName v!"h") (eConst (.int 0xffffffff)))] []) v!"h" (eName v!"state"))] []) env

/-- `bip38/libs/ripemd160.py:104-120` `ripemd160` -/
def ripemd160_ripemd160 (H : Host) : Fn :=
  defun [⟨v!"data", none⟩] none
    [ripemd160_ripemd160_L107 H, ripemd160_ripemd160_L109 H, ripemd160_ripemd160_L113 H, ripemd160_ripemd160_L114 H, ripemd160_ripemd160_L116 H, ripemd160_ripemd160_L120 H]

end Bip38.Src
