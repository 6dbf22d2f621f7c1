import Verif.Model.Utils
import Mathlib.Data.Int.Bitwise
/-!
# Model of `bip38/libs/ripemd160.py`

Python integers are unbounded and `~x` is negative, so the state is a tuple of `Int`; `&`, `|`, `^`, `~`,
`<<`, `>>` are Mathlib's two's-complement operations on `Int`.
-/
namespace Bip38.Ripemd

/-- `bip38/libs/ripemd160.py:18-24` -/
def ML : List Nat :=
  [0, 1, 2, 3, 4, 5, 6, 7, 8, 9, 10, 11, 12, 13, 14, 15,
   7, 4, 13, 1, 10, 6, 15, 3, 12, 0, 9, 5, 2, 14, 11, 8,
   3, 10, 14, 4, 9, 15, 8, 1, 2, 7, 0, 6, 13, 11, 5, 12,
   1, 9, 11, 10, 0, 8, 12, 4, 13, 3, 7, 15, 14, 5, 6, 2,
   4, 0, 5, 9, 7, 12, 2, 10, 14, 1, 3, 8, 11, 6, 15, 13]

/-- `bip38/libs/ripemd160.py:27-33` -/
def MR : List Nat :=
  [5, 14, 7, 0, 9, 2, 11, 4, 13, 6, 15, 8, 1, 10, 3, 12,
   6, 11, 3, 7, 0, 13, 5, 10, 14, 15, 8, 12, 4, 9, 1, 2,
   15, 5, 1, 3, 7, 14, 6, 9, 11, 8, 12, 2, 10, 0, 4, 13,
   8, 6, 4, 1, 3, 11, 15, 0, 5, 12, 2, 13, 9, 7, 10, 14,
   12, 15, 10, 4, 1, 5, 8, 7, 6, 2, 13, 14, 0, 3, 9, 11]

/-- `bip38/libs/ripemd160.py:36-42` -/
def RL : List Nat :=
  [11, 14, 15, 12, 5, 8, 7, 9, 11, 13, 14, 15, 6, 7, 9, 8,
   7, 6, 8, 13, 11, 9, 7, 15, 7, 12, 15, 9, 11, 7, 13, 12,
   11, 13, 6, 7, 14, 9, 13, 15, 14, 8, 13, 6, 5, 12, 7, 5,
   11, 12, 14, 15, 14, 15, 9, 8, 9, 14, 5, 6, 8, 6, 5, 12,
   9, 15, 5, 11, 6, 8, 13, 12, 5, 12, 13, 14, 11, 8, 5, 6]

/-- `bip38/libs/ripemd160.py:45-51` -/
def RR : List Nat :=
  [8, 9, 9, 11, 13, 15, 15, 5, 7, 7, 8, 11, 14, 14, 12, 6,
   9, 13, 15, 7, 12, 8, 9, 11, 7, 7, 12, 7, 6, 15, 13, 11,
   9, 7, 15, 11, 8, 6, 6, 14, 12, 13, 5, 14, 13, 13, 7, 5,
   15, 5, 8, 11, 14, 14, 6, 14, 6, 9, 12, 9, 12, 5, 15, 8,
   8, 5, 12, 9, 12, 5, 14, 6, 8, 13, 6, 5, 15, 13, 11, 11]

/-- `bip38/libs/ripemd160.py:54` -/
def KL : List Nat := [0, 0x5a827999, 0x6ed9eba1, 0x8f1bbcdc, 0xa953fd4e]
/-- `bip38/libs/ripemd160.py:57` -/
def KR : List Nat := [0x50a28be6, 0x5c4dd124, 0x6d703ef3, 0x7a6d76e9, 0]

/-- `bip38/libs/ripemd160.py:60-73` `fi`.  The final `assert False` is unreachable: the callers pass
`0 ≤ i ≤ 4` (`j >> 4` for `j < 80`); the model returns 0 there. -/
def fi (x y z : Int) (i : Nat) : Int :=
  match i with
  | 0 => (x.xor y).xor z
  | 1 => (x.land y).lor (x.lnot.land z)
  | 2 => (x.lor y.lnot).xor z
  | 3 => (x.land z).lor (y.land z.lnot)
  | 4 => x.xor (y.lor z.lnot)
  | _ => 0

/-- `bip38/libs/ripemd160.py:76-78` `rol`. -/
def rol (x : Int) (i : Nat) : Int :=
  ((x <<< (i : Int)).lor ((x.land 0xffffffff) >>> ((32 - i : Nat) : Int))).land 0xffffffff

/-- State of one path of the compression function, or of the chaining value. -/
structure St where
  a : Int
  b : Int
  c : Int
  d : Int
  e : Int
  deriving DecidableEq, Repr

/-- `struct.unpack("<L", block[4*i:4*(i+1)])[0]` (`bip38/libs/ripemd160.py:88`). -/
def word (block : Bytes) (i : Nat) : Nat := fromBE (slice (4 * i) (4 * (i + 1)) block).reverse

/-- `bip38/libs/ripemd160.py:94-95` (left path, with `M = ML`, `R = RL`, `K = KL`, `f = rnd`) and `:97-98` (right path,
`M = MR`, `R = RR`, `K = KR`, `f = 4 - rnd`). -/
def pathStep (x : List Nat) (M R K : List Nat) (f rnd j : Nat) (s : St) : St :=
  let t := rol (s.a + fi s.b s.c s.d f + (x.getD (M.getD j 0) 0 : Nat) + (K.getD rnd 0 : Nat)) (R.getD j 0) + s.e
  ⟨s.e, t, s.b, rol s.c 10, s.d⟩

/-- `bip38/libs/ripemd160.py:81-101` `compress`. -/
def compress (h : St) (block : Bytes) : St :=
  let x := (List.range 16).map (word block)
  let (l, r) := (List.range 80).foldl (fun (st : St × St) j =>
    let rnd := j >>> 4
    (pathStep x ML RL KL rnd rnd j st.1, pathStep x MR RR KR (4 - rnd) rnd j st.2)) (h, h)
  ⟨h.b + l.c + r.d, h.c + l.d + r.e, h.d + l.e + r.a, h.e + l.a + r.b, h.a + l.b + r.c⟩

/-- `bip38/libs/ripemd160.py:107` -/
def init : St := ⟨0x67452301, 0xefcdab89, 0x98badcfe, 0x10325476, 0xc3d2e1f0⟩

/-- The loop `for b in range(len(data) >> 6): state = compress(*state, data[64*b:64*(b+1)])`
(`bip38/libs/ripemd160.py:109-111` and `:116-118`). -/
def blocks (data : Bytes) (s : St) : St :=
  (List.range (data.length >>> 6)).foldl (fun s b => compress s (slice (64 * b) (64 * (b + 1)) data)) s

/-- `struct.pack("<L", h & 0xffffffff)`. -/
def packWord (h : Int) : Bytes := toLE 4 (h.land 0xffffffff).toNat

/-- `bip38/libs/ripemd160.py:104-120` `ripemd160`.  `struct.pack("<Q", 8 * len(data))` raises `struct.error` from
`2 ^ 61` bytes on; that unreachable case is not modelled. -/
def ripemd160 (data : Bytes) : Bytes :=
  let state := blocks data init
  let pad : Bytes := 0x80 :: List.replicate (((119 : Int) - data.length).land 63).toNat 0
  let fin := data.drop ((data.length : Int).land (Int.lnot 63)).toNat ++ pad ++ toLE 8 (8 * data.length)
  let state := blocks fin state
  packWord state.a ++ packWord state.b ++ packWord state.c ++ packWord state.d ++ packWord state.e

end Bip38.Ripemd
