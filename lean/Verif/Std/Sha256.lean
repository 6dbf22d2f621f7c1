import Verif.Py
/-!
# SHA-256 (FIPS 180-4), HMAC-SHA-256 and PBKDF2 with one iteration

Concrete versions of external primitives: what `hashlib.sha256` computes.  They are not code of the repository;
they instantiate the record `Prims`.
-/
namespace Bip38.Std

/-- Round constants (FIPS 180-4, 4.2.2). -/
def K256 : List UInt32 :=
  [0x428a2f98, 0x71374491, 0xb5c0fbcf, 0xe9b5dba5, 0x3956c25b, 0x59f111f1, 0x923f82a4, 0xab1c5ed5,
   0xd807aa98, 0x12835b01, 0x243185be, 0x550c7dc3, 0x72be5d74, 0x80deb1fe, 0x9bdc06a7, 0xc19bf174,
   0xe49b69c1, 0xefbe4786, 0x0fc19dc6, 0x240ca1cc, 0x2de92c6f, 0x4a7484aa, 0x5cb0a9dc, 0x76f988da,
   0x983e5152, 0xa831c66d, 0xb00327c8, 0xbf597fc7, 0xc6e00bf3, 0xd5a79147, 0x06ca6351, 0x14292967,
   0x27b70a85, 0x2e1b2138, 0x4d2c6dfc, 0x53380d13, 0x650a7354, 0x766a0abb, 0x81c2c92e, 0x92722c85,
   0xa2bfe8a1, 0xa81a664b, 0xc24b8b70, 0xc76c51a3, 0xd192e819, 0xd6990624, 0xf40e3585, 0x106aa070,
   0x19a4c116, 0x1e376c08, 0x2748774c, 0x34b0bcb5, 0x391c0cb3, 0x4ed8aa4a, 0x5b9cca4f, 0x682e6ff3,
   0x748f82ee, 0x78a5636f, 0x84c87814, 0x8cc70208, 0x90befffa, 0xa4506ceb, 0xbef9a3f7, 0xc67178f2]

/-- Chaining state. -/
structure Sha where
  a : UInt32
  b : UInt32
  c : UInt32
  d : UInt32
  e : UInt32
  f : UInt32
  g : UInt32
  h : UInt32
  deriving DecidableEq, Repr

/-- Initial hash value (FIPS 180-4, 5.3.3). -/
def shaInit : Sha := ⟨0x6a09e667, 0xbb67ae85, 0x3c6ef372, 0xa54ff53a, 0x510e527f, 0x9b05688c, 0x1f83d9ab, 0x5be0cd19⟩

def rotr (x : UInt32) (n : UInt32) : UInt32 := (x >>> n) ||| (x <<< (32 - n))

/-- Big-endian 32-bit words of a byte string whose length is a multiple of four. -/
def beWords : Bytes → List UInt32
  | a :: b :: c :: d :: rest =>
    (a.toUInt32 <<< 24 ||| b.toUInt32 <<< 16 ||| c.toUInt32 <<< 8 ||| d.toUInt32) :: beWords rest
  | _ => []

/-- The big-endian bytes of a word. -/
def beBytes (w : UInt32) : Bytes := [(w >>> 24).toUInt8, (w >>> 16).toUInt8, (w >>> 8).toUInt8, w.toUInt8]

/-- One round; `w` is the schedule word and `k` the constant. -/
def shaRound (s : Sha) (w k : UInt32) : Sha :=
  let s1 := rotr s.e 6 ^^^ rotr s.e 11 ^^^ rotr s.e 25
  let ch := (s.e &&& s.f) ^^^ (~~~ s.e &&& s.g)
  let t1 := s.h + s1 + ch + k + w
  let s0 := rotr s.a 2 ^^^ rotr s.a 13 ^^^ rotr s.a 22
  let mj := (s.a &&& s.b) ^^^ (s.a &&& s.c) ^^^ (s.b &&& s.c)
  ⟨t1 + (s0 + mj), s.a, s.b, s.c, s.d + t1, s.e, s.f, s.g⟩

/-- Rounds over a sliding window `ws` of the 16 current schedule words. -/
def shaRounds : List UInt32 → List UInt32 → Sha → Sha
  | k :: ks, w :: ws, s =>
    let w1 := ws.getD 0 0
    let w14 := ws.getD 13 0
    let g0 := rotr w1 7 ^^^ rotr w1 18 ^^^ (w1 >>> 3)
    let g1 := rotr w14 17 ^^^ rotr w14 19 ^^^ (w14 >>> 10)
    shaRounds ks (ws ++ [w + g0 + ws.getD 8 0 + g1]) (shaRound s w k)
  | _, _, s => s

/-- Compression of one 64-byte block. -/
def shaCompress (h : Sha) (block : Bytes) : Sha :=
  let s := shaRounds K256 (beWords block) h
  ⟨h.a + s.a, h.b + s.b, h.c + s.c, h.d + s.d, h.e + s.e, h.f + s.f, h.g + s.g, h.h + s.h⟩

/-- Message padding. -/
def shaPad (m : Bytes) : Bytes :=
  let z := (55 + 64 - m.length % 64) % 64
  let bits := 8 * m.length
  m ++ 0x80 :: List.replicate z 0 ++ beBytes (UInt32.ofNat (bits / 2 ^ 32)) ++ beBytes (UInt32.ofNat bits)

/-- All blocks; `fuel` bounds their number. -/
def shaBlocks : Nat → Bytes → Sha → Sha
  | 0, _, s => s
  | fuel + 1, m, s => if m.isEmpty then s else shaBlocks fuel (m.drop 64) (shaCompress s (m.take 64))

/-- SHA-256. -/
def sha256 (m : Bytes) : Bytes :=
  let p := shaPad m
  let s := shaBlocks (p.length / 64) p shaInit
  beBytes s.a ++ beBytes s.b ++ beBytes s.c ++ beBytes s.d ++ beBytes s.e ++ beBytes s.f ++ beBytes s.g ++ beBytes s.h

/-- HMAC-SHA-256. -/
def hmac (key msg : Bytes) : Bytes :=
  let k := if key.length > 64 then sha256 key else key
  let k := k ++ List.replicate (64 - k.length) 0
  sha256 (k.map (· ^^^ 0x5c) ++ sha256 (k.map (· ^^^ 0x36) ++ msg))

/-- PBKDF2-HMAC-SHA-256 with one iteration. -/
def pbkdf2 (pw salt : Bytes) (dkLen : Nat) : Bytes :=
  (((List.range ((dkLen + 31) / 32)).flatMap fun i => hmac pw (salt ++ beBytes (UInt32.ofNat (i + 1))))).take dkLen

end Bip38.Std
