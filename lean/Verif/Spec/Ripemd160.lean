import Verif.Py
import Mathlib.Logic.Function.Iterate
/-!
# RIPEMD-160 on 32-bit words

The function of Dobbertin, Bosselaers and Preneel, "RIPEMD-160: a strengthened version of RIPEMD" (1996), appendix A, written with the
permutations `ρ` and `π`, the shift table indexed by round and message word, and the constants as integer parts of square
and cube roots, as the paper gives them.
-/
namespace Bip38.Spec.Ripemd160

abbrev Word := BitVec 32

/-- The permutation `ρ` of the message words. -/
def rho (i : Nat) : Nat := [7, 4, 13, 1, 10, 6, 15, 3, 12, 0, 9, 5, 2, 14, 11, 8].getD i 0
/-- The permutation `π`: `9 i + 5` modulo 16. -/
def pi (i : Nat) : Nat := (9 * i + 5) % 16
/-- Message word of the left line at step `i` of round `round`: `ρ` applied `round` times. -/
def leftWord (round i : Nat) : Nat := rho^[round] i
/-- Message word of the right line. -/
def rightWord (round i : Nat) : Nat := rho^[round] (pi i)

/-- Shift of message word `w` in a round, the same for both lines. -/
def shift (round w : Nat) : Nat :=
  ([[11, 14, 15, 12, 5, 8, 7, 9, 11, 13, 14, 15, 6, 7, 9, 8],
    [12, 13, 11, 15, 6, 9, 9, 7, 12, 15, 11, 13, 7, 8, 7, 7],
    [13, 15, 14, 11, 7, 7, 6, 8, 13, 14, 13, 12, 5, 5, 6, 9],
    [14, 11, 12, 14, 8, 6, 5, 5, 15, 12, 15, 14, 9, 9, 8, 6],
    [15, 12, 13, 13, 9, 5, 8, 6, 14, 11, 12, 11, 8, 6, 5, 5]].getD round []).getD w 0

/-- `c` is the integer part of the `k`-th root of `n`. -/
def IsRoot (c k n : Nat) : Prop := c ^ k ≤ n ∧ n < (c + 1) ^ k

/-- Added constants of the left line: 0 and the integer parts of `2 ^ 30` times the square roots of 2, 3, 5, 7 (`leftK_root`). -/
def leftK (round : Nat) : Nat := [0, 0x5a827999, 0x6ed9eba1, 0x8f1bbcdc, 0xa953fd4e].getD round 0
/-- Added constants of the right line: the integer parts of `2 ^ 30` times the cube roots of 2, 3, 5, 7, and 0 (`rightK_root`). -/
def rightK (round : Nat) : Nat := [0x50a28be6, 0x5c4dd124, 0x6d703ef3, 0x7a6d76e9, 0].getD round 0

theorem leftK_root : ∀ i : Fin 4, IsRoot (leftK (i.val + 1)) 2 (2 ^ 60 * [2, 3, 5, 7].getD i.val 0) := by
  unfold IsRoot; decide +kernel
theorem rightK_root : ∀ i : Fin 4, IsRoot (rightK i.val) 3 (2 ^ 90 * [2, 3, 5, 7].getD i.val 0) := by
  unfold IsRoot; decide +kernel

/-- The five Boolean functions. -/
def f (i : Nat) (x y z : Word) : Word :=
  match i with
  | 0 => x ^^^ y ^^^ z
  | 1 => (x &&& y) ||| (~~~x &&& z)
  | 2 => (x ||| ~~~y) ^^^ z
  | 3 => (x &&& z) ||| (y &&& ~~~z)
  | _ => x ^^^ (y ||| ~~~z)

/-- Chaining value, or state of a line. -/
structure State where
  a : Word
  b : Word
  c : Word
  d : Word
  e : Word
  deriving DecidableEq

/-- One step of a line. -/
def step (fn : Word → Word → Word → Word) (x k : Word) (s : Nat) (q : State) : State :=
  ⟨q.e, (q.a + fn q.b q.c q.d + x + k).rotateLeft s + q.e, q.b, q.c.rotateLeft 10, q.d⟩

/-- Step `j` of the left and of the right line. -/
def leftStep (X : Nat → Word) (q : State) (j : Nat) : State :=
  let w := leftWord (j / 16) (j % 16)
  step (f (j / 16)) (X w) (BitVec.ofNat 32 (leftK (j / 16))) (shift (j / 16) w) q
def rightStep (X : Nat → Word) (q : State) (j : Nat) : State :=
  let w := rightWord (j / 16) (j % 16)
  step (f (4 - j / 16)) (X w) (BitVec.ofNat 32 (rightK (j / 16))) (shift (j / 16) w) q

/-- Little-endian 32-bit word `i` of a block. -/
def wordOf (block : Bytes) (i : Nat) : Word :=
  BitVec.ofNat 32 ((block.getD (4 * i) 0).toNat + (block.getD (4 * i + 1) 0).toNat * 2 ^ 8
    + (block.getD (4 * i + 2) 0).toNat * 2 ^ 16 + (block.getD (4 * i + 3) 0).toNat * 2 ^ 24)

/-- Compression function. -/
def compress (h : State) (block : Bytes) : State :=
  let l := (List.range 80).foldl (leftStep (wordOf block)) h
  let r := (List.range 80).foldl (rightStep (wordOf block)) h
  ⟨h.b + l.c + r.d, h.c + l.d + r.e, h.d + l.e + r.a, h.e + l.a + r.b, h.a + l.b + r.c⟩

/-- The `k` bytes of a number, least significant first. -/
def littleEndian (k n : Nat) : Bytes := (List.range k).map fun i => UInt8.ofNat (n / 256 ^ i % 256)

/-- Number of zero bytes after the byte `80`: the smallest that makes the length, with 8 bytes for the bit length, a multiple of 64. -/
def padZeros (len : Nat) : Nat := (64 - (len + 9) % 64) % 64

/-- The padded message. -/
def padded (m : Bytes) : Bytes := m ++ [0x80] ++ List.replicate (padZeros m.length) 0 ++ littleEndian 8 (8 * m.length)

/-- Block `i` of a message. -/
def block (m : Bytes) (i : Nat) : Bytes := (m.drop (64 * i)).take 64

/-- Initial chaining value. -/
def iv : State := ⟨0x67452301#32, 0xefcdab89#32, 0x98badcfe#32, 0x10325476#32, 0xc3d2e1f0#32⟩

/-- Little-endian bytes of a word. -/
def wordBytes (w : Word) : Bytes := littleEndian 4 w.toNat

/-- RIPEMD-160. -/
def ripemd160 (m : Bytes) : Bytes :=
  let s := (List.range ((padded m).length / 64)).foldl (fun s i => compress s (block (padded m) i)) iv
  wordBytes s.a ++ wordBytes s.b ++ wordBytes s.c ++ wordBytes s.d ++ wordBytes s.e

end Bip38.Spec.Ripemd160
