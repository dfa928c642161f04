import Verif.Go.Sha256

/-!
BLAKE2b with digests of 32 bytes, with or without key (RFC 7693), as in
`golang.org/x/crypto/blake2b`.
-/
namespace Verif.Go

/-- The little-endian bytes of the `n` low bytes of a number. -/
def bytesLE : Nat → Nat → Str
  | 0, _ => []
  | n + 1, x => UInt8.ofNat (x % 256) :: bytesLE n (x / 256)

theorem bytesLE_length (n x : Nat) : (bytesLE n x).length = n := by
  induction n generalizing x with
  | zero => rfl
  | succ n ih => simp [bytesLE, ih]

namespace Blake2b

/-- The initialization vector. -/
def iv : List Nat :=
  [0x6a09e667f3bcc908, 0xbb67ae8584caa73b, 0x3c6ef372fe94f82b, 0xa54ff53a5f1d36f1,
   0x510e527fade682d1, 0x9b05688c2b3e6c1f, 0x1f83d9abfb41bd6b, 0x5be0cd19137e2179]

/-- The message word permutations of the twelve rounds. -/
def sigma : List (List Nat) :=
  [[0, 1, 2, 3, 4, 5, 6, 7, 8, 9, 10, 11, 12, 13, 14, 15],
   [14, 10, 4, 8, 9, 15, 13, 6, 1, 12, 0, 2, 11, 7, 5, 3],
   [11, 8, 12, 0, 5, 2, 15, 13, 10, 14, 3, 6, 7, 1, 9, 4],
   [7, 9, 3, 1, 13, 12, 11, 14, 2, 6, 5, 10, 4, 0, 15, 8],
   [9, 0, 5, 7, 2, 4, 10, 15, 14, 1, 11, 12, 6, 8, 3, 13],
   [2, 12, 6, 10, 0, 11, 8, 3, 4, 13, 7, 5, 15, 14, 1, 9],
   [12, 5, 1, 15, 14, 13, 4, 10, 0, 7, 6, 3, 9, 2, 8, 11],
   [13, 11, 7, 14, 12, 1, 3, 9, 5, 0, 15, 4, 8, 6, 2, 10],
   [6, 15, 14, 9, 11, 3, 0, 8, 12, 2, 13, 7, 1, 4, 10, 5],
   [10, 2, 8, 4, 7, 6, 1, 5, 15, 11, 9, 14, 3, 12, 13, 0],
   [0, 1, 2, 3, 4, 5, 6, 7, 8, 9, 10, 11, 12, 13, 14, 15],
   [14, 10, 4, 8, 9, 15, 13, 6, 1, 12, 0, 2, 11, 7, 5, 3]]

/-- Rotation to the right of a 64-bit word. -/
def rotr (n x : Nat) : Nat := (x >>> n) ||| (x <<< (64 - n)) % 2 ^ 64

/-- The mixing function on the words at four positions. -/
def mix (v : List Nat) (a b c d x y : Nat) : List Nat :=
  force ((v.getD a 0 + v.getD b 0 + x) % 2 ^ 64) fun va =>
  force (rotr 32 (v.getD d 0 ^^^ va)) fun vd =>
  force ((v.getD c 0 + vd) % 2 ^ 64) fun vc =>
  force (rotr 24 (v.getD b 0 ^^^ vc)) fun vb =>
  force ((va + vb + y) % 2 ^ 64) fun va =>
  force (rotr 16 (vd ^^^ va)) fun vd =>
  force ((vc + vd) % 2 ^ 64) fun vc =>
  force (rotr 63 (vb ^^^ vc)) fun vb =>
  (((v.set a va).set b vb).set c vc).set d vd

/-- One round. -/
def round (m s v : List Nat) : List Nat :=
  let w (i : Nat) := m.getD (s.getD i 0) 0
  let v := mix v 0 4 8 12 (w 0) (w 1)
  let v := mix v 1 5 9 13 (w 2) (w 3)
  let v := mix v 2 6 10 14 (w 4) (w 5)
  let v := mix v 3 7 11 15 (w 6) (w 7)
  let v := mix v 0 5 10 15 (w 8) (w 9)
  let v := mix v 1 6 11 12 (w 10) (w 11)
  let v := mix v 2 7 8 13 (w 12) (w 13)
  mix v 3 4 9 14 (w 14) (w 15)

def rounds (m : List Nat) : List (List Nat) → List Nat → List Nat
  | [], v => v
  | s :: r, v => rounds m r (round m s v)

/-- Combine a state with both halves of the working words. -/
def combine : List Nat → List Nat → List Nat → List Nat
  | h :: hs, x :: xs, y :: ys => force (h ^^^ x ^^^ y) fun z => z :: combine hs xs ys
  | _, _, _ => []

/-- Compress a block; `t` bytes have been read, `last` marks the last block. -/
def compress (h m : List Nat) (t : Nat) (last : Bool) : List Nat :=
  let tail := [iv.getD 0 0, iv.getD 1 0, iv.getD 2 0, iv.getD 3 0, iv.getD 4 0 ^^^ t % 2 ^ 64,
    iv.getD 5 0 ^^^ t / 2 ^ 64, if last then 2 ^ 64 - 1 - iv.getD 6 0 else iv.getD 6 0, iv.getD 7 0]
  let v := rounds m sigma (h ++ tail)
  combine h (v.take 8) (v.drop 8)

/-- Little-endian words of eight bytes. -/
def words : Str → List Nat
  | a :: b :: c :: d :: e :: f :: g :: h :: r =>
    force (a.toNat + 256 * (b.toNat + 256 * (c.toNat + 256 * (d.toNat + 256 * (e.toNat +
      256 * (f.toNat + 256 * (g.toNat + 256 * h.toNat))))))) fun w => w :: words r
  | _ => []

/-- A block, filled up with zeros. -/
def fill (s : Str) : Str := s ++ List.replicate (128 - s.length) 0

/-- The blocks of a message of which `t` bytes have been read, at most `n + 1`. -/
def blocks : Nat → Str → Nat → List Nat → List Nat
  | 0, s, t, h => compress h (words (fill (s.take 128))) (t + s.length) true
  | n + 1, s, t, h =>
    if s.length ≤ 128 then compress h (words (fill s)) (t + s.length) true
    else blocks n (s.drop 128) (t + 128) (compress h (words (s.take 128)) (t + 128) false)

/-- The initial state for a key of this length. -/
def start (keyLen : Nat) : List Nat :=
  (iv.headD 0 ^^^ (0x01010000 + keyLen * 256 + 32)) :: iv.tail

/-- The first four words of a state. -/
def digest (h : List Nat) : Str :=
  bytesLE 8 (h.getD 0 0) ++ bytesLE 8 (h.getD 1 0) ++ bytesLE 8 (h.getD 2 0) ++ bytesLE 8 (h.getD 3 0)

end Blake2b

/-- `blake2b.New256(key)` fed with a message, and `blake2b.Sum256` for an empty key.  A
key of more than 64 bytes is refused by the callers. -/
def blake2b256 (key msg : Str) : Str :=
  let s := if key.isEmpty then msg else Blake2b.fill key ++ msg
  Blake2b.digest (Blake2b.blocks (s.length / 128) s 0 (Blake2b.start key.length))

theorem blake2b256_length (k m : Str) : (blake2b256 k m).length = 32 := by
  simp [blake2b256, Blake2b.digest, bytesLE_length]

end Verif.Go
