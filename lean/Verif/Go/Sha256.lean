import Verif.Go.Str

/-!
SHA-256 (FIPS 180-4), HMAC (RFC 2104) and HKDF (RFC 5869), as in `crypto/sha256`,
`crypto/hmac` and `golang.org/x/crypto/hkdf`.

The theorems hold for every digest function; this is the one the code uses, written
out so that the model can be run on the test vectors of the code.  Words are
naturals.
-/
namespace Verif.Go

/-- Evaluate a number before going on; the value of `force x k` is `k x`. -/
def force {α : Type} (x : Nat) (k : Nat → α) : α :=
  match x with
  | 0 => k 0
  | n + 1 => k (n + 1)

theorem force_eq {α : Type} (x : Nat) (k : Nat → α) : force x k = k x := by
  cases x <;> rfl

/-- The big-endian bytes of the `n` low bytes of a number. -/
def bytesBE : Nat → Nat → Str
  | 0, _ => []
  | n + 1, x => UInt8.ofNat (x / 256 ^ n % 256) :: bytesBE n x

theorem bytesBE_length (n x : Nat) : (bytesBE n x).length = n := by
  induction n with
  | zero => rfl
  | succ n ih => simp [bytesBE, ih]

namespace Sha256

/-- The round constants. -/
def ks : List Nat :=
  [0x428a2f98, 0x71374491, 0xb5c0fbcf, 0xe9b5dba5, 0x3956c25b, 0x59f111f1, 0x923f82a4, 0xab1c5ed5,
   0xd807aa98, 0x12835b01, 0x243185be, 0x550c7dc3, 0x72be5d74, 0x80deb1fe, 0x9bdc06a7, 0xc19bf174,
   0xe49b69c1, 0xefbe4786, 0x0fc19dc6, 0x240ca1cc, 0x2de92c6f, 0x4a7484aa, 0x5cb0a9dc, 0x76f988da,
   0x983e5152, 0xa831c66d, 0xb00327c8, 0xbf597fc7, 0xc6e00bf3, 0xd5a79147, 0x06ca6351, 0x14292967,
   0x27b70a85, 0x2e1b2138, 0x4d2c6dfc, 0x53380d13, 0x650a7354, 0x766a0abb, 0x81c2c92e, 0x92722c85,
   0xa2bfe8a1, 0xa81a664b, 0xc24b8b70, 0xc76c51a3, 0xd192e819, 0xd6990624, 0xf40e3585, 0x106aa070,
   0x19a4c116, 0x1e376c08, 0x2748774c, 0x34b0bcb5, 0x391c0cb3, 0x4ed8aa4a, 0x5b9cca4f, 0x682e6ff3,
   0x748f82ee, 0x78a5636f, 0x84c87814, 0x8cc70208, 0x90befffa, 0xa4506ceb, 0xbef9a3f7, 0xc67178f2]

/-- The eight working variables. -/
structure State where
  a : Nat
  b : Nat
  c : Nat
  d : Nat
  e : Nat
  f : Nat
  g : Nat
  h : Nat

/-- The initial hash value. -/
def init : State :=
  ⟨0x6a09e667, 0xbb67ae85, 0x3c6ef372, 0xa54ff53a, 0x510e527f, 0x9b05688c, 0x1f83d9ab, 0x5be0cd19⟩

/-- Rotation to the right of a 32-bit word. -/
def rotr (n x : Nat) : Nat := (x >>> n) ||| (x <<< (32 - n)) % 2 ^ 32

def bigSigma0 (x : Nat) : Nat := rotr 2 x ^^^ rotr 13 x ^^^ rotr 22 x
def bigSigma1 (x : Nat) : Nat := rotr 6 x ^^^ rotr 11 x ^^^ rotr 25 x
def sigma0 (x : Nat) : Nat := rotr 7 x ^^^ rotr 18 x ^^^ (x >>> 3)
def sigma1 (x : Nat) : Nat := rotr 17 x ^^^ rotr 19 x ^^^ (x >>> 10)
def ch (e f g : Nat) : Nat := (e &&& f) ^^^ ((2 ^ 32 - 1 - e) &&& g)
def maj (a b c : Nat) : Nat := (a &&& b) ^^^ (a &&& c) ^^^ (b &&& c)

/-- The rounds; `w` holds the next sixteen words of the message schedule. -/
def rounds : List Nat → List Nat → State → State
  | [], _, s => s
  | k :: ks, w, s =>
    force ((s.h + bigSigma1 s.e + ch s.e s.f s.g + k + w.headD 0) % 2 ^ 32) fun t1 =>
    force ((bigSigma0 s.a + maj s.a s.b s.c) % 2 ^ 32) fun t2 =>
    force ((sigma1 (w.getD 14 0) + w.getD 9 0 + sigma0 (w.getD 1 0) + w.headD 0) % 2 ^ 32) fun next =>
    force ((s.d + t1) % 2 ^ 32) fun e =>
    force ((t1 + t2) % 2 ^ 32) fun a =>
    rounds ks (w.tail ++ [next]) ⟨a, s.a, s.b, s.c, e, s.e, s.f, s.g⟩

/-- One block. -/
def block (w : List Nat) (s : State) : State :=
  let t := rounds ks w s
  force ((s.a + t.a) % 2 ^ 32) fun a => force ((s.b + t.b) % 2 ^ 32) fun b =>
  force ((s.c + t.c) % 2 ^ 32) fun c => force ((s.d + t.d) % 2 ^ 32) fun d =>
  force ((s.e + t.e) % 2 ^ 32) fun e => force ((s.f + t.f) % 2 ^ 32) fun f =>
  force ((s.g + t.g) % 2 ^ 32) fun g => force ((s.h + t.h) % 2 ^ 32) fun h =>
  ⟨a, b, c, d, e, f, g, h⟩

/-- Big-endian words of four bytes. -/
def words : Str → List Nat
  | a :: b :: c :: d :: r =>
    force (((a.toNat * 256 + b.toNat) * 256 + c.toNat) * 256 + d.toNat) fun w => w :: words r
  | _ => []

/-- The message followed by a one bit, zeros and its length in bits. -/
def pad (s : Str) : Str :=
  s ++ [0x80] ++ List.replicate ((119 - s.length % 64) % 64) 0 ++ bytesBE 8 (8 * s.length)

/-- All blocks, at most `n`. -/
def blocks : Nat → List Nat → State → State
  | 0, _, s => s
  | n + 1, ws, s => if ws.isEmpty then s else blocks n (ws.drop 16) (block (ws.take 16) s)

/-- The digest of a state. -/
def State.bytes (s : State) : Str :=
  bytesBE 4 s.a ++ bytesBE 4 s.b ++ bytesBE 4 s.c ++ bytesBE 4 s.d ++
  bytesBE 4 s.e ++ bytesBE 4 s.f ++ bytesBE 4 s.g ++ bytesBE 4 s.h

end Sha256

/-- `sha256.Sum256`. -/
def sha256 (s : Str) : Str :=
  let p := Sha256.words (Sha256.pad s)
  (Sha256.blocks (p.length / 16) p Sha256.init).bytes

theorem sha256_length (s : Str) : (sha256 s).length = 32 := by
  simp [sha256, Sha256.State.bytes, bytesBE_length]

/-- A padded message is a whole number of blocks. -/
theorem Sha256.pad_blocks (s : Str) : (Sha256.pad s).length % 64 = 0 := by
  simp only [Sha256.pad, List.length_append, List.length_cons, List.length_nil, List.length_replicate,
    bytesBE_length]
  omega

/-- The key of an HMAC, as one block of 64 bytes. -/
def hmacKey (k : Str) : Str :=
  let k := if k.length > 64 then sha256 k else k
  k ++ List.replicate (64 - k.length) 0

/-- `hmac.New(sha256.New, key)`. -/
def hmacSha256 (key msg : Str) : Str :=
  let k := hmacKey key
  sha256 (k.map (· ^^^ 0x5c) ++ sha256 (k.map (· ^^^ 0x36) ++ msg))

/-- The first 32 bytes of `hkdf.New(sha256.New, secret, salt, info)`. -/
def hkdfSha256 (secret salt info : Str) : Str := hmacSha256 (hmacSha256 salt secret) (info ++ [1])

theorem hmacSha256_length (k m : Str) : (hmacSha256 k m).length = 32 := sha256_length _

end Verif.Go
