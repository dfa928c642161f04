import Verif.Model.Lib

/-!
The generators of codes down to the random bytes: github.com/dchest/uniuri v1.2.0, `NewLenCharsBytes`. The source of
randomness is the list of bytes that it will deliver; `none` says that more of them are needed. The library refuses
alphabets of fewer than 2 or more than 256 characters; those of the generators have 62, 20 and 10.
-/
namespace Verif.Uniuri
open Verif.Lib

/-- Bytes above this bound are skipped, lest some characters be more frequent. -/
def maxrb (m : Nat) : Nat := 255 - 256 % m

/-- What is left of the buffer when its next byte was looked at; an empty one is filled with `buf n` bytes, where `n` is the
number of characters that are missing. -/
def next (buf : Nat → Nat) (n left : Nat) : Nat := (if left = 0 then buf n else left) - 1

/-- The loops: `n` characters are missing, `left` bytes of the buffer were not looked at. What is left of the last buffer is
lost. -/
def fill (chars : Str) (buf : Nat → Nat) : Nat → Nat → Str → Option (Str × Str)
  | 0, left, bs => if bs.length < left then none else some ([], bs.drop left)
  | _ + 1, _, [] => none
  | n + 1, left, b :: bs =>
    if b.toNat > maxrb chars.length then fill chars buf (n + 1) (next buf (n + 1) left) bs
    else (fill chars buf n (next buf (n + 1) left) bs).map fun x => (chars.getD (b.toNat % chars.length) 0 :: x.1, x.2)

/-- The sizes of the buffers: from the size of the alphabet, the length of the string and the characters that are missing. -/
abbrev Policy : Type := Nat → Nat → Nat → Nat

/-- `estimatedBufLen` (a quotient of floats, rounded up). -/
def estimated (m need : Nat) : Nat := (need * 255 + maxrb m - 1) / maxrb m

/-- The sizes of v1.2.0: at least 16 bytes after the first buffer, if that was larger. Strings here are far shorter than the
bound of 2048 bytes. -/
def sizes : Policy := fun m len n => if estimated m n < 16 ∧ 16 < estimated m len then 16 else estimated m n

/-- `NewLenChars`, with the bytes that were not read. -/
def newLenChars (p : Policy) (n : Nat) (chars : Str) (bs : Str) : Option (Str × Str) := fill chars (p chars.length n) n 0 bs

/-- `NewLen`. -/
def newLen (p : Policy) (n : Nat) (bs : Str) : Option (Str × Str) := newLenChars p n stdChars bs

/-- sdk/generator/authorization_code.go:42, device_code.go:42, request_uri.go:45 `Generate`. -/
def code32 (p : Policy) (bs : Str) : Option Str := (newLen p 32 bs).map Prod.fst

/-- sdk/generator/client.go:40 `Generate` and sdk/dpop/prover.go:87. -/
def id16 (p : Policy) (bs : Str) : Option Str := (newLen p 16 bs).map Prod.fst

/-- server/services/token/generator.go:44, 86 and client/http.go:116: identifiers of tokens and of assertions. -/
def jti8 (p : Policy) (bs : Str) : Option Str := (newLen p 8 bs).map Prod.fst

/-- sdk/token/token.go:43 `Generate`. -/
def opaqueToken (p : Policy) (bs : Str) : Option Str :=
  (newLen p 3 bs).bind fun x => (newLen p 28 x.2).map fun y => x.1 ++ g!"." ++ y.1

/-- device_user_code.go:51 `Generate`. -/
def userAlpha (p : Policy) (bs : Str) : Option Str := (newLenChars p 8 alphaChars bs).map fun x => x.1.take 4 ++ g!"-" ++ x.1.drop 4

/-- device_user_code.go:65 `Generate`. -/
def userNum (p : Policy) (bs : Str) : Option Str :=
  (newLenChars p 9 numChars bs).map fun x => x.1.take 3 ++ g!"-" ++ (x.1.drop 3).take 3 ++ g!"-" ++ x.1.drop 6

end Verif.Uniuri
