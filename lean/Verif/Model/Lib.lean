import Verif.Go.Base64Dec
import Verif.Model.Env

/-! Small libraries of the SDK: comparison, generators, PKCE, pairwise subjects. -/
namespace Verif.Lib

/-! ### sdk/types/compare.go -/

/-- `crypto/subtle.ConstantTimeEq` on int32 values given by their bits. -/
def constantTimeEq (x y : UInt32) : Nat := (((x ^^^ y).toUInt64 - 1) >>> 63).toNat

/-- `crypto/subtle.ConstantTimeByteEq`. -/
def constantTimeByteEq (x y : UInt8) : Nat := (((x ^^^ y).toUInt32 - 1) >>> 31).toNat

/-- The accumulation loop of `crypto/subtle.ConstantTimeCompare`. -/
def orXor (v : UInt8) : Str → Str → UInt8
  | a :: as, b :: bs => orXor (v ||| (a ^^^ b)) as bs
  | _, _ => v

/-- `crypto/subtle.ConstantTimeCompare`. -/
def constantTimeCompare (x y : Str) : Nat :=
  if x.length ≠ y.length then 0 else constantTimeByteEq (orXor 0 x y) 0

/-- sdk/types/compare.go:25-34 `SecureCompare` (and `SecureCompareString`, 37-46);
the lengths are truncated to 32 bits. -/
def secureCompare (given actual : Str) : Bool :=
  if constantTimeEq (UInt32.ofNat given.length) (UInt32.ofNat actual.length) = 1 then
    constantTimeCompare given actual == 1
  else if constantTimeCompare actual actual = 1 then false
  else false

/-! ### sdk/generator -/

/-- `uniuri.NewLenChars` (github.com/dchest/uniuri): `n` characters of the set, chosen
by the random source `rnd`. -/
def newLenChars (rnd : Nat → Nat) (n : Nat) (chars : Str) : Str :=
  (List.range n).map fun i => chars.getD (rnd i % chars.length) 0

/-- `uniuri.StdChars`. -/
def stdChars : Str := g!"ABCDEFGHIJKLMNOPQRSTUVWXYZabcdefghijklmnopqrstuvwxyz0123456789"

/-- authorization_code.go:42-45, device_code.go:42-45 and request_uri.go:45-48
`Generate`: 32 characters. -/
def genCode32 (rnd : Nat → Nat) : Str := newLenChars rnd 32 stdChars

/-- authorization_code.go:47-58 and device_code.go:47-58 `Validate`. -/
def validateCode32 (s : Str) : Bool := (Go.trimSpace s).length == 32

/-- The class `[A-Za-z0-9]`. -/
def isAlnum (b : UInt8) : Bool := (65 ≤ b && b ≤ 90) || (97 ≤ b && b ≤ 122) || (48 ≤ b && b ≤ 57)

/-- Does the expression `urn:solid:[A-Za-z0-9]{32}` match at the start of `s`. -/
def uriMatchHere (s : Str) : Bool :=
  g!"urn:solid:".isPrefixOf s && ((s.drop 10).take 32).length == 32 && ((s.drop 10).take 32).all isAlnum

/-- `regexp.MatchString`: somewhere in the string (the expression is not anchored). -/
def uriMatch : Str → Bool
  | [] => uriMatchHere []
  | b :: r => uriMatchHere (b :: r) || uriMatch r

/-- request_uri.go:50-61 `Validate`. -/
def validateUri (s : Str) : Bool := uriMatch (Go.trimSpace s)

/-- device_user_code.go:34. -/
def alphaChars : Str := g!"BCDFGHJKLMNPQRSTVWXZ"
/-- device_user_code.go:36. -/
def numChars : Str := g!"0123456789"

/-- device_user_code.go:51-54 `Generate`: `%s-%s` of `code[:4]` and `code[4:]`. -/
def userCodeAlpha (rnd : Nat → Nat) : Str :=
  let code := newLenChars rnd 8 alphaChars
  code.take 4 ++ g!"-" ++ code.drop 4

/-- device_user_code.go:65-68 `Generate`: `%s-%s-%s`. -/
def userCodeNum (rnd : Nat → Nat) : Str :=
  let code := newLenChars rnd 9 numChars
  code.take 3 ++ g!"-" ++ (code.drop 3).take 3 ++ g!"-" ++ code.drop 6

/-! ### sdk/pkce/verifier.go -/

/-- verifier.go:33-49 `CodeVerifier`, given the 96 random bytes. -/
def codeVerifier (E : Env) (random : Str) : Str × Str :=
  let verifier := Go.b64 random
  (verifier, Go.b64 (E.sha256 verifier))

/-- verifier.go:52-77 `Validate`; `none` is the error. -/
def pkceValidate (challenge verifier : Str) : Option Bool :=
  if challenge = [] then none
  else if verifier = [] then none
  else match Go.b64Decode challenge with
    | none => none
    | some ch =>
      match Go.b64Decode verifier with
      | none => none
      | some ver => some (secureCompare ch ver)

/-! ### sdk/pairwise/hash.go -/

/-- hash.go:45-70 `Encode`; `hash salt` is keyed BLAKE2b-256, whose constructor
refuses keys of more than 64 bytes. -/
def pairwise (hash : Str → Str → Str) (salt sector subject : Str) : Option Str :=
  if salt.length < 16 then none
  else
    let subject := Go.trimSpace subject
    if subject.length = 0 then none
    else if salt.length > 64 then none
    else some (Go.b64 (hash salt (sector ++ subject)))

end Verif.Lib
