import Verif.Model.ClientAuth
import Verif.Model.Types

/-!
Verifiable identifiers: `sdk/token/verifiable`.

`math/big` is modelled by natural numbers; HKDF and HMAC are parameters. Lower-casing and
trimming of the prefix option are those of ASCII.
-/
namespace Verif.Verifiable
open Verif.Jose (Out)
open Verif.ClientAuth (cut)

/-! ### helpers.go -/

/-- The digits of `big.Int.Text(62)`. -/
def digit62 (n : Nat) : UInt8 :=
  if n < 10 then UInt8.ofNat (48 + n) else if n < 36 then UInt8.ofNat (97 + (n - 10)) else UInt8.ofNat (65 + (n - 36))

/-- The value of a digit for `big.Int.SetString(_, 62)`. -/
def val62 (b : UInt8) : Option Nat :=
  if 48 ≤ b ∧ b ≤ 57 then some (b.toNat - 48)
  else if 97 ≤ b ∧ b ≤ 122 then some (b.toNat - 97 + 10)
  else if 65 ≤ b ∧ b ≤ 90 then some (b.toNat - 65 + 36)
  else none

/-- `big.Int.Text(62)`. -/
def text62 (n : Nat) : Str := if n < 62 then [digit62 n] else text62 (n / 62) ++ [digit62 (n % 62)]
decreasing_by omega

/-- The digits after the accumulated value. -/
def parseAux (acc : Nat) : Str → Option Nat
  | [] => some acc
  | b :: r => match val62 b with
    | none => none
    | some v => parseAux (acc * 62 + v) r

/-- `big.Int.SetString(s, 62)`, for unsigned texts. -/
def parse62 (s : Str) : Option Nat := if s = [] then none else parseAux 0 s

/-- `big.Int.SetBytes`. -/
def bytesNat (s : Str) : Nat := s.foldl (fun a b => a * 256 + b.toNat) 0

/-- The big-endian bytes of a number. -/
def natBytes : Nat → Nat → Str
  | 0, _ => []
  | k + 1, n => natBytes k (n / 256) ++ [UInt8.ofNat (n % 256)]

/-- `big.Int.FillBytes(make([]byte, len))`: crashes when the number does not fit. -/
def fillBytes (len n : Nat) : Out Str := if n < 256 ^ len then .ok (natBytes len n) else .panic

/-- helpers.go:18-24 `padLeft`. -/
def padLeft (s : Str) (len : Nat) : Str := if s.length < len then List.replicate (len - s.length) 48 ++ s else s

/-- helpers.go:12-16 `toPaddedBase62`. -/
def toPaddedBase62 (s : Str) (len : Nat) : Str := padLeft (text62 (bytesNat s)) len

/-- helpers.go:26-35 `parsePaddedBase62`. -/
def parsePaddedBase62 (s : Str) (len : Nat) : Out Str :=
  match parse62 s with
  | none => .err
  | some n => fillBytes len n

/-! ### uuid.go -/

/-- HKDF-SHA256 (32 bytes, by secret, salt and info) and HMAC-SHA256 (by key and message). -/
structure Crypto where
  hkdf : Str → Str → Str → Str
  hmac : Str → Str → Str

/-- A letter or digit. -/
def alnum (b : UInt8) : Bool := (48 ≤ b && b ≤ 57) || (97 ≤ b && b ≤ 122) || (65 ≤ b && b ≤ 90)

/-- A character allowed in a prefix: the complement of api.go:10 `nonAuthorizedChars`. -/
def prefixChar (b : UInt8) : Bool := (97 ≤ b && b ≤ 122) || (48 ≤ b && b ≤ 57) || b == 45

/-- uuid.go:19 `wrappedUUIDFormat`. -/
def formatOk (s : Str) : Bool :=
  (s.length == 82 || s.length == 83) && (s.take 22).all alnum && s[22]? == some 95 && (s.drop 23).all alnum

/-- options.go:11-15 `WithTokenPrefix`. -/
def tokenPrefix (v : Str) : Str := Go.trimSpace (Go.toLower v)

/-- The tag of uuid.go:108-124 and 163-180. -/
def tag (C : Crypto) (secret nonce pfx uuid : Str) : Str :=
  C.hmac (C.hkdf secret nonce g!"solid-uuid-wrapper-mac-v1") (g!"solid-uuid-protected-token-v1" ++ pfx ++ uuid)

/-- uuid.go:82-127 `Generate`; `opts` are the values given to `WithTokenPrefix`, `source` and
`rand` the answers of the identifier source and of the random reader. -/
def generate (C : Crypto) (secret : Str) (opts : List Str) (source rand : Option Str) : Option Str :=
  let opt := opts.foldl (fun _ v => tokenPrefix v) []
  match source with
  | none => none
  | some uuid =>
    match rand with
    | none => none
    | some nonce =>
      if opt ≠ [] ∧ ¬ opt.all prefixChar then none
      else
        let pfx := if opt ≠ [] then opt ++ g!"_" else []
        some (pfx ++ toPaddedBase62 uuid 22 ++ g!"_" ++ toPaddedBase62 (nonce ++ tag C secret nonce pfx uuid) 59)

/-- uuid.go:153-196: decode both parts and compare the tag. `sig[:12]` and `sig[12:]` are
in range: `sig` has 44 bytes. -/
def check (C : Crypto) (secret pfx a b : Str) : Out Str :=
  match parsePaddedBase62 a 16 with
  | .err => .err
  | .panic => .panic
  | .ok uuid =>
    match parsePaddedBase62 b 44 with
    | .err => .err
    | .panic => .panic
    | .ok sig => if sig.drop 12 = tag C secret (sig.take 12) pfx uuid then .ok uuid else .err

/-- uuid.go:134-196 `Extract`. -/
def extract (C : Crypto) (secret : Str) (s : Str) : Out Str :=
  let (pfx, s) := match cut 95 s with
    | (_, none) => ([], s)
    | (p, some r) => match cut 95 r with
      | (_, none) => ([], s)
      | (a, some b) => (p ++ g!"_", a ++ g!"_" ++ b)
  if ¬ formatOk s then .err
  else match cut 95 s with
    | (_, none) => .err
    | (a, some b) => check C secret pfx a b

/-! ### verifiable.go -/

/-- verifiable.go:25-50: the prefixes of the token types. -/
def typePrefix : TokenType → List Str
  | .accessToken => [g!"sldat"]
  | .refreshToken => [g!"sldrt"]
  | .phantomToken => [g!"sldpt"]
  | _ => []

/-- verifiable.go:25-50 `Generate`. -/
def tokenGenerate (C : Crypto) (secret : Str) (source rand : Option Str) (t : Option TokenType) : Option Str :=
  match t with
  | none => none
  | some ty => generate C secret (typePrefix ty) source rand

end Verif.Verifiable
