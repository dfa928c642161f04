import Verif.Go.Base64

/-!
`base64.RawURLEncoding.DecodeString` (Go standard library, not strict): line
breaks are skipped anywhere, unused trailing bits are ignored.
-/
namespace Verif.Go

/-- The 6-bit value of a byte of the alphabet. -/
def b64Val (b : UInt8) : Option Nat :=
  if 65 ≤ b ∧ b ≤ 90 then some (b.toNat - 65)
  else if 97 ≤ b ∧ b ≤ 122 then some (b.toNat - 97 + 26)
  else if 48 ≤ b ∧ b ≤ 57 then some (b.toNat - 48 + 52)
  else if b = 45 then some 62
  else if b = 95 then some 63
  else none

/-- The input without CR and LF. -/
def stripLines (s : Str) : Str := s.filter fun b => b != 10 && b != 13

/-- The bytes of up to three 6-bit values left at the end; one alone is an error. -/
def b64Tail : List Nat → Option Str
  | [] => some []
  | [x, y] => some [UInt8.ofNat (x * 4 + y / 16)]
  | [x, y, z] => some [UInt8.ofNat (x * 4 + y / 16), UInt8.ofNat (y % 16 * 16 + z / 4)]
  | _ => none

/-- Groups of four 6-bit values. -/
def b64Groups : List Nat → Option Str
  | x :: y :: z :: w :: rest =>
    (b64Groups rest).map fun r =>
      UInt8.ofNat (x * 4 + y / 16) :: UInt8.ofNat (y % 16 * 16 + z / 4) :: UInt8.ofNat (z % 4 * 64 + w) :: r
  | l => b64Tail l

/-- `base64.RawURLEncoding.DecodeString`; `none` is the error. -/
def b64Decode (s : Str) : Option Str := ((stripLines s).mapM b64Val).bind b64Groups

end Verif.Go
