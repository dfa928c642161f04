import Verif.Go.Str

/-!
URIs with an authority as RFC 3986 describes them, independent of `net/url`.
-/
namespace Verif.Spec

/-- The components of a URI `scheme://authority path ?query` (RFC 3986 §3). -/
structure UriParts where
  scheme : Str
  authority : Str
  path : Str
  query : Option Str
deriving DecidableEq, Repr

/-- A query with its question mark. -/
def queryTail : Option Str → Str
  | some q => 63 :: q
  | none => []

/-- `s` is a URI without fragment whose components are `c`: RFC 3986 §5.3, with the
delimiters of appendix B. -/
structure IsUri (s : Str) (c : UriParts) : Prop where
  text : s = c.scheme ++ g!"://" ++ c.authority ++ c.path ++ queryTail c.query
  some_scheme : c.scheme ≠ []
  scheme : ∀ b ∈ c.scheme, b ∉ g!":/?#"
  authority : ∀ b ∈ c.authority, b ∉ g!"/?#"
  path : ∀ b ∈ c.path, b ∉ g!"?#"
  rooted : c.path = [] ∨ c.path.head? = some 47
  query : ∀ q, c.query = some q → 35 ∉ q

/-- RFC 3986 §3.2: the host and port of an authority, behind the user information. -/
def IsHost (auth h : Str) : Prop := (auth = h ∨ ∃ ui, auth = ui ++ 64 :: h) ∧ 64 ∉ h

/-- The value of a hexadecimal digit. -/
def hexDigit (c : UInt8) : Option Nat :=
  if 48 ≤ c ∧ c ≤ 57 then some (c.toNat - 48)
  else if 65 ≤ c ∧ c ≤ 70 then some (c.toNat - 55)
  else if 97 ≤ c ∧ c ≤ 102 then some (c.toNat - 87)
  else none

/-- RFC 3986 §2.1: what a percent-encoded text stands for. -/
def pct : Str → Str
  | [] => []
  | c :: s =>
    let plain := c :: pct s
    if c = 37 then
      match s with
      | a :: b :: t =>
        match hexDigit a, hexDigit b with
        | some x, some y => UInt8.ofNat (16 * x + y) :: pct t
        | _, _ => plain
      | _ => plain
    else plain

/-- The ASCII lower case of a byte. -/
def asciiLower (c : UInt8) : UInt8 := if 65 ≤ c ∧ c ≤ 90 then c + 32 else c

end Verif.Spec
