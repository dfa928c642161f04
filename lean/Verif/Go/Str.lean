/-
Go strings as byte lists, and the handful of `strings` and `unicode` functions the
services use. Decoding of UTF-8 and white space are exact. The case tables of Unicode
are arbitrary functions (`opaque`) outside ASCII, except for the four runes that are
related to ASCII letters: U+0130, U+0131, U+017F and U+212A.
-/

namespace Verif

/-- A Go `string`: a finite sequence of bytes; Go's `len` is `List.length`. -/
abbrev Str := List UInt8

open Lean in
/-- `g!"..."` is the UTF-8 byte list of a string literal. -/
macro:max "g!" s:str : term => do
  let bs := s.getString.toUTF8.toList
  let lits ← bs.mapM fun b => `(($(Syntax.mkNumLit (toString b.toNat)) : UInt8))
  `(([$(lits.toArray),*] : List UInt8))

namespace Go

/-- UTF-8 continuation byte in the given inclusive range. -/
def inRange (lo hi : UInt8) (b : UInt8) : Bool := lo ≤ b && b ≤ hi

/-- Number of bytes consumed by decoding the first rune (`utf8.DecodeRuneInString`):
invalid sequences consume one byte. -/
def runeLen : Str → Nat
  | [] => 0
  | b0 :: r =>
    if b0 < 0x80 then 1
    else if inRange 0xC2 0xDF b0 then
      match r with
      | b1 :: _ => if inRange 0x80 0xBF b1 then 2 else 1
      | _ => 1
    else if inRange 0xE0 0xEF b0 then
      let lo := if b0 == 0xE0 then 0xA0 else 0x80
      let hi := if b0 == 0xED then 0x9F else 0xBF
      match r with
      | b1 :: b2 :: _ => if inRange lo hi b1 && inRange 0x80 0xBF b2 then 3 else 1
      | _ => 1
    else if inRange 0xF0 0xF4 b0 then
      let lo := if b0 == 0xF0 then 0x90 else 0x80
      let hi := if b0 == 0xF4 then 0x8F else 0xBF
      match r with
      | b1 :: b2 :: b3 :: _ =>
        if inRange lo hi b1 && inRange 0x80 0xBF b2 && inRange 0x80 0xBF b3 then 4 else 1
      | _ => 1
    else 1

/-- Loop of `chunks`; the fuel is the number of bytes. -/
def chunksAux : Nat → Str → List Str
  | 0, _ => []
  | _ + 1, [] => []
  | n + 1, b :: r => (b :: r).take (runeLen (b :: r)) :: chunksAux n ((b :: r).drop (runeLen (b :: r)))

/-- The bytes of the runes that `range` over a string yields. -/
def chunks (s : Str) : List Str := chunksAux s.length s

/-- The rune a chunk stands for: U+FFFD for an invalid byte. -/
def runeOf : Str → Nat
  | [b0] => if b0 < 0x80 then b0.toNat else 0xFFFD
  | [b0, b1] => (b0.toNat - 0xC0) * 64 + (b1.toNat - 0x80)
  | [b0, b1, b2] => ((b0.toNat - 0xE0) * 64 + (b1.toNat - 0x80)) * 64 + (b2.toNat - 0x80)
  | [b0, b1, b2, b3] =>
    (((b0.toNat - 0xF0) * 64 + (b1.toNat - 0x80)) * 64 + (b2.toNat - 0x80)) * 64 + (b3.toNat - 0x80)
  | _ => 0xFFFD

/-- The runes of a string. -/
def runes (s : Str) : List Nat := (chunks s).map runeOf

/-- `utf8.AppendRune` for a rune that is not a surrogate. -/
def encodeRune (r : Nat) : Str :=
  if r < 0x80 then [UInt8.ofNat r]
  else if r < 0x800 then [UInt8.ofNat (0xC0 + r / 64), UInt8.ofNat (0x80 + r % 64)]
  else if r < 0x10000 then
    [UInt8.ofNat (0xE0 + r / 4096), UInt8.ofNat (0x80 + r / 64 % 64), UInt8.ofNat (0x80 + r % 64)]
  else
    [UInt8.ofNat (0xF0 + r / 262144), UInt8.ofNat (0x80 + r / 4096 % 64), UInt8.ofNat (0x80 + r / 64 % 64),
     UInt8.ofNat (0x80 + r % 64)]

/-! ### Letter case -/

/-- A representative of the `unicode.SimpleFold` orbit of a rune without ASCII letters in
its orbit. -/
opaque foldTable : Nat → Nat
/-- `unicode.ToLower` of a rune above ASCII that has no ASCII lower case. -/
opaque lowerTable : Nat → Nat
/-- `unicode.ToUpper` of a rune above ASCII that has no ASCII upper case. -/
opaque upperTable : Nat → Nat

/-- A value of a table, never ASCII. -/
def aboveAscii (r : Nat) : Nat := if r < 0x80 then r + 0x80 else r

/-- ASCII lower case. -/
def lowerAscii (r : Nat) : Nat := if 65 ≤ r ∧ r ≤ 90 then r + 32 else r
/-- ASCII upper case. -/
def upperAscii (r : Nat) : Nat := if 97 ≤ r ∧ r ≤ 122 then r - 32 else r

/-- A representative of the `unicode.SimpleFold` orbit: U+017F folds to `s` and U+212A to `k`. -/
def foldRune (r : Nat) : Nat :=
  if r < 0x80 then lowerAscii r else if r = 0x17F then 115 else if r = 0x212A then 107 else aboveAscii (foldTable r)

/-- `unicode.ToLower`: U+0130 becomes `i` and U+212A `k`. -/
def lowerRune (r : Nat) : Nat :=
  if r < 0x80 then lowerAscii r else if r = 0x130 then 105 else if r = 0x212A then 107 else aboveAscii (lowerTable r)

/-- `unicode.ToUpper`: U+0131 becomes `I` and U+017F `S`. -/
def upperRune (r : Nat) : Nat :=
  if r < 0x80 then upperAscii r else if r = 0x131 then 73 else if r = 0x17F then 83 else aboveAscii (upperTable r)

/-- The runes of a string up to case. -/
def foldRunes (s : Str) : List Nat := (runes s).map foldRune

/-- `strings.EqualFold`: rune by rune the same orbit. -/
def equalFold (a b : Str) : Bool := foldRunes a == foldRunes b

/-- `strings.ToLower`; invalid bytes become U+FFFD. -/
def toLower (s : Str) : Str := (runes s).flatMap fun r => encodeRune (lowerRune r)

/-- `strings.ToUpper`. -/
def toUpper (s : Str) : Str := (runes s).flatMap fun r => encodeRune (upperRune r)

/-! ### White space -/

/-- `unicode.IsSpace`. -/
def isSpaceRune (r : Nat) : Bool :=
  r == 0x20 || (0x09 ≤ r && r ≤ 0x0D) || r == 0x85 || r == 0xA0 || r == 0x1680 || (0x2000 ≤ r && r ≤ 0x200A) ||
  r == 0x2028 || r == 0x2029 || r == 0x202F || r == 0x205F || r == 0x3000

/-- Whether a chunk is white space. -/
def isSpace (c : Str) : Bool := isSpaceRune (runeOf c)

/-- Split a list around runs of separators; `cur` is the part being read. -/
def splitAux {α : Type} (sep : α → Bool) (cur : List α) : List α → List (List α)
  | [] => if cur.isEmpty then [] else [cur]
  | b :: rest =>
    if sep b then
      if cur.isEmpty then splitAux sep [] rest else cur :: splitAux sep [] rest
    else splitAux sep (cur ++ [b]) rest

/-- `strings.Fields`: split around runs of white space, no empty fields. -/
def fields (s : Str) : List Str := (splitAux isSpace [] (chunks s)).map List.flatten

/-- `strings.Join`. -/
def join (sep : Str) : List Str → Str
  | [] => []
  | [x] => x
  | x :: y :: r => x ++ sep ++ join sep (y :: r)

/-- `strings.TrimSpace`. Go decodes the end of the string backwards, which gives the same
runes because no encoding of a white space starts with a continuation byte. -/
def trimSpace (s : Str) : Str := (((chunks s).dropWhile isSpace).reverse.dropWhile isSpace).reverse.flatten

/-- Loop of `runeCount`; the fuel is the number of bytes. -/
def runeCountAux : Nat → Str → Nat
  | 0, _ => 0
  | _ + 1, [] => 0
  | n + 1, s => runeCountAux n (s.drop (runeLen s)) + 1

/-- `utf8.RuneCountInString`. -/
def runeCount (s : Str) : Nat := runeCountAux s.length s

end Go
end Verif
