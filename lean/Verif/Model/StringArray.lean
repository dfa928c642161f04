import Verif.Go.Str

/-! `sdk/types/string_array.go` -/
namespace Verif.StringArray

/-- sdk/types/string_array.go:28-36 `Contains`. -/
def contains : List Str → Str → Bool
  | [], _ => false
  | v :: vs, item => if Go.equalFold item v then true else contains vs item

/-- sdk/types/string_array.go:39-44 `AddIfNotContains`. -/
def addIfNotContains (s : List Str) (item : Str) : List Str :=
  if contains s item then s else s ++ [item]

/-- Index search loop of `Remove` (sdk/types/string_array.go:48-54): `none` is -1. -/
def indexFold (item : Str) : Nat → List Str → Option Nat
  | _, [] => none
  | i, v :: vs => if Go.equalFold item v then some i else indexFold item (i + 1) vs

/-- sdk/types/string_array.go:47-59 `Remove`: drop the first matching element.
The in-place `append` aliases the backing array of the receiver, which its only
caller owns (it comes from `strings.Fields`), so lists are adequate here. -/
def remove (s : List Str) (item : Str) : List Str :=
  match indexFold item 0 s with
  | none => s
  | some i => s.take i ++ s.drop (i + 1)

/-- sdk/types/string_array.go:62-70 `HasOneOf`. -/
def hasOneOf (s : List Str) : List Str → Bool
  | [] => false
  | i :: is => if contains s i then true else hasOneOf s is

/-- Loop of `HasAll` (sdk/types/string_array.go:73-84) with its `found` flag. -/
def hasAllLoop (s : List Str) : Bool → List Str → Bool
  | found, [] => found
  | _, i :: is => if contains s i then hasAllLoop s true is else false

/-- sdk/types/string_array.go:73-84 `HasAll`. -/
def hasAll (s : List Str) (items : List Str) : Bool := hasAllLoop s false items

end Verif.StringArray
