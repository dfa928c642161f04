import Verif.Go.Str

/-! Vocabulary about strings used in the property statements. -/
namespace Verif.Spec

/-- Equal up to letter case: rune by rune the same letter. -/
def SameFold (a b : Str) : Prop := (Go.runes a).map Go.foldRune = (Go.runes b).map Go.foldRune

instance (a b : Str) : Decidable (SameFold a b) := inferInstanceAs (Decidable (_ = _))

/-- `x` is an element of `l` up to letter case. -/
def MemFold (x : Str) (l : List Str) : Prop := ∃ y ∈ l, SameFold x y

/-- `w` is one of the blank-separated words of `s`: read as runes, `s` is a left part, the
word and a right part, the parts being empty or delimited by white space. -/
def IsWord (w s : Str) : Prop :=
  w ≠ [] ∧ (∀ c ∈ Go.chunks w, Go.isSpace c = false) ∧
  ∃ l r, Go.chunks s = l ++ Go.chunks w ++ r ∧
    (l = [] ∨ ∃ l' c, l = l' ++ [c] ∧ Go.isSpace c = true) ∧
    (r = [] ∨ ∃ c r', r = c :: r' ∧ Go.isSpace c = true)

/-- Some word of `s` is `w` up to letter case. -/
def HasWord (w s : Str) : Prop := ∃ v, IsWord v s ∧ SameFold w v

/-- How many words of `s` are `w` up to letter case. -/
def wordCount (w s : Str) : Nat := (Go.fields s).countP fun v => decide (SameFold w v)

end Verif.Spec
