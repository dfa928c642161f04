import Verif.Go.Str

/-! White space as bytes, without reference to decoding. -/
namespace Verif.Spec

/-- The UTF-8 encodings of the characters with the Unicode property White_Space. -/
def blanks : List Str :=
  [g!"\t", g!"\n", [11], [12], g!"\r", g!" ", [0xC2, 0x85], [0xC2, 0xA0], [0xE1, 0x9A, 0x80], [0xE2, 0x80, 0x80],
   [0xE2, 0x80, 0x81], [0xE2, 0x80, 0x82], [0xE2, 0x80, 0x83], [0xE2, 0x80, 0x84], [0xE2, 0x80, 0x85], [0xE2, 0x80, 0x86],
   [0xE2, 0x80, 0x87], [0xE2, 0x80, 0x88], [0xE2, 0x80, 0x89], [0xE2, 0x80, 0x8A], [0xE2, 0x80, 0xA8], [0xE2, 0x80, 0xA9],
   [0xE2, 0x80, 0xAF], [0xE2, 0x81, 0x9F], [0xE3, 0x80, 0x80]]

/-- `t` is `s` without the blanks around it. -/
def Trimmed (s t : Str) : Prop :=
  (∃ l r : List Str, s = l.flatten ++ t ++ r.flatten ∧ (∀ c ∈ l ++ r, c ∈ blanks)) ∧ ∀ c ∈ blanks, ¬ c <+: t ∧ ¬ c <:+ t

end Verif.Spec
