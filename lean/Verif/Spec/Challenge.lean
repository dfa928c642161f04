import Verif.Go.Str

/-! The challenges of `WWW-Authenticate` as RFC 9110 describes them (sections 5.6 and 11.2). -/
namespace Verif.Spec

/-- `tchar` (section 5.6.2): a visible character that is no delimiter. -/
def TokenByte (b : UInt8) : Prop := 33 ≤ b ∧ b ≤ 126 ∧ b ∉ g!"\"(),/:;<=>?@[\\]{}"

instance (b : UInt8) : Decidable (TokenByte b) := inferInstanceAs (Decidable (_ ∧ _ ∧ _))

/-- `token`. -/
def IsToken (s : Str) : Prop := s ≠ [] ∧ ∀ b ∈ s, TokenByte b

instance (s : Str) : Decidable (IsToken s) := inferInstanceAs (Decidable (_ ∧ _))

/-- `qdtext` (section 5.6.4): a tabulator, a blank or anything else that is neither a control
character nor `"` nor `\`. -/
def QuotedByte (b : UInt8) : Prop := b = 9 ∨ 32 ≤ b ∧ b ≠ 34 ∧ b ≠ 92 ∧ b ≠ 127

instance (b : UInt8) : Decidable (QuotedByte b) := inferInstanceAs (Decidable (_ ∨ _))

/-- What may follow a backslash. -/
def EscapedByte (b : UInt8) : Prop := b = 9 ∨ 32 ≤ b ∧ b ≠ 127

instance (b : UInt8) : Decidable (EscapedByte b) := inferInstanceAs (Decidable (_ ∨ _))

/-- The text between the quotation marks of a `quoted-string`, and what it stands for. -/
inductive QuotedText : Str → Str → Prop
  | nil : QuotedText [] []
  | plain {b : UInt8} {s v : Str} : QuotedByte b → QuotedText s v → QuotedText (b :: s) (b :: v)
  | escaped {b : UInt8} {s v : Str} : EscapedByte b → QuotedText s v → QuotedText (92 :: b :: s) (b :: v)

/-- `auth-param` (section 11.2): a name and a value, which is a token or quoted. Blanks around the
equals sign, which only recipients have to accept, are left out. -/
inductive AuthParam : Str → Str × Str → Prop
  | token {n v : Str} : IsToken n → IsToken v → AuthParam (n ++ 61 :: v) (n, v)
  | quoted {n q v : Str} : IsToken n → QuotedText q v → AuthParam (n ++ 61 :: 34 :: q ++ [34]) (n, v)

/-- Optional white space. -/
def Blanks (s : Str) : Prop := ∀ b ∈ s, b = 32 ∨ b = 9

instance (s : Str) : Decidable (Blanks s) := inferInstanceAs (Decidable (∀ b ∈ s, b = 32 ∨ b = 9))

/-- Parameters, separated by commas. -/
inductive AuthParams : Str → List (Str × Str) → Prop
  | one {s : Str} {p : Str × Str} : AuthParam s p → AuthParams s [p]
  | more {s x y t : Str} {p : Str × Str} {l : List (Str × Str)} :
      AuthParam s p → Blanks x → Blanks y → AuthParams t l → AuthParams (s ++ x ++ 44 :: y ++ t) (p :: l)

/-- `challenge` with parameters (section 11.3). -/
inductive Challenge : Str → Str → List (Str × Str) → Prop
  | mk {scheme t : Str} {l : List (Str × Str)} : IsToken scheme → AuthParams t l → Challenge (scheme ++ 32 :: t) scheme l

end Verif.Spec
