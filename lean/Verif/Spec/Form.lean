import Verif.Spec.Uri

/-!
`application/x-www-form-urlencoded` (RFC 6749 appendix B, HTML 4.01 section 17.13.4.1): the texts that stand for
a list of parameters, whatever program wrote them.
-/
namespace Verif.Spec

/-- `t` stands for one byte: literally, a plus for a space, or with two hexadecimal digits of either case. -/
inductive FormByte : Str → UInt8 → Prop
  | plain (b : UInt8) : b ∉ g!"&=+%;" → FormByte [b] b
  | space : FormByte [43] 32
  | hex (a b : UInt8) (x y : Nat) : hexDigit a = some x → hexDigit b = some y → FormByte [37, a, b] (UInt8.ofNat (16 * x + y))

/-- `t` stands for a text. -/
inductive FormText : Str → Str → Prop
  | nil : FormText [] []
  | cons {t s : Str} {u : Str} {b : UInt8} : FormByte t b → FormText u s → FormText (t ++ u) (b :: s)

/-- `t` stands for a name with its value. -/
def FormPair (t : Str) (x : Str × Str) : Prop := ∃ k v, t = k ++ 61 :: v ∧ FormText k x.1 ∧ FormText v x.2

/-- `t` stands for a list of parameters. -/
inductive Form : Str → List (Str × Str) → Prop
  | nil : Form [] []
  | one {t : Str} {x : Str × Str} : FormPair t x → Form t [x]
  | cons {t u : Str} {x y : Str × Str} {l : List (Str × Str)} : FormPair t x → Form u (y :: l) → Form (t ++ 38 :: u) (x :: y :: l)

/-- The value of a parameter that occurs at most once (RFC 6749 section 3.1). -/
def Once (l : List (Str × Str)) : Prop := (l.map Prod.fst).Nodup

end Verif.Spec
