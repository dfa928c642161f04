import Verif.Spec.Uri
import Verif.Spec.RequestObject

/-!
JSON texts (RFC 8259) over bytes, and what they stand for. A string stands for a sequence of
UTF-16 code units, so that every text of the grammar stands for something.
-/
namespace Verif.Spec.Json

/-- What a JSON text stands for; numbers are given by their text. -/
inductive Value where
  | null
  | bool (b : Bool)
  | num (t : Str)
  | str (u : List Nat)
  | arr (l : List Value)
  | obj (l : List (List Nat × Value))

/-- The code units of a code point. -/
def units (c : Nat) : List Nat :=
  if c < 0x10000 then [c] else [0xD800 + (c - 0x10000) / 0x400, 0xDC00 + (c - 0x10000) % 0x400]

/-- Section 2: white space. -/
def Ws (t : Str) : Prop := ∀ b ∈ t, b = 32 ∨ b = 9 ∨ b = 10 ∨ b = 13

instance (t : Str) : Decidable (Ws t) := inferInstanceAs (Decidable (∀ b ∈ t, b = 32 ∨ b = 9 ∨ b = 10 ∨ b = 13))

/-- Section 7: the letters behind a reverse solidus and what they stand for. -/
def escapes : List (UInt8 × Nat) :=
  [(34, 0x22), (92, 0x5C), (47, 0x2F), (98, 0x08), (102, 0x0C), (110, 0x0A), (114, 0x0D), (116, 0x09)]

/-- Section 7: what stands between the quotation marks. `Char` is the type of Unicode scalar values. -/
inductive Chars : List Nat → Str → Prop
  | nil : Chars [] []
  | plain (c : Char) {u t} : 0x20 ≤ c.toNat → c ≠ '"' → c ≠ '\\' → Chars u t →
      Chars (units c.toNat ++ u) (String.utf8EncodeChar c ++ t)
  | escape (b : UInt8) (n : Nat) {u t} : (b, n) ∈ escapes → Chars u t → Chars (n :: u) (92 :: b :: t)
  | hex (a b c d : UInt8) (w x y z : Nat) {u t} : hexDigit a = some w → hexDigit b = some x → hexDigit c = some y →
      hexDigit d = some z → Chars u t → Chars ((w * 4096 + x * 256 + y * 16 + z) :: u) (92 :: 117 :: a :: b :: c :: d :: t)

def Digits (t : Str) : Prop := ∀ b ∈ t, 48 ≤ b ∧ b ≤ 57

instance (t : Str) : Decidable (Digits t) := inferInstanceAs (Decidable (∀ b ∈ t, 48 ≤ b ∧ b ≤ 57))

/-- Section 6: numbers. -/
def Number (t : Str) : Prop :=
  ∃ m i f e, t = m ++ i ++ f ++ e ∧ (m = [] ∨ m = g!"-") ∧
    (i = g!"0" ∨ ∃ d ds, i = d :: ds ∧ 49 ≤ d ∧ d ≤ 57 ∧ Digits ds) ∧
    (f = [] ∨ ∃ ds, f = 46 :: ds ∧ ds ≠ [] ∧ Digits ds) ∧
    (e = [] ∨ ∃ c s ds, e = c :: s ++ ds ∧ (c = 101 ∨ c = 69) ∧ (s = [] ∨ s = g!"+" ∨ s = g!"-") ∧ ds ≠ [] ∧ Digits ds)

mutual
/-- Sections 3 to 7: values. -/
inductive Written : Value → Str → Prop
  | null : Written .null g!"null"
  | true : Written (.bool true) g!"true"
  | false : Written (.bool false) g!"false"
  | num {t} : Number t → Written (.num t) t
  | str {u t} : Chars u t → Written (.str u) (34 :: t ++ [34])
  | noElements {w} : Ws w → Written (.arr []) (91 :: w ++ [93])
  | arr {l t} : Elements l t → Written (.arr l) (91 :: t ++ [93])
  | noMembers {w} : Ws w → Written (.obj []) (123 :: w ++ [125])
  | obj {l t} : Members l t → Written (.obj l) (123 :: t ++ [125])

/-- Section 5: one or more values with commas between. -/
inductive Elements : List Value → Str → Prop
  | one {v w t w'} : Ws w → Written v t → Ws w' → Elements [v] (w ++ t ++ w')
  | more {v w t w' l ts} : Ws w → Written v t → Ws w' → Elements l ts → Elements (v :: l) (w ++ t ++ w' ++ 44 :: ts)

/-- Section 4: one or more members with commas between. -/
inductive Members : List (List Nat × Value) → Str → Prop
  | one {k v s t w1 w2 w3 w4} : Ws w1 → Chars k s → Ws w2 → Ws w3 → Written v t → Ws w4 →
      Members [(k, v)] (w1 ++ (34 :: s ++ [34]) ++ w2 ++ 58 :: (w3 ++ t ++ w4))
  | more {k v s t w1 w2 w3 w4 l ts} : Ws w1 → Chars k s → Ws w2 → Ws w3 → Written v t → Ws w4 → Members l ts →
      Members ((k, v) :: l) (w1 ++ (34 :: s ++ [34]) ++ w2 ++ 58 :: (w3 ++ t ++ w4 ++ 44 :: ts))
end

/-- Section 2: a JSON text. -/
def Text (v : Value) (t : Str) : Prop := ∃ w x w', Ws w ∧ Written v x ∧ Ws w' ∧ t = w ++ x ++ w'

/-- What a server says with a text. -/
inductive Datum where
  | null
  | bool (b : Bool)
  | num (n : Nat)
  | str (s : Str)
  | arr (l : List Datum)
  | obj (l : List (Str × Datum))

/-- The code units of a Go string; bytes outside UTF-8 count as U+FFFD. -/
def reading (s : Str) : List Nat := (Go.runes s).flatMap units

mutual
/-- The value stands for the datum. -/
inductive Means : Datum → Value → Prop
  | null : Means .null .null
  | bool {b} : Means (.bool b) (.bool b)
  | num {n t} : Decimal t n → Means (.num n) (.num t)
  | str {s} : Means (.str s) (.str (reading s))
  | arr {l vs} : MeansAll l vs → Means (.arr l) (.arr vs)
  | obj {l ms} : MeansFields l ms → Means (.obj l) (.obj ms)

inductive MeansAll : List Datum → List Value → Prop
  | nil : MeansAll [] []
  | cons {d v l vs} : Means d v → MeansAll l vs → MeansAll (d :: l) (v :: vs)

inductive MeansFields : List (Str × Datum) → List (List Nat × Value) → Prop
  | nil : MeansFields [] []
  | cons {k d v l ms} : Means d v → MeansFields l ms → MeansFields ((k, d) :: l) ((reading k, v) :: ms)
end

/-- The JSON text says the datum. -/
def Says (t : Str) (d : Datum) : Prop := ∃ v, Text v t ∧ Means d v

/-- The string is UTF-8. -/
def Utf8 (s : Str) : Prop := ∃ cs : List Char, s = cs.flatMap String.utf8EncodeChar

mutual
/-- All strings of the datum are UTF-8. -/
def Datum.Utf8 : Datum → Prop
  | .str s => Json.Utf8 s
  | .arr l => Datum.Utf8All l
  | .obj l => Datum.Utf8Fields l
  | _ => True

def Datum.Utf8All : List Datum → Prop
  | [] => True
  | d :: l => d.Utf8 ∧ Datum.Utf8All l

def Datum.Utf8Fields : List (Str × Datum) → Prop
  | [] => True
  | (k, d) :: l => Json.Utf8 k ∧ d.Utf8 ∧ Datum.Utf8Fields l
end

end Verif.Spec.Json
