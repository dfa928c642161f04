import Verif.Spec.Json
import Verif.Go.Base64

/-!
JSON Web Keys: RFC 7517 and RFC 7518, section 6.
-/
namespace Verif.Spec.Jwk
open Verif.Spec.Json

/-- RFC 7517, section 4, and RFC 7518, section 6.2.1: a public key on P-384. The members `use`, `kid`
and `alg` are optional. -/
def publicMembers (use kid alg x y : Str) : List (Str × Datum) :=
  (if use = [] then [] else [(g!"use", .str use)]) ++ [(g!"kty", .str g!"EC")] ++
    (if kid = [] then [] else [(g!"kid", .str kid)]) ++ [(g!"crv", .str g!"P-384")] ++
    (if alg = [] then [] else [(g!"alg", .str alg)]) ++ [(g!"x", .str (Go.b64 x)), (g!"y", .str (Go.b64 y))]

/-- RFC 7517, section 5. -/
def keySet (ks : List (List (Str × Datum))) : Datum := .obj [(g!"keys", .arr (ks.map .obj))]

/-- RFC 7518, sections 6.2.2, 6.3.2 and 6.4, and RFC 8037, section 2: the members that make a key private. -/
def privateNames : List Str := [g!"d", g!"p", g!"q", g!"dp", g!"dq", g!"qi", g!"oth", g!"k"]

/-- No member of the key is private. -/
def IsPublic (m : List (Str × Datum)) : Prop := ∀ n ∈ privateNames, m.lookup n = none

end Verif.Spec.Jwk
