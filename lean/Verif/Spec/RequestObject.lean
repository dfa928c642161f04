import Verif.Model.RequestObject

/-! What a request object says. -/
namespace Verif.Spec
open Verif.RequestObject

/-- The names of the parameters (RFC 6749, RFC 7636, RFC 8707, RFC 9101 and OpenID Connect). -/
def paramName : Param → Str
  | .scope => g!"scope"
  | .responseType => g!"response_type"
  | .clientId => g!"client_id"
  | .redirectUri => g!"redirect_uri"
  | .state => g!"state"
  | .responseMode => g!"response_mode"
  | .nonce => g!"nonce"
  | .display => g!"display"
  | .prompt => g!"prompt"
  | .maxAge => g!"max_age"
  | .uiLocales => g!"ui_locales"
  | .idTokenHint => g!"id_token_hint"
  | .acrValues => g!"acr_values"
  | .request => g!"request"
  | .requestUri => g!"request_uri"
  | .codeChallenge => g!"code_challenge"
  | .codeChallengeMethod => g!"code_challenge_method"
  | .audience => g!"audience"
  | .dpopProof => g!"dpop_proof"
  | .resource => g!"resource"
  | .iss => g!"iss"
  | .loginHintToken => g!"login_hint_token"
  | .loginHint => g!"login_hint"

/-- Their names in lower camel case, which are understood too. -/
def camelName : Param → Str
  | .scope => g!"scope"
  | .responseType => g!"responseType"
  | .clientId => g!"clientId"
  | .redirectUri => g!"redirectUri"
  | .state => g!"state"
  | .responseMode => g!"responseMode"
  | .nonce => g!"nonce"
  | .display => g!"display"
  | .prompt => g!"prompt"
  | .maxAge => g!"maxAge"
  | .uiLocales => g!"uiLocales"
  | .idTokenHint => g!"idTokenHint"
  | .acrValues => g!"acrValues"
  | .request => g!"request"
  | .requestUri => g!"requestUri"
  | .codeChallenge => g!"codeChallenge"
  | .codeChallengeMethod => g!"codeChallengeMethod"
  | .audience => g!"audience"
  | .dpopProof => g!"dpopProof"
  | .resource => g!"resource"
  | .iss => g!"iss"
  | .loginHintToken => g!"loginHintToken"
  | .loginHint => g!"loginHint"

/-- The member name `k` stands for the parameter `p`. -/
def Names (k : Str) (p : Param) : Prop := k = paramName p ∨ k = camelName p

def opt (s : Option Str) : JVal := (s.map .str).getD .null

/-- The value of a parameter in a request; `null` if it has none. -/
def value (r : AuthzRequest) : Param → JVal
  | .scope => .str r.scope
  | .responseType => .str r.responseType
  | .clientId => .str r.clientId
  | .redirectUri => .str r.redirectUri
  | .state => .str r.state
  | .responseMode => opt r.responseMode
  | .nonce => .str r.nonce
  | .display => opt r.display
  | .prompt => opt r.prompt
  | .maxAge => (r.maxAge.map .num).getD .null
  | .uiLocales => opt r.uiLocales
  | .idTokenHint => opt r.idTokenHint
  | .acrValues => opt r.acrValues
  | .request => opt r.request
  | .requestUri => opt r.requestUri
  | .codeChallenge => .str r.codeChallenge
  | .codeChallengeMethod => .str r.codeChallengeMethod
  | .audience => .str r.audience
  | .dpopProof => opt r.dpopProof
  | .resource => .arr (r.resource.map .str)
  | .iss => opt r.iss
  | .loginHintToken => opt r.loginHintToken
  | .loginHint => opt r.loginHint

/-- The text `s` is the number `n` in decimal digits, without leading zeros. -/
def Decimal (s : Str) (n : Nat) : Prop :=
  s ≠ [] ∧ (∀ b ∈ s, 48 ≤ b ∧ b ≤ 57) ∧ (s = g!"0" ∨ s.head? ≠ some 48) ∧ n = s.foldl (fun a b => 10 * a + (b.toNat - 48)) 0

/-- The member value is the number `n` of 64 bits: as a number, as a text in decimal digits
or as another text that `exotic` reads. -/
inductive Number (exotic : Str → Option Nat) : JVal → Nat → Prop
  | num {n : Nat} : n < 2 ^ 64 → Number exotic (.num n) n
  | text {s : Str} {n : Nat} : Decimal s n → n < 2 ^ 64 → Number exotic (.str s) n
  | other {s : Str} {n : Nat} : (∀ k, ¬ Decimal s k) → exotic s = some n → Number exotic (.str s) n

/-- The member value `v` means the parameter value `w`. -/
def Means (exotic : Str → Option Nat) (p : Param) (v w : JVal) : Prop :=
  match p with
  | .maxAge => ∃ n, Number exotic v n ∧ w = .num n
  | .resource => ∃ l : List Str, v = .arr (l.map .str) ∧ w = v
  | _ => ∃ s, v = .str s ∧ w = v

/-- The object `m` is a request object saying `r`: every member stands for a parameter, no
parameter is named twice, and every parameter of `r` has the value it is given, or none. -/
structure Says (exotic : Str → Option Nat) (m : List (Str × JVal)) (r : AuthzRequest) : Prop where
  known : ∀ k v, (k, v) ∈ m → ∃ p, Names k p
  once : m.Pairwise fun a b => ∀ p, Names a.1 p → ¬ Names b.1 p
  given : ∀ k v p, (k, v) ∈ m → Names k p → v ≠ .null → Means exotic p v (value r p)
  unset : ∀ p, (∀ k v, (k, v) ∈ m → Names k p → v = .null) → value r p = value {} p

end Verif.Spec
