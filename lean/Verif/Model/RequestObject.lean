import Verif.Model.Http

/-!
Request objects: `sdk/jwsreq/encoder.go` and `decoder.go`.

`protojson` (`google.golang.org/protobuf/encoding/protojson`) is modelled on parsed JSON
objects, given as a list of members. JSON texts and signatures are parameters.
-/
namespace Verif.RequestObject

/-- A JSON value, as far as it matters to a request object: `num` is a number with a
non-negative integer value, `other` any other number, a boolean or an object. -/
inductive JVal where
  | null
  | str (s : Str)
  | num (n : Nat)
  | arr (l : List JVal)
  | other
deriving Repr

/-- The fields of `flowv1.AuthorizationRequest` (proto/oidc/flow/v1/flow.proto:26-170). -/
inductive Param where
  | scope | responseType | clientId | redirectUri | state | responseMode | nonce | display | prompt | maxAge | uiLocales | idTokenHint | acrValues | request | requestUri | codeChallenge | codeChallengeMethod | audience | dpopProof | resource | iss | loginHintToken | loginHint
deriving DecidableEq, Repr

def Param.all : List Param :=
  [.scope, .responseType, .clientId, .redirectUri, .state, .responseMode, .nonce, .display, .prompt, .maxAge, .uiLocales, .idTokenHint, .acrValues, .request, .requestUri, .codeChallenge, .codeChallengeMethod, .audience, .dpopProof, .resource, .iss, .loginHintToken, .loginHint]

/-- The name of a field in the proto file, used by the encoder. -/
def Param.proto : Param → Str
  | .scope => g!"scope"
  | .responseType => g!"response_type"
  | .clientId => g!"client_id"
  | .redirectUri => g!"redirect_uri"
  | .state => g!"state"
  | .responseMode => g!"response_mode"
  | .nonce => g!"nonce"
  | .display => g!"display"
  | .prompt => g!"prompt"
  | .maxAge => g!"max_age"
  | .uiLocales => g!"ui_locales"
  | .idTokenHint => g!"id_token_hint"
  | .acrValues => g!"acr_values"
  | .request => g!"request"
  | .requestUri => g!"request_uri"
  | .codeChallenge => g!"code_challenge"
  | .codeChallengeMethod => g!"code_challenge_method"
  | .audience => g!"audience"
  | .dpopProof => g!"dpop_proof"
  | .resource => g!"resource"
  | .iss => g!"iss"
  | .loginHintToken => g!"login_hint_token"
  | .loginHint => g!"login_hint"

/-- The JSON name of a field (lower camel case), which the decoder accepts too. -/
def Param.json : Param → Str
  | .scope => g!"scope"
  | .responseType => g!"responseType"
  | .clientId => g!"clientId"
  | .redirectUri => g!"redirectUri"
  | .state => g!"state"
  | .responseMode => g!"responseMode"
  | .nonce => g!"nonce"
  | .display => g!"display"
  | .prompt => g!"prompt"
  | .maxAge => g!"maxAge"
  | .uiLocales => g!"uiLocales"
  | .idTokenHint => g!"idTokenHint"
  | .acrValues => g!"acrValues"
  | .request => g!"request"
  | .requestUri => g!"requestUri"
  | .codeChallenge => g!"codeChallenge"
  | .codeChallengeMethod => g!"codeChallengeMethod"
  | .audience => g!"audience"
  | .dpopProof => g!"dpopProof"
  | .resource => g!"resource"
  | .iss => g!"iss"
  | .loginHintToken => g!"loginHintToken"
  | .loginHint => g!"loginHint"

/-- The field named by a member: by its JSON name or its name in the proto file. -/
def paramOf (name : Str) : Option Param := Param.all.find? fun p => p.json = name ∨ p.proto = name

/-! ### Numbers in strings -/

/-- Decimal digits of a number below `10 ^ k`, at least one. -/
def digits : Nat → Nat → Str
  | 0, _ => []
  | k + 1, n => if n < 10 then [(48 + n).toUInt8] else digits k (n / 10) ++ [(48 + n % 10).toUInt8]

/-- `strconv.FormatUint(n, 10)`. -/
def decimal (n : Nat) : Str := digits 20 n

def isDigit (b : UInt8) : Bool := 48 ≤ b && b ≤ 57

/-- A JSON number without sign, fraction and exponent. -/
def plain (s : Str) : Bool := s ≠ [] && s.all isDigit && (s = [48] || s.head? ≠ some 48)

def numOf (s : Str) : Nat := s.foldl (fun a b => 10 * a + (b.toNat - 48)) 0

/-- The value of a 64-bit unsigned field: a number or a string holding one. `exotic` reads
strings with a fraction or an exponent. -/
def uint (exotic : Str → Option Nat) : JVal → Option Nat
  | .num n => if n < 2 ^ 64 then some n else none
  | .str s => if plain s then (if numOf s < 2 ^ 64 then some (numOf s) else none) else exotic s
  | _ => none

def string? : JVal → Option Str
  | .str s => some s
  | _ => none

def strings? : JVal → Option (List Str)
  | .arr l => l.mapM string?
  | _ => none

/-! ### Decoder -/

/-- Set a field to the value of a member; `null` leaves it unset. -/
def set (exotic : Str → Option Nat) (r : AuthzRequest) : Param → JVal → Option AuthzRequest
  | _, .null => some r
  | .scope, v => (string? v).map fun s => { r with scope := s }
  | .responseType, v => (string? v).map fun s => { r with responseType := s }
  | .clientId, v => (string? v).map fun s => { r with clientId := s }
  | .redirectUri, v => (string? v).map fun s => { r with redirectUri := s }
  | .state, v => (string? v).map fun s => { r with state := s }
  | .responseMode, v => (string? v).map fun s => { r with responseMode := some s }
  | .nonce, v => (string? v).map fun s => { r with nonce := s }
  | .display, v => (string? v).map fun s => { r with display := some s }
  | .prompt, v => (string? v).map fun s => { r with prompt := some s }
  | .maxAge, v => (uint exotic v).map fun n => { r with maxAge := some n }
  | .uiLocales, v => (string? v).map fun s => { r with uiLocales := some s }
  | .idTokenHint, v => (string? v).map fun s => { r with idTokenHint := some s }
  | .acrValues, v => (string? v).map fun s => { r with acrValues := some s }
  | .request, v => (string? v).map fun s => { r with request := some s }
  | .requestUri, v => (string? v).map fun s => { r with requestUri := some s }
  | .codeChallenge, v => (string? v).map fun s => { r with codeChallenge := s }
  | .codeChallengeMethod, v => (string? v).map fun s => { r with codeChallengeMethod := s }
  | .audience, v => (string? v).map fun s => { r with audience := s }
  | .dpopProof, v => (string? v).map fun s => { r with dpopProof := some s }
  | .resource, v => (strings? v).map fun l => { r with resource := l }
  | .iss, v => (string? v).map fun s => { r with iss := some s }
  | .loginHintToken, v => (string? v).map fun s => { r with loginHintToken := some s }
  | .loginHint, v => (string? v).map fun s => { r with loginHint := some s }

/-- The members of the object in order: unknown names and repeated fields are errors. -/
def members (exotic : Str → Option Nat) : List Param → AuthzRequest → List (Str × JVal) → Option AuthzRequest
  | _, r, [] => some r
  | seen, r, (k, v) :: m =>
    match paramOf k with
    | none => none
    | some p => if p ∈ seen then none else (set exotic r p v).bind fun r' => members exotic (p :: seen) r' m

/-- decoder.go:61-66: `protojson.Unmarshal` of the claims. -/
def decode (exotic : Str → Option Nat) (m : List (Str × JVal)) : Option AuthzRequest := members exotic [] {} m

/-! ### Encoder -/

def one (s : Str) : Option JVal := if s = [] then none else some (.str s)

/-- What is written for a field, if anything: fields without presence are written when
not empty, 64-bit numbers as strings. -/
def wire (r : AuthzRequest) : Param → Option JVal
  | .scope => one r.scope
  | .responseType => one r.responseType
  | .clientId => one r.clientId
  | .redirectUri => one r.redirectUri
  | .state => one r.state
  | .responseMode => r.responseMode.map .str
  | .nonce => one r.nonce
  | .display => r.display.map .str
  | .prompt => r.prompt.map .str
  | .maxAge => r.maxAge.map fun n => .str (decimal n)
  | .uiLocales => r.uiLocales.map .str
  | .idTokenHint => r.idTokenHint.map .str
  | .acrValues => r.acrValues.map .str
  | .request => r.request.map .str
  | .requestUri => r.requestUri.map .str
  | .codeChallenge => one r.codeChallenge
  | .codeChallengeMethod => one r.codeChallengeMethod
  | .audience => one r.audience
  | .dpopProof => r.dpopProof.map .str
  | .resource => if r.resource = [] then none else some (.arr (r.resource.map .str))
  | .iss => r.iss.map .str
  | .loginHintToken => r.loginHintToken.map .str
  | .loginHint => r.loginHint.map .str

/-- encoder.go:50-64: the claims of a request. -/
def claims (r : AuthzRequest) : List (Str × JVal) :=
  Param.all.filterMap fun p => (wire r p).map fun v => (p.proto, v)

/-- encoder.go:44-72 `Encode`; `ser` is the signer on claims. -/
def encode (ser : List (Str × JVal) → Option Str) (ar : Option AuthzRequest) : Option Str :=
  match ar with
  | none => none
  | some r => ser (claims r)

/-- decoder.go:43-70 `Decode` with the default verifier: `parse` is `jwt.ParseSigned`,
`json` reads the payload. -/
def decodeToken (parse : Str → Option Jose.Jws) (json : Str → Option (List (Str × JVal))) (exotic : Str → Option Nat)
    (provider : Option (Option (List Jose.Jwk))) (raw : Str) : Jose.Out AuthzRequest :=
  if raw = [] then .err
  else match Jose.defaultClaims parse json provider raw with
    | .ok m => .ofOption (decode exotic m)
    | .err => .err
    | .panic => .panic

end Verif.RequestObject
