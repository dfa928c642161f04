import Verif.Model.Http

/-!
The client library (`client/http.go`), the attestation example
(`examples/attestationserver`, `examples/attestationclient`) and the clients registered by
`server/storage/inmemory/client.go`.
-/
namespace Verif.Client
open Verif.Jose Verif.Sign Verif.ClientAuth
open Verif.Device (unix)

/-! ### Client authentication -/

/-- client/api.go `Options` (the fields that are read). -/
structure Options where
  clientId : Str
  /-- the private key, JSON encoded -/
  jwk : Str
deriving DecidableEq, Repr

/-- client/http.go:99-129 `Assertion`. `jwkOf` is `json.Unmarshal` of the key, `L` signs with
ES384; go-jose writes the key id of the key in the header. The claims `acr` and `auth_time`
(empty, read by nobody) are left out. -/
def assertion (jwkOf : Str → Option Jwk) (L : Lib PrivClaims) (o : Options) (issuer : Str) : Prog (Option Str) :=
  match jwkOf o.jwk with
  | none => .ret none
  | some k => do
    let jti ← Prog.call .jti
    let now ← Prog.call .now
    let now' ← Prog.call .now
    return L.sign g!"JWT" k.kid false k
      { jti := jti, sub := o.clientId, iss := o.clientId, aud := issuer, exp := unix (now + 30 * 1000000000),
        iat := unix now' }

/-- Parameters of a form. -/
def form (l : List (Str × Str)) : Str → Option Str := fun k => (l.find? (·.1 = k)).map (·.2)

/-- client/http.go:319-339: the request of `ClientCredentials`. -/
def credentialsReq (assertion : Str) (url : DPoP.Target) : Http.Req where
  method := g!"POST"
  post := form [(g!"grant_type", g!"client_credentials"), (g!"client_assertion", assertion),
    (g!"client_assertion_type", typeBearer)]
  target := url

/-- client/http.go:369-389: the request of `Introspect`. -/
def introspectReq (assertion token : Str) (url : DPoP.Target) : Http.Req where
  method := g!"POST"
  post := form [(g!"token", token), (g!"client_assertion", assertion), (g!"client_assertion_type", typeBearer)]
  target := url

/-- `oauth2.Token` (golang.org/x/oauth2 v0.16.0) as far as it is decoded from JSON: the expiry, in nanoseconds, is the
member `expiry`, which no answer of the server has; `none` is the zero time. -/
structure OToken where
  accessToken : Str := []
  tokenType : Str := []
  refreshToken : Str := []
  expiry : Option Nat := none
deriving DecidableEq, Repr

/-- `oauth2.Token.Valid` (of that version): there is a token, and it has no expiry or ten more seconds. -/
def OToken.valid (t : OToken) (now : Nat) : Bool :=
  decide (t.accessToken ≠ []) && match t.expiry with
    | none => true
    | some e => decide (now + 10 * 1000000000 ≤ e)

/-- client/http.go:341-367: what `ClientCredentials` makes of the answer. A JSON object without
the expected members decodes to an empty token. -/
def readToken (a : Http.Resp) : Option OToken :=
  if a.status ≠ 200 then none
  else match a.body with
    | .tokens b => some ⟨b.accessToken, b.tokenType, b.refreshToken, none⟩
    | .empty | .form | .authorization .. => none
    | _ => some {}

/-! ### Key sets of the server -/

/-- client/claims.go:58-61 `jsonJWKSResponse` after decoding: the embedded key set is nil if
the answer has no member `keys`. -/
structure JwksBody where
  keys : Option (List Jwk)
  exp : Nat
deriving DecidableEq, Repr

/-- What comes back for the request of the key set. -/
inductive Fetch where
  /-- the URL does not parse or the request fails -/
  | failed
  | answer (status : Nat) (body : Option JwksBody)
deriving DecidableEq, Repr

/-- The key set held by a client (http.go:83-84): `none` is nil. -/
structure Cache where
  jwks : Option (List Jwk) := none
  exp : Nat := 0
deriving DecidableEq, Repr

/-- client/http.go:430-487 `PublicKeys`: the outcome (key set and expiration) and the key set
held afterwards. `now` is the time of line 432, `now'` the one of line 477, in seconds; `fetch` is
what the server would answer between them. -/
def publicKeys (c : Cache) (now now' : Nat) (fetch : Fetch) : Out (List Jwk × Nat) × Cache :=
  match c.jwks, decide (c.exp > now) with
  | some ks, true => (.ok (ks, c.exp), c)
  | _, _ =>
    match fetch with
    | .failed => (.err, c)
    | .answer status body =>
      if status ≠ 200 then (.err, c)
      else match body with
        | none => (.err, c)
        | some b =>
          match b.keys with
          | none => (.panic, c)
          | some [] => (.err, c)
          | some ks =>
            if b.exp > 0 ∧ b.exp < now' then (.err, c)
            else (.ok (ks, b.exp), { jwks := some ks, exp := b.exp })

/-- examples/authorizationserver/handlers/jwks.go: the answer of the example server names no
expiration. -/
def jwksAnswer (ks : List Jwk) : Fetch := .answer 200 (some { keys := some ks, exp := 0 })

/-! ### Attestations -/

/-- attestationserver/main.go: the issuer of the attestations. -/
def attesterId : Str := g!"urn:solid:attestation-server"
/-- attestationclient/main.go: the client. -/
def attestedId : Str := g!"attestation-client"

/-- attestationserver/main.go:17-20 `attestationData`. -/
structure AttestationData where
  clientId : Str
  clientPublicKey : Option Jwk
deriving DecidableEq, Repr

/-- attestationserver/main.go:22-69 `signHandler`: `none` stands for the status 500. The key
of the request is dereferenced (line 61). A signing error is not checked: the answer is
empty then. -/
def attest (L : Lib AttClaims) (key : Jwk) (data : Option AttestationData) : Prog (Option Str) := do
  let now ← Prog.call .now
  match data with
  | none => return none
  | some d =>
    match d.clientPublicKey with
    | none => Prog.panic
    | some k =>
      return some ((L.sign g!"client-attestation+jwt" [] true key
        { iss := attesterId, sub := d.clientId, nbf := unix now - 1, exp := unix now + 3600,
          cnf := some (some (L.pub k)) }).getD [])

/-- examples/authorizationserver/main.go:51: the algorithms accepted for client authentication. -/
def serverAlgs : List Str := [g!"ES256", g!"ES384"]

/-- attestationserver/main.go:41: the algorithm of the attestations. -/
def attesterAlg : Str := g!"EdDSA"

/-- attestationclient/main.go:72-96 `computeClientPOP`. -/
def attestationPop (L : Lib PopClaims) (key : Jwk) : Prog (Option Str) := do
  let now ← Prog.call .now
  let jti ← Prog.call .jti
  return L.sign g!"client-attestation-pop+jwt" [] true key
    { iss := attestedId, aud := g!"http://localhost:8085", nbf := unix now - 1, exp := unix now + 30, jti := jti }

/-- attestationclient/main.go:98-115: the request of `getToken` with the assertion of line 167. -/
def attestedReq (att pop : Str) (url : DPoP.Target) : Http.Req where
  method := g!"POST"
  post := form [(g!"grant_type", g!"client_credentials"), (g!"client_id", attestedId),
    (g!"client_assertion", att ++ g!"~" ++ pop), (g!"client_assertion_type", typeAttestation)]
  target := url

/-! ### The registered clients -/

/-- server/storage/inmemory/client.go:38-168: the clients of the in-memory store. Key sets are
kept as names; display data is left out. -/
def registry : List Client := [
  { clientId := g!"t8p9duw4n2klximkv3kagaud796ul67g", clientType := .confidential, clientName := g!"test-client",
    jwks := g!"keys of test-client", grantTypes := [Oidc.grantClientCredentials], dpopBoundAccessTokens := true,
    subjectType := g!"pairwise", sectorIdentifier := g!"http://127.0.0.1:8085" },
  { clientId := g!"5stz52n91hr7aw9q1h5hbuvkt2ovevdw", clientType := .confidential, clientName := g!"resource-server",
    jwks := g!"keys of resource-server", grantTypes := [Oidc.grantClientCredentials, Oidc.grantTokenExchange],
    subjectType := g!"pairwise", sectorIdentifier := g!"http://127.0.0.1:8085" },
  { clientId := g!"6779ef20e75817b79602", clientType := .confidential, clientName := g!"foo-test-client",
    jwks := g!"keys of foo-test-client",
    grantTypes := [Oidc.grantAuthorizationCode, Oidc.grantClientCredentials, Oidc.grantDeviceCode,
                   Oidc.grantRefreshToken, Oidc.grantTokenExchange],
    responseTypes := [g!"code"], responseModes := [Oidc.modeQueryJWT],
    redirectUris := [g!"http://127.0.0.1:8085/oidc/as/127.0.0.1"],
    subjectType := g!"pairwise", sectorIdentifier := g!"http://127.0.0.1:8085" },
  { clientId := g!"public-client", clientType := .pub, clientName := g!"cli-public-client",
    grantTypes := [Oidc.grantDeviceCode, Oidc.grantRefreshToken],
    subjectType := g!"pairwise", sectorIdentifier := g!"http://127.0.0.1:8085" },
  { clientId := attestedId, clientType := .credentialed, clientName := g!"cli-public-client",
    grantTypes := [Oidc.grantClientCredentials],
    tokenEndpointAuthMethod := g!"attest_jwt_client_auth" },
  { clientId := attesterId, clientType := .pub, clientName := g!"Remote Attestation Server",
    jwks := g!"keys of attestation-server" }]

/-- client.go:174-183 `Get`. -/
def lookup (id : Str) : Option Client := registry.find? (·.clientId = id)

end Verif.Client
