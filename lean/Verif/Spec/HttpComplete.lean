import Verif.Spec.HttpSystem
import Verif.Spec.Authorization
import Verif.Spec.Token

/-! Vocabulary for what a correct client and a logged-in user get from the example server. -/
namespace Verif.Spec
open Verif.Http Verif.Store

/-- Request number `i` arrives and makes its calls one after the other, resolved by `chs`. -/
def serving (i : Nat) (route : Route) (r : Http.Req) (chs : List Choice) : List Http.Label :=
  .arrive route r :: chs.map (.run i)

/-- No call fails and every random string is non-empty. -/
def Faultless (chs : List Choice) : Prop := ∀ ch ∈ chs, ch.fault = .none ∧ ch.str ≠ []

/-- The request presents the registered client `c`: a public client by its name, any other
with an assertion signed by one of its keys. -/
inductive Presents (P : ClientAuth.Parsers) (st : St) (r : Http.Req) (c : Client) : Prop
  | named (id : Str) (hq : r.query g!"client_id" = some id) (hne : id ≠ []) (hreg : st.clients id = some c)
      (hpub : c.clientType = .pub)
  | key (a : Str) (t : Jose.Jws) (cl : ClientAuth.PrivClaims) (keys : List Jose.Jwk) (k : Jose.Jwk)
      (hq : r.query g!"client_id" = none)
      (hty : r.post g!"client_assertion_type" = some g!"urn:ietf:params:oauth:client-assertion-type:jwt-bearer")
      (ha : r.post g!"client_assertion" = some a) (hne : a ≠ []) (hp : P.parse a = some t)
      (hc : P.privClaims t.payload = some cl) (hsame : cl.iss = cl.sub) (hiss : cl.iss ≠ []) (haud : cl.aud ≠ [])
      (hjti : cl.jti ≠ []) (h0 : 0 < cl.exp) (hexp : seconds st.clock ≤ cl.exp) (hreg : st.clients cl.iss = some c)
      (hj : c.jwks ≠ []) (hks : P.jwks c.jwks = some keys) (hk : k ∈ keys) (hu : k.use ≠ g!"enc")
      (hv : t.verifies k = true)

/-- The request object `raw` says `ar` and is signed with a key of the client `c` that the
server is able to find. -/
def ProperlySigned (S : Server) (c : Client) (raw : Str) (ar : AuthzRequest) : Prop :=
  raw ≠ [] ∧ ∃ t keys k, S.requestParse raw = some t ∧ S.P.jwks c.jwks = some keys ∧ k ∈ keys ∧ k.use ≠ g!"enc" ∧
    (t.kid = [] ∨ k.kid = t.kid) ∧ t.verifies k = true ∧ S.requestDec t.payload = some ar

/-- The request carries a proof of possession of the key with thumbprint `jkt` that the
server has not seen within its memory. -/
structure Proves (S : Server) (st : St) (r : Http.Req) (jkt : Str) : Prop where
  ex : ∃ u p key c, S.E.urlString r.url = some u ∧ u ≠ [] ∧ S.E.parseProof r.dpop = some p ∧ p.typ = some g!"dpop+jwt" ∧
    p.jwk = some key ∧ p.claims key = some c ∧ c.htm = r.method ∧ c.htu = u ∧
    seconds st.clock ≤ c.iat + 15 ∧ c.iat ≤ seconds st.clock + 15 ∧ 15 ≤ seconds st.clock ∧
    (∀ exp, st.proofs (DPoP.proofId S.E c.jti) = some exp → exp < st.clock) ∧ S.E.thumbprint key = some jkt

/-- What the tokens of the request are bound to: nothing, which the client must accept, or
the key of a proof of possession. -/
inductive Binding (S : Server) (st : St) (r : Http.Req) (c : Client) : Option Cnf → Prop
  | none : r.dpop = [] → c.dpopBoundAccessTokens = false → Binding S st r c none
  | key (jkt : Str) : r.dpop ≠ [] → Proves S st r jkt → Binding S st r c (some ⟨jkt⟩)

/-- The calls made from the configuration `c` to the later one `c'`. -/
def callsSince (c c' : Http.Conf) : List Entry := c'.log.drop c.log.length

/-- None of these calls stores or deletes a session under the code. -/
def LeavesCode (S : Server) (es : List Entry) (code : Str) : Prop :=
  ∀ e ∈ es, ∀ i n, ((∃ cs, e.cmd = .csReg i n cs) ∨ e.cmd = .csDel i n) → codeKey S.E i n ≠ codeKey S.E S.issuer code

/-- None of these calls stores or revokes a token with this value. -/
def LeavesToken (S : Server) (es : List Entry) (v : Str) : Prop :=
  ∀ e ∈ es, (∀ i t, e.cmd = .tkCreate i t → tokenKey S.E i t.value ≠ tokenKey S.E S.issuer v) ∧
    ∀ i id t, e.cmd = .tkRevoke i id → e.pre.tokId id = some t → t.value ≠ tokenKey S.E S.issuer v

/-- None of these calls stores or deletes a pushed request under the URI. -/
def LeavesRequest (S : Server) (es : List Entry) (uri : Str) : Prop :=
  ∀ e ∈ es, ∀ i n, ((∃ r, e.cmd = .arReg i n r) ∨ e.cmd = .arDel i n) →
    requestKey S.E i n ≠ requestKey S.E S.issuer uri

/-- The request to act on when a request object says `ar0`: itself, or a request pushed
before that is still remembered. -/
inductive ActsOn (S : Server) (st : St) (ar0 : AuthzRequest) : AuthzRequest → Prop
  | itself : ar0.requestUri = none → ActsOn S st ar0 ar0
  | pushed (uri : Str) (exp : Nat) (ar : AuthzRequest) : ar0.requestUri = some uri →
      S.E.requestUriOk S.issuer uri = true → st.requests (requestKey S.E S.issuer uri) = some (ar, exp) →
      st.clock ≤ exp → ActsOn S st ar0 ar

/-- The /token request `r` redeems `code`, which was issued for the request `ar`. -/
structure RedeemsFor (S : Server) (r : Http.Req) (code : Str) (ar : AuthzRequest) : Prop where
  method : r.method = g!"POST"
  grant : r.formValue g!"grant_type" = g!"authorization_code"
  code : r.formValue g!"code" = code
  redirect : r.formValue g!"redirect_uri" = ar.redirectUri
  verifier : Go.b64 (S.E.sha256 (r.formValue g!"code_verifier")) = ar.codeChallenge
  long : 43 ≤ (r.formValue g!"code_verifier").length
  short : (r.formValue g!"code_verifier").length ≤ 128

/-- What a token stands for. -/
structure Granted where
  sub : Str
  clientId : Str
  scope : Str
  audience : Str
  cnf : Option Cnf

/-- Under the value `v` the store has an active refresh token with this id, which stands for
`g` until the second `exp`. -/
structure Refreshable (S : Server) (st : St) (v id : Str) (g : Granted) (exp : Nat) : Prop where
  value : v ≠ []
  ex : ∃ t md, st.tokVal (tokenKey S.E S.issuer v) = some t ∧ st.tokId id = some t ∧ t.tokenId = id ∧
    t.value = tokenKey S.E S.issuer v ∧ t.status = .active ∧ t.tokenType = .refreshToken ∧ t.metadata = some md ∧
    t.confirmation = g.cnf ∧ md.issuer = S.issuer ∧ md.subject = g.sub ∧ md.clientId = g.clientId ∧ md.scope = g.scope ∧
    md.audience = g.audience ∧ md.expiresAt = exp

/-- Under the value `v` the store has a revoked token. -/
def Spent (S : Server) (st : St) (v : Str) : Prop :=
  v ≠ [] ∧ ∃ t, st.tokVal (tokenKey S.E S.issuer v) = some t ∧ t.status = .revoked

/-- None of these calls stores a token with this value. -/
def NeverStores (S : Server) (es : List Entry) (v : Str) : Prop :=
  ∀ e ∈ es, ∀ i t, e.cmd = .tkCreate i t → tokenKey S.E i t.value ≠ tokenKey S.E S.issuer v

/-- None of these calls stores or revokes a token with this id. -/
def LeavesId (es : List Entry) (id : Str) : Prop :=
  ∀ e ∈ es, (∀ i t, e.cmd = .tkCreate i t → t.tokenId ≠ id) ∧
    ∀ i id' t, e.cmd = .tkRevoke i id' → e.pre.tokId id' = some t → t.tokenId ≠ id

/-- The access token `v`, handed out at the end of the history `L`, works: let anything happen
for at least a second and at most an hour, except that somebody stores or revokes a token with
this value; then any client that authenticates at /token/introspect and asks for the token is
told that it is active and stands for `g`. -/
def AccessWorks (S : Server) (s : St) (L : List Http.Label) (v : Str) (g : Granted) : Prop :=
  ∀ (mid : List Http.Label) (c' : Http.Conf) (r : Http.Req) (c : Client) (chs : List Choice) (n : Nat),
    c' = Http.run S s (L ++ mid) → LeavesToken S (callsSince (Http.run S s L) c') v →
    seconds (Http.run S s L).st.clock + 1 ≤ seconds c'.st.clock → seconds c'.st.clock ≤ seconds (Http.run S s L).st.clock + 3600 →
    Presents S.P c'.st r c → s.clients c.clientId = some c → r.formValue g!"token" = v →
    Faultless chs → 5 ≤ chs.length → c'.threads.length = n →
    ∃ i, Http.Answered (Http.run S s ((L ++ mid) ++ serving n .introspect r chs)) n .introspect r
        ⟨200, .introspection (some i)⟩ ∧ i.sub = g.sub ∧ i.clientId = g.clientId ∧ i.scope = g.scope ∧
      i.aud = g.audience ∧ i.iss = S.issuer ∧ i.cnf = g.cnf ∧
      i.tokenType = (if g.cnf.isSome then g!"DPoP" else g!"Bearer") ∧ seconds c'.st.clock ≤ i.exp

end Verif.Spec
