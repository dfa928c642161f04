import Verif.Model.HttpSystem
import Verif.Spec.Http
import Verif.Spec.System

/-! Vocabulary for histories of the example server: HTTP requests and the service requests
they stand for. -/
namespace Verif.Http

/-- HTTP request `i` of the history was sent to `route` and says `r`. -/
def Asked (c : Conf) (i : Nat) (route : Route) (r : Req) : Prop :=
  ∃ th, c.threads[i]? = some th ∧ th.route = route ∧ th.req = r

/-- HTTP request `i` was answered `a`. -/
def Answered (c : Conf) (i : Nat) (route : Route) (r : Req) (a : Resp) : Prop :=
  ∃ th, c.threads[i]? = some th ∧ th.route = route ∧ th.req = r ∧ th.answer = some a

end Verif.Http

namespace Verif.Spec
open Verif.Http

/-- The grant a token form asks for. -/
inductive FormGrant (r : Http.Req) : Option Grant → Prop
  | code : r.formValue g!"grant_type" = g!"authorization_code" →
      FormGrant r (some (.authorizationCode
        ⟨r.formValue g!"code", r.formValue g!"redirect_uri", r.formValue g!"code_verifier"⟩))
  | credentials : r.formValue g!"grant_type" = g!"client_credentials" → FormGrant r (some .clientCredentials)
  | device : r.formValue g!"grant_type" = g!"urn:ietf:params:oauth:grant-type:device_code" →
      FormGrant r (some (.deviceCode (r.formValue g!"device_code")))
  | refresh : r.formValue g!"grant_type" = g!"refresh_token" →
      FormGrant r (some (.refreshToken (r.formValue g!"refresh_token")))
  | other : r.formValue g!"grant_type" ≠ g!"authorization_code" → r.formValue g!"grant_type" ≠ g!"client_credentials" →
      r.formValue g!"grant_type" ≠ g!"urn:ietf:params:oauth:grant-type:device_code" →
      r.formValue g!"grant_type" ≠ g!"refresh_token" → FormGrant r none

/-- The request object `raw` is signed with a signing key registered by `c` and says `ar`. -/
def SignedRequest (S : Server) (c : Client) (raw : Str) (ar : AuthzRequest) : Prop :=
  ∃ t keys k, S.requestParse raw = some t ∧ S.P.jwks c.jwks = some keys ∧ k ∈ keys ∧ k.use ≠ g!"enc" ∧
    t.verifies k = true ∧ S.requestDec t.payload = some ar

/-- Under which name the client `c` gets to know the user `u`. -/
def KnownAs (S : Server) (c : Client) (u sub : Str) : Prop :=
  (c.subjectType ≠ g!"pairwise" ∧ sub = u) ∨
  (c.subjectType = g!"pairwise" ∧ Lib.pairwise S.pairHash S.pairSalt c.sectorIdentifier u = some sub)

/-- The credentials of the example user. -/
def LoggedIn (r : Http.Req) (u : Str) : Prop := u = g!"hello" ∧ r.basic = some (g!"hello", g!"world")

/-- The HTTP request `r` to a route, having read `tr` and got the answers `before` from
services, stands for this service request. -/
inductive StandsFor (S : Server) (r : Http.Req) (tr : List Ev) (before : Verif.Req → Verif.Resp → Prop) :
    Route → Verif.Req → Prop
  | token (c : Client) (cnf : Option Cnf) (g : Option Grant) : r.method = g!"POST" → FromClient S.P r tr c →
      FormGrant r g → (cnf.isSome = true ↔ r.dpop ≠ []) → (r.dpop = [] → c.dpopBoundAccessTokens = false) →
      (∀ k, cnf = some k → before (.dpop { htm := r.method, htu := r.url, proof := r.dpop }) (.dpop (some k.jkt))) →
      StandsFor S r tr before .token (.token (some {
        issuer := S.issuer, client := some c, grantType := r.formValue g!"grant_type", tokenConfirmation := cnf, grant := g }))
  | tokenProof (c : Client) : r.method = g!"POST" → FromClient S.P r tr c → r.dpop ≠ [] →
      StandsFor S r tr before .token (.dpop { htm := r.method, htu := r.url, proof := r.dpop })
  | parProof (c : Client) : r.method = g!"POST" → FromClient S.P r tr c →
      StandsFor S r tr before .par (.dpop { htm := r.method, htu := r.url, proof := r.dpop })
  | par (c : Client) (ar : AuthzRequest) (jkt : Str) : r.method = g!"POST" → FromClient S.P r tr c →
      SignedRequest S c (r.get g!"request") ar →
      before (.dpop { htm := r.method, htu := r.url, proof := r.dpop }) (.dpop (some jkt)) →
      StandsFor S r tr before .par (.register (some {
        issuer := S.issuer, client := some c, request := some ar, confirmation := some ⟨jkt⟩ }))
  | introspect (c : Client) : FromClient S.P r tr c →
      StandsFor S r tr before .introspect (.introspect (some {
        issuer := S.issuer, client := some c, token := r.formValue g!"token" }))
  | revoke (c : Client) : FromClient S.P r tr c →
      StandsFor S r tr before .revoke (.revoke (some { issuer := S.issuer, client := some c, token := r.formValue g!"token" }))
  | deviceAuthorize (c : Client) (scope audience : Option Str) : r.method = g!"POST" → FromClient S.P r tr c →
      scope.getD [] = r.formValue g!"scope" → audience.getD [] = r.formValue g!"audience" →
      StandsFor S r tr before .deviceAuthorize (.deviceAuthorize (some {
        issuer := S.issuer, clientId := r.formValue g!"client_id", scope := scope, audience := audience }))
  | device (u : Str) : r.method = g!"POST" → LoggedIn r u →
      StandsFor S r tr before .device (.deviceValidate (some {
        issuer := S.issuer, subject := u, userCode := r.postValue g!"user_code" }))
  | authorize (u sub : Str) (c : Client) (ar : AuthzRequest) : r.method = g!"GET" → LoggedIn r u →
      ⟨.clientsGet (r.get g!"client_id"), .ok (some c)⟩ ∈ tr → KnownAs S c u sub →
      SignedRequest S c (r.get g!"request") ar →
      StandsFor S r tr before .authorize (.authorize (some {
        issuer := S.issuer, client := some c, subject := sub, request := some ar }))

/-- The HTTP answer (not an error) that conveys the answer of a service. -/
inductive Conveys (S : Server) : Verif.Resp → Http.Resp → Prop
  | tokens (a : TokenResp) (t : Token) (md : TokenMeta) (b : TokenBody) : a.goErr = false → a.accessToken = some t →
      t.metadata = some md → b.accessToken = t.value → b.scope = md.scope →
      b.refreshToken = (a.refreshToken.map (·.value)).getD [] → Conveys S (.token a) ⟨200, .tokens b⟩
  | active (a : IntrospectResp) (t : Token) (md : TokenMeta) (b : ActiveBody) : a.goErr = false → a.token = some t →
      t.status = .active → t.metadata = some md → b.sub = md.subject → b.clientId = md.clientId → b.scope = md.scope →
      b.aud = md.audience → b.iss = md.issuer → b.jti = t.tokenId → b.exp = md.expiresAt → b.cnf = t.confirmation →
      Conveys S (.introspect a) ⟨200, .introspection (some b)⟩
  | inactive (a : IntrospectResp) : a.goErr = false → Conveys S (.introspect a) ⟨200, .introspection none⟩
  | revoked (a : RevokeResp) : a.goErr = false → Conveys S (.revoke a) ⟨200, .empty⟩
  | device (a : DeviceAuthzResp) : a.goErr = false →
      Conveys S (.deviceAuthorize a) ⟨200, .device a.deviceCode a.userCode (S.issuer ++ g!"/device") a.expiresIn a.interval⟩
  | approved (a : DeviceValidationResp) : a.goErr = false → Conveys S (.deviceValidate a) ⟨200, .empty⟩
  | par (a : RegistrationResp) : a.goErr = false → Conveys S (.register a) ⟨201, .par a.issuer a.requestUri a.expiresIn⟩
  | authorization (a : AuthorizeResp) (n : Nat) (d : Delivery) (content : Str) : a.goErr = false →
      ((d = .query ∧ content = a.code) ∨ ∃ exp, S.jarmSer { state := a.state, iss := a.issuer, aud := a.clientId, code := a.code, exp := exp } = some content) →
      Conveys S (.authorize a) ⟨n, .authorization a.redirectUri d content⟩

/-- The HTTP answer reports an error, or is the empty form for the user code. -/
def NoResult : Http.Resp → Prop
  | ⟨_, .error _⟩ => True
  | ⟨_, .form⟩ => True
  | ⟨401, .empty⟩ => True
  | ⟨405, .empty⟩ => True
  | _ => False

/-- The entry as an entry of the HTTP request `own e.tid`. -/
def relabel (own : Nat → Nat) (e : Entry) : Entry := { e with tid := own e.tid }

/-- Calls that neither read nor write sessions, pushed requests, tokens or proofs. -/
def touches : Cmd → Bool
  | .now | .clientsGet _ => false
  | _ => true

/-- A proof of possession to be checked. -/
def IsProof : Verif.Req → Prop
  | .dpop _ => True
  | _ => False

/-- The service history `d` accounts for the HTTP history `c`; service request `j` belongs
to HTTP request `own j`. -/
structure Refines (S : Server) (own : Nat → Nat) (c : Http.Conf) (d : Verif.Conf) : Prop where
  /-- the stores are the same -/
  st : d.st = c.st
  /-- the calls of the services are calls of the HTTP requests, in the same order -/
  sub : (d.log.map (relabel own)).Sublist c.log
  /-- everything else the HTTP requests call reads the clock or a client registration -/
  all : (d.log.map (relabel own)).filter (fun e => touches e.cmd) = c.log.filter fun e => touches e.cmd
  /-- a service request is what its HTTP request stands for, given what that read and was
  answered -/
  asked : ∀ j q, Verif.Asked d j q → ∃ route r, Http.Asked c (own j) route r ∧
    StandsFor S r (callsOf S.E (own j) c.log) (fun q' a => ∃ j', own j' = own j ∧ Verif.Answered d j' q' a) route q
  /-- an HTTP request stands for one service request at most, besides the check of a proof -/
  once : ∀ j j' q q', own j = own j' → Verif.Asked d j q → Verif.Asked d j' q' → (IsProof q ↔ IsProof q') → j = j'
  /-- an HTTP answer reports no result or conveys the answer of a service -/
  answered : ∀ i route r a, Http.Answered c i route r a → NoResult a ∨
    ∃ j q x, own j = i ∧ Verif.Answered d j q x ∧ Conveys S x a

/-- The log of the server as a history of its own, for the notions that are about calls only. -/
def logOf (c : Http.Conf) : Verif.Conf := ⟨c.st, [], c.log⟩

/-- /token request `i` presented `code` and got tokens. -/
structure GotTokens (c : Http.Conf) (i : Nat) (code : Str) (r : Http.Req) (b : TokenBody) : Prop where
  answered : Http.Answered c i .token r ⟨200, .tokens b⟩
  grant : r.formValue g!"grant_type" = g!"authorization_code"
  code : r.formValue g!"code" = code

/-- /authorize request `k` handed a session for `code` to the store. -/
def HandsOut (S : Server) (c : Http.Conf) (k : Nat) (code : Str) : Prop :=
  (∃ r, Http.Asked c k .authorize r) ∧ ∃ e ∈ c.log, e.tid = k ∧ ∃ s, e.cmd = .csReg S.issuer code s

/-- /authorize request `k` was made by the user `u`, with a request object signed by the
registered client `cl`, which knows the user as `sub`. -/
structure UserAt (S : Server) (s : St) (c : Http.Conf) (k : Nat) (rk : Http.Req) (cl : Client) (u sub : Str)
    (ar : AuthzRequest) : Prop where
  asked : Http.Asked c k .authorize rk
  method : rk.method = g!"GET"
  login : LoggedIn rk u
  client : s.clients (rk.get g!"client_id") = some cl
  known : KnownAs S cl u sub
  signed : SignedRequest S cl (rk.get g!"request") ar

/-- /par request `k` of the client `cp` pushed the signed request `sub`. -/
structure PushedAt (S : Server) (c : Http.Conf) (k : Nat) (rk : Http.Req) (cp : Client) (sub : AuthzRequest) : Prop where
  asked : Http.Asked c k .par rk
  method : rk.method = g!"POST"
  client : FromClient S.P rk (callsOf S.E k c.log) cp
  signed : SignedRequest S cp (rk.get g!"request") sub

/-- In place of the request object `ar`, `req` is acted on: itself, or the pushed request it refers to. -/
inductive StandsIn (S : Server) (c : Http.Conf) (ar : AuthzRequest) : AuthzRequest → Prop
  | itself : ar.requestUri = none → StandsIn S c ar ar
  | pushed (uri : Str) (k : Nat) (rk : Http.Req) (cp : Client) (req r : AuthzRequest) (e : Entry) : ar.requestUri = some uri →
      PushedAt S c k rk cp req → e ∈ c.log → e.tid = k → e.cmd = .arReg S.issuer uri r → StandsIn S c ar req

/-- The code of a /token request `r`, served by `c` as request `i`, comes from the
/authorize request `k`: the `m`-th call of the server stored the session, the `n`-th looked
it up. -/
structure CodeFrom (S : Server) (c : Http.Conf) (i k m n : Nat) (code sub : Str) : Prop where
  order : m < n
  stored : ∃ e cs, c.log[m]? = some e ∧ e.tid = k ∧ e.cmd = .csReg S.issuer code cs ∧ cs.subject = sub
  found : ∃ e, c.log[n]? = some e ∧ e.tid = i ∧ e.cmd = .csGet S.issuer code
  young : ∀ e e', c.log[m]? = some e → c.log[n]? = some e' → e'.time ≤ e.time + 60 * 1000000000

/-- The proof of possession `p` was presented to /token or /par, and accepted. -/
def ProofAccepted (c : Http.Conf) (i : Nat) (p : Str) : Prop :=
  ∃ r, r.dpop = p ∧ ((p ≠ [] ∧ ∃ b, Http.Answered c i .token r ⟨200, .tokens b⟩) ∨
    ∃ x y z, Http.Answered c i .par r ⟨201, .par x y z⟩)

end Verif.Spec
