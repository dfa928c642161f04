import Verif.Model.Prog
import Verif.Model.Env
import Verif.Spec.Strings

/-! Vocabulary of the authorization endpoint properties. -/
namespace Verif.Spec

/-- What C01 demands of a request for which a code is issued. -/
structure WellFormed (E : Env) (r : AuthzRequest) : Prop where
  state : 32 ≤ r.state.length
  nonce : 8 ≤ r.nonce.length
  challenge : r.codeChallenge.length = 43
  method : r.codeChallengeMethod = g!"S256"
  scope : r.scope ≠ []
  audience : r.audience ≠ []
  client : r.clientId ≠ []
  redirect : r.redirectUri ≠ [] ∧ E.parseRequestURI r.redirectUri = true
  responseType : r.responseType = g!"code" ∨ r.responseType = g!"token"
  responseMode : ∀ m, r.responseMode = some m →
    m ∈ [g!"query", g!"fragment", g!"form_post", g!"jwt", g!"query.jwt", g!"fragment.jwt", g!"form_post.jwt"]

/-- The response mode in force: `jwt` stands for `query.jwt` (response type
`code`) or `fragment.jwt` (response type `token`). -/
def effectiveMode (responseType m : Str) : Str :=
  if m = g!"jwt" then (if responseType = g!"code" then g!"query.jwt" else g!"fragment.jwt") else m

/-- What C02 demands of the client registration. -/
structure Registered (cl : Client) (r : AuthzRequest) : Prop where
  grant : MemFold g!"authorization_code" cl.grantTypes
  responseType : MemFold r.responseType cl.responseTypes
  redirectUri : MemFold r.redirectUri cl.redirectUris
  responseMode : ∀ m, r.responseMode = some m → MemFold (effectiveMode r.responseType m) cl.responseModes

/-- The request an `Authorize` call acts on: the one in the call, or the pushed
one the store answered with when the call refers to a pushed request. -/
def ActedOn (q : AuthorizeReq) (tr : List Ev) (r : AuthzRequest) : Prop :=
  ∃ r0, q.request = some r0 ∧
    ((r0.requestUri = none ∧ r = r0) ∨
     (∃ uri, r0.requestUri = some uri ∧ ⟨.arGet q.issuer uri, .ok (some r)⟩ ∈ tr))

/-- The effective request `eff` made from `r`: everything but scope and response
mode is kept, the response mode is the effective one, the words of the scope are
words of the original scope and only `offline_access` may disappear, and only
when consent was not requested; a single `offline_access` next to `openid`
disappears when consent was not requested. -/
structure Effective (r eff : AuthzRequest) : Prop where
  rest : { eff with scope := r.scope, responseMode := r.responseMode } = r
  mode : eff.responseMode = r.responseMode.map (effectiveMode r.responseType)
  scopeSub : ∀ w, IsWord w eff.scope → IsWord w r.scope
  scopeKept : ∀ w, IsWord w r.scope → ¬ SameFold g!"offline_access" w → IsWord w eff.scope
  scopeConsent : r.prompt = some g!"consent" → ∀ w, IsWord w r.scope → IsWord w eff.scope
  scopeOffline : r.prompt ≠ some g!"consent" → HasWord g!"openid" r.scope →
    wordCount g!"offline_access" r.scope ≤ 1 → ¬ HasWord g!"offline_access" eff.scope

/-- The answer reports a code in any sense: a code, no OAuth error, or no Go error. -/
def Issued (a : AuthorizeResp) : Prop := a.code ≠ [] ∨ a.error = none ∨ a.goErr = false

instance (a : AuthorizeResp) : Decidable (Issued a) := inferInstanceAs (Decidable (_ ∨ _ ∨ _))

/-- The push answer reports a request URI in any sense. -/
def Pushed (a : RegistrationResp) : Prop := a.requestUri ≠ [] ∨ a.error = none ∨ a.goErr = false

instance (a : RegistrationResp) : Decidable (Pushed a) := inferInstanceAs (Decidable (_ ∨ _ ∨ _))

end Verif.Spec

namespace Verif.Spec

/-- The call asks the store to keep a code session. -/
def storesSession (ev : Ev) : Bool :=
  match ev.1 with
  | .csReg .. => true
  | _ => false

/-- The call asks the store to keep a pushed request. -/
def storesRequest (ev : Ev) : Bool :=
  match ev.1 with
  | .arReg .. => true
  | _ => false

/-- Under which circumstances a session may be handed to the store while serving
`q`: the request acted on is well formed, its client registered, and the session
is exactly (issuer, subject, effective request). -/
def SessionJustified (E : Env) (q : AuthorizeReq) (tr : List Ev) (iss : Str) (s : CodeSession)
    (r eff : AuthzRequest) (cl : Client) : Prop :=
  q.issuer ≠ [] ∧ q.subject ≠ [] ∧ ActedOn q tr r ∧ WellFormed E r ∧ Effective r eff ∧
  ⟨.clientsGet r.clientId, .ok (some cl)⟩ ∈ tr ∧ Registered cl r ∧
  iss = q.issuer ∧ s = { issuer := q.issuer, subject := q.subject, request := some eff }

end Verif.Spec
