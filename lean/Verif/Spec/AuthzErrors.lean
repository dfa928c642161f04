import Verif.Spec.Authorization
import Verif.Model.Env

/-!
Vocabulary for the error codes of the authorization and device authorization endpoints: the
faults of a request, and the codes that RFC 6749 section 4.1.2.1, RFC 9126 section 2.3 and
RFC 8628 section 3.2 prescribe for them.
-/
namespace Verif.Spec

/-- Faults of an authorization request. -/
inductive AFault where
  /-- no request; no issuer; no user; no client -/
  | request | issuer | subject | client
  /-- the pushed request is unknown; a pushed request refers to a pushed request; a client pushes
  a request of another one -/
  | pushed | nested | foreign
  /-- a parameter is missing or not allowed; an unknown response type -/
  | malformed | responseType
  /-- nobody knows the client; it may not use the code grant, the response type, the redirect URI
  or the response mode -/
  | clientUnknown | clientGrant | clientType | clientRedirect | clientMode
  /-- a store or generator failed -/
  | broken
deriving DecidableEq, Repr

/-- The faults of the request `r` itself, and of the client that it names. -/
def AFault.Of (E : Env) (r : AuthzRequest) (tr : List Ev) : AFault → Prop
  | .malformed => r.responseType = [] ∨ ¬ WellFormed E { r with responseType := g!"code" }
  | .responseType => r.responseType ≠ [] ∧ r.responseType ≠ g!"code" ∧ r.responseType ≠ g!"token"
  | .clientUnknown => ⟨.clientsGet r.clientId, .error .notFound⟩ ∈ tr
  | .clientGrant => ∃ cl, ⟨.clientsGet r.clientId, .ok (some cl)⟩ ∈ tr ∧ ¬ MemFold g!"authorization_code" cl.grantTypes
  | .clientType => ∃ cl, ⟨.clientsGet r.clientId, .ok (some cl)⟩ ∈ tr ∧ ¬ MemFold r.responseType cl.responseTypes
  | .clientRedirect => ∃ cl, ⟨.clientsGet r.clientId, .ok (some cl)⟩ ∈ tr ∧ ¬ MemFold r.redirectUri cl.redirectUris
  | .clientMode => ∃ cl m, ⟨.clientsGet r.clientId, .ok (some cl)⟩ ∈ tr ∧ r.responseMode = some m ∧
      ¬ MemFold (effectiveMode r.responseType m) cl.responseModes
  | _ => False

/-- The call failed. A lookup that finds nothing did not fail. -/
def Disturbed (ev : Ev) : Prop :=
  match ev with
  | ⟨.clientsGet _, r⟩ => r = .error .other
  | ⟨.arGet .., r⟩ => r = .error .other
  | ⟨.arDel .., r⟩ => r = .error .other
  | ⟨.genCode _, r⟩ => ∃ e, r = .error e
  | ⟨.csReg .., r⟩ => ∃ e, r = .error e
  | ⟨.genUri _, r⟩ => ∃ e, r = .error e
  | ⟨.arReg .., r⟩ => ∃ e, r = .error e
  | _ => False

/-- The authorization request `req`, which made the calls `tr`, has the fault `k`. -/
def AuthorizeFault (E : Env) (req : Option AuthorizeReq) (tr : List Ev) (k : AFault) : Prop :=
  match req with
  | none => k = .request
  | some q =>
    match k with
    | .request => q.request = none ∨
        ∃ r uri, q.request = some r ∧ r.requestUri = some uri ∧ ⟨.arGet q.issuer uri, .ok none⟩ ∈ tr
    | .issuer => q.issuer = []
    | .subject => q.subject = []
    | .pushed => ∃ r uri, q.request = some r ∧ r.requestUri = some uri ∧ (E.requestUriOk q.issuer uri = false ∨
        ⟨.arGet q.issuer uri, .error .notFound⟩ ∈ tr ∨ ⟨.arDel q.issuer uri, .error .notFound⟩ ∈ tr)
    | .broken => ∃ ev ∈ tr, Disturbed ev
    | k => ∃ r, ActedOn q tr r ∧ k.Of E r tr

/-- The pushed authorization request `req`, which made the calls `tr`, has the fault `k`. -/
def RegisterFault (E : Env) (req : Option RegistrationReq) (tr : List Ev) (k : AFault) : Prop :=
  match req with
  | none => k = .request
  | some q =>
    match k with
    | .request => q.request = none
    | .issuer => q.issuer = []
    | .client => q.client = none
    | .nested => ∃ r, q.request = some r ∧ r.requestUri ≠ none
    | .foreign => ∃ r c, q.request = some r ∧ q.client = some c ∧ r.clientId ≠ c.clientId
    | .broken => ∃ ev ∈ tr, Disturbed ev
    | k => ∃ r, q.request = some r ∧ k.Of E r tr

/-- The code that the standards prescribe. -/
def AFault.prescribed : AFault → Str
  | .responseType => g!"unsupported_response_type"
  | .clientGrant => g!"unauthorized_client"
  | .clientType => g!"unauthorized_client"
  | .broken => g!"server_error"
  | _ => g!"invalid_request"

/-- The code that the service gives. -/
def AFault.given : AFault → ErrCode
  | .clientGrant => .unsupportedGrantType
  | .broken => .serverError
  | _ => .invalidRequest

/-- The faults of the request itself and of the client that it names. -/
abbrev AFault.late (k : AFault) : Prop :=
  k ∈ [.malformed, .responseType, .clientUnknown, .clientGrant, .clientType, .clientRedirect, .clientMode]

/-- The error tells the fault `k` of a request, which is `r` for the faults that concern a
request. Those errors carry its state, if it has one. -/
def TellsFault (acts : AuthzRequest → Prop) (e : Option OErr) (k : AFault) : Prop :=
  ∃ e', e = some e' ∧ e'.code = k.given ∧
    (k.late → ∃ r, acts r ∧ e'.state = if r.state = [] then none else some r.state) ∧
    (¬ k.late → e'.state = none ∨ k = .broken ∧ ∃ r, acts r ∧ e'.state = some r.state)

/-- Faults of a device authorization request. -/
inductive DeviceFault where
  | request | issuer | client | clientUnknown | clientGrant | broken
deriving DecidableEq, Repr

/-- The device authorization request `req`, which made the calls `tr`, has the fault `k`. -/
def HasDeviceFault (req : Option DeviceAuthzReq) (tr : List Ev) (k : DeviceFault) : Prop :=
  match req with
  | none => k = .request
  | some q =>
    match k with
    | .request => False
    | .issuer => q.issuer = []
    | .client => q.clientId = []
    | .clientUnknown => ⟨.clientsGet q.clientId, .error .notFound⟩ ∈ tr ∨ ⟨.clientsGet q.clientId, .ok none⟩ ∈ tr
    | .clientGrant => ∃ cl, ⟨.clientsGet q.clientId, .ok (some cl)⟩ ∈ tr ∧
        ¬ MemFold g!"urn:ietf:params:oauth:grant-type:device_code" cl.grantTypes
    | .broken => ⟨.clientsGet q.clientId, .error .other⟩ ∈ tr ∨ (∃ e, ⟨.genDev q.issuer, .error e⟩ ∈ tr) ∨
        (∃ e, ⟨.genUser q.issuer, .error e⟩ ∈ tr) ∨ ∃ u s e, ⟨.dsReg q.issuer u s, .error e⟩ ∈ tr

/-- The code that the standards prescribe. -/
def DeviceFault.prescribed : DeviceFault → ErrCode
  | .clientUnknown => .invalidClient
  | .clientGrant => .unauthorizedClient
  | .broken => .serverError
  | _ => .invalidRequest

/-- The error tells the fault `k` of the request `q`, which made the calls `tr`. -/
def TellsDevice (q : DeviceAuthzReq) (tr : List Ev) (e : Option OErr) : DeviceFault → Prop
  | .clientUnknown => (e = some ⟨.invalidRequest, none⟩ ∧ ⟨.clientsGet q.clientId, .error .notFound⟩ ∈ tr) ∨
      (e = some ⟨.invalidClient, none⟩ ∧ ⟨.clientsGet q.clientId, .ok none⟩ ∈ tr)
  | .clientGrant => e = some ⟨.unsupportedGrantType, none⟩
  | .broken => (e = some ⟨.invalidRequest, none⟩ ∧ ⟨.clientsGet q.clientId, .error .other⟩ ∈ tr) ∨
      (e = some ⟨.serverError, none⟩ ∧ ¬ ⟨.clientsGet q.clientId, .error .other⟩ ∈ tr)
  | _ => e = some ⟨.invalidRequest, none⟩

end Verif.Spec
