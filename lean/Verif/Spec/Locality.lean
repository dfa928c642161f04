import Verif.Model.HttpSystem

/-! Vocabulary for locality: what a set of requests names, and what it leaves alone. -/
namespace Verif.Spec
open Verif.Store

/-- A part of the stores, given by storage keys, addresses of device sessions and token
identifiers; and the issuers the server serves. -/
structure Part where
  served : Str → Prop
  code : Str → Prop := fun _ => False
  request : Str → Prop := fun _ => False
  user : Str → Prop := fun _ => False
  device : Str → Prop := fun _ => False
  ref : Nat → Prop := fun _ => False
  token : Str → Prop := fun _ => False
  id : Str → Prop := fun _ => False

/-- The stores are the same outside the part. -/
structure AgreeOutside (H : Part) (s s' : St) : Prop where
  clock : s.clock = s'.clock
  clients : s.clients = s'.clients
  resources : s.resources = s'.resources
  proofs : s.proofs = s'.proofs
  codes : ∀ k, ¬ H.code k → s.codes k = s'.codes k
  requests : ∀ k, ¬ H.request k → s.requests k = s'.requests k
  user : ∀ k, ¬ H.user k → s.userIdx k = s'.userIdx k
  device : ∀ k, ¬ H.device k → s.devIdx k = s'.devIdx k
  size : s.heap.length = s'.heap.length
  heap : ∀ r, ¬ H.ref r → s.heap[r]? = s'.heap[r]?
  token : ∀ k, ¬ H.token k → s.tokVal k = s'.tokVal k
  id : ∀ k, ¬ H.id k → s.tokId k = s'.tokId k

/-- The stores are the same within the part. -/
structure AgreeWithin (H : Part) (s s' : St) : Prop where
  codes : ∀ k, H.code k → s'.codes k = s.codes k
  requests : ∀ k, H.request k → s'.requests k = s.requests k
  user : ∀ k, H.user k → s'.userIdx k = s.userIdx k
  device : ∀ k, H.device k → s'.devIdx k = s.devIdx k
  heap : ∀ r, H.ref r → s'.heap[r]? = s.heap[r]?
  token : ∀ k, H.token k → s'.tokVal k = s.tokVal k
  id : ∀ k, H.id k → s'.tokId k = s.tokId k

/-- The metadata names an issuer that is served. -/
def MetaServed (H : Part) (t : Token) : Prop := ∀ md, t.metadata = some md → H.served md.issuer

/-- Nothing stored outside the part points into it, and everything stored outside belongs to an
issuer that is served. -/
structure Separate (E : Env) (H : Part) (s : St) : Prop where
  alloc : ∀ r, H.ref r → r < s.heap.length
  user : ∀ k r x, ¬ H.user k → s.userIdx k = some (r, x) → ¬ H.ref r
  device : ∀ k r x, ¬ H.device k → s.devIdx k = some (r, x) → ¬ H.ref r
  heap : ∀ r d, ¬ H.ref r → s.heap[r]? = some d →
    ¬ H.device (devKey E d.issuer d.deviceCode) ∧ H.served d.issuer
  token : ∀ k t, ¬ H.token k → s.tokVal k = some t → ¬ H.id t.tokenId ∧ MetaServed H t
  id : ∀ k t, ¬ H.id k → s.tokId k = some t → ¬ H.id t.tokenId ∧ ¬ H.token t.value ∧ MetaServed H t

/-- A generated string is not a name of anything in the part, for an issuer that is served. -/
structure Fresh (E : Env) (H : Part) (v : Str) : Prop where
  code : ∀ i, H.served i → ¬ H.code (codeKey E i v)
  request : ∀ i, H.served i → ¬ H.request (requestKey E i v)
  user : ∀ i, H.served i → ¬ H.user (userKey E i v)
  device : ∀ i, H.served i → ¬ H.device (devKey E i v)
  token : ∀ i, H.served i → ¬ H.token (tokenKey E i v)
  id : ¬ H.id v

/-- The grant of a token request under `i` names nothing in the part. -/
def GrantQuiet (E : Env) (H : Part) (i : Str) : Grant → Prop
  | .authorizationCode g => ¬ H.code (codeKey E i g.code)
  | .clientCredentials => True
  | .deviceCode dc => ¬ H.device (devKey E i dc)
  | .refreshToken v => ¬ H.token (tokenKey E i v)
  | .tokenExchange g => ¬ H.token (tokenKey E i g.subjectToken)

/-- The request is for an issuer that is served and names nothing in the part. -/
def Quiet (E : Env) (H : Part) : Verif.Req → Prop
  | .authorize r => ∀ q, r = some q → H.served q.issuer ∧
      ∀ ar uri, q.request = some ar → ar.requestUri = some uri → ¬ H.request (requestKey E q.issuer uri)
  | .register r => ∀ q, r = some q → H.served q.issuer
  | .deviceAuthorize r => ∀ q, r = some q → H.served q.issuer
  | .deviceValidate r => ∀ q, r = some q → H.served q.issuer ∧ ∀ i, H.served i → ¬ H.user (userKey E i q.userCode)
  | .token r => ∀ q, r = some q → H.served q.issuer ∧ ∀ g, q.grant = some g → GrantQuiet E H q.issuer g
  | .introspect r => ∀ q, r = some q → ¬ H.token (tokenKey E q.issuer q.token)
  | .revoke r => ∀ q, r = some q → ¬ H.token (tokenKey E q.issuer q.token)
  | .dpop _ => True

/-- What happens names nothing in the part. -/
def QuietStep (E : Env) (H : Part) : Label → Prop
  | .arrive r => Quiet E H r
  | .run _ ch => Fresh E H ch.str
  | .tick _ => True

/-- One authorization code, at a server that serves the issuers `P`. -/
def codePart (P : Str → Prop) (E : Env) (i code : Str) : Part := { served := P, code := (· = codeKey E i code) }

/-- One token, at a server that serves the issuers `P`. -/
def tokenPart (P : Str → Prop) (E : Env) (i : Str) (t : Token) : Part :=
  { served := P, token := (· = tokenKey E i t.value), id := (· = t.tokenId) }

/-- The HTTP request names nothing in the part: neither its parameters nor, if it carries a
request object, the pushed request this refers to. -/
structure HttpQuiet (S : Http.Server) (H : Part) (r : Http.Req) : Prop where
  code : ¬ H.code (codeKey S.E S.issuer (r.formValue g!"code"))
  device : ¬ H.device (devKey S.E S.issuer (r.formValue g!"device_code"))
  refresh : ¬ H.token (tokenKey S.E S.issuer (r.formValue g!"refresh_token"))
  token : ¬ H.token (tokenKey S.E S.issuer (r.formValue g!"token"))
  user : ∀ i, H.served i → ¬ H.user (userKey S.E i (r.postValue g!"user_code"))
  request : ∀ client ar uri, Http.decodeRequest S client (r.get g!"request") = some ar → ar.requestUri = some uri →
    ¬ H.request (requestKey S.E S.issuer uri)

/-- The same for what happens to the HTTP server. -/
def HttpQuietStep (S : Http.Server) (H : Part) : Http.Label → Prop
  | .arrive _ r => HttpQuiet S H r
  | .run _ ch => Fresh S.E H ch.str
  | .tick _ => True

end Verif.Spec
