import Verif.Model.System
import Verif.Spec.Authorization
import Verif.Spec.Token

/-! Vocabulary for histories of the whole server. -/
namespace Verif

/-- Request `i` of the history asks `r`. -/
def Asked (c : Conf) (i : Nat) (r : Req) : Prop := ∃ th, c.threads[i]? = some th ∧ th.req = r

/-- Request `i` asked `r` and was answered `a`. -/
def Answered (c : Conf) (i : Nat) (r : Req) (a : Resp) : Prop :=
  ∃ th, c.threads[i]? = some th ∧ th.req = r ∧ th.answer = some a

/-- The calls request `i` made, with their answers, in order. -/
def callsOf (E : Env) (i : Nat) (log : List Entry) : List Ev :=
  (log.filter (fun e => decide (e.tid = i))).map (Entry.ev E)

namespace Spec

/-- The server starts without sessions, pushed requests, tokens and remembered
proofs; clients and resources are arbitrary, and so is the time. -/
structure Empty (s : St) : Prop where
  requests : ∀ k, s.requests k = none
  codes : ∀ k, s.codes k = none
  heap : s.heap = []
  userIdx : ∀ k, s.userIdx k = none
  devIdx : ∀ k, s.devIdx k = none
  tokId : ∀ k, s.tokId k = none
  tokVal : ∀ k, s.tokVal k = none
  proofs : ∀ k, s.proofs k = none

/-- Request `i` redeemed the code `code` under `iss` successfully with grant `g`. -/
def Redeems (c : Conf) (i : Nat) (iss code : Str) (q : TokenReq) (g : GrantCode) (a : TokenResp) : Prop :=
  Answered c i (.token (some q)) (.token a) ∧ q.issuer = iss ∧ q.grant = some (.authorizationCode g) ∧
  g.code = code ∧ Succeeds a

/-- Request `j` is an authorization request that handed a session for `code` under
`iss` to the store. -/
def Authorizes (c : Conf) (j : Nat) (iss code : Str) : Prop :=
  (∃ r, Asked c j (.authorize r)) ∧ ∃ e ∈ c.log, e.tid = j ∧ ∃ s, e.cmd = .csReg iss code s

/-- The kinds of stored objects addressed by issuer and name. -/
inductive Kind where
  | code | request | userCode | deviceCode | token
deriving DecidableEq, Repr

/-- Which objects (kind, issuer, name) a storage call addresses. -/
def cells : Cmd → List (Kind × Str × Str)
  | .csGet i n | .csDel i n | .csReg i n _ => [(.code, i, n)]
  | .arGet i n | .arDel i n | .arReg i n _ => [(.request, i, n)]
  | .dsGetUser i n | .dsDel i n => [(.userCode, i, n)]
  | .dsGetDev i n => [(.deviceCode, i, n)]
  | .dsReg _ n d | .dsValidate _ n _ d => [(.userCode, d.issuer, n), (.deviceCode, d.issuer, d.deviceCode)]
  | .tkGetVal i n => [(.token, i, n)]
  | .tkCreate i t => [(.token, i, t.value)]
  | _ => []

/-- The storage key of an object. -/
def keyOf (E : Env) : Kind → Str → Str → Str
  | .code => Store.codeKey E
  | .request => Store.requestKey E
  | .userCode => Store.userKey E
  | .deviceCode => Store.devKey E
  | .token => Store.tokenKey E

/-- No two different objects (issuer and name) addressed in this history share a
storage key. Keys are hashes of the concatenation of issuer and name: a clash is a
hash collision or two pairs with the same concatenation (see C33). -/
def NoKeyClash (E : Env) (c : Conf) : Prop :=
  ∀ e ∈ c.log, ∀ e' ∈ c.log, ∀ k i n i' n', (k, i, n) ∈ cells e.cmd → (k, i', n') ∈ cells e'.cmd →
    keyOf E k i n = keyOf E k i' n' → i = i' ∧ n = n'

/-- The authorization request `q` acts on `r`, which was submitted as `sub`: either
in the request itself, or pushed earlier by a push request under the request URI
that `q` refers to (a pushed request is stored with its effective scope and
response mode). -/
inductive Submitted (c : Conf) (q : AuthorizeReq) : AuthzRequest → AuthzRequest → Prop
  | direct (r : AuthzRequest) : q.request = some r → r.requestUri = none → Submitted c q r r
  | pushed (r0 sub r : AuthzRequest) (uri : Str) (k : Nat) (p : RegistrationReq) :
      q.request = some r0 → r0.requestUri = some uri → Asked c k (.register (some p)) → p.issuer = q.issuer →
      p.request = some sub → Effective sub r →
      (∃ e ∈ c.log, e.tid = k ∧ e.cmd = .arReg q.issuer uri r) → Submitted c q sub r

/-- Authorization request number `j`, which is `q` and was submitted as `sub`,
handed to the store, under `iss` and `code`, the session of `q.subject` for the
effective request `eff`. -/
structure CodeFor (c : Conf) (j : Nat) (iss code : Str) (q : AuthorizeReq) (sub eff : AuthzRequest) : Prop where
  asked : Asked c j (.authorize (some q))
  issuer : q.issuer = iss
  submitted : ∃ r, Submitted c q sub r ∧ Effective r eff
  stored : ∃ e ∈ c.log, e.tid = j ∧
    e.cmd = .csReg iss code { issuer := iss, subject := q.subject, request := some eff }

/-- Request `j` is the authorization request `q` that refers to the request pushed
under `uri` and was answered with a code. -/
def CodeFromPush (c : Conf) (j : Nat) (iss uri : Str) (q : AuthorizeReq) (a : AuthorizeResp) : Prop :=
  ∃ r0, Answered c j (.authorize (some q)) (.authorize a) ∧ Issued a ∧ q.issuer = iss ∧
    q.request = some r0 ∧ r0.requestUri = some uri

/-- Request `k` is a push request that handed a request to the store under `uri`. -/
def Pushes (c : Conf) (k : Nat) (iss uri : Str) : Prop :=
  (∃ r, Asked c k (.register r)) ∧ ∃ e ∈ c.log, e.tid = k ∧ ∃ r, e.cmd = .arReg iss uri r

/-- The `n`-th call of the history asks the store to create the token `t` under `iss`. -/
def Creates (c : Conf) (n : Nat) (iss : Str) (t : Token) : Prop :=
  ∃ e, c.log[n]? = some e ∧ e.cmd = .tkCreate iss t

/-- The generators never repeat themselves within this history: no two creations
share the token id, and no two creations under one issuer share the value. -/
structure FreshTokens (c : Conf) : Prop where
  ids : ∀ n n' iss iss' t t', Creates c n iss t → Creates c n' iss' t' → t.tokenId = t'.tokenId → n = n'
  values : ∀ n n' iss t t', Creates c n iss t → Creates c n' iss t' → t.value = t'.value → n = n'

/-- What the store keeps of a created token `t`: everything but the value, which
is replaced by its hash, and the status, which revocation changes. -/
structure Keeps (t x : Token) : Prop where
  rest : { x with value := t.value, status := t.status } = t
  status : x.status = t.status ∨ x.status = .revoked

/-- One refresh: the token `t'` was handed to the store while serving a refresh
request that presented the value of the token `t`, created under the request's issuer. -/
def RefreshStep (c : Conf) (t t' : Token) : Prop :=
  ∃ (n n' : Nat) (e' : Entry) (q : TokenReq) (iss' : Str), Creates c n q.issuer t ∧
    c.log[n']? = some e' ∧ e'.cmd = .tkCreate iss' t' ∧ Asked c e'.tid (.token (some q)) ∧
    q.grant = some (.refreshToken t.value)

/-- The claims that refreshing must not change. -/
def SameClaims (t t' : Token) : Prop :=
  t.confirmation = t'.confirmation ∧ ∃ md md', t.metadata = some md ∧ t'.metadata = some md' ∧
    md.issuer = md'.issuer ∧ md.subject = md'.subject ∧ md.clientId = md'.clientId ∧ md.scope = md'.scope ∧
    md.audience = md'.audience

/-- The hash does not collide on the objects addressed in this history: equal keys
come from equal concatenations of issuer and name. -/
def NoHashCollision (E : Env) (c : Conf) : Prop :=
  ∀ e ∈ c.log, ∀ e' ∈ c.log, ∀ k i n i' n', (k, i, n) ∈ cells e.cmd → (k, i', n') ∈ cells e'.cmd →
    keyOf E k i n = keyOf E k i' n' → i ++ n = i' ++ n'

/-- No issuer used in this history is a proper prefix of another one. -/
def IssuersPrefixFree (c : Conf) : Prop :=
  ∀ e ∈ c.log, ∀ e' ∈ c.log, ∀ k i n i' n', (k, i, n) ∈ cells e.cmd → (k, i', n') ∈ cells e'.cmd →
    i <+: i' → i = i'

/-- Before the `n`-th call of the history, an authorization request handed a session of
`q.subject` to the store under `iss`. -/
def UserCame (c : Conf) (n : Nat) (iss : Str) (q : AuthorizeReq) : Prop :=
  ∃ (m : Nat) (e : Entry) (code : Str) (cs : CodeSession), m < n ∧ c.log[m]? = some e ∧ e.cmd = .csReg iss code cs ∧
    Asked c e.tid (.authorize (some q)) ∧ q.issuer = iss ∧ cs.subject = q.subject

/-- Up to the `n`-th call of the history, a client credentials request handed a token to
the store under `iss`. -/
def ClientCame (c : Conf) (n : Nat) (iss : Str) : Prop :=
  ∃ (m : Nat) (e : Entry) (t : Token) (q : TokenReq), m ≤ n ∧ c.log[m]? = some e ∧ e.cmd = .tkCreate iss t ∧
    Asked c e.tid (.token (some q)) ∧ q.grant = some .clientCredentials

end Spec
end Verif
