import Verif.Model.Client
import Verif.Proofs.Must
import Verif.Props.Http
import Verif.Props.Sign
import Verif.Proofs.HttpDemo

/-! The client library against the example server. -/
namespace Verif.Props
open Verif.Spec Verif.Prog Verif.Jose Verif.Sign Verif.ClientAuth Verif.Http Verif.Client

/-- What the stores of the server hold and the seconds its clock may show. -/
structure World where
  clients : Str → Option Client
  /-- tokens by issuer and value -/
  tokens : Str → Str → Option Token
  first : Nat
  last : Nat

/-- The interfaces work: clients and tokens are found exactly if they are held, token
generation and storage succeed, the clock stays in its range. -/
def World.Healthy (w : World) : Ev → Prop
  | ⟨.now, n⟩ => w.first ≤ seconds n ∧ seconds n ≤ w.last
  | ⟨.clientsGet id, r⟩ =>
    match w.clients id with
    | some c => r = .ok (some c)
    | none => r = .error .notFound
  | ⟨.tkGetVal iss v, r⟩ =>
    match w.tokens iss v with
    | some t => r = .ok (some t)
    | none => r = .error .notFound
  | ⟨.genAT _, r⟩ => ∃ v, v ≠ [] ∧ r = .ok v
  | ⟨.tkCreate _ _, r⟩ => r = .ok ()
  | _ => True

/-- A client as registered under its identifier, with the key `k` among its keys. -/
structure HasKey (w : World) (jwks : Str → Option (List Jwk)) (id : Str) (cl : Client) (k : Jwk) : Prop where
  found : w.clients id = some cl
  named : cl.clientId = id
  some_keys : cl.jwks ≠ []
  key : ∃ ks, jwks cl.jwks = some ks ∧ k ∈ ks
  signs : k.use ≠ g!"enc"

/-- The claims of an assertion of the library. -/
def assertionClaims (o : Options) (iss jti : Str) (exp iat : Nat) : PrivClaims :=
  { jti := jti, sub := o.clientId, iss := o.clientId, aud := iss, exp := exp, iat := iat }

/-- The library prepared the assertion `a`, with the private key `key`, for a server that is
going to see it within 30 seconds. The server parses what the library signs. -/
structure Prepared (S : Server) (w : World) (L : Lib PrivClaims) (o : Options) (key : Jwk) (a : Str) : Prop where
  ran : ∃ (jwkOf : Str → Option Jwk) (issuer : Str) (tr : List Ev), jwkOf o.jwk = some key ∧ issuer ≠ [] ∧
    Exec (assertion jwkOf L o issuer) tr (.done (some a)) ∧
    (∀ j, ⟨.jti, j⟩ ∈ tr → j ≠ []) ∧ (∀ n, ⟨.now, n⟩ ∈ tr → w.last ≤ seconds n + 30) ∧
    ∃ ok, L.Lawful ok ∧ ∀ j exp iat, ⟨.jti, j⟩ ∈ tr → ok (assertionClaims o issuer j exp iat)
  parse : S.P.parse = L.parse
  dec : S.P.privClaims = L.dec
  id : o.clientId ≠ []

section
variable {S : Server} {w : World} {L : Lib PrivClaims} {o : Options} {a : Str} {url : DPoP.Target} {key : Jwk} {cl : Client}

/-- What the library signs. -/
theorem assertion_exec {jwkOf : Str → Option Jwk} {iss : Str} {tr : List Ev}
    (h : Exec (assertion jwkOf L o iss) tr (.done (some a))) :
    ∃ k jti n n', jwkOf o.jwk = some k ∧ tr = [⟨.jti, jti⟩, ⟨.now, n⟩, (⟨.now, n'⟩ : Ev)] ∧
      L.sign g!"JWT" k.kid false k (assertionClaims o iss jti (seconds n + 30) (seconds n')) = some a := by
  unfold assertion at h
  cases hk : jwkOf o.jwk with
  | none => rw [hk] at h; cases h
  | some k =>
    rw [hk] at h
    simp only [Prog.call, bind_op, bind_ret, pure_eq] at h
    cases h with
    | step _ _ jti _ _ h =>
      cases h with
      | step _ _ n _ _ h =>
        cases h with
        | step _ _ n' _ _ h =>
          have e : Device.unix (n + 30 * 1000000000) = seconds n + 30 := by unfold Device.unix seconds; omega
          rw [e] at h
          change Exec (Prog.ret (L.sign g!"JWT" k.kid false k (assertionClaims o iss jti (seconds n + 30) (seconds n')))) _ _ at h
          generalize hs : L.sign _ _ _ _ _ = x at h
          cases h
          exact ⟨k, jti, n, n', rfl, rfl, hs⟩

/-- What the server reads in the assertion. -/
theorem Prepared.read (hp : Prepared S w L o key a) : a ≠ [] ∧ ∃ t c, S.P.parse a = some t ∧
    S.P.privClaims t.payload = some c ∧ c.complete = true ∧ c.iss = o.clientId ∧ c.sub = o.clientId ∧ w.last ≤ c.exp ∧
    t.verifies (L.pub key) = true := by
  obtain ⟨jwkOf, iss, tr, h1, h2, h3, h4, h5, ok, hL, hok⟩ := hp.ran
  obtain ⟨k, jti, n, n', e1, rfl, hs⟩ := assertion_exec h3
  rw [h1] at e1; cases e1
  obtain ⟨t, g1, _, _, g4, g5, _⟩ := hL.signed (hok _ _ _ (by simp)) hs
  refine ⟨hL.nonempty hs, t, _, hp.parse ▸ g1, hp.dec ▸ g5, ?_, rfl, rfl, h5 n (by simp), g4⟩
  have := h4 jti (by simp)
  simp [PrivClaims.complete, assertionClaims, hp.id, h2, this]

theorem must_privateKey (hp : Prepared S w L o key a) (hk : HasKey w S.P.jwks o.clientId cl (L.pub key)) :
    Must w.Healthy (· = ⟨some { client := some cl }, false⟩)
      (privateKeyJwt S.P (some ⟨some typeBearer, some a⟩)) := by
  obtain ⟨hne, t, c, h1, h2, hfull, h3, h4, hexp, hv⟩ := hp.read
  obtain ⟨ks, hks, hmem⟩ := hk.key
  have hsig : validateSignature (some ks) (some t) = true := validateSignature_iff.2 ⟨_, hmem, hk.signs, hv⟩
  unfold privateKeyJwt
  simp only [ne_eq, not_true_eq_false, if_false, hne, h1, h2, hfull, h3, h4, Prog.call, bind_op, bind_ret, Must]
  intro n hn
  have hx : ¬ c.exp < Device.unix n := Nat.not_lt.2 (Nat.le_trans hn.2 hexp)
  rw [if_neg hx]
  unfold privateKeyCheck
  simp only [Prog.call, bind_op, bind_ret, Must]
  intro r hr
  simp only [World.Healthy, hk.found] at hr
  subst hr
  simp only [hk.some_keys, if_false, hks, hsig, if_true, pure_eq, Must]

/-- The middleware lets an assertion of the library through. -/
theorem must_assertion (hp : Prepared S w L o key a) (hk : HasKey w S.P.jwks o.clientId cl (L.pub key)) {r : Http.Req}
    (hq : r.query g!"client_id" = none) (h1 : r.post g!"client_assertion_type" = some typeBearer)
    (h2 : r.post g!"client_assertion" = some a) {Q : Http.Resp → Prop} {h : Option Client → Prog Http.Resp}
    (hh : Must w.Healthy Q (h (some cl))) : Must w.Healthy Q (clientAuth S r h) := by
  have e2 : r.get g!"client_id" = [] := by simp [Http.Req.get, hq]
  have e3 : r.postValue g!"client_assertion_type" = typeBearer := by simp [Http.Req.postValue, h1]
  have e4 : r.postValue g!"client_assertion" = a := by simp [Http.Req.postValue, h2]
  unfold clientAuth
  simp only [e2, ne_eq, not_true_eq_false, if_false, e3, if_true, e4]
  refine must_bind (must_privateKey hp hk) ?_
  rintro _ rfl
  exact hh

/-- What a request for client credentials gets from the token service. -/
theorem must_credentials {r : Http.Req} (hi : S.issuer ≠ []) (hu : S.E.parseRequestURI S.issuer = true)
    (hg : r.formValue g!"grant_type" = g!"client_credentials")
    (hcl : w.clients cl.clientId = some cl) (hty : cl.clientType = .confidential ∨ cl.clientType = .credentialed)
    (hgt : MemFold g!"client_credentials" cl.grantTypes) :
    Must w.Healthy (fun res => res.goErr = false ∧ res.refreshToken = none ∧
        ∃ at_ md, res.accessToken = some at_ ∧ at_.value ≠ [] ∧ at_.metadata = some md)
      (TokenSvc.token S.E (some (tokenMsg S r cl none))) := by
  have e1 : grantOf r = some .clientCredentials := by unfold grantOf; rw [hg]; rfl
  have e2 : TokenSvc.validateRequest (some (tokenMsg S r cl none)) = none := by
    unfold TokenSvc.validateRequest
    simp only [tokenMsg, hi, if_false, Option.isNone_some, Bool.false_eq_true, hg, e1]
    rfl
  unfold TokenSvc.token
  rw [e2]
  simp only [tokenMsg, Prog.call, bind_op, bind_ret, Must]
  intro x hx
  simp only [World.Healthy, hcl] at hx
  subst hx
  unfold TokenSvc.dispatch
  have e3 : g!"client_credentials" = Oidc.grantClientCredentials := rfl
  have e4 : StringArray.contains cl.grantTypes Oidc.grantClientCredentials = true := (contains_iff _ _).2 hgt
  simp only [hg, e3, if_true, e1, TokenSvc.clientCredentials, hi, hu, if_false, not_true_eq_false, hty, e4,
    TokenSvc.generateAccessToken, Prog.call, bind_op, bind_ret, Must]
  rintro n - jti - v ⟨w, hw, rfl⟩
  simp only [hw, if_false, bind_op, Must]
  intro x hx
  simp only [World.Healthy] at hx
  subst hx
  exact ⟨rfl, rfl, _, _, rfl, hw, rfl⟩

/-- The answer to an authenticated request for client credentials. -/
theorem must_tokenHandler {r : Http.Req} (hi : S.issuer ≠ []) (hu : S.E.parseRequestURI S.issuer = true)
    (hg : r.formValue g!"grant_type" = g!"client_credentials") (hm : r.method = g!"POST") (hd : r.dpop = [])
    (hb : cl.dpopBoundAccessTokens = false) (hcl : w.clients cl.clientId = some cl)
    (hty : cl.clientType = .confidential ∨ cl.clientType = .credentialed)
    (hgt : MemFold g!"client_credentials" cl.grantTypes) :
    Must w.Healthy (fun a => ∃ b, a = ⟨200, .tokens b⟩ ∧ b.tokenType = g!"Bearer" ∧ b.accessToken ≠ [] ∧
        b.refreshToken = []) (tokenHandler S r (some cl)) := by
  unfold tokenHandler
  simp only [hm, ne_eq, not_true_eq_false, if_false, hd, hb, Bool.false_eq_true, and_false, if_true]
  refine must_bind (must_credentials hi hu hg hcl hty hgt) ?_
  rintro res ⟨h1, h2, at_, md, h3, h4, h5⟩
  unfold Http.tokenAnswer
  simp only [h1, Bool.false_eq_true, if_false, h3, h5, Prog.call, bind_op, bind_ret, pure_eq, Must, h2]
  intro n _
  exact ⟨_, rfl, rfl, h4, rfl⟩

theorem World.Healthy.not_nil {tr : List Ev} (hw : ∀ ev ∈ tr, w.Healthy ev) : ∀ id, ⟨.clientsGet id, .ok none⟩ ∉ tr := by
  intro id hm
  have := hw _ hm
  simp only [World.Healthy] at this
  split at this <;> cases this

/-- Nobody else can have authenticated with the assertion. -/
theorem Prepared.who {tr : List Ev} {r : Http.Req} {c : Client} (hp : Prepared S w L o key a)
    (hk : HasKey w S.P.jwks o.clientId cl (L.pub key)) (hw : ∀ ev ∈ tr, w.Healthy ev) (hq : r.query g!"client_id" = none)
    (h1 : r.post g!"client_assertion_type" = some typeBearer) (h2 : r.post g!"client_assertion" = some a)
    (hf : FromClient S.P r tr c) : c = cl := by
  obtain ⟨-, t, pc, p1, p2, -, p3, -⟩ := hp.read
  cases hf with
  | named id hq' => rw [hq] at hq'; cases hq'
  | key a' t' cl' n keys k hty ha hp hc _ _ _ hreg =>
    rw [h2] at ha; cases ha
    rw [p1] at hp; cases hp
    rw [p2] at hc; cases hc
    have := hw _ hreg
    simp only [World.Healthy, p3, hk.found] at this
    cases this
    rfl
  | attested att pop t1 t2 c1 c2 at_ keys k key hty =>
    rw [h1] at hty
    exact absurd hty (by decide)

/-- **C73** A client of the library that is registered with its public key for the client
credentials grant obtains a token from the example server: it signs an assertion, the
server sees it within 30 seconds, the interfaces of the server work. The client gets a
bearer token that was stored for it, and no refresh token; the server does not crash. -/
theorem C73_gets_token_partial {tr : List Ev} {out : Outcome Http.Resp} (hp : Prepared S w L o key a)
    (hk : HasKey w S.P.jwks o.clientId cl (L.pub key)) (hi : S.issuer ≠ []) (hu : S.E.parseRequestURI S.issuer = true)
    (hb : cl.dpopBoundAccessTokens = false) (hty : cl.clientType = .confidential ∨ cl.clientType = .credentialed)
    (hgt : MemFold g!"client_credentials" cl.grantTypes)
    (hx : Exec (Http.serve S .token (credentialsReq a url)) tr out) (hw : ∀ ev ∈ tr, w.Healthy ev) :
    out = .stopped ∨ ∃ resp tk, out = .done resp ∧ readToken resp = some tk ∧ tk.tokenType = g!"Bearer" ∧
      tk.accessToken ≠ [] ∧ tk.refreshToken = [] ∧
      ∃ i t md, ⟨.tkCreate i t, .ok ()⟩ ∈ tr ∧ t.value = tk.accessToken ∧ t.status = .active ∧ t.metadata = some md ∧
        md.clientId = o.clientId := by
  have hm : Must w.Healthy (fun a => ∃ b, a = ⟨200, .tokens b⟩ ∧ b.tokenType = g!"Bearer" ∧
      b.accessToken ≠ [] ∧ b.refreshToken = []) (Http.serve S .token (credentialsReq a url)) :=
    must_assertion hp hk rfl rfl rfl
      (must_tokenHandler hi hu rfl rfl rfl hb (by rw [hk.named]; exact hk.found) hty hgt)
  rcases must_sound hm hx hw with h | ⟨resp, rfl, b, rfl, h1, h2, h3⟩
  · exact .inl h
  · refine .inr ⟨_, ⟨b.accessToken, b.tokenType, b.refreshToken, none⟩, rfl, rfl, h1, h2, h3, ?_⟩
    obtain ⟨-, -, c, hf, hv⟩ := C63_tokens_for_client S _ tr 200 b (World.Healthy.not_nil hw) hx
    obtain ⟨cl', i, t, md, g1, g2, g3, g4, g5, g6⟩ := hv b.accessToken (by simp) (.inl rfl)
    obtain rfl := hp.who hk hw rfl rfl rfl hf
    have := hw _ g1
    simp only [World.Healthy, hk.named, hk.found] at this
    cases this
    exact ⟨i, t, md, g2, g3, g4, g5, g6.trans hk.named⟩

/-- What is told about the token `v`: claims only if it is held as active and not expired at
all times the clock may show, and certainly if it is valid at all these times. -/
structure Told (S : Server) (w : World) (v : Str) (b : Option ActiveBody) : Prop where
  only : ∀ x, b = some x → ∃ t md, w.tokens S.issuer v = some t ∧ t.status = .active ∧ t.metadata = some md ∧
    w.first ≤ md.expiresAt ∧ md.notBefore ≤ w.last ∧ x = activeBody t md
  all : ∀ t md, w.tokens S.issuer v = some t → t.status = .active → t.metadata = some md → w.last ≤ md.expiresAt →
    md.notBefore ≤ w.first → b = some (activeBody t md)

theorem told_none {v : Str} (h : ∀ t md, w.tokens S.issuer v = some t → t.status = .active → t.metadata = some md →
    w.last ≤ md.expiresAt → md.notBefore ≤ w.first → False) : Told S w v none :=
  ⟨fun _ h => (by cases h), fun t md h1 h2 h3 h4 h5 => (h t md h1 h2 h3 h4 h5).elim⟩

theorem must_introspect {r : Http.Req} {v : Str} (hi : S.issuer ≠ []) (hu : S.E.parseRequestURI S.issuer = true)
    (ht : r.formValue g!"token" = v) (hv : v ≠ []) (hcl : w.clients cl.clientId = some cl) :
    Must w.Healthy (fun a => ∃ b, a = ⟨200, .introspection b⟩ ∧ Told S w v b) (introspectHandler S r (some cl)) := by
  subst ht
  unfold introspectHandler TokenSvc.introspect
  simp only [hi, hu, hv, if_false, not_true_eq_false, Prog.call, bind_op, bind_ret, Must]
  intro x hx
  simp only [World.Healthy, hcl] at hx
  subst hx
  simp only [bind_op, Must]
  intro x hx
  simp only [World.Healthy] at hx
  cases hw : w.tokens S.issuer (r.formValue g!"token") with
  | none =>
    rw [hw] at hx
    subst hx
    exact ⟨none, rfl, told_none fun t md h => by simp [hw] at h⟩
  | some t =>
    rw [hw] at hx
    subst hx
    simp only [pure_eq, bind_ret, Bool.false_eq_true, if_false]
    by_cases ha : t.status = .active
    · simp only [ha, if_true, TokenGen.isUsable]
      cases hm : t.metadata with
      | none => exact ⟨none, rfl, told_none fun t' md h _ h3 => by rw [hw] at h; cases h; simp [hm] at h3⟩
      | some md =>
        simp only [Prog.call, bind_op, bind_ret, Must]
        intro n hn
        obtain ⟨hn1, hn2⟩ := hn
        have hun : Device.unix n = seconds n := rfl
        by_cases h1 : md.expiresAt < Device.unix n
        · rw [if_pos h1]
          refine ⟨none, rfl, told_none fun t' md' h _ h3 h4 => ?_⟩
          rw [hw] at h; cases h
          rw [hm] at h3; cases h3
          omega
        by_cases h2 : md.notBefore > Device.unix n
        · rw [if_neg h1, if_pos h2]
          refine ⟨none, rfl, told_none fun t' md' h _ h3 h4 h5 => ?_⟩
          rw [hw] at h; cases h
          rw [hm] at h3; cases h3
          omega
        · rw [if_neg h1, if_neg h2]
          refine ⟨some (activeBody t md), rfl, ⟨fun x hx => ?_, fun t' md' h _ h3 _ _ => ?_⟩⟩
          · cases hx
            exact ⟨t, md, hw, ha, hm, by omega, by omega, rfl⟩
          · rw [hw] at h; cases h
            rw [hm] at h3; cases h3
            rfl
    · simp only [ha, if_false]
      exact ⟨none, rfl, told_none fun t' md h h2 => by rw [hw] at h; cases h; exact absurd h2 ha⟩

/-- **C73** (introspection). A registered client of the library learns whether a token is
active, whoever the token was issued to. -/
theorem C73_introspects {v : Str} {tr : List Ev} {out : Outcome Http.Resp} (hp : Prepared S w L o key a)
    (hk : HasKey w S.P.jwks o.clientId cl (L.pub key)) (hi : S.issuer ≠ []) (hu : S.E.parseRequestURI S.issuer = true)
    (hv : v ≠ []) (hx : Exec (Http.serve S .introspect (introspectReq a v url)) tr out) (hw : ∀ ev ∈ tr, w.Healthy ev) :
    out = .stopped ∨ ∃ b, out = .done ⟨200, .introspection b⟩ ∧
      ((∃ t md, w.tokens S.issuer v = some t ∧ t.status = .active ∧ t.metadata = some md ∧ w.last ≤ md.expiresAt ∧
        md.notBefore ≤ w.first) → b.isSome) ∧
      (b.isSome → ∃ t md, w.tokens S.issuer v = some t ∧ t.status = .active ∧ t.metadata = some md ∧
        w.first ≤ md.expiresAt ∧ md.notBefore ≤ w.last) := by
  have hm : Must w.Healthy _ (Http.serve S .introspect (introspectReq a v url)) :=
    must_assertion hp hk rfl rfl rfl (must_introspect hi hu rfl hv (by rw [hk.named]; exact hk.found))
  rcases must_sound hm hx hw with h | ⟨_, rfl, b, rfl, h⟩
  · exact .inl h
  · refine .inr ⟨b, rfl, ?_, ?_⟩
    · rintro ⟨t, md, h1, h2, h3, h4, h5⟩
      rw [h.all t md h1 h2 h3 h4 h5]
      rfl
    · intro hs
      obtain ⟨x, rfl⟩ := Option.isSome_iff_exists.1 hs
      obtain ⟨t, md, h1, h2, h3, h4, h5, _⟩ := h.only x rfl
      exact ⟨t, md, h1, h2, h3, h4, h5⟩

theorem bound_refused (S : Server) (a : Str) (url : DPoP.Target) (tr : List Ev) (resp : Http.Resp)
    (hnil : ∀ id, ⟨.clientsGet id, .ok none⟩ ∉ tr)
    (hb : ∀ c, FromClient S.P (credentialsReq a url) tr c → c.dpopBoundAccessTokens = true)
    (hx : Exec (Http.serve S .token (credentialsReq a url)) tr (.done resp)) : readToken resp = none := by
  rcases clientAuth_exec hx hnil with ⟨_, h2, _⟩ | ⟨c, t1, t2, rfl, _, hf, hk⟩
  · obtain ⟨e, rfl⟩ := h2 _ rfl
    rfl
  · have hc : c.dpopBoundAccessTokens = true := hb c (hf.mono fun ev h => List.mem_append_left _ h)
    unfold tokenHandler at hk
    have e1 : (credentialsReq a url).method = g!"POST" := rfl
    have e2 : (credentialsReq a url).dpop = [] := rfl
    simp only [e1, ne_eq, not_true_eq_false, if_false, e2, hc, and_self, if_true] at hk
    cases hk
    rfl

/-- **C73_violated** (bound tokens). The library sends no proof of possession: a client whose
tokens have to be bound to a key never gets one, though it is registered, authenticates
and the server works. -/
theorem C73_violated {tr : List Ev} {resp : Http.Resp} (hp : Prepared S w L o key a)
    (hk : HasKey w S.P.jwks o.clientId cl (L.pub key)) (hb : cl.dpopBoundAccessTokens = true)
    (hx : Exec (Http.serve S .token (credentialsReq a url)) tr (.done resp)) (hw : ∀ ev ∈ tr, w.Healthy ev) :
    readToken resp = none :=
  bound_refused S a url tr resp (World.Healthy.not_nil hw) (fun _ hf => hp.who hk hw rfl rfl rfl hf ▸ hb) hx

/-- The first client registered by the example server is such a client: the device
client example, which authenticates as this client, never gets a token. -/
theorem C73_shipped_violated (S : Server) (a : Str) (url : DPoP.Target) (t : Jws) (c : PrivClaims) (tr : List Ev) (resp : Http.Resp)
    (hreg : ∀ id r, ⟨.clientsGet id, r⟩ ∈ tr → r = match lookup id with
      | some c => .ok (some c)
      | none => .error .notFound)
    (hp : S.P.parse a = some t) (hc : S.P.privClaims t.payload = some c)
    (hid : c.iss = g!"t8p9duw4n2klximkv3kagaud796ul67g")
    (hx : Exec (Http.serve S .token (credentialsReq a url)) tr (.done resp)) : readToken resp = none := by
  have hnil : ∀ id, ⟨.clientsGet id, .ok none⟩ ∉ tr := by
    intro id hm
    have := hreg id _ hm
    split at this <;> cases this
  refine bound_refused S a url tr resp hnil (fun d hf => ?_) hx
  cases hf with
  | named id hq => exact absurd hq (by simp [credentialsReq])
  | key a' t' c' n keys k hty ha hp' hc' _ _ _ hr =>
    have : a' = a := by
      have e : (credentialsReq a url).post g!"client_assertion" = some a := rfl
      rw [e] at ha
      exact (Option.some.inj ha).symm
    subst this
    rw [hp] at hp'; cases hp'
    rw [hc] at hc'; cases hc'
    rw [hid] at hr
    have := hreg _ _ hr
    have e : lookup g!"t8p9duw4n2klximkv3kagaud796ul67g" = registry.head? := by decide +kernel
    rw [e] at this
    cases this
    rfl
  | attested att pop t1 t2 c1 c2 at_ keys k key hty =>
    have e : (credentialsReq a url).post g!"client_assertion_type" = some typeBearer := rfl
    rw [e] at hty
    exact absurd hty (by decide)

/-! ### C76 -/

/-- A request for introspection that names a client and carries no credentials. -/
def nakedReq (id v : Str) (url : DPoP.Target) : Http.Req where
  method := g!"POST"
  query := form [(g!"client_id", id)]
  post := form [(g!"token", v)]
  target := url

/-- **C76_violated** Whoever knows the identifier of a public client reads the claims of any
valid token: the identifier in the query is the only thing that is asked for. -/
theorem C76_violated {v id : Str} {t : Token} {md : TokenMeta} {tr : List Ev} {out : Outcome Http.Resp}
    (hreg : w.clients id = some cl) (hn : cl.clientId = id) (hne : id ≠ []) (hpub : cl.clientType = .pub) (hi : S.issuer ≠ [])
    (hu : S.E.parseRequestURI S.issuer = true) (hv : v ≠ []) (ht : w.tokens S.issuer v = some t) (ha : t.status = .active)
    (hm : t.metadata = some md) (h1 : w.last ≤ md.expiresAt) (h2 : md.notBefore ≤ w.first)
    (hx : Exec (Http.serve S .introspect (nakedReq id v url)) tr out) (hw : ∀ ev ∈ tr, w.Healthy ev) :
    out = .stopped ∨ ∃ x, out = .done ⟨200, .introspection (some x)⟩ ∧ x.sub = md.subject ∧ x.clientId = md.clientId ∧
      x.scope = md.scope := by
  have hmust : Must w.Healthy (fun a => ∃ b, a = ⟨200, .introspection b⟩ ∧ Told S w v b)
      (Http.serve S .introspect (nakedReq id v url)) := by
    unfold Http.serve clientAuth
    have e : (nakedReq id v url).get g!"client_id" = id := rfl
    simp only [e, ne_eq, hne, not_false_eq_true, if_true, Prog.call, bind_op, bind_ret, Must]
    intro r hr
    simp only [World.Healthy, e, hreg] at hr
    subst hr
    simp only [hpub, if_true]
    exact must_introspect hi hu rfl hv (by rw [hn]; exact hreg)
  rcases must_sound hmust hx hw with h | ⟨_, rfl, b, rfl, h⟩
  · exact .inl h
  · rw [h.all t md ht ha hm h1 h2]
    exact .inr ⟨_, rfl, rfl, rfl, rfl⟩

/-- **C76_partial** If no public client is registered, the endpoint tells something only to a
client that presents an assertion signed with a registered key. What is missing are the
public clients. -/
theorem C76_partial (S : Server) (r : Http.Req) (tr : List Ev) (st : Nat) (b : Option ActiveBody)
    (hnil : ∀ id, ⟨.clientsGet id, .ok none⟩ ∉ tr)
    (hpub : ∀ id c, ⟨.clientsGet id, .ok (some c)⟩ ∈ tr → c.clientType ≠ .pub)
    (hx : Exec (Http.serve S .introspect r) tr (.done ⟨st, .introspection b⟩)) :
    ∃ a t id c keys k, (r.post g!"client_assertion" = some a ∨ ∃ pop, r.post g!"client_assertion" = some (a ++ g!"~" ++ pop)) ∧
      S.P.parse a = some t ∧ ⟨.clientsGet id, .ok (some c)⟩ ∈ tr ∧ S.P.jwks c.jwks = some keys ∧ k ∈ keys ∧
      t.verifies k = true := by
  obtain ⟨-, ⟨c, hf⟩, -⟩ := C32_endpoint S r tr st b hnil hx
  cases hf with
  | named id _ _ hreg hp => exact absurd hp (hpub id c hreg)
  | key a t cl n keys k _ ha hp _ _ _ _ hreg hks hk _ hv => exact ⟨a, t, _, c, keys, k, .inl ha, hp, hreg, hks, hk, hv⟩
  | attested att pop t1 t2 c1 c2 at_ keys k key _ ha hp1 _ _ hatt hks hk hv1 =>
    exact ⟨att, t1, _, at_, keys, k, .inr ⟨pop, ha⟩, hp1, hatt, hks, hk, hv1⟩

end

/-! ### An instance -/

def ccOptions : Options where
  clientId := g!"batch"
  jwk := g!"{private key}"

/-- A token that verifies under the key `public`. -/
def jwsBy (kid typ : Str) (jwk : Option Jwk) (payload : Str) : Jws :=
  { kid := kid, typ := some typ, jwk := jwk, payload := payload, verifies := fun k => k.key == g!"public" }

def ccLib : Lib PrivClaims where
  sign ty kid e k c := if ty = g!"JWT" ∧ kid = g!"k1" ∧ e = false ∧ k = { kid := g!"k1", key := g!"private" } ∧
    c = assertionClaims ccOptions g!"https://as" g!"1" 930 900 then some g!"assertion" else none
  parse s := if s = g!"assertion" then some (jwsBy g!"k1" g!"JWT" none s) else none
  dec s := if s = g!"assertion" then some (assertionClaims ccOptions g!"https://as" g!"1" 930 900) else none
  pub k := { k with key := g!"public" }

theorem ccLib_lawful : ccLib.Lawful (fun _ => True) where
  nonempty := by
    intro ty kid e k c raw h
    simp only [ccLib] at h
    split at h
    · cases h; simp
    · cases h
  signed := by
    intro ty kid e k c raw _ h
    simp only [ccLib] at h
    split at h
    · rename_i hc
      obtain ⟨rfl, rfl, rfl, rfl, rfl⟩ := hc
      cases h
      exact ⟨_, rfl, rfl, rfl, rfl, rfl, by simp⟩
    · cases h

def ccServer : Server :=
  { Demo.server with P := { Demo.server.P with
      parse := ccLib.parse, privClaims := ccLib.dec,
      jwks := fun s => if s = g!"keys" then some [{ kid := g!"k1", key := g!"public" }] else none } }

/-- A token of another client. -/
def ccToken : Token :=
  { tokenId := g!"t", status := .active, value := g!"tok",
    metadata := some { issuer := g!"https://as", subject := g!"alice", clientId := g!"app", issuedAt := 800, notBefore := 800,
                       expiresAt := 2000, scope := g!"openid", audience := [] } }

/-- A confidential client whose tokens are bound or not, and a public client. -/
def ccWorld (bound : Bool) : World where
  clients id := if id = g!"batch" then
      some { clientId := g!"batch", clientType := .confidential, jwks := g!"keys", grantTypes := [g!"client_credentials"],
             dpopBoundAccessTokens := bound }
    else if id = g!"cli" then some { clientId := g!"cli", clientType := .pub } else none
  tokens _ v := if v = g!"tok" then some ccToken else none
  first := 905
  last := 920

def ccAnswers (bound : Bool) (c : Cmd) : c.Res :=
  match c with
  | .now => 910 * 10 ^ 9
  | .clientsGet id => match (ccWorld bound).clients id with
    | some c => .ok (some c)
    | none => .error .notFound
  | .tkGetVal i v => match (ccWorld bound).tokens i v with
    | some c => .ok (some c)
    | none => .error .notFound
  | .genAT _ => .ok g!"access"
  | .tkCreate _ _ => .ok ()
  | c => Demo.answers c

theorem ccAnswers_healthy (bound : Bool) (c : Cmd) : (ccWorld bound).Healthy ⟨c, ccAnswers bound c⟩ := by
  cases c <;> simp only [World.Healthy, ccAnswers]
  · exact ⟨by cases bound <;> decide, by cases bound <;> decide⟩
  · split <;> simp_all
  · split <;> simp_all
  · exact ⟨_, by decide, rfl⟩

theorem cc_prepared (bound : Bool) : Prepared ccServer (ccWorld bound) ccLib ccOptions { kid := g!"k1", key := g!"private" }
    g!"assertion" where
  ran := by
    refine ⟨fun s => if s = g!"{private key}" then some { kid := g!"k1", key := g!"private" } else none, g!"https://as",
      [⟨.jti, g!"1"⟩, ⟨.now, 900 * 10 ^ 9⟩, ⟨.now, 900 * 10 ^ 9⟩], rfl, by decide, ?_, ?_, ?_, _, ccLib_lawful,
      fun _ _ _ _ => trivial⟩
    · exact .step _ _ _ _ _ (.step _ _ _ _ _ (.step _ _ _ _ _ (.ret _)))
    · intro j h
      simp at h
      subst h
      decide
    · intro n h
      simp at h
      subst h
      cases bound <;> decide
  parse := rfl
  dec := rfl
  id := by decide

/-- The hypotheses of C73_gets_token_partial, C73_introspects and C73_violated are met. -/
example : (∀ bound, Prepared ccServer (ccWorld bound) ccLib ccOptions { kid := g!"k1", key := g!"private" } g!"assertion") ∧
    (∀ bound, ∃ cl, HasKey (ccWorld bound) ccServer.P.jwks g!"batch" cl (ccLib.pub { kid := g!"k1", key := g!"private" }) ∧
      cl.dpopBoundAccessTokens = bound ∧ cl.clientType = .confidential ∧ MemFold g!"client_credentials" cl.grantTypes) ∧
    (∃ tr resp, Exec (Http.serve ccServer .token (credentialsReq g!"assertion" {})) tr (.done resp) ∧
      (∀ ev ∈ tr, (ccWorld false).Healthy ev) ∧ readToken resp = some ⟨g!"access", g!"Bearer", [], none⟩) ∧
    (∃ tr resp, Exec (Http.serve ccServer .token (credentialsReq g!"assertion" {})) tr (.done resp) ∧
      (∀ ev ∈ tr, (ccWorld true).Healthy ev) ∧ resp = ⟨400, .error .invalidRequest⟩) ∧
    ∃ tr resp, Exec (Http.serve ccServer .introspect (introspectReq g!"assertion" g!"tok" {})) tr (.done resp) ∧
      (∀ ev ∈ tr, (ccWorld false).Healthy ev) ∧ ∃ b, resp = ⟨200, .introspection (some b)⟩ := by
  refine ⟨cc_prepared, fun bound => ⟨_, ⟨rfl, rfl, by simp, ⟨_, rfl, by simp [ccLib]⟩, by simp [ccLib]⟩, rfl, rfl,
    (contains_iff _ _).1 (by cases bound <;> decide)⟩, ?_, ?_, ?_⟩
  · exact oracle_run (ccAnswers false) _ (ccWorld false).Healthy
      (fun _ resp => readToken resp = some ⟨g!"access", g!"Bearer", [], none⟩) (ccAnswers_healthy _) (by decide +kernel)
  · exact oracle_run (ccAnswers true) _ (ccWorld true).Healthy
      (fun _ (resp : Http.Resp) => resp = ⟨400, .error .invalidRequest⟩) (ccAnswers_healthy _) (by decide +kernel)
  · obtain ⟨tr, resp, h1, h2, h3⟩ := oracle_run (ccAnswers false)
      (Http.serve ccServer .introspect (introspectReq g!"assertion" g!"tok" {})) (ccWorld false).Healthy
      (fun _ resp => resp = ⟨200, .introspection (some (activeBody ccToken (ccToken.metadata.getD {})))⟩)
      (ccAnswers_healthy _) (by decide +kernel)
    exact ⟨tr, resp, h1, h2, _, h3⟩

/-- **C73_expiry_violated.** The client does not learn when its token expires: every token it reads from an answer is
valid to the library at all times, also one that the server announced to expire within an hour; with the expiry
set, the library would stop using the token ten seconds before. -/
theorem C73_expiry_violated :
    (∀ (resp : Http.Resp) (tk : OToken), readToken resp = some tk → tk.accessToken ≠ [] → ∀ now, tk.valid now = true) ∧
    ∃ tr b tk, Exec (Http.serve ccServer .token (credentialsReq g!"assertion" {})) tr (.done ⟨200, .tokens b⟩) ∧
      (∀ ev ∈ tr, (ccWorld false).Healthy ev) ∧ b.expiresIn = 3600 ∧ readToken ⟨200, .tokens b⟩ = some tk ∧
      tk.accessToken = g!"access" ∧
      ∀ now, ({ tk with expiry := some (3600 * 1000000000) } : OToken).valid now = true ↔ now ≤ 3590 * 1000000000 := by
  constructor
  · intro resp tk h hne now
    have he : tk.expiry = none := by
      unfold readToken at h
      split at h
      · cases h
      · split at h <;> cases h <;> rfl
    simp [OToken.valid, he, hne]
  · obtain ⟨tr, resp, h1, h2, h3⟩ := oracle_run (ccAnswers false)
      (Http.serve ccServer .token (credentialsReq g!"assertion" {})) (ccWorld false).Healthy
      (fun _ resp => resp = ⟨200, .tokens ⟨g!"access", 3600, g!"Bearer", [], []⟩⟩) (ccAnswers_healthy _) (by decide +kernel)
    refine ⟨tr, ⟨g!"access", 3600, g!"Bearer", [], []⟩, _, h3 ▸ h1, h2, rfl, rfl, rfl, fun now => ?_⟩
    simp [OToken.valid]

/-- The hypotheses of C76_violated are met, for a token of another client. -/
example : ∃ tr, Exec (Http.serve ccServer .introspect (nakedReq g!"cli" g!"tok" {})) tr
      (.done ⟨200, .introspection (some (activeBody ccToken (ccToken.metadata.getD {})))⟩) ∧
    ∀ ev ∈ tr, (ccWorld false).Healthy ev := by
  obtain ⟨tr, resp, h1, h2, h3⟩ := oracle_run (ccAnswers false)
    (Http.serve ccServer .introspect (nakedReq g!"cli" g!"tok" {})) (ccWorld false).Healthy
    (fun _ resp => resp = ⟨200, .introspection (some (activeBody ccToken (ccToken.metadata.getD {})))⟩)
    (ccAnswers_healthy _) (by decide +kernel)
  exact ⟨tr, h3 ▸ h1, h2⟩

/-- The hypotheses of C76_partial are met. -/
example : ∃ tr b, Exec (Http.serve ccServer .introspect (introspectReq g!"assertion" g!"tok" {})) tr
      (.done ⟨200, .introspection b⟩) ∧ (∀ id, ⟨.clientsGet id, .ok none⟩ ∉ tr) ∧
    ∀ id c, ⟨.clientsGet id, .ok (some c)⟩ ∈ tr → c.clientType ≠ .pub := by
  obtain ⟨tr, resp, h1, h2, h3, h4⟩ := oracle_run (ccAnswers false)
    (Http.serve ccServer .introspect (introspectReq g!"assertion" g!"tok" {})) (ccWorld false).Healthy
    (fun tr resp => resp = ⟨200, .introspection (some (activeBody ccToken (ccToken.metadata.getD {})))⟩ ∧
      ∀ ev ∈ tr, ev.1 ≠ .clientsGet g!"cli") (ccAnswers_healthy _) (by decide +kernel)
  refine ⟨tr, _, h3 ▸ h1, World.Healthy.not_nil h2, fun id c hm => ?_⟩
  have e := h2 _ hm
  have hne : id ≠ g!"cli" := fun h => h4 _ hm (by rw [h])
  simp only [World.Healthy, ccWorld] at e
  by_cases hb : id = g!"batch"
  · simp only [hb, if_true] at e
    cases e
    simp
  · simp only [hb, hne, if_false] at e
    cases e

end Verif.Props
