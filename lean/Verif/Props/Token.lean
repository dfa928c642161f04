import Verif.Proofs.TokenFacts
import Verif.Proofs.NoPanic
import Verif.Proofs.Device
import Verif.Proofs.Authorization
import Verif.Proofs.Demo

/-!
Properties of the token endpoint that hold for every behaviour of the stores,
the generators and the clock (any answer to any call).
-/
namespace Verif.Props
open Verif.Spec Verif.Prog Verif.TokenSvc

/-- **C19.** Tokens are returned only to a client that the store knows and whose
stored registration lists the grant type in use. -/
theorem C19_grant_registered (E : Env) (req : Option TokenReq) (tr : List Ev) (a : TokenResp)
    (h : Exec (token E req) tr (.done a)) (ht : ReturnsToken a) :
    ∃ q c cl, req = some q ∧ q.client = some c ∧ ⟨.clientsGet c.clientId, .ok (some cl)⟩ ∈ tr ∧
      MemFold q.grantType cl.grantTypes := by
  rcases token_exec h with ⟨hr, _⟩ | ⟨q, c, cl, evs, h1, h2, h3, hs⟩
  · exact absurd ht (refused_no_token hr)
  · refine ⟨q, c, cl, h1, h2, by simp [h3], ?_⟩
    cases hs with
    | code g sess ar mint hg ht h => rw [ht]; exact h.grant
    | cc at_ hg ht h => rw [ht]; exact h.grant
    | device dc ref session dreq subject now mint hg ht h => rw [ht]; exact h.grant
    | refresh v rt md now mint hg ht h => rw [ht]; exact h.grant
    | exchange g st md now now2 jti v aud t look hg ht h => rw [ht]; exact h.grant

/-- **C20.** A client_credentials request obtains tokens only for confidential or
credentialed clients: exactly one access token, with empty subject and the
client's own id, and no refresh token is returned or stored. -/
theorem C20_client_credentials (E : Env) (q : TokenReq) (tr : List Ev) (a : TokenResp)
    (hg : q.grantType = g!"client_credentials")
    (h : Exec (token E (some q)) tr (.done a)) (ht : ReturnsToken a) :
    ∃ c cl t, q.client = some c ∧ ⟨.clientsGet c.clientId, .ok (some cl)⟩ ∈ tr ∧
      (cl.clientType = .confidential ∨ cl.clientType = .credentialed) ∧
      a.accessToken = some t ∧ a.refreshToken = none ∧ t.tokenType = .accessToken ∧
      Carries t q.issuer [] cl.clientId (q.scope.getD []) (q.audience.getD []) q.tokenConfirmation ∧
      (∀ i t' r, ⟨.tkCreate i t', r⟩ ∈ tr → t' = t) := by
  rcases token_exec h with ⟨hr, _⟩ | ⟨q', c, cl, evs, h1, h2, h3, hs⟩
  · exact absurd ht (refused_no_token hr)
  · simp at h1; subst h1
    cases hs with
    | cc at_ hg' ht' h =>
      obtain ⟨f1, f2, f3, f4⟩ := mintAT_facts h.mint
      refine ⟨c, cl, at_, h2, by simp [h3], h.type, by rw [h.answer], by rw [h.answer], f3, f4, ?_⟩
      intro i t' r hm
      obtain ⟨now, jti, v, _, _, e⟩ := h.mint
      rw [h3, e] at hm
      simp at hm
      exact hm.1.2
    | code g sess ar mint hg' ht' h => rw [hg] at ht'; exact absurd ht' (by decide)
    | device dc ref session dreq subject now mint hg' ht' h => rw [hg] at ht'; exact absurd ht' (by decide)
    | refresh v rt md now mint hg' ht' h => rw [hg] at ht'; exact absurd ht' (by decide)
    | exchange g st md now now2 jti v aud t look hg' ht' h => rw [hg] at ht'; exact absurd ht' (by decide)

/-- **C22.** Every token returned was stored first: before the answer the store
acknowledged the creation of exactly this token (same value, non-empty), under
the issuer of the request, or, for a refresh, the issuer recorded in the
presented refresh token. -/
theorem C22_stored_before_returned (E : Env) (req : Option TokenReq) (tr : List Ev) (a : TokenResp)
    (h : Exec (token E req) tr (.done a)) (t : Token) (ht : Returns a t) :
    t.value ≠ [] ∧ ∃ q i, req = some q ∧ ⟨.tkCreate i t, .ok ()⟩ ∈ tr ∧
      (i = q.issuer ∨ ∃ v rt md, q.grant = some (.refreshToken v) ∧
        ⟨.tkGetVal q.issuer v, .ok (some rt)⟩ ∈ tr ∧ rt.metadata = some md ∧ i = md.issuer) := by
  rcases token_exec h with ⟨hr, _⟩ | ⟨q, c, cl, evs, h1, h2, h3, hs⟩
  · exact absurd (returnsToken_iff.2 ⟨t, ht⟩) (refused_no_token hr)
  · cases hs with
    | code g sess ar mint hg _ h =>
      obtain ⟨f1, f2, _⟩ := (codeTokens_facts h.tokens).2.2.2.2.2.2.2 t ht
      exact ⟨f1, q, q.issuer, h1, by simp [h3, h.trace, f2], Or.inl rfl⟩
    | cc at_ hg _ h =>
      rw [h.answer] at ht
      rcases ht with ht | ht <;> simp at ht
      subst ht
      obtain ⟨f1, f2, f3, f4⟩ := mintAT_facts h.mint
      exact ⟨f1, q, q.issuer, h1, by simp [h3]; exact f2, Or.inl rfl⟩
    | device dc ref session dreq subject now mint hg _ h =>
      obtain ⟨f1, f2, _⟩ := (deviceTokens_facts h.tokens).2.2.2.2.2 t ht
      exact ⟨f1, q, q.issuer, h1, by simp [h3, h.trace, f2], Or.inl rfl⟩
    | refresh v rt md now mint hg _ h =>
      obtain ⟨f1, f2, _⟩ := (refreshTokens_facts h.tokens).2.2.2.2.2.2.2 t ht
      exact ⟨f1, q, md.issuer, h1, by simp [h3, h.trace, f2],
        Or.inr ⟨v, rt, md, hg, by simp [h3, h.trace], h.metadata, rfl⟩⟩
    | exchange g st md now now2 jti v aud t' look hg _ h =>
      obtain ⟨_, _, _, g1, g2, g3, g4, _⟩ := exchange_facts h
      rcases ht with ht | ht
      · rw [g1] at ht; simp at ht; subst ht
        exact ⟨g3, q, q.issuer, h1, by simp [h3, g4], Or.inl rfl⟩
      · rw [g2] at ht; simp at ht

/-- **C23.** Fail closed: if any storage or generator call of the request reports
an error, the endpoint reports an error and returns no token at all. -/
theorem C23_fail_closed (E : Env) (req : Option TokenReq) (tr : List Ev) (a : TokenResp)
    (h : Exec (token E req) tr (.done a)) (ev : Ev) (hev : ev ∈ tr) (hf : Failed ev) :
    a.goErr = true ∧ a.accessToken = none ∧ a.refreshToken = none := by
  rcases token_exec h with ⟨hr, _⟩ | ⟨q, c, cl, evs, h1, h2, h3, hs⟩
  · exact hr
  · rw [h3] at hev
    rcases List.mem_cons.1 hev with rfl | hev
    · simp [Failed] at hf
    · exact absurd hf ((success_clean hs).2.2 ev hev)

/-- A correct redemption of the code of the examples. -/
def demoCode : TokenReq :=
  { issuer := Demo.issuer, client := some Demo.client, grantType := g!"authorization_code"
    grant := some (.authorizationCode ⟨g!"c0de", g!"https://app/cb", Demo.verifier⟩) }

/-- The access token this redemption mints. -/
def demoAccessToken : Token :=
  let md : TokenMeta := {
    issuer := Demo.issuer, subject := g!"alice", audience := g!"api"
    scope := g!"openid offline_access profile" }
  accessTokenSpec Demo.client md none (100 * second) g!"jti"

/-- **C23** (remark of the property). A failing refresh-token creation in the code
grant leaves a stored access token that was never returned. -/
theorem C23_orphan_access_token : ∃ (E : Env) (req : Option TokenReq) (tr : List Ev) (a : TokenResp) (i : Str) (t : Token),
    Exec (token E req) tr (.done a) ∧ a.goErr = true ∧ ¬ ReturnsToken a ∧ ⟨.tkCreate i t, .ok ()⟩ ∈ tr := by
  refine ⟨Demo.env, some demoCode, _, fail .serverError, Demo.issuer,
    { demoAccessToken with value := g!"at" },
    oracle_done (fun | .genRT _ => .error .other | c => Demo.answers c) _ _ (by decide), rfl, by decide, ?_⟩
  iterate 6 refine List.mem_cons_of_mem _ ?_
  exact List.mem_cons_self ..

/-- **C24.** A refresh request obtains tokens only if the presented value designates
a token that the store reports as an active refresh token, unexpired at the
time read afterwards, and owned by the authenticated client. -/
theorem C24_refresh_owner (E : Env) (q : TokenReq) (v : Str) (tr : List Ev) (a : TokenResp)
    (hg : q.grant = some (.refreshToken v))
    (h : Exec (token E (some q)) tr (.done a)) (ht : ReturnsToken a) :
    ∃ c cl rt md now, q.client = some c ∧ ⟨.clientsGet c.clientId, .ok (some cl)⟩ ∈ tr ∧
      ⟨.tkGetVal q.issuer v, .ok (some rt)⟩ ∈ tr ∧ ⟨.now, now⟩ ∈ tr ∧
      rt.tokenType = .refreshToken ∧ rt.status = .active ∧ rt.metadata = some md ∧
      seconds now ≤ md.expiresAt ∧ md.clientId = cl.clientId := by
  rcases token_exec h with ⟨hr, _⟩ | ⟨q', c, cl, evs, h1, h2, h3, hs⟩
  · exact absurd ht (refused_no_token hr)
  · simp at h1; subst h1
    cases hs with
    | refresh v' rt md now mint hg' ht' h =>
      rw [hg] at hg'; simp at hg'; subst hg'
      exact ⟨c, cl, rt, md, now, h2, by simp [h3], by simp [h3, h.trace], by simp [h3, h.trace], h.type,
        h.status, h.metadata, h.unexpired, h.owner⟩
    | code g sess ar mint hg' ht' h => rw [hg] at hg'; simp at hg'
    | cc at_ hg' ht' h => rw [hg] at hg'; simp at hg'
    | device dc ref session dreq subject now mint hg' ht' h => rw [hg] at hg'; simp at hg'
    | exchange g st md now now2 jti v aud t look hg' ht' h => rw [hg] at hg'; simp at hg'

/-- **C25** (one step, any store). Tokens obtained by a refresh carry the issuer,
subject, client, scope, audience and key of the presented refresh token. -/
theorem C25_refresh_step (E : Env) (q : TokenReq) (v : Str) (tr : List Ev) (a : TokenResp)
    (hg : q.grant = some (.refreshToken v))
    (h : Exec (token E (some q)) tr (.done a)) (t : Token) (ht : Returns a t) :
    ∃ rt md, ⟨.tkGetVal q.issuer v, .ok (some rt)⟩ ∈ tr ∧ rt.metadata = some md ∧
      Carries t md.issuer md.subject md.clientId md.scope md.audience rt.confirmation := by
  rcases token_exec h with ⟨hr, _⟩ | ⟨q', c, cl, evs, h1, h2, h3, hs⟩
  · exact absurd (returnsToken_iff.2 ⟨t, ht⟩) (refused_no_token hr)
  · simp at h1; subst h1
    cases hs with
    | refresh v' rt md now mint hg' ht' h =>
      rw [hg] at hg'; simp at hg'; subst hg'
      obtain ⟨f1, f2, f3⟩ := (refreshTokens_facts h.tokens).2.2.2.2.2.2.2 t ht
      rw [← h.owner] at f3
      exact ⟨rt, md, by simp [h3, h.trace], h.metadata, f3⟩
    | code g sess ar mint hg' ht' h => rw [hg] at hg'; simp at hg'
    | cc at_ hg' ht' h => rw [hg] at hg'; simp at hg'
    | device dc ref session dreq subject now mint hg' ht' h => rw [hg] at hg'; simp at hg'
    | exchange g st md now now2 jti v aud t look hg' ht' h => rw [hg] at hg'; simp at hg'

/-- **C26** (one step, any store). A refresh answer contains a new refresh token
exactly when the new access token outlives the presented refresh token, and then
the store has acknowledged the revocation of the presented one. -/
theorem C26_rotation_step (E : Env) (q : TokenReq) (v : Str) (tr : List Ev) (a : TokenResp)
    (hg : q.grant = some (.refreshToken v))
    (h : Exec (token E (some q)) tr (.done a)) (ht : ReturnsToken a) :
    ∃ rt md at_, ⟨.tkGetVal q.issuer v, .ok (some rt)⟩ ∈ tr ∧ rt.metadata = some md ∧ a.accessToken = some at_ ∧
      (a.refreshToken.isSome = true ↔ ∃ mda, at_.metadata = some mda ∧ md.expiresAt < mda.expiresAt) ∧
      (a.refreshToken.isSome = true → ⟨.tkRevoke q.issuer rt.tokenId, .ok ()⟩ ∈ tr) := by
  rcases token_exec h with ⟨hr, _⟩ | ⟨q', c, cl, evs, h1, h2, h3, hs⟩
  · exact absurd ht (refused_no_token hr)
  · simp at h1; subst h1
    cases hs with
    | refresh v' rt md now mint hg' ht' h =>
      rw [hg] at hg'; simp at hg'; subst hg'
      obtain ⟨_, _, _, ⟨at_, f1, f2⟩, f3, _⟩ := refreshTokens_facts h.tokens
      exact ⟨rt, md, at_, by simp [h3, h.trace], h.metadata, f1, f2, fun hh => by simp [h3, h.trace, f3 hh]⟩
    | code g sess ar mint hg' ht' h => rw [hg] at hg'; simp at hg'
    | cc at_ hg' ht' h => rw [hg] at hg'; simp at hg'
    | device dc ref session dreq subject now mint hg' ht' h => rw [hg] at hg'; simp at hg'
    | exchange g st md now now2 jti v aud t look hg' ht' h => rw [hg] at hg'; simp at hg'

/-- **C29.** An exchanged token carries the subject, issuer and key of the subject
token, which the store reported as an active, unexpired access token; it belongs
to the requesting client and expires 60 seconds after its issuance. -/
theorem C29_exchange (E : Env) (q : TokenReq) (g : GrantExchange) (tr : List Ev) (a : TokenResp)
    (hg : q.grant = some (.tokenExchange g))
    (h : Exec (token E (some q)) tr (.done a)) (ht : ReturnsToken a) :
    ∃ c cl st md now t aud scope iat, q.client = some c ∧ ⟨.clientsGet c.clientId, .ok (some cl)⟩ ∈ tr ∧
      ⟨.tkGetVal q.issuer g.subjectToken, .ok (some st)⟩ ∈ tr ∧ ⟨.now, now⟩ ∈ tr ∧ ⟨.now, iat⟩ ∈ tr ∧
      st.status = .active ∧ st.tokenType = .accessToken ∧ st.metadata = some md ∧ seconds now ≤ md.expiresAt ∧
      a.accessToken = some t ∧ a.refreshToken = none ∧ t.tokenType = .accessToken ∧
      Carries t md.issuer md.subject cl.clientId scope aud st.confirmation ∧
      (t.metadata.map (·.issuedAt)) = some (seconds iat) ∧
      (t.metadata.map (·.expiresAt)) = some (seconds iat + 60) := by
  rcases token_exec h with ⟨hr, _⟩ | ⟨q', c, cl, evs, h1, h2, h3, hs⟩
  · exact absurd ht (refused_no_token hr)
  · simp at h1; subst h1
    cases hs with
    | exchange g' st md now now2 jti v aud t look hg' ht' h =>
      rw [hg] at hg'; simp at hg'; subst hg'
      obtain ⟨_, _, _, g1, g2, g3, g4, g5, g6⟩ := exchange_facts h
      refine ⟨c, cl, st, md, now, t, aud, _, now2, h2, by simp [h3], by simp [h3, h.trace], by simp [h3, h.trace],
        by simp [h3, h.trace], h.status, h.type, h.metadata, h.unexpired, g1, g2, g5, g6, ?_, ?_⟩
      · rw [h.token]; rfl
      · rw [h.token]; simp [exchangedSpec, Device.unix, seconds]; omega
    | refresh v' rt md now mint hg' ht' h => rw [hg] at hg'; simp at hg'
    | code g sess ar mint hg' ht' h => rw [hg] at hg'; simp at hg'
    | cc at_ hg' ht' h => rw [hg] at hg'; simp at hg'
    | device dc ref session dreq subject now mint hg' ht' h => rw [hg] at hg'; simp at hg'

/-- **C30** (what holds). The scope of the exchanged token is the requested scope,
or the subject token's scope when none is requested: only in the second case is
it known not to be wider. -/
theorem C30_exchange_scope_partial (E : Env) (q : TokenReq) (g : GrantExchange) (tr : List Ev) (a : TokenResp)
    (hg : q.grant = some (.tokenExchange g)) (hsc : q.scope = none)
    (h : Exec (token E (some q)) tr (.done a)) (t : Token) (ht : Returns a t) :
    ∃ st md mdt, ⟨.tkGetVal q.issuer g.subjectToken, .ok (some st)⟩ ∈ tr ∧ st.metadata = some md ∧
      t.metadata = some mdt ∧ ∀ w, IsWord w mdt.scope → IsWord w md.scope := by
  rcases token_exec h with ⟨hr, _⟩ | ⟨q', c, cl, evs, h1, h2, h3, hs⟩
  · exact absurd (returnsToken_iff.2 ⟨t, ht⟩) (refused_no_token hr)
  · simp at h1; subst h1
    cases hs with
    | exchange g' st md now now2 jti v aud t' look hg' ht' h =>
      rw [hg] at hg'; simp at hg'; subst hg'
      obtain ⟨_, _, _, g1, g2, g3, g4, g5, ⟨mdt, g6, _, _, _, g7, _⟩, _⟩ := exchange_facts h
      have : t = t' := by
        rcases ht with ht | ht
        · rw [g1] at ht; simpa using ht.symm
        · rw [g2] at ht; simp at ht
      subst this
      refine ⟨st, md, mdt, by simp [h3, h.trace], h.metadata, g6, ?_⟩
      rw [hsc] at g7; simp at g7; rw [g7]; exact fun _ h => h
    | refresh v' rt md now mint hg' ht' h => rw [hg] at hg'; simp at hg'
    | code g sess ar mint hg' ht' h => rw [hg] at hg'; simp at hg'
    | cc at_ hg' ht' h => rw [hg] at hg'; simp at hg'
    | device dc ref session dreq subject now mint hg' ht' h => rw [hg] at hg'; simp at hg'

/-- A token exchange request for `admin` on the token of the examples. -/
def demoExchange : TokenReq :=
  { issuer := Demo.issuer, client := some Demo.client2
    grantType := g!"urn:ietf:params:oauth:grant-type:token-exchange", scope := some g!"admin"
    grant := some (.tokenExchange ⟨g!"at0", g!"urn:ietf:params:oauth:token-type:access_token"⟩) }

/-- **C30 is violated**: an exchange widens `openid profile` to `admin`. -/
theorem C30_scope_widening : ∃ (E : Env) (q : TokenReq) (g : GrantExchange) (tr : List Ev) (a : TokenResp),
    q.grant = some (.tokenExchange g) ∧ Exec (token E (some q)) tr (.done a) ∧
    ∃ t st mdt md, Returns a t ∧ ⟨.tkGetVal q.issuer g.subjectToken, .ok (some st)⟩ ∈ tr ∧
      t.metadata = some mdt ∧ st.metadata = some md ∧
      IsWord g!"admin" mdt.scope ∧ ¬ IsWord g!"admin" md.scope := by
  obtain ⟨a, ha⟩ : ∃ a, ((token Demo.env (some demoExchange)).oracle Demo.answers).2.get? = some a ∧
      (a.accessToken.bind (·.metadata)).map (·.scope) = some g!"admin" := by
    refine ⟨_, rfl, by decide⟩
  obtain ⟨ha, hs⟩ := ha
  cases ht : a.accessToken with
  | none => rw [ht] at hs; simp at hs
  | some t =>
    rw [ht] at hs
    cases hm : t.metadata with
    | none => simp [hm] at hs
    | some mdt =>
      simp [hm] at hs
      refine ⟨Demo.env, demoExchange, _, _, a, rfl, oracle_done Demo.answers _ a ha, t, _, mdt, _, Or.inl ht,
        List.mem_cons_of_mem _ (List.mem_cons_self ..), hm, rfl, ?_, ?_⟩
      · rw [hs, ← mem_fields]; decide
      · rw [← mem_fields]; decide


/-- **C31** (what holds). An exchange that names an audience returns a token only
if the resource store resolved it, and the token is for the resource found. When
the resource store never fails with anything but "not found" the exchange does
not crash. (Missing: an OAuth error for unknown audiences, and no crash on other
failures; both are refuted below.) -/
theorem C31_exchange_audience_partial (E : Env) (q : TokenReq) (g : GrantExchange) (u : Str) (tr : List Ev)
    (hg : q.grant = some (.tokenExchange g)) (ha : q.audience = some u) :
    (∀ a t, Exec (token E (some q)) tr (.done a) → Returns a t →
      ∃ res md, ⟨.resourcesGet u, .ok (some res)⟩ ∈ tr ∧ t.metadata = some md ∧ md.audience = res.urn) ∧
    ((∀ ev ∈ tr, StoreContract ev ∧ ResourceContract ev) → ¬ Exec (token E (some q)) tr .panicked) := by
  constructor
  · intro a t h ht
    rcases token_exec h with ⟨hr, _⟩ | ⟨q', c, cl, evs, h1, h2, h3, hs⟩
    · exact absurd (returnsToken_iff.2 ⟨t, ht⟩) (refused_no_token hr)
    · simp at h1; subst h1
      cases hs with
      | exchange g' st md now now2 jti v aud t' look hg' ht' h =>
        obtain ⟨_, _, _, g1, g2, g3, g4, g5, ⟨mdt, g6, _, _, _, _, g7⟩, _⟩ := exchange_facts h
        have : t = t' := by
          rcases ht with ht | ht
          · rw [g1] at ht; simpa using ht.symm
          · rw [g2] at ht; simp at ht
        subst this
        rcases h.audience with ⟨e, _⟩ | ⟨u', res, e1, e2, e3⟩
        · rw [ha] at e; simp at e
        · rw [ha] at e1; simp at e1; subst e1
          exact ⟨res, mdt, by simp [h3, h.trace, e2], g6, by rw [g7, e3]⟩
      | refresh v' rt md now mint hg' ht' h => rw [hg] at hg'; simp at hg'
      | code g sess ar mint hg' ht' h => rw [hg] at hg'; simp at hg'
      | cc at_ hg' ht' h => rw [hg] at hg'; simp at hg'
      | device dc ref session dreq subject now mint hg' ht' h => rw [hg] at hg'; simp at hg'
  · intro hw
    exact noPanic_sound (noPanic_token (W := fun ev => StoreContract ev ∧ ResourceContract ev)
      (fun _ h => h.1) E (some q) (Or.inr fun _ h => h.2)) hw

/-- **C31 is violated**: an audience that the resource store does not know is
answered with a Go error without OAuth error. -/
theorem C31_unknown_audience_no_oauth_error : ∃ (E : Env) (q : TokenReq) (g : GrantExchange) (u : Str) (tr : List Ev)
    (a : TokenResp), q.grant = some (.tokenExchange g) ∧ q.audience = some u ∧
    Exec (token E (some q)) tr (.done a) ∧ ⟨.resourcesGet u, .error .notFound⟩ ∈ tr ∧
    a.goErr = true ∧ a.error = none := by
  refine ⟨Demo.env, { demoExchange with audience := some g!"nowhere" }, _, g!"nowhere", _, bareFail, rfl, rfl,
    oracle_done (fun | .resourcesGet _ => .error .notFound | c => Demo.answers c) _ _ (by decide), ?_, rfl, rfl⟩
  iterate 5 refine List.mem_cons_of_mem _ ?_
  exact List.mem_cons_self ..

/-- **C31 and C55 are violated**: if the resource store fails otherwise, the
exchange crashes although every store honours its contract. -/
theorem C31_audience_failure_crashes : ∃ (E : Env) (q : TokenReq) (g : GrantExchange) (u : Str) (tr : List Ev),
    q.grant = some (.tokenExchange g) ∧ q.audience = some u ∧ (∀ ev ∈ tr, StoreContract ev) ∧
    Exec (token E (some q)) tr .panicked := by
  refine ⟨Demo.env, { demoExchange with audience := some g!"nowhere" }, _, g!"nowhere", _, rfl, rfl, ?_,
    oracle_exec (fun | .resourcesGet _ => .error .other | c => Demo.answers c) _⟩
  refine oracle_all _ ?_ _
  intro c
  cases c <;> simp [StoreContract, Demo.answers]

/-- **C55.** No request to any endpoint (authorize, push, device authorization,
device approval, token, introspection, revocation, DPoP verification) crashes,
when lookups do not answer nil without error and, for token exchange with an
audience only, the resource store does not fail otherwise than by "not found". -/
theorem C55_no_crash_partial (E : Env) (r : Req) (tr : List Ev)
    (hw : ∀ ev ∈ tr, StoreContract ev) (hr : ¬ r.NoAudience → ∀ ev ∈ tr, ResourceContract ev) :
    ¬ Exec (handle E r) tr .panicked := by
  by_cases hn : r.NoAudience
  · exact noPanic_sound (noPanic_handle (W := StoreContract) (fun _ h => h) E r (Or.inl hn)) hw
  · exact noPanic_sound (noPanic_handle (W := fun ev => StoreContract ev ∧ ResourceContract ev)
      (fun _ h => h.1) E r (Or.inr fun _ h => h.2)) (fun ev hev => ⟨hw ev hev, hr hn ev hev⟩)

/-- **C34** (any store). Device tokens are issued only if the session that the store
reports for the device code was approved (validated, with an approving subject),
is unexpired at the time read afterwards and was started by the same client; the
tokens carry the approving subject and the session's scope. -/
theorem C34_device_tokens (E : Env) (q : TokenReq) (dc : Str) (tr : List Ev) (a : TokenResp)
    (hg : q.grant = some (.deviceCode dc))
    (h : Exec (token E (some q)) tr (.done a)) (ht : ReturnsToken a) :
    ∃ c cl ref s dreq sub now, q.client = some c ∧ ⟨.clientsGet c.clientId, .ok (some cl)⟩ ∈ tr ∧
      ⟨.dsGetDev q.issuer dc, .ok (some (ref, s))⟩ ∈ tr ∧ ⟨.now, now⟩ ∈ tr ∧
      s.request = some dreq ∧ dreq.clientId = cl.clientId ∧ seconds now ≤ s.expiresAt ∧
      s.status = .validated ∧ s.subject = some sub ∧
      (a.refreshToken.isSome = true ↔ HasWord g!"offline_access" (s.scope.getD [])) ∧
      ∀ t, Returns a t → Carries t q.issuer sub cl.clientId (s.scope.getD []) [] q.tokenConfirmation := by
  rcases token_exec h with ⟨hr, _⟩ | ⟨q', c, cl, evs, h1, h2, h3, hs⟩
  · exact absurd ht (refused_no_token hr)
  · simp at h1; subst h1
    cases hs with
    | device dc' ref session dreq subject now mint hg' ht' h =>
      rw [hg] at hg'; simp at hg'; subst hg'
      obtain ⟨_, _, _, _, f5, f6⟩ := deviceTokens_facts h.tokens
      exact ⟨c, cl, ref, session, dreq, subject, now, h2, by simp [h3], by simp [h3, h.trace], by simp [h3, h.trace],
        h.request, h.sameClient, h.unexpired, h.status, h.approvedBy, f5, fun t ht => (f6 t ht).2.2⟩
    | refresh v' rt md now mint hg' ht' h => rw [hg] at hg'; simp at hg'
    | code g sess ar mint hg' ht' h => rw [hg] at hg'; simp at hg'
    | cc at_ hg' ht' h => rw [hg] at hg'; simp at hg'
    | exchange g' st md now now2 jti v aud t' look hg' ht' h => rw [hg] at hg'; simp at hg'

/-- Everything a successful code redemption tells about the session found. -/
theorem code_success (E : Env) (q : TokenReq) (g : GrantCode) (tr : List Ev) (a : TokenResp)
    (hg : q.grant = some (.authorizationCode g))
    (h : Exec (token E (some q)) tr (.done a)) (hs : Succeeds a) :
    ∃ c cl evs s ar mint, q.client = some c ∧ tr = ⟨.clientsGet c.clientId, .ok (some cl)⟩ :: evs ∧
      CodeGrant E cl q g a evs s ar mint := by
  rcases token_exec h with ⟨hr, _⟩ | ⟨q', c, cl, evs, h1, h2, h3, hs⟩
  · rw [Succeeds, hr.1] at hs; simp at hs
  · simp at h1; subst h1
    cases hs with
    | code g' sess ar mint hg' ht' h =>
      rw [hg] at hg'; simp at hg'; subst hg'
      exact ⟨c, cl, evs, sess, ar, mint, h2, h3, h⟩
    | device dc' ref session dreq subject now mint hg' ht' h => rw [hg] at hg'; simp at hg'
    | refresh v' rt md now mint hg' ht' h => rw [hg] at hg'; simp at hg'
    | cc at_ hg' ht' h => rw [hg] at hg'; simp at hg'
    | exchange g' st md now now2 jti v aud t' look hg' ht' h => rw [hg] at hg'; simp at hg'

/-- **C13.** A successful code redemption returns an access token exactly when the
scope of the session found contains `openid`, and a refresh token exactly when it
contains both `openid` and `offline_access`. -/
theorem C13_tokens_iff_scope (E : Env) (q : TokenReq) (g : GrantCode) (tr : List Ev) (a : TokenResp)
    (hg : q.grant = some (.authorizationCode g))
    (h : Exec (token E (some q)) tr (.done a)) (hs : Succeeds a) :
    ∃ s ar, ⟨.csGet q.issuer g.code, .ok (some s)⟩ ∈ tr ∧ s.request = some ar ∧
      (a.accessToken.isSome = true ↔ HasWord g!"openid" ar.scope) ∧
      (a.refreshToken.isSome = true ↔ HasWord g!"openid" ar.scope ∧ HasWord g!"offline_access" ar.scope) := by
  obtain ⟨c, cl, evs, s, ar, mint, h1, h2, h3⟩ := code_success E q g tr a hg h hs
  have f := codeTokens_facts h3.tokens
  exact ⟨s, ar, by simp [h2, h3.trace], h3.request, f.2.2.2.1, f.2.2.2.2.1⟩

theorem succeeds_of_returns {E : Env} {req : Option TokenReq} {tr : List Ev} {a : TokenResp}
    (h : Exec (token E req) tr (.done a)) (ht : ReturnsToken a) : Succeeds a := by
  rcases token_exec h with ⟨hr, _⟩ | ⟨q', c, cl, evs, h1, h2, h3, hs⟩
  · exact absurd ht (refused_no_token hr)
  · exact (success_clean hs).1

/-- **C54.** An answer of the authorization, push, device authorization or token
endpoint that reports an OAuth error reports a Go error and carries no code, no
request URI, no device code and no token; and for the first three, as well as
device approval, every Go error comes with an OAuth error. -/
theorem C54_errors_carry_nothing (E : Env) (tr : List Ev) :
    (∀ req a, Exec (Authorization.authorize E req) tr (.done a) →
      (a.error.isSome = true ↔ a.goErr = true) ∧ (a.error.isSome = true → a.code = [])) ∧
    (∀ req a, Exec (Authorization.register E req) tr (.done a) →
      (a.error.isSome = true ↔ a.goErr = true) ∧ (a.error.isSome = true → a.requestUri = [])) ∧
    (∀ req a, Exec (Device.authorize req) tr (.done a) →
      (a.error.isSome = true ↔ a.goErr = true) ∧ (a.error.isSome = true → a.deviceCode = [] ∧ a.userCode = [])) ∧
    (∀ req a, Exec (Device.validate req) tr (.done a) → (a.error.isSome = true ↔ a.goErr = true)) ∧
    (∀ req a, Exec (token E req) tr (.done a) →
      (a.error.isSome = true → a.goErr = true) ∧ (a.goErr = true → a.accessToken = none ∧ a.refreshToken = none)) := by
  refine ⟨?_, ?_, ?_, ?_, ?_⟩
  · intro req a h
    have := done_sound (Authorization.authorize_done E req) h
    simp only [List.nil_append] at this
    rcases this with ⟨_, q, r, eff, cl, n, s, h1, _, hf, ha⟩ | ⟨hn, _⟩
    · rw [ha]; simp
    · simp only [Issued, not_or] at hn
      have h1 : a.error.isSome = true := Option.isSome_iff_ne_none.2 hn.2.1
      have h2 : a.goErr = true := by simpa using hn.2.2
      simp [h1, h2]; simpa using hn.1
  · intro req a h
    have := done_sound (Authorization.register_done E req) h
    simp only [List.nil_append] at this
    rcases this with ⟨_, q, cl0, r, eff, cl, n, _, _, _, _, _, _, _, _, _, _, _, ha⟩ | ⟨hn, _⟩
    · rw [ha]; simp
    · simp only [Pushed, not_or] at hn
      have h1 : a.error.isSome = true := Option.isSome_iff_ne_none.2 hn.2.1
      have h2 : a.goErr = true := by simpa using hn.2.2
      simp [h1, h2]; simpa using hn.1
  · intro req a h
    exact done_sound (deviceAuthorize_errors req) h
  · intro req a h
    exact done_sound (deviceValidate_errors req) h
  · intro req a h
    rcases token_exec h with ⟨hr, _⟩ | ⟨q', c, cl, evs, h1, h2, h3, hs⟩
    · exact ⟨fun _ => hr.1, fun _ => hr.2⟩
    · obtain ⟨f1, f2, _⟩ := success_clean hs
      simp [f1, f2]

/-- **C54** (token endpoint, what holds of the second half). Every Go error of the
token endpoint comes with an OAuth error, except for the token exchange grant. -/
theorem C54_token_error_reported_partial (E : Env) (req : Option TokenReq) (tr : List Ev) (a : TokenResp)
    (h : Exec (token E req) tr (.done a)) (he : a.goErr = true)
    (hx : ∀ q g, req = some q → q.grant ≠ some (.tokenExchange g)) :
    a.error.isSome = true := by
  rcases token_exec h with ⟨_, hr | ⟨q, g, h1, h2⟩⟩ | ⟨q', c, cl, evs, h1, h2, h3, hs⟩
  · exact hr
  · exact absurd h2 (hx q g h1)
  · rw [(success_clean hs).1] at he; simp at he

/-- **C54 is violated** by token exchange (see also
`C31_unknown_audience_no_oauth_error`): a store failure while keeping the
exchanged token is reported without OAuth error. -/
theorem C54_exchange_bare_error : ∃ (E : Env) (req : Option TokenReq) (tr : List Ev) (a : TokenResp),
    Exec (token E req) tr (.done a) ∧ a.goErr = true ∧ a.error = none := by
  obtain ⟨tr, a, h⟩ := oracle_ex (fun | .tkCreate .. => .error .other | c => Demo.answers c)
    (token Demo.env (some demoExchange)) (fun a => a.goErr = true ∧ a.error = none) (by decide)
  exact ⟨_, _, tr, a, h⟩

/-- **C54 is violated** by revocation: an unknown token gives a Go error without
OAuth error. -/
theorem C54_revoke_bare_error : ∃ (E : Env) (req : Option TokenRefReq) (tr : List Ev) (a : RevokeResp),
    Exec (revoke E req) tr (.done a) ∧ a.goErr = true ∧ a.error = none := by
  obtain ⟨tr, a, h⟩ := oracle_ex (fun | .tkGetVal .. => .error .notFound | c => Demo.answers c)
    (revoke Demo.env (some ⟨Demo.issuer, some Demo.client, g!"at0"⟩)) (fun a => a.goErr = true ∧ a.error = none) (by decide)
  exact ⟨_, _, tr, a, h⟩

/-! Non-vacuity: successful runs of every grant. -/

/-- code grant with access and refresh token (C13, C19, C22) -/
example : ∃ tr a, Exec (token Demo.env (some demoCode)) tr (.done a) ∧
    Succeeds a ∧ a.accessToken.isSome = true ∧ a.refreshToken.isSome = true :=
  oracle_ex Demo.answers _ (fun a : TokenResp => a.goErr = false ∧ _ ∧ _) (by decide)

/-- client credentials (C20) -/
example : ∃ tr a, Exec (token Demo.env (some {
      issuer := Demo.issuer, client := some Demo.client, grantType := g!"client_credentials"
      grant := some .clientCredentials })) tr (.done a) ∧ ReturnsToken a :=
  oracle_ex Demo.answers _ ReturnsToken (by decide)

/-- device code (C34) -/
example : ∃ tr a, Exec (token Demo.env (some {
      issuer := Demo.issuer, client := some Demo.client
      grantType := g!"urn:ietf:params:oauth:grant-type:device_code"
      grant := some (.deviceCode g!"dc") })) tr (.done a) ∧ ReturnsToken a :=
  oracle_ex Demo.answers _ ReturnsToken (by decide)

/-- A refresh request. -/
def demoRefresh : TokenReq :=
  { issuer := Demo.issuer, client := some Demo.client, grantType := g!"refresh_token"
    grant := some (.refreshToken g!"rt") }

/-- refresh without and with rotation (C24, C25, C26) -/
example : ∃ tr a, Exec (token Demo.env (some demoRefresh)) tr (.done a) ∧
    a.accessToken.isSome = true ∧ a.refreshToken.isSome = true :=
  oracle_ex Demo.answers _ (fun a => _ ∧ _) (by decide)

example : ∃ tr a, Exec (token Demo.env (some demoRefresh)) tr (.done a) ∧
    a.accessToken.isSome = true ∧ a.refreshToken.isSome = false :=
  oracle_ex (fun | .now => (10 * second : Nat) | c => Demo.answers c) _ (fun a => _ ∧ _) (by decide)

/-- exchange, with and without requested scope and audience (C29, C30, C31) -/
example : ∃ tr a, Exec (token Demo.env (some { demoExchange with scope := none, audience := some g!"api" })) tr
    (.done a) ∧ ReturnsToken a :=
  oracle_ex Demo.answers _ ReturnsToken (by decide)

/-- a storage failure (C23): the answer is an error -/
example : ∃ tr a, Exec (token Demo.env (some demoRefresh)) tr (.done a) ∧ a.goErr = true :=
  oracle_ex (fun | .tkRevoke .. => .error .other | c => Demo.answers c) _ (fun a : TokenResp => a.goErr = true) (by decide)

end Verif.Props
