import Verif.Props.Http
import Verif.Props.Authorization
import Verif.Proofs.DeviceRun

/-! C81: the endpoints use what the request presents and answer with what was stored. -/
set_option linter.unusedSimpArgs false
namespace Verif.Props
open Verif.Prog Verif.Spec Verif.Http Verif.TokenSvc

/-! ### /token -/

/-- A token request answered with tokens: the client, the message and the answer of the
service. -/
theorem tokens_facts {S : Server} {r : Http.Req} {tr : List Ev} {st : Nat} {b : TokenBody}
    (hnil : ∀ id, ⟨.clientsGet id, .ok none⟩ ∉ tr) (h : Exec (Http.serve S .token r) tr (.done ⟨st, .tokens b⟩)) :
    ∃ c cl cnf res at_ md now evs, FromClient S.P r tr c ∧ ⟨.clientsGet c.clientId, .ok (some cl)⟩ ∈ tr ∧
      (∀ ev ∈ evs, ev ∈ tr) ∧ Success S.E (tokenMsg S r c cnf) cl res evs ∧ res.accessToken = some at_ ∧
      at_.metadata = some md ∧ ⟨.now, now⟩ ∈ tr ∧ b.accessToken = at_.value ∧ b.scope = md.scope ∧
      b.refreshToken = (res.refreshToken.map (·.value)).getD [] ∧
      b.expiresIn = (md.expiresAt + 2 ^ 64 - Device.unix now % 2 ^ 64) % 2 ^ 64 := by
  rcases clientAuth_exec h hnil with ⟨_, h2, _⟩ | ⟨c, t1, t2, rfl, _, hf, hk⟩
  · obtain ⟨e, he⟩ := h2 _ rfl
    simp at he
  obtain ⟨hm, d, u1, u2, cnf, res, u3, rfl, h4, h5, _⟩ := tokenHandler_tokens hk
  obtain ⟨at_, md, now, a1, a2, a3, a4, a5, a6, a7, a8, a9, a10⟩ := tokenAnswer_tokens h5
  rcases token_exec h4 with ⟨hr, _⟩ | ⟨q, c', cl, evs, h1, h2, h3, hs⟩
  · exact absurd (returnsToken_iff.2 ⟨at_, Or.inl a2⟩) (refused_no_token hr)
  cases h1
  cases h2
  refine ⟨c, cl, cnf, res, at_, md, now, evs, hf.mono fun ev hev => List.mem_append_left _ hev, ?_, ?_, hs, a2, a3, ?_, a6, a8,
    a9, a10⟩
  · simp [h3]
  · intro ev hev
    simp [h3, hev]
  · simp [a4]

/-- Runs of the examples for a grant. -/
theorem demoGrant (ty : Str) (P : TokenBody → Prop) [DecidablePred P]
    (hf : (Demo.grantRequest ty).formValue g!"grant_type" = ty)
    (h : ((Prog.oracle Demo.grantAnswers (Http.serve Demo.server .token (Demo.grantRequest ty))).2.get?.bind
        Http.Resp.tokens?).any (fun b => decide (P b)) = true) :
    ∃ (r : Http.Req) (tr : List Ev) (b : TokenBody), r.formValue g!"grant_type" = ty ∧
      (∀ id, ⟨.clientsGet id, .ok none⟩ ∉ tr) ∧ Exec (Http.serve Demo.server .token r) tr (.done ⟨200, .tokens b⟩) ∧ P b := by
  have hW : ∀ c, StoreContract ⟨c, Demo.grantAnswers c⟩ := by
    intro c
    cases c <;> simp [StoreContract, Demo.grantAnswers, Demo.answers]
  obtain ⟨tr, a, b, k1, k2, k3, k4⟩ := oracle_sel Demo.grantAnswers _ Http.Resp.tokens? StoreContract (fun _ b => P b) hW h
  rw [Http.Resp.tokens?_eq k3] at k1
  exact ⟨_, tr, b, hf, not_nil_of_contract k2, k1, k4⟩

theorem grantOf_code {r : Http.Req} (h : r.formValue g!"grant_type" = g!"authorization_code") :
    grantOf r = some (.authorizationCode ⟨r.formValue g!"code", r.formValue g!"redirect_uri", r.formValue g!"code_verifier"⟩) := by
  unfold grantOf
  dsimp only
  exact if_pos h

theorem grantOf_device {r : Http.Req} (h : r.formValue g!"grant_type" = g!"urn:ietf:params:oauth:grant-type:device_code") :
    grantOf r = some (.deviceCode (r.formValue g!"device_code")) := by
  unfold grantOf
  dsimp only
  rw [if_neg (by rw [h]; decide), if_neg (by rw [h]; decide)]
  exact if_pos h

theorem grantOf_refresh {r : Http.Req} (h : r.formValue g!"grant_type" = g!"refresh_token") :
    grantOf r = some (.refreshToken (r.formValue g!"refresh_token")) := by
  unfold grantOf
  dsimp only
  rw [if_neg (by rw [h]; decide), if_neg (by rw [h]; decide), if_neg (by rw [h]; decide)]
  exact if_pos h

/-- **C81** (code). Tokens answered for an authorization code were minted for the session stored
under the code in the form, which is deleted; the redirection URI in the form is the one of
the authorization request, and the verifier in the form hashes to its challenge. The tokens
speak for the user, the scope and the audience of that session. -/
theorem C81_code (S : Server) (r : Http.Req) (tr : List Ev) (st : Nat) (b : TokenBody)
    (hnil : ∀ id, ⟨.clientsGet id, .ok none⟩ ∉ tr) (h : Exec (Http.serve S .token r) tr (.done ⟨st, .tokens b⟩))
    (hg : r.formValue g!"grant_type" = g!"authorization_code") :
    ∃ c cl sess ar t md, FromClient S.P r tr c ∧ ⟨.clientsGet c.clientId, .ok (some cl)⟩ ∈ tr ∧
      ⟨.csGet S.issuer (r.formValue g!"code"), .ok (some sess)⟩ ∈ tr ∧
      ⟨.csDel S.issuer (r.formValue g!"code"), .ok ()⟩ ∈ tr ∧ sess.request = some ar ∧
      ar.redirectUri = r.formValue g!"redirect_uri" ∧ ar.codeChallengeMethod = g!"S256" ∧
      Go.b64 (S.E.sha256 (r.formValue g!"code_verifier")) = ar.codeChallenge ∧
      ⟨.tkCreate S.issuer t, .ok ()⟩ ∈ tr ∧ t.value = b.accessToken ∧ t.tokenType = .accessToken ∧ t.metadata = some md ∧
      md.subject = sess.subject ∧ md.scope = ar.scope ∧ md.audience = ar.audience ∧ md.clientId = cl.clientId ∧
      b.scope = ar.scope ∧
      (b.refreshToken ≠ [] → ∃ t md, ⟨.tkCreate S.issuer t, .ok ()⟩ ∈ tr ∧ t.value = b.refreshToken ∧
        t.tokenType = .refreshToken ∧ t.metadata = some md ∧ md.subject = sess.subject ∧ md.scope = ar.scope) := by
  obtain ⟨c, cl, cnf, res, at_, md, now, evs, h1, h2, h3, hs, h4, h5, h6, h7, h8, h9, _⟩ := tokens_facts hnil h
  have hne : ∀ {g : Grant}, (tokenMsg S r c cnf).grant = some g →
      g = .authorizationCode ⟨r.formValue g!"code", r.formValue g!"redirect_uri", r.formValue g!"code_verifier"⟩ := by
    intro g hx
    have hx : grantOf r = some g := hx
    rw [grantOf_code hg] at hx
    exact (Option.some.inj hx).symm
  cases hs with
  | code g sess ar mint hg' hty hc =>
    cases hne hg'
    obtain ⟨_, _, _, _, _, f1, f2, f3⟩ := codeTokens_facts hc.tokens
    obtain ⟨_, k2, ⟨md', m1, m2, m3, m4, m5, m6⟩, _⟩ := f3 at_ (.inl h4)
    rw [h5] at m1
    cases m1
    refine ⟨c, cl, sess, ar, at_, md, h1, h2, h3 _ (by rw [hc.trace]; exact List.mem_cons_self ..),
      h3 _ (by rw [hc.trace]; exact List.mem_cons_of_mem _ (List.mem_cons_self ..)), hc.request,
      hc.checks.redirect, hc.checks.method, hc.checks.pkce, h3 _ (by rw [hc.trace]; simp only [List.mem_cons, List.mem_append]; tauto), h7.symm, f1 _ h4, h5, m3, m5, m6, m4,
      by rw [h8, m5], fun hr => ?_⟩
    cases hrt : res.refreshToken with
    | none => rw [h9, hrt] at hr; exact absurd rfl hr
    | some rt =>
      obtain ⟨_, k2, ⟨md', m1, m2, m3, m4, m5, m6⟩, _⟩ := f3 rt (.inr hrt)
      exact ⟨rt, md', h3 _ (by rw [hc.trace]; simp only [List.mem_cons, List.mem_append]; tauto), by rw [h9, hrt]; rfl, f2 _ hrt, m1, m3, m5⟩
  | cc _ hx => cases hne hx
  | device _ _ _ _ _ _ _ hx => cases hne hx
  | refresh _ _ _ _ _ hx => cases hne hx
  | exchange _ _ _ _ _ _ _ _ _ _ hx => cases hne hx

example : ∃ (r : Http.Req) (tr : List Ev) (b : TokenBody), r.formValue g!"grant_type" = g!"authorization_code" ∧
    (∀ id, ⟨.clientsGet id, .ok none⟩ ∉ tr) ∧ Exec (Http.serve Demo.server .token r) tr (.done ⟨200, .tokens b⟩) ∧
    b.expiresIn = 3600 := demoGrant _ (fun b => b.expiresIn = 3600) (by decide) (by decide +kernel)

/-- **C81** (device code). Tokens answered for a device code were minted for the session stored
under the code in the form, which a user has approved and which has not expired; they speak
for that user. -/
theorem C81_device (S : Server) (r : Http.Req) (tr : List Ev) (st : Nat) (b : TokenBody)
    (hnil : ∀ id, ⟨.clientsGet id, .ok none⟩ ∉ tr) (h : Exec (Http.serve S .token r) tr (.done ⟨st, .tokens b⟩))
    (hg : r.formValue g!"grant_type" = g!"urn:ietf:params:oauth:grant-type:device_code") :
    ∃ c cl ref sess user dreq now t md, FromClient S.P r tr c ∧ ⟨.clientsGet c.clientId, .ok (some cl)⟩ ∈ tr ∧
      ⟨.dsGetDev S.issuer (r.formValue g!"device_code"), .ok (some (ref, sess))⟩ ∈ tr ∧ sess.status = .validated ∧
      sess.subject = some user ∧ sess.request = some dreq ∧ dreq.clientId = cl.clientId ∧ ⟨.now, now⟩ ∈ tr ∧
      seconds now ≤ sess.expiresAt ∧
      ⟨.tkCreate S.issuer t, .ok ()⟩ ∈ tr ∧ t.value = b.accessToken ∧ t.metadata = some md ∧
      md.subject = user ∧ md.scope = sess.scope.getD [] ∧ md.clientId = cl.clientId ∧ b.scope = md.scope := by
  obtain ⟨c, cl, cnf, res, at_, md, now, evs, h1, h2, h3, hs, h4, h5, h6, h7, h8, h9, _⟩ := tokens_facts hnil h
  have hne : ∀ {g : Grant}, (tokenMsg S r c cnf).grant = some g → g = .deviceCode (r.formValue g!"device_code") := by
    intro g hx
    have hx : grantOf r = some g := hx
    rw [grantOf_device hg] at hx
    exact (Option.some.inj hx).symm
  cases hs with
  | device dc ref session dreq subject now' mint hx hty hc =>
    cases hne hx
    obtain ⟨_, _, _, _, _, f3⟩ := deviceTokens_facts hc.tokens
    obtain ⟨_, k2, ⟨md', m1, m2, m3, m4, m5, m6⟩, _⟩ := f3 at_ (.inl h4)
    rw [h5] at m1
    cases m1
    exact ⟨c, cl, ref, session, subject, dreq, now', at_, md, h1, h2,
      h3 _ (by rw [hc.trace]; exact List.mem_cons_self ..), hc.status, hc.approvedBy,
      hc.request, hc.sameClient, h3 _ (by rw [hc.trace]; exact List.mem_cons_of_mem _ (List.mem_cons_self ..)), hc.unexpired,
      h3 _ (by rw [hc.trace]; simp only [List.mem_cons, List.mem_append]; tauto), h7.symm, h5, m3, m5, m4, h8⟩
  | cc _ hx => cases hne hx
  | code _ _ _ _ hx => cases hne hx
  | refresh _ _ _ _ _ hx => cases hne hx
  | exchange _ _ _ _ _ _ _ _ _ _ hx => cases hne hx

example : ∃ (r : Http.Req) (tr : List Ev) (b : TokenBody), r.formValue g!"grant_type" = g!"urn:ietf:params:oauth:grant-type:device_code" ∧
    (∀ id, ⟨.clientsGet id, .ok none⟩ ∉ tr) ∧ Exec (Http.serve Demo.server .token r) tr (.done ⟨200, .tokens b⟩) ∧
    b.expiresIn = 3600 := demoGrant _ (fun b => b.expiresIn = 3600) (by decide) (by decide +kernel)

/-- **C81** (refresh). Tokens answered for a refresh token belong to the user, scope and audience
of the token in the form, which is an active, unexpired refresh token of the same client. -/
theorem C81_refresh (S : Server) (r : Http.Req) (tr : List Ev) (st : Nat) (b : TokenBody)
    (hnil : ∀ id, ⟨.clientsGet id, .ok none⟩ ∉ tr) (h : Exec (Http.serve S .token r) tr (.done ⟨st, .tokens b⟩))
    (hg : r.formValue g!"grant_type" = g!"refresh_token") :
    ∃ c cl rt rmd now t md, FromClient S.P r tr c ∧ ⟨.clientsGet c.clientId, .ok (some cl)⟩ ∈ tr ∧
      ⟨.tkGetVal S.issuer (r.formValue g!"refresh_token"), .ok (some rt)⟩ ∈ tr ∧ rt.status = .active ∧
      rt.tokenType = .refreshToken ∧ rt.metadata = some rmd ∧ rmd.clientId = cl.clientId ∧ ⟨.now, now⟩ ∈ tr ∧
      seconds now ≤ rmd.expiresAt ∧ ⟨.tkCreate rmd.issuer t, .ok ()⟩ ∈ tr ∧ t.value = b.accessToken ∧ t.metadata = some md ∧
      md.subject = rmd.subject ∧ md.scope = rmd.scope ∧ md.audience = rmd.audience ∧ md.clientId = cl.clientId ∧
      b.scope = rmd.scope ∧
      (b.refreshToken ≠ [] → ⟨.tkRevoke S.issuer rt.tokenId, .ok ()⟩ ∈ tr) := by
  obtain ⟨c, cl, cnf, res, at_, md, now, evs, h1, h2, h3, hs, h4, h5, h6, h7, h8, h9, _⟩ := tokens_facts hnil h
  have hne : ∀ {g : Grant}, (tokenMsg S r c cnf).grant = some g → g = .refreshToken (r.formValue g!"refresh_token") := by
    intro g hx
    have hx : grantOf r = some g := hx
    rw [grantOf_refresh hg] at hx
    exact (Option.some.inj hx).symm
  cases hs with
  | refresh v rt rmd now' mint hx hty hc =>
    cases hne hx
    obtain ⟨_, _, _, _, f2, _, _, f3⟩ := refreshTokens_facts hc.tokens
    obtain ⟨_, k2, ⟨md', m1, m2, m3, m4, m5, m6⟩, _⟩ := f3 at_ (.inl h4)
    rw [h5] at m1
    cases m1
    refine ⟨c, cl, rt, rmd, now', at_, md, h1, h2,
      h3 _ (by rw [hc.trace]; exact List.mem_cons_self ..), hc.status, hc.type,
      hc.metadata, hc.owner, h3 _ (by rw [hc.trace]; exact List.mem_cons_of_mem _ (List.mem_cons_self ..)), hc.unexpired,
      h3 _ (by rw [hc.trace]; simp only [List.mem_cons, List.mem_append]; tauto), h7.symm, h5, m3, m5, m6, m4, by rw [h8, m5], fun hr => ?_⟩
    cases hrt : res.refreshToken with
    | none => rw [h9, hrt] at hr; exact absurd rfl hr
    | some t => exact h3 _ (by rw [hc.trace]; simp only [List.mem_cons]; exact .inr (.inr (f2 (by rw [hrt]; rfl))))
  | cc _ hx => cases hne hx
  | code _ _ _ _ hx => cases hne hx
  | device _ _ _ _ _ _ _ hx => cases hne hx
  | exchange _ _ _ _ _ _ _ _ _ _ hx => cases hne hx

example : ∃ (r : Http.Req) (tr : List Ev) (b : TokenBody), r.formValue g!"grant_type" = g!"refresh_token" ∧
    (∀ id, ⟨.clientsGet id, .ok none⟩ ∉ tr) ∧ Exec (Http.serve Demo.server .token r) tr (.done ⟨200, .tokens b⟩) ∧
    b.expiresIn = 3600 := demoGrant _ (fun b => b.expiresIn = 3600) (by decide) (by decide +kernel)

/-- **C81** (lifetime). The lifetime answered with tokens is the time, on the server's clock, until
the stored access token expires. -/
theorem C81_lifetime (S : Server) (r : Http.Req) (tr : List Ev) (st : Nat) (b : TokenBody)
    (hnil : ∀ id, ⟨.clientsGet id, .ok none⟩ ∉ tr) (h : Exec (Http.serve S .token r) tr (.done ⟨st, .tokens b⟩)) :
    ∃ i t md now, ⟨.tkCreate i t, .ok ()⟩ ∈ tr ∧ t.value = b.accessToken ∧ t.metadata = some md ∧ ⟨.now, now⟩ ∈ tr ∧
      (seconds now ≤ md.expiresAt → md.expiresAt < 2 ^ 64 → seconds now + b.expiresIn = md.expiresAt) := by
  obtain ⟨c, cl, cnf, res, at_, md, now, evs, h1, h2, h3, hs, h4, h5, h6, h7, h8, h9, h10⟩ := tokens_facts hnil h
  obtain ⟨i, hi⟩ : ∃ i, ⟨.tkCreate i at_, .ok ()⟩ ∈ evs := by
    cases hs with
    | code g sess ar mint hg' hty hc =>
      exact ⟨_, by rw [hc.trace]; simp only [List.mem_cons, List.mem_append]; exact .inr (.inr (((codeTokens_facts hc.tokens).2.2.2.2.2.2.2 at_ (.inl h4)).2.1))⟩
    | cc t hg' hty hc =>
      have he : t = at_ := by
        rw [hc.answer] at h4
        exact Option.some.inj h4
      exact ⟨_, he ▸ (mintAT_facts hc.mint).2.1⟩
    | device dc ref session dreq subject now' mint hx hty hc =>
      exact ⟨_, by rw [hc.trace]; simp only [List.mem_cons]; exact .inr (.inr ((deviceTokens_facts hc.tokens).2.2.2.2.2 at_ (.inl h4)).2.1)⟩
    | refresh v rt rmd now' mint hx hty hc =>
      exact ⟨_, by rw [hc.trace]; simp only [List.mem_cons]; exact .inr (.inr ((refreshTokens_facts hc.tokens).2.2.2.2.2.2.2 at_ (.inl h4)).2.1)⟩
    | exchange g st md now now2 jti v aud t' look hx => exact absurd hx grantOf_not_exchange
  refine ⟨i, at_, md, now, h3 _ hi, h7.symm, h5, h6, fun k1 k2 => ?_⟩
  rw [h10]
  have : Device.unix now = seconds now := rfl
  rw [this, Nat.mod_eq_of_lt (a := seconds now) (by omega)]
  omega

example : ∃ (r : Http.Req) (tr : List Ev) (b : TokenBody), r.formValue g!"grant_type" = g!"client_credentials" ∧
    (∀ id, ⟨.clientsGet id, .ok none⟩ ∉ tr) ∧ Exec (Http.serve Demo.server .token r) tr (.done ⟨200, .tokens b⟩) ∧
    b.expiresIn = 3600 := demoGrant _ (fun b => b.expiresIn = 3600) (by decide) (by decide +kernel)

/-! ### /par -/

/-- **C81** (pushed request). The answer 201 of the endpoint for pushed requests is given only to
an authenticated client, with a fresh proof of possession for this very request, for a request
object that verifies under one of the keys registered by that client and names it; the answer
holds the URI under which that request was stored, its lifetime, and this server. -/
theorem C81_par (S : Server) (r : Http.Req) (tr : List Ev) (st : Nat) (i u : Str) (n : Nat)
    (hnil : ∀ id, ⟨.clientsGet id, .ok none⟩ ∉ tr) (h : Exec (Http.serve S .par r) tr (.done ⟨st, .par i u n⟩)) :
    st = 201 ∧ i = S.issuer ∧ r.method = g!"POST" ∧
    ∃ c t keys k ar eff cl thumb, FromClient S.P r tr c ∧
      (∃ tr', (∀ ev ∈ tr', ev ∈ tr) ∧ Exec (DPoP.verify S.E { htm := r.method, htu := r.url, proof := r.dpop }) tr' (.done (some thumb))) ∧
      S.requestParse (r.get g!"request") = some t ∧ S.P.jwks c.jwks = some keys ∧ k ∈ keys ∧ k.use ≠ g!"enc" ∧
      t.verifies k = true ∧ S.requestDec t.payload = some ar ∧
      ar.clientId = c.clientId ∧ ar.requestUri = none ∧ WellFormed S.E ar ∧ Effective ar eff ∧
      ⟨.clientsGet c.clientId, .ok (some cl)⟩ ∈ tr ∧ Registered cl ar ∧ ⟨.arReg S.issuer u eff, .ok n⟩ ∈ tr := by
  rcases clientAuth_exec h hnil with ⟨_, h2, _⟩ | ⟨c, t1, t2, rfl, _, hf, hk⟩
  · obtain ⟨e, he⟩ := h2 _ rfl
    simp at he
  unfold parHandler at hk
  split at hk
  · cases hk
  rename_i hm
  dsimp only at hk
  obtain ⟨u1, u2, o, rfl, k1, k2⟩ := exec_bind_done hk
  cases o with
  | none => cases k2
  | some thumb =>
    dsimp only at k2
    cases hd : decodeRequest S c (r.get g!"request") with
    | none => rw [hd] at k2; cases k2
    | some ar =>
      rw [hd] at k2
      dsimp only at k2
      obtain ⟨u3, u4, res, rfl, k3, k4⟩ := exec_bind_done k2
      split at k4
      · obtain ⟨e, he⟩ := withError_done k4
        simp at he
      · rename_i hg
        have hg : res.goErr = false := by simpa using hg
        cases k4
        obtain ⟨q, cl0, ar', eff, m, f1, f2, f3, f4, f5, f6, f7, f8, ⟨cl, f9, f10⟩, f11, f12⟩ :=
          C16_push_by_owner S.E _ _ _ k3 (.inr (.inr hg))
        cases f1
        cases f3
        cases f4
        obtain ⟨t, keys, k, d1, d2, d3, d4, d5, d6⟩ := decodeRequest_some hd
        have hm' : (⟨.arReg S.issuer res.requestUri eff, .ok m⟩ : Ev) ∈ u3 := by
          have : (⟨.arReg S.issuer res.requestUri eff, .ok m⟩ : Ev) ∈ u3.filter storesRequest := by rw [f11]; simp
          exact (List.mem_filter.1 this).1
        have e1 : res.issuer = S.issuer := by rw [f12]
        have e2 : res.expiresIn = m := by rw [f12]
        refine ⟨rfl, e1, by simpa using hm, c, t, keys, k, ar, eff, cl, thumb, hf.mono fun ev hev => List.mem_append_left _ hev,
          ⟨u1, by simp +contextual, k1⟩, d1, d2, d3, d4, d5, d6, f6, f5, f7, f8, ?_, f10, ?_⟩
        · rw [← f6]; simp [f9]
        · rw [e2]; simp [hm']

/-- A pushed request of the examples. -/
def Demo.push : Http.Req where
  method := g!"POST"
  query := Demo.form [(g!"client_id", g!"app"), (g!"request", g!"ro")]
  target := { host := g!"as", path := g!"/token" }
  dpop := g!"p"

/-- The part of an answer about a pushed request. -/
def pushed? (a : Http.Resp) : Option (Str × Str × Nat) :=
  match a.body with
  | .par i u n => some (i, u, n)
  | _ => none

example : ∃ tr st, (∀ id, ⟨.clientsGet id, .ok none⟩ ∉ tr) ∧
    Exec (Http.serve Demo.server .par Demo.push) tr (.done ⟨st, .par Demo.issuer g!"uri" 60⟩) := by
  obtain ⟨tr, ⟨st, b⟩, x, h1, h2, h3, h4⟩ := oracle_sel Demo.httpAnswers (Http.serve Demo.server .par Demo.push) pushed?
    StoreContract (fun _ x => x = (Demo.issuer, g!"uri", 60)) Demo.httpAnswers_contract (by decide +kernel)
  subst h4
  cases b <;> simp [pushed?] at h3
  obtain ⟨rfl, rfl, rfl⟩ := h3
  exact ⟨tr, st, not_nil_of_contract h2, h1⟩

/-! ### /device_authorization and /device -/

theorem deviceAuthorize_done (q : DeviceAuthzReq) :
    Done (fun tr a => a.goErr = false → ∃ cl n, MemFold Oidc.grantDeviceCode cl.grantTypes ∧
      tr = [⟨.clientsGet q.clientId, .ok (some cl)⟩, ⟨.genDev q.issuer, .ok a.deviceCode⟩, ⟨.genUser q.issuer, .ok a.userCode⟩,
        ⟨.dsReg q.issuer a.userCode (Device.newSession cl q a.deviceCode), .ok n⟩] ∧ a.expiresIn = n ∧ a.interval = 5)
      (Device.authorize (some q)) [] := by
  unfold Device.authorize
  have hf : ∀ c, (Device.failA c).goErr = false → False := by intro c; simp [Device.failA]
  simp only
  split; · exact fun h => (hf _ h).elim
  split; · exact fun h => (hf _ h).elim
  simp only [Prog.call, bind_op, bind_ret, pure_eq, Done]
  rintro (_ | (_ | cl))
  · exact fun h => (hf _ h).elim
  · exact fun h => (hf _ h).elim
  simp only
  split; · exact fun h => (hf _ h).elim
  rename_i hc
  simp only [Done]
  rintro (_ | dc)
  · exact fun h => (hf _ h).elim
  simp only [Done]
  rintro (_ | uc)
  · exact fun h => (hf _ h).elim
  simp only [Done]
  rintro (_ | n)
  · exact fun h => (hf _ h).elim
  refine fun _ => ⟨cl, n, (contains_iff _ _).1 (by simpa using hc), rfl, rfl, rfl⟩

/-- **C81** (device codes). The codes answered to a device are the generated ones: the device code
is the one held by the session, registered under the answered user code for the client named in
the request, which has the grant; it is not approved and belongs to no user. -/
theorem C81_codes (S : Server) (r : Http.Req) (tr : List Ev) (st : Nat) (dc uc page : Str) (e iv : Nat)
    (hnil : ∀ id, ⟨.clientsGet id, .ok none⟩ ∉ tr)
    (h : Exec (Http.serve S .deviceAuthorize r) tr (.done ⟨st, .device dc uc page e iv⟩)) :
    st = 200 ∧ r.method = g!"POST" ∧ iv = 5 ∧ page = S.issuer ++ g!"/device" ∧
    ∃ c cl sess, FromClient S.P r tr c ∧ ⟨.clientsGet (r.formValue g!"client_id"), .ok (some cl)⟩ ∈ tr ∧
      MemFold g!"urn:ietf:params:oauth:grant-type:device_code" cl.grantTypes ∧
      ⟨.genDev S.issuer, .ok dc⟩ ∈ tr ∧ ⟨.genUser S.issuer, .ok uc⟩ ∈ tr ∧ ⟨.dsReg S.issuer uc sess, .ok e⟩ ∈ tr ∧
      sess.deviceCode = dc ∧ sess.client = some cl ∧ sess.status ≠ .validated ∧ sess.subject = none ∧
      sess.scope.getD [] = r.formValue g!"scope" ∧ sess.audience.getD [] = r.formValue g!"audience" := by
  rcases clientAuth_exec h hnil with ⟨_, h2, _⟩ | ⟨c, t1, t2, rfl, _, hf, hk⟩
  · obtain ⟨e, he⟩ := h2 _ rfl
    simp at he
  unfold deviceAuthzHandler at hk
  split at hk
  · cases hk
  rename_i hm
  obtain ⟨u1, u2, res, rfl, k1, k2⟩ := exec_bind_done hk
  split at k2
  · obtain ⟨e, he⟩ := withError_done k2
    simp at he
  rename_i hg
  have hg : res.goErr = false := by simpa using hg
  cases k2
  obtain ⟨cl, n, f1, f2, f3, f4⟩ := done_sound (deviceAuthorize_done _) k1 hg
  simp only [List.nil_append] at f2
  subst f2
  have ho : ∀ s, (Http.optional s).getD [] = s := by intro s; unfold Http.optional; split <;> simp_all
  refine ⟨rfl, by simpa using hm, f4, rfl, c, cl,
    Device.newSession cl {
      issuer := S.issuer, clientId := r.formValue g!"client_id", scope := Http.optional (r.formValue g!"scope"),
      audience := Http.optional (r.formValue g!"audience") } res.deviceCode,
    hf.mono fun ev hev => List.mem_append_left _ hev, by simp, f1, by simp, by simp,
    by rw [f3]; simp, rfl, rfl, by simp [Device.newSession], rfl, ho _, ho _⟩

/-- The codes in an answer. -/
def deviceCodes? (a : Http.Resp) : Option (Str × Str × Str × Nat × Nat) :=
  match a.body with
  | .device dc uc page e iv => some (dc, uc, page, e, iv)
  | _ => none

example : ∃ r tr st page, (∀ id, ⟨.clientsGet id, .ok none⟩ ∉ tr) ∧
    Exec (Http.serve Demo.server .deviceAuthorize r) tr (.done ⟨st, .device g!"dc" g!"uc" page 120 5⟩) := by
  obtain ⟨tr, ⟨st, b⟩, ⟨dc, uc, page, e, iv⟩, h1, h2, h3, h4⟩ := oracle_sel Demo.httpAnswers (Http.serve Demo.server .deviceAuthorize
      { method := g!"POST", query := Demo.form [(g!"client_id", g!"app"), (g!"scope", g!"openid")] }) deviceCodes?
    StoreContract (fun _ x => x.1 = g!"dc" ∧ x.2.1 = g!"uc" ∧ x.2.2.2 = (120, 5)) Demo.httpAnswers_contract (by decide +kernel)
  obtain ⟨rfl, rfl, h4⟩ := h4
  cases h4
  cases b <;> simp [deviceCodes?] at h3
  obtain ⟨rfl, rfl, rfl, rfl, rfl⟩ := h3
  exact ⟨_, tr, st, _, not_nil_of_contract h2, h1⟩

/-- The writes of an approval. -/
def ApprovalWrites (q : DeviceValidationReq) (acc : List Ev) (c : Cmd) : Prop :=
  (∀ ref d, c = .dsAssign ref d → ∃ s, ⟨.dsGetUser q.issuer q.userCode, .ok (some (ref, s))⟩ ∈ acc ∧
    s.status = .authorizationPending ∧ d = { s with subject := some q.subject, status := .validated }) ∧
  (∀ i uc ref d, c = .dsValidate i uc ref d → i = q.issuer ∧ uc = q.userCode ∧
    ∃ s, ⟨.dsGetUser q.issuer q.userCode, .ok (some (ref, s))⟩ ∈ acc ∧
    s.status = .authorizationPending ∧ d = { s with subject := some q.subject, status := .validated }) ∧
  (∀ i uc, c = .dsDel i uc → i = q.issuer ∧ uc = q.userCode)

theorem deviceValidate_writes (q : DeviceValidationReq) : Calls (ApprovalWrites q) (Device.validate (some q)) [] := by
  unfold Device.validate
  simp only
  split; · trivial
  split; · trivial
  split; · trivial
  simp only [Prog.call, bind_op, bind_ret, pure_eq, Calls]
  refine ⟨by simp [ApprovalWrites], ?_⟩
  rintro ((_ | _) | (_ | ⟨ref, s⟩))
  · trivial
  · trivial
  · trivial
  · simp only
    split; · trivial
    split; · trivial
    simp only [Calls]
    refine ⟨by simp [ApprovalWrites], ?_⟩
    intro now
    split; · trivial
    split; · trivial
    rename_i hexp hst
    have hst : s.status = .authorizationPending := by simpa using hst
    simp only [Calls]
    refine ⟨?_, ?_⟩
    · refine ⟨?_, by simp, by simp⟩
      intro ref' d h
      cases h
      exact ⟨s, by simp, hst, rfl⟩
    · intro _
      refine ⟨⟨by simp, ?_, by simp⟩, ?_⟩
      · intro i uc ref' d h
        cases h
        exact ⟨rfl, rfl, s, by simp, hst, rfl⟩
      rintro (_ | u)
      · trivial
      · refine ⟨⟨by simp, by simp, ?_⟩, ?_⟩
        · intro i uc h
          cases h
          exact ⟨rfl, rfl⟩
        rintro (_ | u) <;> trivial

/-- **C81** (approval). Even in an interrupted execution, a session is approved at the device page
only for the user authenticated by the request, and only the one stored under the posted user
code. -/
theorem C81_approval (S : Server) (r : Http.Req) (tr : List Ev) (o : Outcome Http.Resp)
    (h : Exec (Http.serve S .device r) tr o) (ev : Ev) (hev : ev ∈ tr) :
    (∀ ref d, ev.1 = .dsAssign ref d → ∃ user pw s, r.basic = some (user, pw) ∧ r.method = g!"POST" ∧
      ⟨.dsGetUser S.issuer (r.postValue g!"user_code"), .ok (some (ref, s))⟩ ∈ tr ∧
      s.status = .authorizationPending ∧ d = { s with subject := some user, status := .validated }) ∧
    (∀ i uc ref d, ev.1 = .dsValidate i uc ref d → ∃ user pw s, r.basic = some (user, pw) ∧ r.method = g!"POST" ∧
      i = S.issuer ∧ uc = r.postValue g!"user_code" ∧
      ⟨.dsGetUser S.issuer (r.postValue g!"user_code"), .ok (some (ref, s))⟩ ∈ tr ∧
      s.status = .authorizationPending ∧ d = { s with subject := some user, status := .validated }) ∧
    (∀ i uc, ev.1 = .dsDel i uc → i = S.issuer ∧ uc = r.postValue g!"user_code") := by
  rcases basicAuth_exec h with ⟨rfl, _⟩ | ⟨hb, hk⟩
  · simp at hev
  unfold deviceHandler at hk
  rw [if_neg (by decide)] at hk
  have hret : ∀ {a : Http.Resp} {tr : List Ev} {o : Outcome Http.Resp}, Exec (Prog.ret a) tr o → tr = [] := by
    intro a tr o h
    cases h <;> rfl
  split at hk
  · rw [hret hk] at hev
    simp at hev
  split at hk
  · rename_i hm
    have hc := calls_mem (J := ApprovalWrites
        { issuer := S.issuer, subject := g!"hello", userCode := r.postValue g!"user_code" })
      (calls_bind (deviceValidate_writes _) ?_) hk hev
    · obtain ⟨pre, post, rfl, w1, w2, w3⟩ := hc
      refine ⟨?_, ?_, w3⟩
      · intro ref d he
        obtain ⟨s, m1, m2, m3⟩ := w1 ref d he
        exact ⟨_, _, s, hb, hm, List.mem_append_left _ m1, m2, m3⟩
      · intro i uc ref d he
        obtain ⟨m0, m0', s, m1, m2, m3⟩ := w2 i uc ref d he
        exact ⟨_, _, s, hb, hm, m0, m0', List.mem_append_left _ m1, m2, m3⟩
    · have : ∀ (p : Prog DeviceValidationResp) acc, Done (fun tr a => Calls (ApprovalWrites
          { issuer := S.issuer, subject := g!"hello", userCode := r.postValue g!"user_code" })
          (if a.goErr = true then withError 400 a.error else pure ⟨200, .empty⟩) tr) p acc := by
        intro p
        induction p with
        | ret a =>
          intro acc
          show Calls _ _ _
          split
          · unfold withError
            split <;> trivial
          · trivial
        | panic => intro acc; trivial
        | op c k ih => intro acc r; exact ih r _
      exact this _ _
  · rw [hret hk] at hev
    simp at hev

example : ∃ (r : Http.Req) (tr : List Ev) (a : Http.Resp) (ref : Nat) (d : DeviceSession),
    Exec (Http.serve Demo.server .device r) tr (.done a) ∧ a.status = 200 ∧ ⟨.dsAssign ref d, ()⟩ ∈ tr ∧
    d.subject = some g!"hello" := by
  obtain ⟨tr, a, h1, h2, h3⟩ := oracle_run Demo.httpAnswers (Http.serve Demo.server .device
      { method := g!"POST", post := Demo.form [(g!"user_code", g!"uc")], basic := some (g!"hello", g!"world") }) (fun _ => True)
    (fun tr (a : Http.Resp) => a.status = 200 ∧ tr.any (fun
      | ⟨.dsAssign _ d, ()⟩ => d.subject = some g!"hello"
      | _ => false) = true) (fun _ => trivial) (by decide +kernel)
  obtain ⟨h3, h4⟩ := h3
  obtain ⟨ev, hm, he⟩ := List.any_eq_true.1 h4
  split at he
  · exact ⟨_, tr, a, _, _, h1, h3, hm, by simpa using he⟩
  · cases he

end Verif.Props
