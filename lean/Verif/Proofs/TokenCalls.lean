import Verif.Proofs.TokenFacts
import Verif.Proofs.Footprint

/-!
Under which circumstances the token service makes each of its storage calls, in
every execution, also interrupted ones.
-/
namespace Verif.TokenSvc
open Verif.Prog Verif.Oidc Verif.StringArray Verif.Spec
open Verif.Device (unix)

/-- `t` is an access token made for `cl` with the claims `md` at a clock reading of `tr`. -/
def ATAt (tr : List Ev) (cl : Client) (md : TokenMeta) (cnf : Option Cnf) (t : Token) : Prop :=
  ∃ (now : Nat) (jti v : Str), v ≠ [] ∧ ⟨.now, now⟩ ∈ tr ∧
    t = { accessTokenSpec cl md cnf now jti with value := v }

/-- `t` is a refresh token made for `cl` with the claims `md` at a clock reading of `tr`. -/
def RTAt (tr : List Ev) (cl : Client) (md : TokenMeta) (cnf : Option Cnf) (t : Token) : Prop :=
  ∃ (now : Nat) (jti v : Str), v ≠ [] ∧ ⟨.now, now⟩ ∈ tr ∧
    t = { refreshTokenSpec cl md cnf now jti with value := v }

/-- While serving `q` for the registered client `cl`, after the calls `tr`, the
token `t` is handed to the token store under `iss`. -/
inductive Mints (E : Env) (q : TokenReq) (cl : Client) (tr : List Ev) : Str → Token → Prop
  | code (g : GrantCode) (s : CodeSession) (ar : AuthzRequest) (t : Token)
      (hg : q.grant = some (.authorizationCode g))
      (hreg : MemFold g!"authorization_code" cl.grantTypes)
      (hget : ⟨.csGet q.issuer g.code, .ok (some s)⟩ ∈ tr)
      (hdel : ⟨.csDel q.issuer g.code, .ok ()⟩ ∈ tr)
      (hreq : s.request = some ar) (hok : CodeOk E cl g ar)
      (ho : HasWord g!"openid" ar.scope)
      (ht : ATAt tr cl { issuer := q.issuer, subject := s.subject, audience := ar.audience, scope := ar.scope }
              q.tokenConfirmation t ∨
            (HasWord g!"offline_access" ar.scope ∧
             RTAt tr cl { issuer := q.issuer, subject := s.subject, audience := ar.audience, scope := ar.scope }
              q.tokenConfirmation t)) : Mints E q cl tr q.issuer t
  | cc (t : Token) (hg : q.grant = some .clientCredentials)
      (hreg : MemFold g!"client_credentials" cl.grantTypes)
      (hty : cl.clientType = .confidential ∨ cl.clientType = .credentialed)
      (ht : ATAt tr cl { issuer := q.issuer, scope := q.scope.getD [], audience := q.audience.getD [] }
              q.tokenConfirmation t) : Mints E q cl tr q.issuer t
  | device (dc : Str) (ref : Nat) (s : DeviceSession) (dreq : DeviceAuthzReq) (sub : Str) (now : Nat) (t : Token)
      (hg : q.grant = some (.deviceCode dc))
      (hreg : MemFold g!"urn:ietf:params:oauth:grant-type:device_code" cl.grantTypes)
      (hget : ⟨.dsGetDev q.issuer dc, .ok (some (ref, s))⟩ ∈ tr) (hnow : ⟨.now, now⟩ ∈ tr)
      (hreq : s.request = some dreq) (hcl : dreq.clientId = cl.clientId)
      (hexp : unix now ≤ s.expiresAt) (hst : s.status = .validated) (hsub : s.subject = some sub)
      (ht : ATAt tr cl { issuer := q.issuer, subject := sub, scope := s.scope.getD [] } q.tokenConfirmation t ∨
            (HasWord g!"offline_access" (s.scope.getD []) ∧
             RTAt tr cl { issuer := q.issuer, subject := sub, scope := s.scope.getD [] } q.tokenConfirmation t)) :
      Mints E q cl tr q.issuer t
  | refresh (v : Str) (rt : Token) (md : TokenMeta) (now : Nat) (t : Token)
      (hg : q.grant = some (.refreshToken v))
      (hreg : MemFold g!"refresh_token" cl.grantTypes)
      (hget : ⟨.tkGetVal q.issuer v, .ok (some rt)⟩ ∈ tr) (hnow : ⟨.now, now⟩ ∈ tr)
      (hst : rt.status = .active) (hty : rt.tokenType = .refreshToken) (hmd : rt.metadata = some md)
      (hexp : unix now ≤ md.expiresAt) (hown : md.clientId = cl.clientId)
      (ht : ATAt tr cl md rt.confirmation t ∨ RTAt tr cl md rt.confirmation t) : Mints E q cl tr md.issuer t
  | exchange (g : GrantExchange) (st : Token) (md : TokenMeta) (now now2 : Nat) (jti v aud : Str)
      (hg : q.grant = some (.tokenExchange g))
      (hreg : MemFold g!"urn:ietf:params:oauth:grant-type:token-exchange" cl.grantTypes)
      (hget : ⟨.tkGetVal q.issuer g.subjectToken, .ok (some st)⟩ ∈ tr) (hnow : ⟨.now, now⟩ ∈ tr)
      (hnow2 : ⟨.now, now2⟩ ∈ tr) (hv : v ≠ [])
      (hst : st.status = .active) (hty : st.tokenType = .accessToken) (hmd : st.metadata = some md)
      (hexp : unix now ≤ md.expiresAt) :
      Mints E q cl tr q.issuer { exchangedSpec cl st md (q.scope.getD md.scope) now2 jti aud with value := v }

/-- Calls without a story of their own. -/
def plain : Cmd → Bool
  | .now | .jti | .clientsGet _ | .resourcesGet _ | .dsGetDev .. | .tkGetVal .. | .genAT _ | .genRT _ => true
  | _ => false

/-- The justification of each call of the token service. -/
structure Justified (E : Env) (req : Option TokenReq) (tr : List Ev) (c : Cmd) : Prop where
  foot : tokenCmds c = true
  create : ∀ iss t, c = .tkCreate iss t → ∃ q c0 cl, req = some q ∧ q.client = some c0 ∧
    ⟨.clientsGet c0.clientId, .ok (some cl)⟩ ∈ tr ∧ Mints E q cl tr iss t
  get : ∀ i code, c = .csGet i code → ∃ q g, req = some q ∧ q.grant = some (.authorizationCode g) ∧
    i = q.issuer ∧ code = g.code
  del : ∀ i code, c = .csDel i code → ∃ q g s, req = some q ∧ q.grant = some (.authorizationCode g) ∧
    i = q.issuer ∧ code = g.code ∧ ⟨.csGet i code, .ok (some s)⟩ ∈ tr
  revoke : ∀ i id, c = .tkRevoke i id → ∃ q v rt new md c0 cl, req = some q ∧ q.grant = some (.refreshToken v) ∧
    i = q.issuer ∧ ⟨.tkGetVal q.issuer v, .ok (some rt)⟩ ∈ tr ∧ id = rt.tokenId ∧
    rt.status = .active ∧ rt.tokenType = .refreshToken ∧ rt.metadata = some md ∧
    q.client = some c0 ∧ ⟨.clientsGet c0.clientId, .ok (some cl)⟩ ∈ tr ∧ md.clientId = cl.clientId ∧
    ⟨.tkCreate md.issuer new, .ok ()⟩ ∈ tr ∧ new.tokenType = .refreshToken

variable {E : Env} {req : Option TokenReq}

theorem justified_plain {tr : List Ev} {c : Cmd} (h : plain c = true) : Justified E req tr c := by
  cases c <;> simp [plain] at h <;> exact ⟨rfl, nofun, nofun, nofun, nofun⟩

theorem justified_create {tr : List Ev} {iss : Str} {t : Token} {q : TokenReq} {c0 cl : Client}
    (hq : req = some q) (hc : q.client = some c0) (hcl : ⟨.clientsGet c0.clientId, .ok (some cl)⟩ ∈ tr)
    (h : Mints E q cl tr iss t) : Justified E req tr (.tkCreate iss t) :=
  ⟨rfl, fun _ _ e => by cases e; exact ⟨q, c0, cl, hq, hc, hcl, h⟩, nofun, nofun, nofun⟩

theorem generateAccessToken_calls (cl : Client) (md : TokenMeta) (cnf : Option Cnf) (acc : List Ev)
    (h : ∀ tr t, acc ⊆ tr → ATAt tr cl md cnf t → Justified E req tr (.tkCreate md.issuer t)) :
    Calls (Justified E req) (generateAccessToken cl md cnf) acc := by
  unfold generateAccessToken
  simp only [Prog.call, bind_op, bind_ret, pure_eq, Calls]
  refine ⟨justified_plain rfl, fun now => ⟨justified_plain rfl, fun jti => ⟨justified_plain rfl, ?_⟩⟩⟩
  rintro (_ | v)
  · trivial
  · simp only
    split
    · trivial
    · rename_i hv
      refine ⟨h _ _ ?_ ⟨now, jti, v, hv, by simp, rfl⟩, ?_⟩
      · intro x hx; simp [hx]
      · rintro (_ | u) <;> trivial

theorem generateRefreshToken_calls (cl : Client) (md : TokenMeta) (cnf : Option Cnf) (acc : List Ev)
    (h : ∀ tr t, acc ⊆ tr → RTAt tr cl md cnf t → Justified E req tr (.tkCreate md.issuer t)) :
    Calls (Justified E req) (generateRefreshToken cl md cnf) acc := by
  unfold generateRefreshToken
  simp only [Prog.call, bind_op, bind_ret, pure_eq, Calls]
  refine ⟨justified_plain rfl, fun now => ⟨justified_plain rfl, fun jti => ⟨justified_plain rfl, ?_⟩⟩⟩
  rintro (_ | v)
  · trivial
  · simp only
    split
    · trivial
    · rename_i hv
      refine ⟨h _ _ ?_ ⟨now, jti, v, hv, by simp, rfl⟩, ?_⟩
      · intro x hx; simp [hx]
      · rintro (_ | u) <;> trivial

theorem authorizationCode_calls {q : TokenReq} {c0 cl : Client} (hq : req = some q) (hc : q.client = some c0)
    (g : GrantCode) (hg : q.grant = some (.authorizationCode g)) (acc : List Ev)
    (hcl : ⟨.clientsGet c0.clientId, .ok (some cl)⟩ ∈ acc) :
    Calls (Justified E req) (authorizationCode E (some cl) q g) acc := by
  unfold authorizationCode
  simp only
  split; · trivial
  split; · trivial
  split; · trivial
  split; · trivial
  split; · trivial
  split; · trivial
  split; · trivial
  rename_i h1 h2 h3 h4 h5 h6 h7
  simp only [Prog.call, bind_op, bind_ret, pure_eq, Calls]
  refine ⟨⟨rfl, nofun, fun _ _ e => by cases e; exact ⟨q, g, hq, hg, rfl, rfl⟩, nofun, nofun⟩, ?_⟩
  rintro ((_ | _) | (_ | sess))
  · trivial
  · trivial
  · trivial
  · simp only
    cases hr : sess.request with
    | none => trivial
    | some ar =>
      simp only [Calls]
      refine ⟨⟨rfl, nofun, nofun, fun _ _ e => by
        cases e; exact ⟨q, g, sess, hq, hg, rfl, rfl, by simp⟩, nofun⟩, ?_⟩
      rintro (_ | u)
      · trivial
      · simp only
        rcases codeChecks_cases E cl g ar with ⟨r, hcc, hr'⟩ | ⟨hcc, hok⟩
        · rw [hcc]; trivial
        · rw [hcc]
          simp only
          unfold codeTokens
          simp only
          split
          · rename_i ho
            have ho' : HasWord g!"openid" ar.scope := (contains_fields _ _).1 ho
            refine calls_bind (generateAccessToken_calls _ _ _ _ ?_) (done_mono (generateAccessToken_done _ _ _ _) ?_)
            · intro tr t hsub hat
              exact justified_create hq hc (hsub (by simp [hcl]))
                (.code g sess ar t hg (memFold_of h3) (hsub (by simp)) (hsub (by simp)) hr hok ho' (Or.inl hat))
            · intro tr res hres
              cases res with
              | none => trivial
              | some at_ =>
                obtain ⟨evs, htr, hm⟩ := hres at_ rfl
                have hcnf : at_.confirmation = q.tokenConfirmation := by
                  obtain ⟨_, _, _, _, ht, _⟩ := hm; rw [ht]; rfl
                simp only
                split
                · rename_i hoff
                  refine calls_bind (generateRefreshToken_calls _ _ _ _ ?_)
                    (done_mono (generateRefreshToken_done _ _ _ _) ?_)
                  · intro tr2 t hsub hrt
                    rw [hcnf] at hrt
                    have hsub' : ∀ x, x ∈ tr → x ∈ tr2 := fun x hx => hsub hx
                    rw [htr] at hsub'
                    exact justified_create hq hc (hsub' _ (by simp [hcl]))
                      (.code g sess ar t hg (memFold_of h3) (hsub' _ (by simp)) (hsub' _ (by simp)) hr hok ho'
                        (Or.inr ⟨(contains_fields _ _).1 hoff, hrt⟩))
                  · rintro tr2 (_ | t) _ <;> trivial
                · trivial
          · trivial

theorem clientCredentials_calls {q : TokenReq} {c0 cl : Client} (hq : req = some q) (hc : q.client = some c0)
    (hg : q.grant = some .clientCredentials) (acc : List Ev)
    (hcl : ⟨.clientsGet c0.clientId, .ok (some cl)⟩ ∈ acc) :
    Calls (Justified E req) (clientCredentials E (some cl) q) acc := by
  unfold clientCredentials
  simp only
  split; · trivial
  split; · trivial
  split; · trivial
  split; · trivial
  rename_i h1 h2 h3 h4
  refine calls_bind (generateAccessToken_calls _ _ _ _ ?_) (done_mono (generateAccessToken_done _ _ _ _) ?_)
  · intro tr t hsub hat
    exact justified_create hq hc (hsub hcl) (.cc t hg (memFold_of h4) (Decidable.not_not.1 h3) hat)
  · rintro tr (_ | t) _ <;> trivial

theorem deviceCode_calls {q : TokenReq} {c0 cl : Client} (hq : req = some q) (hc : q.client = some c0)
    (dc : Str) (hg : q.grant = some (.deviceCode dc)) (acc : List Ev)
    (hcl : ⟨.clientsGet c0.clientId, .ok (some cl)⟩ ∈ acc) :
    Calls (Justified E req) (deviceCode E (some cl) q dc) acc := by
  unfold deviceCode
  simp only
  split; · trivial
  split; · trivial
  split; · trivial
  split; · trivial
  rename_i h1 h2 h3 h4
  simp only [Prog.call, bind_op, bind_ret, pure_eq, Calls]
  refine ⟨justified_plain rfl, ?_⟩
  rintro ((_ | _) | (_ | ⟨ref, s⟩))
  · trivial
  · trivial
  · trivial
  · simp only
    cases hr : s.request with
    | none => trivial
    | some dreq =>
      simp only
      split; · trivial
      split; · trivial
      rename_i h5 h6
      simp only [Calls]
      refine ⟨justified_plain rfl, ?_⟩
      intro now
      split; · trivial
      split; · trivial
      split; · trivial
      rename_i h7 h8 h9
      cases hs : s.subject with
      | none => trivial
      | some sub =>
        simp only
        unfold deviceTokens
        simp only
        refine calls_bind (generateAccessToken_calls _ _ _ _ ?_) (done_mono (generateAccessToken_done _ _ _ _) ?_)
        · intro tr t hsub hat
          exact justified_create hq hc (hsub (by simp [hcl]))
            (.device dc ref s dreq sub now t hg (memFold_of h3) (hsub (by simp)) (hsub (by simp)) hr
              (Decidable.not_not.1 h6) (Nat.not_lt.1 h7) (Decidable.not_not.1 h9) hs (Or.inl hat))
        · intro tr res hres
          cases res with
          | none => trivial
          | some at_ =>
            obtain ⟨evs, htr, hm⟩ := hres at_ rfl
            have hcnf : at_.confirmation = q.tokenConfirmation := by
              obtain ⟨_, _, _, _, ht, _⟩ := hm; rw [ht]; rfl
            simp only
            cases hsc : s.scope with
            | none => trivial
            | some sc =>
              simp only
              split
              · rename_i hoff
                refine calls_bind (generateRefreshToken_calls _ _ _ _ ?_)
                  (done_mono (generateRefreshToken_done _ _ _ _) ?_)
                · intro tr2 t hsub hrt
                  rw [hcnf] at hrt
                  have hsub' : ∀ x, x ∈ tr → x ∈ tr2 := fun x hx => hsub hx
                  rw [htr] at hsub'
                  refine justified_create hq hc (hsub' _ (by simp [hcl]))
                    (.device dc ref s dreq sub now t hg (memFold_of h3) (hsub' _ (by simp)) (hsub' _ (by simp)) hr
                      (Decidable.not_not.1 h6) (Nat.not_lt.1 h7) (Decidable.not_not.1 h9) hs (Or.inr ⟨?_, ?_⟩))
                  · rw [hsc]; exact (contains_fields _ _).1 hoff
                  · rw [hsc]; exact hrt
                · rintro tr2 (_ | t) _ <;> trivial
              · trivial

theorem refreshToken_calls {q : TokenReq} {c0 cl : Client} (hq : req = some q) (hc : q.client = some c0)
    (v : Str) (hg : q.grant = some (.refreshToken v)) (acc : List Ev)
    (hcl : ⟨.clientsGet c0.clientId, .ok (some cl)⟩ ∈ acc) :
    Calls (Justified E req) (refreshToken E (some cl) q v) acc := by
  unfold refreshToken
  simp only
  split; · trivial
  split; · trivial
  split; · trivial
  split; · trivial
  rename_i h1 h2 h3 h4
  simp only [Prog.call, bind_op, bind_ret, pure_eq, Calls]
  refine ⟨justified_plain rfl, ?_⟩
  rintro ((_ | _) | (_ | rt))
  · trivial
  · trivial
  · trivial
  · simp only
    split; · trivial
    split; · trivial
    rename_i h5 h6
    cases hm : rt.metadata with
    | none => trivial
    | some md =>
      simp only [Calls]
      refine ⟨justified_plain rfl, ?_⟩
      intro now
      split; · trivial
      split; · trivial
      rename_i h7 h8
      unfold refreshTokens
      refine calls_bind (generateAccessToken_calls _ _ _ _ ?_) (done_mono (generateAccessToken_done _ _ _ _) ?_)
      · intro tr t hsub hat
        exact justified_create hq hc (hsub (by simp [hcl]))
          (.refresh v rt md now t hg (memFold_of h4) (hsub (by simp)) (hsub (by simp))
            (Decidable.not_not.1 h5) (Decidable.not_not.1 h6) hm (Nat.not_lt.1 h7) (Decidable.not_not.1 h8) (Or.inl hat))
      · intro tr res hres
        cases res with
        | none => trivial
        | some at_ =>
          obtain ⟨evs, htr, hmint⟩ := hres at_ rfl
          have hcnf : at_.confirmation = rt.confirmation := by
            obtain ⟨_, _, _, _, ht, _⟩ := hmint; rw [ht]; rfl
          simp only
          split
          · refine calls_bind (generateRefreshToken_calls _ _ _ _ ?_)
              (done_mono (generateRefreshToken_done _ _ _ _) ?_)
            · intro tr2 t hsub hrt
              rw [hcnf] at hrt
              have hsub' : ∀ x, x ∈ tr → x ∈ tr2 := fun x hx => hsub hx
              rw [htr] at hsub'
              exact justified_create hq hc (hsub' _ (by simp [hcl]))
                (.refresh v rt md now t hg (memFold_of h4) (hsub' _ (by simp)) (hsub' _ (by simp))
                  (Decidable.not_not.1 h5) (Decidable.not_not.1 h6) hm (Nat.not_lt.1 h7) (Decidable.not_not.1 h8)
                  (Or.inr hrt))
            · intro tr2 res2 hres2
              cases res2 with
              | none => trivial
              | some new =>
                obtain ⟨evs2, htr2, hmint2⟩ := hres2 new rfl
                obtain ⟨f1, f2, f3, f4⟩ := mintRT_facts hmint2
                simp only [Prog.call, bind_op, bind_ret, pure_eq, Calls]
                refine ⟨⟨rfl, nofun, nofun, nofun, ?_⟩, ?_⟩
                · intro i id e
                  cases e
                  exact ⟨q, v, rt, new, md, c0, cl, hq, hg, rfl, by simp [htr2, htr], rfl,
                    Decidable.not_not.1 h5, Decidable.not_not.1 h6, hm, hc, by simp [htr2, htr, hcl],
                    Decidable.not_not.1 h8, by simp [htr2, f2], f3⟩
                · rintro (_ | u) <;> trivial
          · trivial

theorem exchangeFinish_calls (q : TokenReq) (md : TokenMeta) (sc : Str) (spec : Token) (acc : List Ev)
    (h : ∀ tr v, acc ⊆ tr → v ≠ [] → Justified E req tr (.tkCreate q.issuer { spec with value := v })) :
    Calls (Justified E req) (exchangeFinish q md sc spec) acc := by
  unfold exchangeFinish
  simp only [Prog.call, bind_op, bind_ret, pure_eq, Calls]
  refine ⟨justified_plain rfl, ?_⟩
  rintro (_ | v)
  · trivial
  · simp only
    by_cases hv : v = []
    · rw [if_pos hv]; trivial
    · rw [if_neg hv]
      refine ⟨h _ v ?_ hv, ?_⟩
      · intro x hx; simp [hx]
      · rintro (_ | u) <;> trivial

theorem tokenExchange_calls {q : TokenReq} {c0 cl : Client} (hq : req = some q) (hc : q.client = some c0)
    (g : GrantExchange) (hg : q.grant = some (.tokenExchange g)) (acc : List Ev)
    (hcl : ⟨.clientsGet c0.clientId, .ok (some cl)⟩ ∈ acc) :
    Calls (Justified E req) (tokenExchange E (some cl) q g) acc := by
  unfold tokenExchange
  simp only
  split; · trivial
  split; · trivial
  split; · trivial
  split; · trivial
  split; · trivial
  split; · trivial
  rename_i h1 h2 h3 h4 h5 h6
  simp only [Prog.call, bind_op, bind_ret, pure_eq, Calls]
  refine ⟨justified_plain rfl, ?_⟩
  rintro ((_ | _) | (_ | st))
  · trivial
  · trivial
  · trivial
  · simp only
    split; · trivial
    split; · trivial
    rename_i h7 h8
    cases hm : st.metadata with
    | none => trivial
    | some md =>
      simp only [Calls]
      refine ⟨justified_plain rfl, ?_⟩
      intro now
      split; · trivial
      rename_i h9
      unfold exchangeBuild
      simp only [Prog.call, bind_op, bind_ret, pure_eq, Calls]
      refine ⟨justified_plain rfl, fun now2 => ⟨justified_plain rfl, fun jti => ?_⟩⟩
      cases ha : q.audience with
      | none =>
        refine exchangeFinish_calls _ _ _ _ _ ?_
        intro tr v hsub hv
        exact justified_create hq hc (hsub (by simp [hcl])) (.exchange g st md now now2 jti v [] hg (memFold_of h5)
          (hsub (by simp)) (hsub (by simp)) (hsub (by simp)) hv (Decidable.not_not.1 h7) (Decidable.not_not.1 h8) hm
          (Nat.not_lt.1 h9))
      | some u =>
        refine ⟨justified_plain rfl, ?_⟩
        rintro ((_ | _) | (_ | res))
        · trivial
        · trivial
        · trivial
        · refine exchangeFinish_calls _ _ _ _ _ ?_
          intro tr v hsub hv
          exact justified_create hq hc (hsub (by simp [hcl])) (.exchange g st md now now2 jti v res.urn hg (memFold_of h5)
            (hsub (by simp)) (hsub (by simp)) (hsub (by simp)) hv (Decidable.not_not.1 h7) (Decidable.not_not.1 h8) hm
            (Nat.not_lt.1 h9))

theorem token_calls (E : Env) (req : Option TokenReq) : Calls (Justified E req) (token E req) [] := by
  unfold token
  cases req with
  | none => trivial
  | some q =>
    cases hv : validateRequest (some q) with
    | some e => trivial
    | none =>
      simp only
      cases hc : q.client with
      | none => trivial
      | some c =>
        simp only [Prog.call, bind_op, bind_ret, pure_eq, Calls]
        refine ⟨justified_plain rfl, ?_⟩
        rintro ((_ | _) | client)
        · trivial
        · trivial
        · simp only
          cases client with
          | none =>
            unfold dispatch
            repeat' (first | exact True.intro | split)
          | some cl =>
            unfold dispatch
            split
            · split
              · exact clientCredentials_calls rfl hc (by assumption) _ (by simp)
              · trivial
            split
            · split
              · exact authorizationCode_calls rfl hc _ (by assumption) _ (by simp)
              · trivial
            split
            · split
              · exact deviceCode_calls rfl hc _ (by assumption) _ (by simp)
              · trivial
            split
            · split
              · exact refreshToken_calls rfl hc _ (by assumption) _ (by simp)
              · trivial
            split
            · split
              · exact tokenExchange_calls rfl hc _ (by assumption) _ (by simp)
              · trivial
            · trivial

end Verif.TokenSvc
