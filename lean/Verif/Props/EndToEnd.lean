import Verif.Spec.EndToEnd
import Verif.Proofs.HttpExec
import Verif.Props.HttpSystem
import Verif.Props.ResourceServer

/-!
C104: the example authorization server and the example resource server together.
-/
namespace Verif.Props
open Verif.Spec Verif.Prog Verif.Http Verif.ResourceServer

/-- Over HTTP a token without a subject was minted for client credentials. -/
theorem mints_credentials {S : Http.Server} {s : St} {ls : List Label} {own : Nat → Nat} {c : Http.Conf} (hE : Empty s)
    (hR : Refines S own c (run S.E s ls)) (hK : NoKeyClash S.E (run S.E s ls)) {n : Nat} {e : Entry}
    {q : TokenReq} (hq : Verif.Asked (run S.E s ls) e.tid (.token (some q)))
    {cl : Client} {iss : Str} {t : Token} (hm : TokenSvc.Mints S.E q cl (callsOf S.E e.tid ((run S.E s ls).log.take n)) iss t)
    {md : TokenMeta} (hmd : t.metadata = some md) (hs : md.subject = []) :
    q.grant = some .clientCredentials ∧ (cl.clientType = .confidential ∨ cl.clientType = .credentialed) ∧
      MemFold g!"client_credentials" cl.grantTypes ∧ t.confirmation = q.tokenConfirmation ∧ md.clientId = cl.clientId := by
  have at_ : ∀ {tr} {m : TokenMeta} {cnf}, TokenSvc.ATAt tr cl m cnf t → m.subject = [] := by
    rintro tr m cnf ⟨now, jti, v, _, _, rfl⟩; cases hmd; exact hs
  have rt_ : ∀ {tr} {m : TokenMeta} {cnf}, TokenSvc.RTAt tr cl m cnf t → m.subject = [] := by
    rintro tr m cnf ⟨now, jti, v, _, _, rfl⟩; cases hmd; exact hs
  cases hm with
  | code g sess ar _ hg hreg hget hdel hreq hok ho ht =>
    exfalso
    have h0 : sess.subject = [] := by
      rcases ht with ht | ⟨_, ht⟩
      · exact at_ ht
      · exact rt_ ht
    obtain ⟨m, e1, hmn, g1, g2, g3⟩ := mem_calls_take hget
    obtain ⟨m0, e0, i', k', c1, c2, c3, c4, c5, c6⟩ := code_origin hE.codes g1 g3
    obtain ⟨q', r, eff, cl', b1, b2, b3, b4, b5, b6, b7, b8, b9, b10⟩ := entry_csReg c2 c3
    rw [b10] at h0
    exact b3 h0
  | cc _ hg hreg hty ht =>
    obtain ⟨now, jti, v, _, _, rfl⟩ := ht
    cases hmd
    exact ⟨hg, hty, hreg, rfl, rfl⟩
  | device dc ref sess dreq sub now _ hg hreg hget hnow hreq hcl hexp hst hsub ht =>
    exfalso
    obtain ⟨m, e1, hmn, g1, g2, g3⟩ := mem_calls_take hget
    exact ((unapproved_run (E := S.E) hE.heap ls).2 m e1 g1 sess (List.mem_of_getElem? (Entry.dsGetDev_ok g3))).2 hst
  | refresh v rt m now _ hg hreg hget hnow hst hty hmd' hexp hown ht =>
    exfalso
    have h0 : m.subject = [] := by
      rcases ht with ht | ht
      · exact at_ ht
      · exact rt_ ht
    obtain ⟨k, e1, hmn, g1, g2, g3⟩ := mem_calls_take hget
    obtain ⟨m0, e0, t0, f1, f2, f3, f4, f5⟩ := token_origin' hE hK g1 g3
    obtain ⟨md0, k1, k2⟩ := C88_subject_origin S.E s ls hE hK m0 _ t0 ⟨e0, f2, f3⟩
    have : m = md0 := by
      have := f5.metadata
      rw [hmd', k1] at this
      exact Option.some.inj this
    subst this
    rcases k2 with ⟨_, _, _, k3⟩ | ⟨_, k3, _⟩
    · exact k3 h0
    · rw [← f5.tokenType, hty] at k3; cases k3
  | exchange g st m now now2 jti v aud hg hreg hget hnow hnow2 hv hst hty hmd' hexp =>
    exfalso
    obtain ⟨_, _, _, _, _, _, h⟩ := hR.client hq
    rw [hg] at h
    cases h

/-- **C104.** Any history of the authorization server, any interleaving and any failures; a
resource server whose client reports what `/introspect` answered. A request is handed on
only if it presents a token that
* the authorization server, asked by an authenticated client, called active, at a time
  within the validity it named;
* was created there, without a subject, for a `client_credentials` request that one of the two
  permitted clients, which it names, sent to `/token`, authenticated and registered as a client that can keep a secret,
  for this grant;
* is bound to no key, asked for without a proof and presented as a bearer token; or is bound
  to the key that signed the proof that came with the request for the token, and the request
  for the resource has a proof of a key with the same thumbprint too. -/
theorem C104_end_to_end (S : Http.Server) (s : St) (hls : List Http.Label) (hE : Empty s)
    (hK : NoKeyClash S.E (logOf (Http.run S s hls))) (RE : Env) (cli : Cli)
    (hcli : Reports cli (Http.run S s hls) fun _ => True) (intent : Str) (acr : List Str) (max : Nat)
    (r : ResourceServer.Req) (tr : List Ev) (h : Exec (authorizer RE cli intent acr max r) tr (.done .passed)) :
    ∃ tok i ri b now ci e t re c0 cl,
      Http.Answered (Http.run S s hls) i .introspect ri ⟨200, .introspection (some b)⟩ ∧ ri.formValue g!"token" = tok ∧
      FromClient S.P ri (callsOf S.E i (Http.run S s hls).log) ci ∧
      (⟨.now, now⟩ : Ev) ∈ callsOf S.E i (Http.run S s hls).log ∧ b.nbf ≤ seconds now ∧ seconds now ≤ b.exp ∧
      e ∈ (Http.run S s hls).log ∧ e.cmd = .tkCreate S.issuer t ∧ t.value = tok ∧
      Http.Asked (Http.run S s hls) e.tid .token re ∧ re.formValue g!"grant_type" = g!"client_credentials" ∧
      FromClient S.P re (callsOf S.E e.tid (Http.run S s hls).log) c0 ∧ s.clients c0.clientId = some cl ∧
      (cl.clientType = .confidential ∨ cl.clientType = .credentialed) ∧ MemFold g!"client_credentials" cl.grantTypes ∧
      (∃ md, t.metadata = some md ∧ md.subject = [] ∧ md.clientId = cl.clientId) ∧
      (cl.clientId = g!"t8p9duw4n2klximkv3kagaud796ul67g" ∨ cl.clientId = g!"attestation-client") ∧
      ((Presents r.authorization g!"bearer" tok ∧ t.confirmation = none ∧ re.dpop = []) ∨
       (Presents r.authorization g!"dpop" tok ∧ ∃ k, t.confirmation = some k ∧ ProvedBy S.E re.dpop k.jkt ∧
          ProvedBy RE r.dpop k.jkt)) := by
  obtain ⟨a, tok, x, m, _, hi, hact, hm, ⟨_, hid, hsub⟩, _, _, hpres⟩ := C51_accepted RE cli intent acr max r tr h
  obtain ⟨i, ri, b, _, hans, htok, hmeta, hcnf⟩ := hcli a tok x hi hact
  obtain ⟨hbs, hbc⟩ := hmeta m hm
  obtain ⟨_, ⟨ci, hci⟩, y, hy, hiff, hall⟩ := C32_endpoint S ri _ _ _ (fun id => Http.no_nil_client _ _ _ id) hans.exec
  obtain ⟨t', md, now, hyt, _, hmd, hlast, hnbf, hexp⟩ := hiff.1 rfl
  obtain ⟨t2, md2, hyt2, hmd2, rfl⟩ := hall _ rfl
  rw [hyt] at hyt2; cases hyt2
  rw [hmd] at hmd2; cases hmd2
  obtain ⟨ls, own, hR, _⟩ := C87_refines S s hls
  have hK' := hR.noKeyClash hK
  -- the call that found the token
  obtain ⟨n, e1, g1, g2, g3⟩ := mem_callsOf_iff.1 (hyt ▸ hy)
  obtain ⟨e1', g4, g5⟩ := hR.back (List.mem_of_getElem? g1) (by rw [Entry.cmd_eq g3]; rfl)
  obtain ⟨n', g6⟩ := List.getElem?_of_mem g4
  have g7 : e1'.ev S.E = ⟨.tkGetVal S.issuer (ri.formValue g!"token"), .ok (some t')⟩ := by
    rw [← g3, ← g5]; rfl
  obtain ⟨m0, e0, t0, f1, f2, f3, f4, f5⟩ := token_origin' hE hK' g6 g7
  -- its creation
  obtain ⟨q, c0, cl, a1, a2, a3, a4⟩ := entry_tkCreate f2 f3
  have hmd0 : t0.metadata = some md := by rw [← f5.metadata]; exact hmd
  have hsub' : md.subject = [] := by rw [← hsub]; exact hbs.symm
  obtain ⟨m1, m2, m3, m4, hid'⟩ := mints_credentials hE hR hK' a1 a4 hmd0 hsub'
  obtain ⟨md', re, c1, cl1, z1, _, _, z4, z5, z6, z7, _⟩ := C88_tokens_speak_for S s hls hE hK (relabel own e0)
    (hR.mem (List.mem_of_getElem? f2)) S.issuer t0 f3
  rw [hmd0] at z1; cases z1
  obtain ⟨route, re', b1, b2⟩ := hR.asked _ _ a1
  obtain ⟨rfl, rfl⟩ := b1.unique z4
  cases b2 with
  | token c2 cnf g k1 k2 k3 k4 k5 k6 =>
    cases a2
    have hcl : s.clients c0.clientId = some cl := by
      refine Verif.client_found (E := S.E) (ls := ls) (i := e0.tid) ?_
      obtain ⟨p, e2, _, w1, w2, w3⟩ := mem_calls_take a3
      exact mem_callsOf_iff.2 ⟨p, e2, w1, w2, w3⟩
    refine ⟨tok, i, ri, _, now, ci, relabel own e0, t0, re', c0, cl, hans, htok, hci, List.mem_of_getLast? hlast, hnbf, hexp,
      hR.mem (List.mem_of_getElem? f2), f3, f4.trans htok, z4, Http.formGrant_credentials k3 m1, k2, hcl, m2, m3,
      ⟨md, hmd0, hsub', hid'⟩, ?_, ?_⟩
    · have hb : m.clientId = cl.clientId := hbc.trans hid'
      rwa [hb] at hid
    · have hc0 : t0.confirmation = cnf := m4
      have hxc : x.confirmation = t0.confirmation := hcnf.trans f5.confirmation
      rcases hpres with ⟨hp, hn⟩ | ⟨hp, k, t1, t2, hk, _, hv⟩
      · rw [hxc] at hn
        refine Or.inl ⟨hp, hn, ?_⟩
        by_cases hd : re'.dpop = []
        · exact hd
        · have := k4.2 hd
          rw [← hc0, hn] at this
          cases this
      · rw [hxc] at hk
        refine Or.inr ⟨hp, k, hk, ?_, ?_⟩
        · obtain ⟨j', _, hj⟩ := k6 k (by rw [← hc0, hk])
          obtain ⟨o, ho, hx⟩ := exec_map hj.exec
          cases ho
          obtain ⟨p, key, claims, _, _, q1, _, q3, q4, q5, _⟩ := C38_accepted_proof S.E _ _ _ hx
          exact ⟨p, key, claims, q1, q3, q4, q5⟩
        · obtain ⟨p, key, claims, _, _, q1, _, q3, q4, q5, _⟩ := C38_accepted_proof RE _ _ _ hv
          exact ⟨p, key, claims, q1, q3, q4, q5⟩

/-- **C104** (revocation). Requests to the authorization server are served one after the
other; a resource server whose client reports what `/introspect` answered to requests after
the `j`-th. Once `/revoke` answered 200 to the `j`-th request, no request that presents the
token given up is handed on. -/
theorem C104_revoked (S : Http.Server) (s : St) (hls : List Http.Label) (hE : Empty s) (hs : Http.Sequential 0 hls)
    (hK : NoKeyClash S.E (logOf (Http.run S s hls))) (hF : FreshTokens (logOf (Http.run S s hls)))
    (j : Nat) (rj : Http.Req) (hj : Http.Answered (Http.run S s hls) j .revoke rj ⟨200, .empty⟩) (RE : Env) (cli : Cli)
    (hcli : Reports cli (Http.run S s hls) fun i => j < i) (intent : Str) (acr : List Str) (max : Nat)
    (r : ResourceServer.Req) (scheme : Str)
    (hp : Presents r.authorization scheme (rj.formValue g!"token")) (tr : List Ev) :
    ¬ Exec (authorizer RE cli intent acr max r) tr (.done .passed) := by
  intro h
  obtain ⟨a, tok, x, m, _, hi, hact, hm, _, _, _, hpres⟩ := C51_accepted RE cli intent acr max r tr h
  obtain ⟨i, ri, b, hij, hans, htok, _⟩ := hcli a tok x hi hact
  have : tok = rj.formValue g!"token" := by
    rcases hpres with ⟨hp', _⟩ | ⟨hp', _⟩
    · have e1 := (cut_of_presents hp).1
      rw [(cut_of_presents hp').1] at e1
      cases e1; rfl
    · have e1 := (cut_of_presents hp).1
      rw [(cut_of_presents hp').1] at e1
      cases e1; rfl
  exact (C90_revoked_for_good S s hls hE hs hK hF j rj hj i hij ri).2 (htok.trans this) b hans

/-! ### A client, an authorization server and a resource server -/

/-- Stores with a client that may read timestamps. -/
def rsStore : St :=
  { Demo.webStore with
    clients := fun id => if id = g!"good" ∨ id = g!"attestation-client" then
        some { Demo.httpClient g!"attestation-client" with clientType := .confidential }
      else if id = g!"app" then some (Demo.httpClient id) else none }

/-- The client, with a signed assertion, posts a form. -/
def rsForm (l : List (Str × Str)) (path proof : Str) : Http.Req where
  method := g!"POST"
  post := Demo.form ([(g!"client_assertion_type", g!"urn:ietf:params:oauth:client-assertion-type:jwt-bearer"),
    (g!"client_assertion", g!"assertion")] ++ l)
  dpop := proof
  target := { host := g!"as", path := path }

/-- The client gets a token of its own, with a proof of possession or without, gives one
up, and its token is asked about. -/
def rsLabels (proof : Str) (mine : List Str) (given : Str) : List Http.Label :=
  .arrive .token (rsForm [(g!"grant_type", g!"client_credentials")] g!"/token" proof) :: Demo.webCalls 0 mine ++
  .arrive .revoke (rsForm [(g!"token", given)] g!"/token/revoke" []) :: Demo.webCalls 1 [[], [], [], [], [], [], []] ++
  .tick (2 * second) :: Demo.webIntrospect 2 g!"cc"

/-- Calls without and with the check of a proof. -/
def rsBearer : List Str := [[], [], [], [], g!"id-cc", g!"cc", [], [], []]
def rsBound : List Str := [[], [], [], [], [], [], [], [], g!"id-cc", g!"cc", [], [], []]

/-- What the resource server's client makes of the answers to introspections. -/
def rsCli (c : Http.Conf) : Cli where
  assertion := some g!"assertion"
  introspect _ tok := match Http.answerTo c 2 with
    | some (.introspect, r, ⟨200, .introspection (some b)⟩) =>
      if r.formValue g!"token" = tok then
        .ok { status := .active, confirmation := b.cnf, metadata := some { subject := b.sub, clientId := b.clientId } }
      else .err
    | _ => .err

theorem rsCli_reports {c : Http.Conf} {At : Nat → Prop} (h : At 2) : Reports (rsCli c) c At := by
  intro a tok t ht hs
  simp only [rsCli] at ht
  split at ht
  · rename_i r b heq
    split at ht
    · rename_i hr
      cases ht
      exact ⟨2, r, b, h, Http.answerTo_some heq, hr, fun m hm => by cases hm; exact ⟨rfl, rfl⟩, rfl⟩
    · cases ht
  · cases ht

/-- Proofs that name the access token "cc" and the timestamp service. -/
def rsEnv : Env :=
  { Demo.env with
    parseProof := fun s => some ⟨some g!"dpop+jwt", some g!"k", fun _ => some { jti := s, htm := g!"GET", htu := g!"https://rs/", iat := 100
                                                                                ath := some (Go.b64 (Demo.env.sha256 g!"cc")) }⟩ }

/-- The hypotheses of `C104_end_to_end` hold of requests that are handed on, with a bearer
token and with a token bound to a key; another token was revoked meanwhile. -/
example : Empty rsStore ∧
    (let c := Http.run Demo.server rsStore (rsLabels [] rsBearer g!"other")
     NoKeyClash Demo.server.E (logOf c) ∧ Reports (rsCli c) c (fun _ => True) ∧
     ∃ tr, Exec (authorizer Demo.env (rsCli c) g!"timestamp:read" [] 30
      { method := g!"GET", target := { host := g!"rs", path := g!"/" }, authorization := g!"Bearer cc" }) tr (.done .passed)) ∧
    (let c := Http.run Demo.server rsStore (rsLabels g!"proof" rsBound g!"other")
     NoKeyClash Demo.server.E (logOf c) ∧ Reports (rsCli c) c (fun _ => True) ∧
     ∃ tr, Exec (authorizer rsEnv (rsCli c) g!"timestamp:read" [] 30
      { method := g!"GET", target := { host := g!"rs", path := g!"/" }, authorization := g!"DPoP cc", dpop := g!"p" }) tr (.done .passed)) := by
  refine ⟨⟨fun _ => rfl, fun _ => rfl, rfl, fun _ => rfl, fun _ => rfl, fun _ => rfl, fun _ => rfl, fun _ => rfl⟩,
    ⟨Demo.noKeyClash_of (by decide +kernel), rsCli_reports trivial, ?_⟩,
    ⟨Demo.noKeyClash_of (by decide +kernel), rsCli_reports trivial, ?_⟩⟩
  · obtain ⟨tr, a, h, h2⟩ := oracle_ex Demo.answers (authorizer Demo.env
      (rsCli (Http.run Demo.server rsStore (rsLabels [] rsBearer g!"other"))) g!"timestamp:read" [] 30
      { method := g!"GET", target := { host := g!"rs", path := g!"/" }, authorization := g!"Bearer cc" })
      (fun a => a = .passed) (by decide +kernel)
    exact ⟨tr, h2 ▸ h⟩
  · obtain ⟨tr, a, h, h2⟩ := oracle_ex Demo.answers (authorizer rsEnv
      (rsCli (Http.run Demo.server rsStore (rsLabels g!"proof" rsBound g!"other"))) g!"timestamp:read" [] 30
      { method := g!"GET", target := { host := g!"rs", path := g!"/" }, authorization := g!"DPoP cc", dpop := g!"p" })
      (fun a => a = .passed) (by decide +kernel)
    exact ⟨tr, h2 ▸ h⟩

/-- The hypotheses of `C104_revoked`: the token was revoked, then asked about. -/
example : let c := Http.run Demo.server rsStore (rsLabels [] rsBearer g!"cc")
    Http.Sequential 0 (rsLabels [] rsBearer g!"cc") ∧ NoKeyClash Demo.server.E (logOf c) ∧ FreshTokens (logOf c) ∧
    Reports (rsCli c) c (fun i => 1 < i) ∧ Presents g!"Bearer cc" g!"bearer" g!"cc" ∧
    ∃ rj, Http.Answered c 1 .revoke rj ⟨200, .empty⟩ ∧ rj.formValue g!"token" = g!"cc" := by
  refine ⟨by decide +kernel, Demo.noKeyClash_of (by decide +kernel), Demo.freshTokens_of (by decide +kernel),
    rsCli_reports (by decide), ⟨g!"Bearer", by decide, by decide, by decide⟩, ?_⟩
  obtain ⟨_, r, _, h, rfl, rfl, h2⟩ := Http.answer_ex (c := Http.run Demo.server rsStore (rsLabels [] rsBearer g!"cc")) (i := 1)
    (fun x y z => x = .revoke ∧ z = ⟨200, .empty⟩ ∧ y.formValue g!"token" = g!"cc") (by decide +kernel)
  exact ⟨r, h, h2⟩

end Verif.Props
