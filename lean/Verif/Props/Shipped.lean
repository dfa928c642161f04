import Verif.Spec.Shipped
import Verif.Props.EndToEnd
import Verif.Props.Endpoints

/-!
C105: the example server with the clients it ships with.
-/
namespace Verif.Props
open Verif.Spec Verif.Prog Verif.Http

/-- Over HTTP a token with a subject names a client registered for authorization codes. -/
theorem subject_code_client {S : Http.Server} {s : St} {ls : List Label} {own : Nat → Nat} {c : Http.Conf} (hE : Empty s)
    (hR : Refines S own c (run S.E s ls)) (hK : NoKeyClash S.E (run S.E s ls)) (n : Nat) (iss : Str) (t : Token)
    (md : TokenMeta) (h : Creates (run S.E s ls) n iss t) (hmd : t.metadata = some md) (hs : md.subject ≠ []) :
    ∃ id cl, s.clients id = some cl ∧ md.clientId = cl.clientId ∧ MemFold g!"authorization_code" cl.grantTypes := by
  induction n using Nat.strongRecOn generalizing iss t md with
  | ind n ih =>
    obtain ⟨e, he, hc⟩ := h
    obtain ⟨q, c0, cl, hq, hc0, hcl, hm⟩ := entry_tkCreate he hc
    have hreg' : s.clients c0.clientId = some cl := by
      refine Verif.client_found (E := S.E) (ls := ls) (i := e.tid) ?_
      obtain ⟨p, e2, _, w1, w2, w3⟩ := mem_calls_take hcl
      exact mem_callsOf_iff.2 ⟨p, e2, w1, w2, w3⟩
    have at_ : ∀ {tr} {m : TokenMeta} {cnf}, TokenSvc.ATAt tr cl m cnf t → md.clientId = cl.clientId ∧ md.subject = m.subject := by
      rintro tr m cnf ⟨now, jti, v, _, _, rfl⟩; cases hmd; exact ⟨rfl, rfl⟩
    have rt_ : ∀ {tr} {m : TokenMeta} {cnf}, TokenSvc.RTAt tr cl m cnf t → md.clientId = cl.clientId ∧ md.subject = m.subject := by
      rintro tr m cnf ⟨now, jti, v, _, _, rfl⟩; cases hmd; exact ⟨rfl, rfl⟩
    cases hm with
    | code g sess ar _ hg hreg hget hdel hreq hok ho ht =>
      refine ⟨_, cl, hreg', ?_, hreg⟩
      rcases ht with ht | ⟨_, ht⟩
      · exact (at_ ht).1
      · exact (rt_ ht).1
    | cc _ hg hreg hty ht => exact absurd (at_ ht).2 hs
    | device dc ref sess dreq sub now _ hg hreg hget hnow hreq hcl hexp hst hsub ht =>
      exfalso
      obtain ⟨m, e1, hmn, g1, g2, g3⟩ := mem_calls_take hget
      exact ((unapproved_run (E := S.E) hE.heap ls).2 m e1 g1 sess (List.mem_of_getElem? (Entry.dsGetDev_ok g3))).2 hst
    | refresh v rt m now _ hg hreg hget hnow hst hty hmd' hexp hown ht =>
      obtain ⟨k, e1, hmn, g1, g2, g3⟩ := mem_calls_take hget
      obtain ⟨m0, e0, t0, f1, f2, f3, f4, f5⟩ := token_origin' hE hK g1 g3
      obtain ⟨x1, x2⟩ : md.clientId = cl.clientId ∧ md.subject = m.subject := by
        rcases ht with ht | ht
        · exact at_ ht
        · exact rt_ ht
      have := ih m0 (by omega) _ t0 m ⟨e0, f2, f3⟩ (by rw [← f5.metadata]; exact hmd') (by rw [← x2]; exact hs)
      rwa [hown, ← x1] at this
    | exchange g st m now now2 jti v aud hg hreg hget hnow hnow2 hv hst hty hmd' hexp =>
      exfalso
      obtain ⟨_, _, _, _, _, _, h⟩ := hR.client hq
      rw [hg] at h
      cases h

/-- Which clients the storage knows, under which names. -/
theorem shipped_cases {id : Str} {cl : Client} (h : Registry.get id = some cl) :
    cl.clientId = id ∧ (cl = Registry.testClient ∨ cl = Registry.resourceServer ∨ cl = Registry.fooTestClient ∨
      cl = Registry.publicClient ∨ cl = Registry.attestationClient ∨ cl = Registry.attestationServer) := by
  obtain ⟨n, h⟩ : ∃ n : Nat, Registry.shipped[n]? = some (id, cl) := by
    apply List.getElem?_of_mem
    unfold Registry.get at h
    obtain ⟨l1, l2, hl, _⟩ := List.lookup_eq_some_iff.1 h
    rw [hl]; simp
  unfold Registry.shipped at h
  rcases n with _ | _ | _ | _ | _ | _ | n <;> simp at h <;> obtain ⟨rfl, rfl⟩ := h <;> exact ⟨rfl, by simp⟩

/-- Only one client may use authorization codes. -/
theorem shipped_code {id : Str} {cl : Client} (h : Registry.get id = some cl)
    (hg : MemFold g!"authorization_code" cl.grantTypes) : cl = Registry.fooTestClient := by
  rw [← contains_iff] at hg
  rcases (shipped_cases h).2 with rfl | rfl | rfl | rfl | rfl | rfl
  all_goals first | rfl | exact absurd hg (by decide +kernel)

/-- Who may use client credentials. -/
theorem shipped_credentials {id : Str} {cl : Client} (h : Registry.get id = some cl)
    (hg : MemFold g!"client_credentials" cl.grantTypes) : cl.clientId ∈ services := by
  rw [← contains_iff] at hg
  rcases (shipped_cases h).2 with rfl | rfl | rfl | rfl | rfl | rfl
  all_goals first | exact absurd hg (by decide +kernel) | decide +kernel

/-- Under which clients, and how, an authenticated request runs. -/
theorem shipped_client {S : Http.Server} {s : St} {hls : List Http.Label} (hreg : s.clients = Registry.get) {r : Http.Req} {i : Nat}
    {c0 : Client} (h : FromClient S.P r (callsOf S.E i (Http.run S s hls).log) c0) : Registry.get c0.clientId = some c0 := by
  have key : ∀ {id}, (⟨.clientsGet id, .ok (some c0)⟩ : Ev) ∈ callsOf S.E i (Http.run S s hls).log →
      Registry.get c0.clientId = some c0 := by
    intro id hid
    have := Http.client_found hid
    rw [hreg] at this
    rw [(shipped_cases this).1]; exact this
  cases h with
  | named id hq hne h hpub => exact key h
  | key a t cl now keys k hty ha hp hc hsame hnow hexp h hks hk hu hv => exact key h
  | attested att pop t1 t2 c1 c2 attester keys k k' hty ha hp1 hc1 hcnf hatt hks hk hv1 hp2 hv2 hc2 h => exact key h

/-- **C105** (tokens). The example server with the clients it ships with; any history, any
interleaving and any failures. Every token handed to the store was asked for at `/token` by
an authenticated client and names this client. Either it is for the web application and
stands for the user, who was logged in at `/authorize` with a request signed by a client that
has a key; the subject is the pseudonym all clients of the example share, or, only if the
request was signed by the attestation server, the plain name. Or it has no subject, was asked
for with the grant `client_credentials` by one of four clients; the test client gets
tokens only if bound to the key of the proof that came along. Keys are not read from empty
text. -/
theorem C105_tokens (S : Http.Server) (hP : S.P.jwks [] = none) (s : St) (hls : List Http.Label) (hE : Empty s)
    (hreg : s.clients = Registry.get) (hK : NoKeyClash S.E (logOf (Http.run S s hls))) (e : Entry)
    (he : e ∈ (Http.run S s hls).log) (iss : Str) (t : Token) (hc : e.cmd = .tkCreate iss t) :
    ∃ md r c0, t.metadata = some md ∧ iss = S.issuer ∧ md.issuer = S.issuer ∧
      Http.Asked (Http.run S s hls) e.tid .token r ∧ FromClient S.P r (callsOf S.E e.tid (Http.run S s hls).log) c0 ∧
      md.clientId = c0.clientId ∧
      ((md.clientId = webApp ∧ ∃ k rk clk ar, UserAt S s (Http.run S s hls) k rk clk g!"hello" md.subject ar ∧
          rk.get g!"client_id" ∈ keyHolders ∧
          (Lib.pairwise S.pairHash S.pairSalt g!"http://127.0.0.1:8085" g!"hello" = some md.subject ∨
           (md.subject = g!"hello" ∧ rk.get g!"client_id" = g!"urn:solid:attestation-server"))) ∨
       (md.subject = [] ∧ t.tokenType = .accessToken ∧ r.formValue g!"grant_type" = g!"client_credentials" ∧
          md.clientId ∈ services ∧
          (md.clientId = g!"t8p9duw4n2klximkv3kagaud796ul67g" →
            ∃ k, t.confirmation = some k ∧ ProvedBy S.E r.dpop k.jkt))) := by
  obtain ⟨md, r, c0, cl, z1, z2, z3, z4, z5, z6, z7, z8⟩ := C88_tokens_speak_for S s hls hE hK e he iss t hc
  have hc0 := shipped_client hreg z5
  have : cl = c0 := by rw [hreg, hc0] at z6; exact (Option.some.inj z6).symm
  subst this
  refine ⟨md, r, cl, z1, z2, z3, z4, z5, z7, ?_⟩
  obtain ⟨ls, own, hR, _⟩ := C87_refines S s hls
  have hK' := hR.noKeyClash hK
  obtain ⟨e', h1, rfl⟩ := hR.back he (by rw [hc]; rfl)
  have hc' : e'.cmd = .tkCreate iss t := hc
  obtain ⟨n, hn⟩ := List.getElem?_of_mem h1
  rcases z8 with ⟨k, rk, clk, u, ar, e0, code, cs, hu, w1, w2, w3, w4⟩ | ⟨hs, hty, _⟩
  · left
    have hlog : u = g!"hello" := hu.login.1
    subst hlog
    have hclk : Registry.get (rk.get g!"client_id") = some clk := by rw [← hreg]; exact hu.client
    have hjw : clk.jwks ≠ [] := by
      intro h0
      obtain ⟨_, keys, _, _, hk, _⟩ := hu.signed
      rw [h0, hP] at hk; cases hk
    have hne : md.subject ≠ [] := by
      intro h0
      obtain ⟨e0', g1, rfl⟩ := hR.back w1 (by rw [w3]; rfl)
      obtain ⟨m, g2⟩ := List.getElem?_of_mem g1
      obtain ⟨q', r', eff, cl', b1, b2, b3, b4, b5, b6, b7, b8, b9, b10⟩ := entry_csReg g2 w3
      rw [b10] at w4
      exact b3 (w4.trans h0)
    obtain ⟨id, cl2, v1, v2, v3⟩ := subject_code_client hE hR hK' n iss t md ⟨e', hn, hc'⟩ z1 hne
    rw [hreg] at v1
    have hfoo := shipped_code v1 v3
    refine ⟨by rw [v2, hfoo]; rfl, k, rk, clk, ar, hu, ?_⟩
    have hkn := hu.known
    rw [← (shipped_cases hclk).1]
    unfold KnownAs at hkn
    rcases (shipped_cases hclk).2 with rfl | rfl | rfl | rfl | rfl | rfl
    · exact ⟨by decide +kernel, Or.inl (hkn.elim (fun h => absurd rfl h.1) (·.2))⟩
    · exact ⟨by decide +kernel, Or.inl (hkn.elim (fun h => absurd rfl h.1) (·.2))⟩
    · exact ⟨by decide +kernel, Or.inl (hkn.elim (fun h => absurd rfl h.1) (·.2))⟩
    · exact absurd rfl hjw
    · exact absurd rfl hjw
    · exact ⟨by decide +kernel, Or.inr ⟨hkn.elim (·.2) (fun h => absurd h.1 (by decide +kernel)), rfl⟩⟩
  · right
    obtain ⟨q, c1, cl1, a1, a2, a3, a4⟩ := entry_tkCreate hn hc'
    obtain ⟨m1, m2, m3, m4, hid'⟩ := mints_credentials hE hR hK' a1 a4 z1 hs
    obtain ⟨route, re', b1, b2⟩ := hR.asked _ _ a1
    obtain ⟨rfl, rfl⟩ := b1.unique z4
    cases b2 with
    | token c2 cnf g k1 k2 k3 k4 k5 k6 =>
      cases a2
      have hcl1 : s.clients c1.clientId = some cl1 := by
        refine Verif.client_found (E := S.E) (ls := ls) (i := e'.tid) ?_
        obtain ⟨p, e2, _, w1, w2, w3⟩ := mem_calls_take a3
        exact mem_callsOf_iff.2 ⟨p, e2, w1, w2, w3⟩
      have hc1 := shipped_client hreg k2
      have : cl1 = c1 := by rw [hreg, hc1] at hcl1; exact (Option.some.inj hcl1).symm
      subst this
      refine ⟨hs, hty, Http.formGrant_credentials k3 m1, by rw [hid']; exact shipped_credentials hc1 m3, fun ht => ?_⟩
      rw [hid'] at ht
      have hb : cl1.dpopBoundAccessTokens = true := by
        rw [ht] at hc1
        have : Registry.get g!"t8p9duw4n2klximkv3kagaud796ul67g" = some Registry.testClient := by decide +kernel
        rw [this] at hc1
        cases hc1; rfl
      have hd : re'.dpop ≠ [] := fun h0 => by rw [k5 h0] at hb; cases hb
      obtain ⟨k, hk⟩ := Option.isSome_iff_exists.1 (k4.2 hd)
      refine ⟨k, m4.trans hk, ?_⟩
      obtain ⟨j', _, hj⟩ := k6 k hk
      obtain ⟨o, ho, hx⟩ := exec_map hj.exec
      cases ho
      obtain ⟨p, key, claims, _, _, q1, _, q3, q4, q5, _⟩ := C38_accepted_proof S.E _ _ _ hx
      exact ⟨p, key, claims, q1, q3, q4, q5⟩

/-- **C105** (answers of `/token`). Tokens are handed out to the web application, and with the
grant `client_credentials` to three more clients: never to the public client, nor to the
attestation server. -/
theorem C105_answers (S : Http.Server) (hP : S.P.jwks [] = none) (s : St) (hls : List Http.Label) (hE : Empty s)
    (hreg : s.clients = Registry.get) (hK : NoKeyClash S.E (logOf (Http.run S s hls))) (i : Nat) (r : Http.Req) (b : TokenBody)
    (h : Http.Answered (Http.run S s hls) i .token r ⟨200, .tokens b⟩) :
    ∃ c0, FromClient S.P r (callsOf S.E i (Http.run S s hls).log) c0 ∧
      (c0.clientId = webApp ∨ (c0.clientId ∈ services ∧ r.formValue g!"grant_type" = g!"client_credentials")) := by
  obtain ⟨iss, t, md, now, h1, _⟩ := C81_lifetime S r _ _ b (fun id => Http.no_nil_client _ _ _ id) h.exec
  obtain ⟨n, e, g1, rfl, g3⟩ := mem_callsOf_iff.1 h1
  obtain ⟨md', r', c0, _, _, _, z4, z5, z6, z7⟩ := C105_tokens S hP s hls hE hreg hK e (List.mem_of_getElem? g1) iss t
    (Entry.cmd_eq g3)
  obtain ⟨-, rfl⟩ := z4.unique h.asked
  refine ⟨c0, z5, ?_⟩
  rcases z7 with ⟨h, _⟩ | ⟨_, _, h1, h2, _⟩
  · exact Or.inl (z6 ▸ h)
  · exact Or.inr ⟨z6 ▸ h2, h1⟩

/-- **C105** (answers of `/authorize`). Codes go, in the query, to the one registered
address, up to letter case, for requests signed by a client that has a key. -/
theorem C105_authorize (S : Http.Server) (hP : S.P.jwks [] = none) (s : St) (hls : List Http.Label)
    (hreg : s.clients = Registry.get) (i : Nat) (r : Http.Req) (st : Nat) (u : Str) (d : Delivery) (content : Str)
    (h : Http.Answered (Http.run S s hls) i .authorize r ⟨st, .authorization u d content⟩) :
    st = 302 ∧ d = .queryJWT ∧ SameFold u g!"http://127.0.0.1:8085/oidc/as/127.0.0.1" ∧
      r.get g!"client_id" ∈ keyHolders ∧
      ∃ code sess eff n, (⟨.csReg S.issuer code sess, .ok n⟩ : Ev) ∈ callsOf S.E i (Http.run S s hls).log ∧
        sess.request = some eff ∧ eff.clientId = webApp := by
  obtain ⟨_, _, client, ar, sub, res, n, sess, a, eff, now, k1, k2, k3, k4, k5, k6, k7, k8, k9, k10, k11, hu, hd, _, _, cl, reg,
    hcl, hm, hs⟩ := authorization_facts h.exec
  have hc1 := Http.client_found hcl
  have hc2 := Http.client_found k1
  rw [hreg] at hc1 hc2
  obtain ⟨w1, w2⟩ := shipped_cases hc1
  have hfoo : cl = Registry.fooTestClient := by
    rcases w2 with rfl | rfl | rfl | rfl | rfl | rfl
    all_goals first | rfl | cases hm
  subst hfoo
  have e2 := congrArg AuthzRequest.clientId k7.rest
  dsimp only at e2
  refine ⟨k11, hd, ?_, ?_, res.code, sess, eff, n, k4, k6, ?_⟩
  · rcases hm with _ | ⟨_, hm⟩
    · exact hs
    · cases hm
  · obtain ⟨_, keys, _, _, hk, _⟩ := decodeRequest_some k2
    rw [← (shipped_cases hc2).1]
    rcases (shipped_cases hc2).2 with rfl | rfl | rfl | rfl | rfl | rfl
    all_goals first | decide +kernel | (rw [show Client.jwks _ = [] from rfl, hP] at hk; cases hk)
  · rw [e2, ← w1]; rfl

/-- **C105** (codes). Codes are stored for the web application only, for the response type `code`, the
registered address up to letter case and, if the request names a response mode, a signed answer. -/
theorem C105_codes (S : Http.Server) (s : St) (hls : List Http.Label) (hreg : s.clients = Registry.get) (e : Entry)
    (he : e ∈ (Http.run S s hls).log) (iss code : Str) (cs : CodeSession) (hc : e.cmd = .csReg iss code cs) :
    ∃ eff, cs.request = some eff ∧ eff.clientId = webApp ∧ eff.responseType = g!"code" ∧
      SameFold eff.redirectUri g!"http://127.0.0.1:8085/oidc/as/127.0.0.1" ∧
      (eff.responseMode = none ∨ eff.responseMode = some g!"query.jwt") := by
  obtain ⟨ls, own, hR, _⟩ := C87_refines S s hls
  obtain ⟨e', h1, rfl⟩ := hR.back he (by rw [hc]; rfl)
  have hc' : e'.cmd = .csReg iss code cs := hc
  obtain ⟨n, hn⟩ := List.getElem?_of_mem h1
  obtain ⟨q, r, eff, cl, b1, b2, b3, b4, b5, b6, b7, b8, b9, b10⟩ := entry_csReg hn hc'
  have hcl : s.clients r.clientId = some cl := by
    refine Verif.client_found (E := S.E) (ls := ls) (i := e'.tid) ?_
    obtain ⟨p, e2, _, w1, w2, w3⟩ := mem_calls_take b7
    exact mem_callsOf_iff.2 ⟨p, e2, w1, w2, w3⟩
  rw [hreg] at hcl
  obtain ⟨w1, w2⟩ := shipped_cases hcl
  have hfoo : cl = Registry.fooTestClient := by
    obtain ⟨x, hx, _⟩ := b8.redirectUri
    rcases w2 with rfl | rfl | rfl | rfl | rfl | rfl
    all_goals first | rfl | cases hx
  subst hfoo
  have one : ∀ {x a : Str}, MemFold x [a] → SameFold x a := by
    rintro x a ⟨y, hy, hs⟩
    rw [List.mem_singleton] at hy
    exact hy ▸ hs
  have hrt : r.responseType = g!"code" := by
    rcases b5.responseType with h | h
    · exact h
    · have := one b8.responseType
      rw [h] at this
      exact absurd this (by decide +kernel)
  have e1 : eff.clientId = r.clientId := (congrArg AuthzRequest.clientId b6.rest :)
  have e2 : eff.responseType = r.responseType := (congrArg AuthzRequest.responseType b6.rest :)
  have e3 : eff.redirectUri = r.redirectUri := (congrArg AuthzRequest.redirectUri b6.rest :)
  refine ⟨eff, by rw [b10], by rw [e1, ← w1]; rfl, e2.trans hrt, by rw [e3]; exact one b8.redirectUri, ?_⟩
  rw [b6.mode, hrt]
  cases hm : r.responseMode with
  | none => exact Or.inl rfl
  | some m =>
    right
    have h2 := one (b8.responseMode m hm)
    have h1 := b5.responseMode m hm
    rw [hrt] at h2
    simp only [List.mem_cons, List.not_mem_nil, or_false] at h1
    rcases h1 with rfl | rfl | rfl | rfl | rfl | rfl | rfl
    all_goals first | rfl | exact absurd h2 (by decide +kernel)

/-- **C105** (names). Without an assertion a request is taken for one of the public client or of the
attestation server. -/
theorem C105_named (S : Http.Server) (s : St) (hls : List Http.Label) (hreg : s.clients = Registry.get) (i : Nat) (r : Http.Req)
    (c0 : Client) (h : FromClient S.P r (callsOf S.E i (Http.run S s hls).log) c0)
    (ha : r.post g!"client_assertion" = none) :
    r.query g!"client_id" = some c0.clientId ∧ (c0 = Registry.publicClient ∨ c0 = Registry.attestationServer) := by
  have hc0 := shipped_client hreg h
  cases h with
  | named id hq hne h hpub =>
    have h2 := Http.client_found h
    rw [hreg] at h2
    refine ⟨by rw [(shipped_cases h2).1]; exact hq, ?_⟩
    rcases (shipped_cases hc0).2 with rfl | rfl | rfl | rfl | rfl | rfl
    all_goals first | exact Or.inl rfl | exact Or.inr rfl | cases hpub
  | key a t cl now keys k hty ha' => rw [ha] at ha'; cases ha'
  | attested att pop t1 t2 c1 c2 attester keys k key hty ha' => rw [ha] at ha'; cases ha'

/-- **C105** (attestation). The client without a key of its own authenticates only with an
attestation signed by a key of a client that has one, and a proof of the attested key. -/
theorem C105_attested (S : Http.Server) (hP : S.P.jwks [] = none) (s : St) (hls : List Http.Label)
    (hreg : s.clients = Registry.get) (i : Nat) (r : Http.Req) (c0 : Client)
    (h : FromClient S.P r (callsOf S.E i (Http.run S s hls).log) c0) (hid : c0.clientId = g!"attestation-client") :
    ∃ att pop t1 t2 c1 c2 attester keys k key, r.post g!"client_assertion" = some (att ++ g!"~" ++ pop) ∧
      S.P.parse att = some t1 ∧ S.P.attClaims t1.payload = some c1 ∧ c1.cnf = some (some key) ∧
      Registry.get c1.iss = some attester ∧ c1.iss ∈ keyHolders ∧ S.P.jwks attester.jwks = some keys ∧ k ∈ keys ∧
      t1.verifies k = true ∧ S.P.parse pop = some t2 ∧ t2.verifies key = true ∧ S.P.popClaims t2.payload = some c2 ∧
      c2.iss = g!"attestation-client" := by
  have hc0 := shipped_client hreg h
  rw [hid, show Registry.get g!"attestation-client" = some Registry.attestationClient by decide +kernel] at hc0
  cases hc0
  cases h with
  | named id hq hne h hpub => cases hpub
  | key a t cl now keys k hty ha hp hc hsame hnow hexp h hks hk hu hv =>
    rw [show Registry.attestationClient.jwks = [] from rfl, hP] at hks; cases hks
  | attested att pop t1 t2 c1 c2 attester keys k key hty ha hp1 hc1 hcnf hatt hks hk hv1 hp2 hv2 hc2 h =>
    have ha1 := Http.client_found hatt
    have ha2 := Http.client_found h
    rw [hreg] at ha1 ha2
    refine ⟨att, pop, t1, t2, c1, c2, attester, keys, k, key, ha, hp1, hc1, hcnf, ha1, ?_, hks, hk, hv1, hp2, hv2, hc2,
      (shipped_cases ha2).1.symm⟩
    rw [← (shipped_cases ha1).1]
    rcases (shipped_cases ha1).2 with rfl | rfl | rfl | rfl | rfl | rfl
    all_goals first | decide +kernel | (rw [show Client.jwks _ = [] from rfl, hP] at hks; cases hks)

/-- **C105** (the resource server). Behind the example resource server, requests with a bearer
token are those of the attested client; the test client needs a proof of its key, for the
token and for the resource. -/
theorem C105_resource (S : Http.Server) (hP : S.P.jwks [] = none) (s : St) (hls : List Http.Label) (hE : Empty s)
    (hreg : s.clients = Registry.get) (hK : NoKeyClash S.E (logOf (Http.run S s hls))) (RE : Env) (cli : ResourceServer.Cli)
    (hcli : Reports cli (Http.run S s hls) fun _ => True) (intent : Str) (acr : List Str) (max : Nat)
    (r : ResourceServer.Req) (tr : List Ev)
    (h : Exec (ResourceServer.authorizer RE cli intent acr max r) tr (.done .passed)) :
    ∃ e t re c0, e ∈ (Http.run S s hls).log ∧ e.cmd = .tkCreate S.issuer t ∧
      Http.Asked (Http.run S s hls) e.tid .token re ∧ re.formValue g!"grant_type" = g!"client_credentials" ∧
      FromClient S.P re (callsOf S.E e.tid (Http.run S s hls).log) c0 ∧
      ((c0 = Registry.attestationClient ∧ Presents r.authorization g!"bearer" t.value ∧ t.confirmation = none) ∨
       ((c0 = Registry.attestationClient ∨ c0 = Registry.testClient) ∧ Presents r.authorization g!"dpop" t.value ∧
          ∃ k, t.confirmation = some k ∧ ProvedBy S.E re.dpop k.jkt ∧ ProvedBy RE r.dpop k.jkt)) := by
  obtain ⟨tok, i, ri, b, now, ci, e, t, re, c0, cl, _, _, _, _, _, _, k1, k2, rfl, k4, k5, k6, k7, _, _, km, k8, k9⟩ :=
    C104_end_to_end S s hls hE hK RE cli hcli intent acr max r tr h
  have hc0 := shipped_client hreg k6
  have : cl = c0 := by rw [hreg, hc0] at k7; exact (Option.some.inj k7).symm
  subst this
  have hc : cl = Registry.attestationClient ∨ cl = Registry.testClient := by
    rcases k8 with k8 | k8 <;> rw [k8] at hc0
    · rw [show Registry.get g!"t8p9duw4n2klximkv3kagaud796ul67g" = some Registry.testClient by decide +kernel] at hc0
      cases hc0; exact Or.inr rfl
    · rw [show Registry.get g!"attestation-client" = some Registry.attestationClient by decide +kernel] at hc0
      cases hc0; exact Or.inl rfl
  refine ⟨e, t, re, cl, k1, k2, k4, k5, k6, ?_⟩
  rcases k9 with ⟨h1, h2, h3⟩ | ⟨h1, h2⟩
  · refine Or.inl ⟨hc.resolve_right ?_, h1, h2⟩
    rintro rfl
    obtain ⟨md, m1, _, m3⟩ := km
    obtain ⟨md', _, _, z1, _, _, _, _, _, z2⟩ := C105_tokens S hP s hls hE hreg hK e k1 _ t k2
    rw [m1] at z1; cases z1
    rcases z2 with ⟨z2, _⟩ | ⟨_, _, _, _, z2⟩
    · rw [m3] at z2; exact absurd z2 (by decide +kernel)
    · obtain ⟨k, hk, _⟩ := z2 m3
      rw [h2] at hk; cases hk
  · exact Or.inr ⟨hc, h1, h2⟩

/-! ### The server at work -/

/-- Stores with the clients shipped. -/
def shippedStore : St := { Demo.webStore with clients := Registry.get }

/-- The text of a key set stands for its key; assertions are named by literals. -/
def shippedServer : Http.Server :=
  { Demo.server with
    pairSalt := g!"0123456789abcdef"
    P := {
      parse := fun s =>
        if s = g!"web" then some { payload := s, verifies := fun k => k.key == Registry.fooTestClient.jwks }
        else if s = g!"test" then some { payload := s, verifies := fun k => k.key == Registry.testClient.jwks }
        else if s = g!"att" then some { payload := s, verifies := fun k => k.key == Registry.attestationServer.jwks }
        else if s = g!"pop" then some { payload := s, verifies := fun k => k.key == g!"instance" }
        else none
      privClaims := fun s =>
        let id := if s = g!"web" then webApp else g!"t8p9duw4n2klximkv3kagaud796ul67g"
        some { jti := g!"1", sub := id, iss := id, aud := g!"https://as", exp := 1000 }
      attClaims := fun _ => some { iss := g!"urn:solid:attestation-server", sub := g!"attestation-client", exp := 1000
                                   cnf := some (some { key := g!"instance" }) }
      popClaims := fun _ => some { iss := g!"attestation-client", aud := g!"https://as", exp := 1000, jti := g!"1" }
      jwks := fun s => if s = [] then none else some [{ key := s }] }
    requestParse := fun s => some { payload := s, verifies := fun k => k.key == Registry.fooTestClient.jwks }
    requestDec := fun s => if s = g!"ro" then some { Demo.request with
      clientId := webApp, redirectUri := g!"http://127.0.0.1:8085/oidc/as/127.0.0.1", responseMode := none } else none }

/-- A client posts a form with an assertion. -/
def shippedForm (kind assertion : Str) (l : List (Str × Str)) (path proof : Str) : Http.Req where
  method := g!"POST"
  post := Demo.form ([(g!"client_assertion_type", g!"urn:ietf:params:oauth:client-assertion-type:" ++ kind),
    (g!"client_assertion", assertion)] ++ l)
  dpop := proof
  target := { host := g!"as", path := path }

/-- The user logs in and the web application gets tokens; the test client gets one bound to
its key, the attested client a bearer token, which is asked about. -/
def shippedLabels : List Http.Label :=
  .arrive .authorize { Demo.webLogin with query := Demo.form [(g!"client_id", webApp), (g!"request", g!"ro")] } ::
    Demo.webCalls 0 [[], [], g!"c0de", [], [], []] ++
  .arrive .token (shippedForm g!"jwt-bearer" g!"web" [(g!"grant_type", g!"authorization_code"), (g!"code", g!"c0de"),
    (g!"redirect_uri", g!"http://127.0.0.1:8085/oidc/as/127.0.0.1"), (g!"code_verifier", Demo.verifier)] g!"/token" []) ::
    Demo.webCalls 1 [[], [], [], [], [], [], g!"id-at", g!"at", [], [], g!"id-rt", g!"rt", [], []] ++
  .arrive .token (shippedForm g!"jwt-bearer" g!"test" [(g!"grant_type", g!"client_credentials")] g!"/token" g!"proof") ::
    Demo.webCalls 2 [[], [], [], [], [], [], [], [], g!"id-dt", g!"dt", [], [], []] ++
  .arrive .token (shippedForm g!"jwt-client-attestation" g!"att~pop" [(g!"grant_type", g!"client_credentials")] g!"/token" []) ::
    Demo.webCalls 3 [[], [], [], [], [], [], [], [], g!"id-cc", g!"cc", [], [], []] ++
  .tick (2 * second) ::
  .arrive .introspect (shippedForm g!"jwt-bearer" g!"web" [(g!"token", g!"cc")] g!"/token/introspect" []) ::
    Demo.webCalls 4 [[], [], [], [], [], []]

/-- The hypotheses of `C105_tokens`, `C105_answers`, `C105_authorize` and `C105_attested` hold of a
history in which tokens of all three kinds are created. -/
example : shippedServer.P.jwks [] = none ∧ Empty shippedStore ∧ shippedStore.clients = Registry.get ∧
    (let c := Http.run shippedServer shippedStore shippedLabels
     NoKeyClash shippedServer.E (logOf c) ∧
     (∃ r u d x, Http.Answered c 0 .authorize r ⟨302, .authorization u d x⟩) ∧
     (∀ i ∈ [1, 2, 3], ∃ r b, Http.Answered c i .token r ⟨200, .tokens b⟩) ∧
     (∃ i r, FromClient shippedServer.P r (callsOf shippedServer.E i c.log) Registry.attestationClient) ∧
     (∃ e ∈ c.log, ∃ i t md, e.cmd = .tkCreate i t ∧ t.metadata = some md ∧ md.clientId = webApp ∧ md.subject ≠ []) ∧
     ∃ e ∈ c.log, ∃ i t md, e.cmd = .tkCreate i t ∧ t.metadata = some md ∧ t.confirmation = some ⟨g!"k"⟩ ∧
       md.clientId = g!"t8p9duw4n2klximkv3kagaud796ul67g") := by
  refine ⟨by decide, ⟨fun _ => rfl, fun _ => rfl, rfl, fun _ => rfl, fun _ => rfl, fun _ => rfl, fun _ => rfl, fun _ => rfl⟩, rfl,
    Demo.noKeyClash_of (by decide +kernel), ?_, ?_, ?_, ?_, ?_⟩
  · obtain ⟨_, r, a, h, rfl, h1, h2⟩ := Http.answer_ex (c := Http.run shippedServer shippedStore shippedLabels) (i := 0)
      (fun x _ z => x = .authorize ∧ z.status = 302 ∧ z.authorization?.isSome = true) (by decide +kernel)
    obtain ⟨⟨u, d, x⟩, h3⟩ := Option.isSome_iff_exists.1 h2
    obtain ⟨st, rfl⟩ : ∃ st, a = ⟨st, .authorization u d x⟩ := ⟨a.status, by rw [← authorization?_eq h3]⟩
    cases h1
    exact ⟨r, u, d, x, h⟩
  · have key : ∀ i, (∃ x y z, Http.Answered (Http.run shippedServer shippedStore shippedLabels) i x y z ∧ x = .token ∧
        z.status = 200 ∧ z.tokens?.isSome = true) →
        ∃ r b, Http.Answered (Http.run shippedServer shippedStore shippedLabels) i .token r ⟨200, .tokens b⟩ := by
      rintro i ⟨_, r, a, h, rfl, h1, h2⟩
      obtain ⟨b, h3⟩ := Option.isSome_iff_exists.1 h2
      obtain rfl := Http.Resp.tokens?_eq h3
      exact ⟨r, b, h⟩
    intro i hi
    simp only [List.mem_cons, List.not_mem_nil, or_false] at hi
    rcases hi with rfl | rfl | rfl <;> refine key _ (Http.answer_ex _ (by decide +kernel))
  · have h : ((Http.run shippedServer shippedStore shippedLabels).log.any fun e => match e.cmd with
        | .tkCreate _ t => decide (t.metadata.any (fun m => decide (m.clientId = g!"attestation-client")) = true)
        | _ => false) = true := by decide +kernel
    obtain ⟨e, he, h1⟩ := List.any_eq_true.1 h
    split at h1
    · rename_i i t hc
      obtain ⟨md, hm, h2⟩ := (Option.any_eq_true _ _).1 (of_decide_eq_true h1)
      obtain ⟨md', r, c0, z1, _, _, _, z5, z6, _⟩ := C105_tokens shippedServer (by decide) shippedStore shippedLabels
        ⟨fun _ => rfl, fun _ => rfl, rfl, fun _ => rfl, fun _ => rfl, fun _ => rfl, fun _ => rfl, fun _ => rfl⟩ rfl
        (Demo.noKeyClash_of (by decide +kernel)) e he i t hc
      rw [hm] at z1; cases z1
      have hc0 := shipped_client rfl z5
      rw [← z6, of_decide_eq_true h2,
        show Registry.get g!"attestation-client" = some Registry.attestationClient by decide +kernel] at hc0
      cases hc0
      exact ⟨_, r, z5⟩
    · cases h1
  · have h : ((Http.run shippedServer shippedStore shippedLabels).log.any fun e => match e.cmd with
        | .tkCreate _ t => decide (t.metadata.any (fun m => decide (m.clientId = webApp ∧ m.subject ≠ [])) = true)
        | _ => false) = true := by decide +kernel
    obtain ⟨e, he, h1⟩ := List.any_eq_true.1 h
    split at h1
    · rename_i i t hc
      obtain ⟨md, hm, h2⟩ := (Option.any_eq_true _ _).1 (of_decide_eq_true h1)
      exact ⟨e, he, i, t, md, hc, hm, of_decide_eq_true h2⟩
    · cases h1
  · have h : ((Http.run shippedServer shippedStore shippedLabels).log.any fun e => match e.cmd with
        | .tkCreate _ t => decide (t.confirmation = some ⟨g!"k"⟩ ∧ t.metadata.any (fun m => decide (m.clientId =
            g!"t8p9duw4n2klximkv3kagaud796ul67g")) = true)
        | _ => false) = true := by decide +kernel
    obtain ⟨e, he, h1⟩ := List.any_eq_true.1 h
    split at h1
    · rename_i i t hc
      obtain ⟨h0, h1⟩ := of_decide_eq_true h1
      obtain ⟨md, hm, h2⟩ := (Option.any_eq_true _ _).1 h1
      exact ⟨e, he, i, t, md, hc, hm, h0, of_decide_eq_true h2⟩
    · cases h1

/-- What the resource server's client makes of the answer to the introspection. -/
def shippedCli : ResourceServer.Cli where
  assertion := some g!"assertion"
  introspect _ tok := match Http.answerTo (Http.run shippedServer shippedStore shippedLabels) 4 with
    | some (.introspect, r, ⟨200, .introspection (some b)⟩) =>
      if r.formValue g!"token" = tok then
        .ok { status := .active, confirmation := b.cnf, metadata := some { subject := b.sub, clientId := b.clientId } }
      else .err
    | _ => .err

/-- The hypotheses of `C105_resource` hold of a request that is handed on. -/
example : Reports shippedCli (Http.run shippedServer shippedStore shippedLabels) (fun _ => True) ∧
    ∃ tr, Exec (ResourceServer.authorizer Demo.env shippedCli g!"timestamp:read" [] 30
      { method := g!"GET", target := { host := g!"rs", path := g!"/" }, authorization := g!"Bearer cc" }) tr (.done .passed) := by
  refine ⟨?_, ?_⟩
  · intro a tok t ht hs
    simp only [shippedCli] at ht
    split at ht
    · rename_i r b heq
      split at ht
      · rename_i hr
        cases ht
        exact ⟨4, r, b, trivial, Http.answerTo_some heq, hr, fun m hm => by cases hm; exact ⟨rfl, rfl⟩, rfl⟩
      · cases ht
    · cases ht
  · obtain ⟨tr, a, h, h2⟩ := oracle_ex Demo.answers (ResourceServer.authorizer Demo.env shippedCli g!"timestamp:read" [] 30
      { method := g!"GET", target := { host := g!"rs", path := g!"/" }, authorization := g!"Bearer cc" })
      (fun a => a = .passed) (by decide +kernel)
    exact ⟨tr, h2 ▸ h⟩

/-- Then somebody asks about the token of the web application, naming `id`. -/
def askAs (id : Str) : List Http.Label := shippedLabels ++
  .arrive .introspect { Demo.webForm [(g!"token", g!"at")] with query := Demo.form [(g!"client_id", id)] } ::
    Demo.webCalls 5 [[], [], [], []]

/-- The answer tells who the user of the web application is. -/
def tellsUser : Http.Resp → Bool
  | ⟨200, .introspection (some b)⟩ => decide (b.clientId = webApp ∧
      Lib.pairwise shippedServer.pairHash shippedServer.pairSalt g!"http://127.0.0.1:8085" g!"hello" = some b.sub)
  | _ => false

theorem askedAs {id : Str}
    (h : (Http.answerTo (Http.run shippedServer shippedStore (askAs id)) 5).any (fun x => decide (x.1 = .introspect ∧
      x.2.1.query g!"client_id" = some id ∧ x.2.1.post g!"client_assertion" = none ∧ x.2.1.basic = none ∧ x.2.1.dpop = [] ∧
      tellsUser x.2.2 = true)) = true)
    (hk : NoKeyClash shippedServer.E (logOf (Http.run shippedServer shippedStore (askAs id)))) :
    ∃ (S : Http.Server) (s : St) (hls : List Http.Label) (i : Nat) (r : Http.Req) (b : ActiveBody),
    S.P.jwks [] = none ∧ Empty s ∧ s.clients = Registry.get ∧ NoKeyClash S.E (logOf (Http.run S s hls)) ∧
    r.query g!"client_id" = some id ∧ r.post g!"client_assertion" = none ∧ r.basic = none ∧ r.dpop = [] ∧
    Http.Answered (Http.run S s hls) i .introspect r ⟨200, .introspection (some b)⟩ ∧ b.clientId = webApp ∧
    Lib.pairwise S.pairHash S.pairSalt g!"http://127.0.0.1:8085" g!"hello" = some b.sub := by
  obtain ⟨_, r, a, h, rfl, h0, h1, h2, h3, h4⟩ := Http.answer_ex (c := Http.run shippedServer shippedStore (askAs id)) (i := 5)
    (fun x y z => x = .introspect ∧ y.query g!"client_id" = some id ∧ y.post g!"client_assertion" = none ∧ y.basic = none ∧
      y.dpop = [] ∧ tellsUser z = true) h
  unfold tellsUser at h4
  split at h4
  · rename_i b
    exact ⟨shippedServer, shippedStore, askAs id, 5, r, b, by decide,
      ⟨fun _ => rfl, fun _ => rfl, rfl, fun _ => rfl, fun _ => rfl, fun _ => rfl, fun _ => rfl, fun _ => rfl⟩, rfl,
      hk, h0, h1, h2, h3, h, of_decide_eq_true h4⟩
  · cases h4

/-- The hypotheses of `C105_codes` and `C105_named` hold in the examples: a code is stored, and a request
without assertion is taken for one of the public client. -/
example : (∃ e ∈ (Http.run shippedServer shippedStore shippedLabels).log, ∃ iss code cs, e.cmd = .csReg iss code cs) ∧
    ∃ r, r.post g!"client_assertion" = none ∧ FromClient shippedServer.P r
      (callsOf shippedServer.E 5 (Http.run shippedServer shippedStore (askAs g!"public-client")).log) Registry.publicClient := by
  constructor
  · have h : ((Http.run shippedServer shippedStore shippedLabels).log.any fun e => match e.cmd with
        | .csReg .. => true
        | _ => false) = true := by decide +kernel
    obtain ⟨e, he, h1⟩ := List.any_eq_true.1 h
    split at h1
    · rename_i hc
      exact ⟨e, he, _, _, _, hc⟩
    · cases h1
  · have h : ((Http.run shippedServer shippedStore (askAs g!"public-client")).log.any fun e =>
        decide (e.tid = 5 ∧ e.choice.fault = .none) && match e.cmd with
        | .clientsGet id => decide (id = g!"public-client")
        | _ => false) = true := by decide +kernel
    obtain ⟨e, he, h1⟩ := List.any_eq_true.1 h
    have hpre := (Http.clients_const shippedServer shippedStore (askAs g!"public-client")).2 e he
    obtain ⟨n, hn⟩ := List.getElem?_of_mem he
    rw [Bool.and_eq_true] at h1
    obtain ⟨h1, h2⟩ := h1
    obtain ⟨h1, h3⟩ := of_decide_eq_true h1
    split at h2
    · rename_i id hc
      obtain rfl := of_decide_eq_true h2
      refine ⟨{ Demo.webForm [(g!"token", g!"at")] with query := Demo.form [(g!"client_id", g!"public-client")] },
        by decide +kernel, .named g!"public-client" (by decide +kernel) (by decide)
        (mem_callsOf_iff.2 ⟨n, e, hn, h1, ?_⟩) rfl⟩
      clear hn he h
      obtain ⟨tid, cmd, ⟨f, str⟩, pre⟩ := e
      simp only at hc h3 hpre
      subst hc; subst h3
      have hg : pre.clients g!"public-client" = some Registry.publicClient := by rw [hpre]; decide +kernel
      simp only [Entry.ev, Entry.res, Store.exec, Store.faulty, hg, Store.found]
    · cases h2

/-- **C105** (disagreement). With the clients shipped anybody who has a token learns whom it
stands for and until when: a request to `/introspect` that merely names the public client, or the
attestation server, is answered, without assertion, password or proof. RFC 7662 asks for some form of
authorization. -/
theorem C105_open_introspection (id : Str) (hid : id ∈ [g!"public-client", g!"urn:solid:attestation-server"]) :
    ∃ (S : Http.Server) (s : St) (hls : List Http.Label) (i : Nat) (r : Http.Req) (b : ActiveBody),
    S.P.jwks [] = none ∧ Empty s ∧ s.clients = Registry.get ∧ NoKeyClash S.E (logOf (Http.run S s hls)) ∧
    r.query g!"client_id" = some id ∧ r.post g!"client_assertion" = none ∧ r.basic = none ∧ r.dpop = [] ∧
    Http.Answered (Http.run S s hls) i .introspect r ⟨200, .introspection (some b)⟩ ∧ b.clientId = webApp ∧
    Lib.pairwise S.pairHash S.pairSalt g!"http://127.0.0.1:8085" g!"hello" = some b.sub := by
  simp only [List.mem_cons, List.not_mem_nil, or_false] at hid
  rcases hid with rfl | rfl
  · exact askedAs (by decide +kernel) (Demo.noKeyClash_of (by decide +kernel))
  · exact askedAs (by decide +kernel) (Demo.noKeyClash_of (by decide +kernel))

end Verif.Props
