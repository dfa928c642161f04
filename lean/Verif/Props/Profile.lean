import Verif.Spec.Profile
import Verif.Props.Shipped
import Verif.Props.Client
import Verif.Props.Services

/-!
C109: clients registered within the strict profile.
-/
namespace Verif.Props
open Verif.Spec Verif.Prog Verif.Http

/-! ### What the profile provides for -/

/-- The four types of applications. -/
theorem profile_cases {app : Str} {p : Profile.ClientProfile} (h : Profile.applicationType app = some p) :
    (app = g!"web" ∧ p.grantTypes = [g!"authorization_code"] ∧ p.responseTypes = [g!"code"]) ∨
    (app = g!"native" ∧ p.grantTypes = [g!"authorization_code", g!"refresh_token"] ∧ p.responseTypes = [g!"code"]) ∨
    (app = g!"device" ∧ p.grantTypes = [g!"urn:ietf:params:oauth:grant-type:device_code", g!"refresh_token"] ∧
      p.responseTypes = [g!"code"]) ∨
    (app = g!"service" ∧ p.grantTypes = [g!"client_credentials"] ∧ p.responseTypes = [g!"token"]) := by
  obtain ⟨n, h⟩ : ∃ n : Nat, Profile.strict[n]? = some (app, p) := by
    apply List.getElem?_of_mem
    unfold Profile.applicationType at h
    obtain ⟨l1, l2, hl, _⟩ := List.lookup_eq_some_iff.1 h
    rw [hl]; simp
  unfold Profile.strict at h
  rcases n with _ | _ | _ | _ | n <;> simp at h <;> obtain ⟨rfl, rfl⟩ := h <;> simp

theorem within_grant {app : Str} {c : Client} {g : Str} (h : WithinProfile app c) (hg : MemFold g c.grantTypes) :
    ∃ p, Profile.applicationType app = some p ∧ ∃ x ∈ p.grantTypes, SameFold g x := by
  obtain ⟨p, hp⟩ := Option.isSome_iff_exists.1 h.known
  obtain ⟨x, hx, hs⟩ := hg
  exact ⟨p, hp, x, h.grants p hp x hx, hs⟩

theorem within_code {app : Str} {c : Client} (h : WithinProfile app c) (hg : MemFold g!"authorization_code" c.grantTypes) :
    app = g!"web" ∨ app = g!"native" := by
  obtain ⟨p, hp, x, hx, hs⟩ := within_grant h hg
  rcases profile_cases hp with ⟨rfl, e, _⟩ | ⟨rfl, e, _⟩ | ⟨rfl, e, _⟩ | ⟨rfl, e, _⟩
  · exact Or.inl rfl
  · exact Or.inr rfl
  all_goals
    rw [e] at hx
    simp only [List.mem_cons, List.not_mem_nil, or_false] at hx
  · rcases hx with rfl | rfl
    · exact absurd hs (by decide +kernel)
    · exact absurd hs (by decide +kernel)
  · subst hx; exact absurd hs (by decide +kernel)

theorem within_credentials {app : Str} {c : Client} (h : WithinProfile app c)
    (hg : MemFold g!"client_credentials" c.grantTypes) : app = g!"service" := by
  obtain ⟨p, hp, x, hx, hs⟩ := within_grant h hg
  rcases profile_cases hp with ⟨rfl, e, _⟩ | ⟨rfl, e, _⟩ | ⟨rfl, e, _⟩ | ⟨rfl, e, _⟩
  on_goal 4 => rfl
  all_goals
    rw [e] at hx
    simp only [List.mem_cons, List.not_mem_nil, or_false] at hx
  · subst hx; exact absurd hs (by decide +kernel)
  · rcases hx with rfl | rfl
    · exact absurd hs (by decide +kernel)
    · exact absurd hs (by decide +kernel)
  · rcases hx with rfl | rfl
    · exact absurd hs (by decide +kernel)
    · exact absurd hs (by decide +kernel)

theorem within_refresh {app : Str} {c : Client} (h : WithinProfile app c)
    (hg : MemFold g!"refresh_token" c.grantTypes) : app = g!"native" ∨ app = g!"device" := by
  obtain ⟨p, hp, x, hx, hs⟩ := within_grant h hg
  rcases profile_cases hp with ⟨rfl, e, _⟩ | ⟨rfl, e, _⟩ | ⟨rfl, e, _⟩ | ⟨rfl, e, _⟩
  on_goal 2 => exact Or.inl rfl
  on_goal 2 => exact Or.inr rfl
  all_goals
    rw [e] at hx
    simp only [List.mem_cons, List.not_mem_nil, or_false] at hx
    subst hx; exact absurd hs (by decide +kernel)

theorem within_device {app : Str} {c : Client} (h : WithinProfile app c)
    (hg : MemFold g!"urn:ietf:params:oauth:grant-type:device_code" c.grantTypes) : app = g!"device" := by
  obtain ⟨p, hp, x, hx, hs⟩ := within_grant h hg
  rcases profile_cases hp with ⟨rfl, e, _⟩ | ⟨rfl, e, _⟩ | ⟨rfl, e, _⟩ | ⟨rfl, e, _⟩
  on_goal 3 => rfl
  all_goals
    rw [e] at hx
    simp only [List.mem_cons, List.not_mem_nil, or_false] at hx
  · subst hx; exact absurd hs (by decide +kernel)
  · rcases hx with rfl | rfl
    · exact absurd hs (by decide +kernel)
    · exact absurd hs (by decide +kernel)
  · subst hx; exact absurd hs (by decide +kernel)

/-- A client that authenticated is the one registered under its name. -/
theorem strict_client {S : Http.Server} {s : St} {hls : List Http.Label} {app : Str → Str} (hA : Strict s.clients app)
    {r : Http.Req} {i : Nat} {c0 : Client} (h : FromClient S.P r (callsOf S.E i (Http.run S s hls).log) c0) :
    s.clients c0.clientId = some c0 := by
  have key : ∀ {id}, (⟨.clientsGet id, .ok (some c0)⟩ : Ev) ∈ callsOf S.E i (Http.run S s hls).log →
      s.clients c0.clientId = some c0 := by
    intro id hid
    have := Http.client_found hid
    rw [hA.named _ _ this]; exact this
  cases h with
  | named id hq hne h hpub => exact key h
  | key a t cl now keys k hty ha hp hc hsame hnow hexp h hks hk hu hv => exact key h
  | attested att pop t1 t2 c1 c2 attester keys k k' hty ha hp1 hc1 hcnf hatt hks hk hv1 hp2 hv2 hc2 h => exact key h

/-- **C109** (tokens). All clients are registered within the strict profile; any history of the
example server, any interleaving and any failures. Every token handed to the store was asked for
at `/token` by an authenticated client and names this client. It stands for a user
who logged in at `/authorize`, and then the client is a web or a native application that redeemed a
code, or a native one that refreshed; or it stands for nobody, and then the client is a service that
used the grant `client_credentials`. So devices never get a token, and web applications
cannot use the refresh tokens they are given. -/
theorem C109_tokens (S : Http.Server) (s : St) (hls : List Http.Label) (hE : Empty s) (app : Str → Str)
    (hA : Strict s.clients app) (hK : NoKeyClash S.E (logOf (Http.run S s hls))) (e : Entry)
    (he : e ∈ (Http.run S s hls).log) (iss : Str) (t : Token) (hc : e.cmd = .tkCreate iss t) :
    ∃ md r c, t.metadata = some md ∧ Http.Asked (Http.run S s hls) e.tid .token r ∧
      FromClient S.P r (callsOf S.E e.tid (Http.run S s hls).log) c ∧ s.clients md.clientId = some c ∧
      ((md.subject ≠ [] ∧ (∃ k rk clk u ar, UserAt S s (Http.run S s hls) k rk clk u md.subject ar) ∧
          ((r.formValue g!"grant_type" = g!"authorization_code" ∧ (app md.clientId = g!"web" ∨ app md.clientId = g!"native")) ∨
           (r.formValue g!"grant_type" = g!"refresh_token" ∧ app md.clientId = g!"native"))) ∨
       (md.subject = [] ∧ t.tokenType = .accessToken ∧ r.formValue g!"grant_type" = g!"client_credentials" ∧
          app md.clientId = g!"service")) := by
  obtain ⟨md, r, c0, cl, z1, z2, z3, z4, z5, z6, z7, z8⟩ := C88_tokens_speak_for S s hls hE hK e he iss t hc
  have hc0 := strict_client hA z5
  have : cl = c0 := by rw [hc0] at z6; exact (Option.some.inj z6).symm
  subst this
  rw [← z7] at hc0
  have hW := hA.within _ _ hc0
  refine ⟨md, r, cl, z1, z4, z5, hc0, ?_⟩
  obtain ⟨ls, own, hR, _⟩ := C87_refines S s hls
  have hK' := hR.noKeyClash hK
  obtain ⟨e', h1, rfl⟩ := hR.back he (by rw [hc]; rfl)
  have hc' : e'.cmd = .tkCreate iss t := hc
  obtain ⟨n, hn⟩ := List.getElem?_of_mem h1
  obtain ⟨q, c1, cl1, a1, a2, a3, a4⟩ := entry_tkCreate hn hc'
  obtain ⟨route, re', b1, b2⟩ := hR.asked _ _ a1
  obtain ⟨rfl, rfl⟩ := b1.unique z4
  have hcl1 : s.clients c1.clientId = some cl1 := by
    refine Verif.client_found (E := S.E) (ls := ls) (i := e'.tid) ?_
    obtain ⟨p, e2, _, w1, w2, w3⟩ := mem_calls_take a3
    exact mem_callsOf_iff.2 ⟨p, e2, w1, w2, w3⟩
  have hid1 := hA.named _ _ hcl1
  rw [← hid1] at hcl1
  cases b2 with
  | token c2 cnf g k1 k2 k3 k4 k5 k6 =>
  by_cases hs : md.subject = []
  · right
    obtain ⟨m1, m2, m3, m4, hid'⟩ := mints_credentials hE hR hK' a1 a4 z1 hs
    rw [← hid', hc0] at hcl1
    cases hcl1
    refine ⟨hs, ?_, Http.formGrant_credentials k3 m1, within_credentials hW m3⟩
    rcases z8 with ⟨k, rk, clk, u, ar, e0, code, cs, hu, w1, w2, w3, w4⟩ | ⟨_, hty, _⟩
    · exfalso
      obtain ⟨e0', g1, rfl⟩ := hR.back w1 (by rw [w3]; rfl)
      obtain ⟨m, g2⟩ := List.getElem?_of_mem g1
      obtain ⟨q', r', eff, cl', b1, b2, b3, b4, b5, b6, b7, b8, b9, b10⟩ := entry_csReg g2 w3
      rw [b10] at w4
      exact b3 (w4.trans hs)
    · exact hty
  · left
    refine ⟨hs, ?_, ?_⟩
    · rcases z8 with ⟨k, rk, clk, u, ar, e0, code, cs, hu, w⟩ | ⟨h0, _⟩
      · exact ⟨k, rk, clk, u, ar, hu⟩
      · exact absurd h0 hs
    have at_ : ∀ {tr} {m : TokenMeta} {cnf}, TokenSvc.ATAt tr cl1 m cnf t → md.clientId = cl1.clientId ∧ md.subject = m.subject := by
      rintro tr m cnf ⟨now, jti, v, _, _, rfl⟩; cases z1; exact ⟨rfl, rfl⟩
    have rt_ : ∀ {tr} {m : TokenMeta} {cnf}, TokenSvc.RTAt tr cl1 m cnf t → md.clientId = cl1.clientId ∧ md.subject = m.subject := by
      rintro tr m cnf ⟨now, jti, v, _, _, rfl⟩; cases z1; exact ⟨rfl, rfl⟩
    have same : md.clientId = cl1.clientId → cl1 = cl := by
      intro h
      rw [← h, hc0] at hcl1
      exact (Option.some.inj hcl1).symm
    cases a4 with
    | code g sess ar _ hg hreg hget hdel hreq hok ho ht =>
      have hid : md.clientId = cl1.clientId := by
        rcases ht with ht | ⟨_, ht⟩
        · exact (at_ ht).1
        · exact (rt_ ht).1
      cases same hid
      refine Or.inl ⟨?_, within_code hW hreg⟩
      cases k3 with
      | code h => exact h
      | _ => cases hg
    | cc _ hg hreg hty ht => exact absurd (at_ ht).2 hs
    | device dc ref sess dreq sub now _ hg hreg hget hnow hreq hcl hexp hst hsub ht =>
      exfalso
      obtain ⟨m, e1, hmn, g1, g2, g3⟩ := mem_calls_take hget
      exact ((unapproved_run (E := S.E) hE.heap ls).2 m e1 g1 sess (List.mem_of_getElem? (Entry.dsGetDev_ok g3))).2 hst
    | refresh v rt m now _ hg hreg hget hnow hst hty hmd' hexp hown ht =>
      have hid : md.clientId = cl1.clientId := by
        rcases ht with ht | ht
        · exact (at_ ht).1
        · exact (rt_ ht).1
      cases same hid
      refine Or.inr ⟨?_, ?_⟩
      · cases k3 with
        | refresh h => exact h
        | _ => cases hg
      · obtain ⟨id, cl2, v1, v2, v3⟩ := subject_code_client hE hR hK' n _ t md ⟨e', hn, hc'⟩ z1 hs
        have : cl2 = cl := by
          have := hA.named _ _ v1
          rw [← this, ← v2, hc0] at v1
          exact (Option.some.inj v1).symm
        subst this
        rcases within_refresh hW hreg with h | h
        · exact h
        · rcases within_code hW v3 with h' | h' <;> rw [h] at h' <;> exact absurd h' (by decide +kernel)
    | exchange g st m now now2 jti v aud hg hreg hget hnow hnow2 hv hst hty hmd' hexp =>
      exfalso
      cases k3 <;> cases hg

/-- **C109** (codes). Codes are stored for web and native applications only, and for the response type
`code` only (compare `C79_response_type_violated`). -/
theorem C109_codes (S : Http.Server) (s : St) (hls : List Http.Label) (app : Str → Str) (hA : Strict s.clients app) (e : Entry)
    (he : e ∈ (Http.run S s hls).log) (iss code : Str) (cs : CodeSession) (hc : e.cmd = .csReg iss code cs) :
    ∃ eff c, cs.request = some eff ∧ s.clients eff.clientId = some c ∧ eff.responseType = g!"code" ∧
      (app eff.clientId = g!"web" ∨ app eff.clientId = g!"native") := by
  obtain ⟨ls, own, hR, _⟩ := C87_refines S s hls
  obtain ⟨e', h1, rfl⟩ := hR.back he (by rw [hc]; rfl)
  have hc' : e'.cmd = .csReg iss code cs := hc
  obtain ⟨n, hn⟩ := List.getElem?_of_mem h1
  obtain ⟨q, r, eff, cl, b1, b2, b3, b4, b5, b6, b7, b8, b9, b10⟩ := entry_csReg hn hc'
  have hcl : s.clients r.clientId = some cl := by
    refine Verif.client_found (E := S.E) (ls := ls) (i := e'.tid) ?_
    obtain ⟨p, e2, _, w1, w2, w3⟩ := mem_calls_take b7
    exact mem_callsOf_iff.2 ⟨p, e2, w1, w2, w3⟩
  have hW := hA.within _ _ hcl
  have hcode := within_code hW b8.grant
  have hrt : r.responseType = g!"code" := by
    rcases b5.responseType with h | h
    · exact h
    · exfalso
      obtain ⟨x, hx, hs⟩ := b8.responseType
      obtain ⟨p, hp⟩ := Option.isSome_iff_exists.1 hW.known
      have hx' := hW.responses p hp x hx
      rw [h] at hs
      rcases profile_cases hp with ⟨_, _, e⟩ | ⟨_, _, e⟩ | ⟨_, _, e⟩ | ⟨ea, _, e⟩
      on_goal 4 => rcases hcode with h' | h' <;> rw [ea] at h' <;> exact absurd h' (by decide +kernel)
      all_goals
        rw [e] at hx'
        simp only [List.mem_cons, List.not_mem_nil, or_false] at hx'
        subst hx'
        exact absurd hs (by decide +kernel)
  have e1 : eff.clientId = r.clientId := (congrArg AuthzRequest.clientId b6.rest :)
  have e2 : eff.responseType = r.responseType := (congrArg AuthzRequest.responseType b6.rest :)
  exact ⟨eff, cl, by rw [b10], by rw [e1]; exact hcl, e2.trans hrt, by rw [e1]; exact hcode⟩

/-- **C109** (device sessions). They are stored for devices only. -/
theorem C109_devices (S : Http.Server) (s : St) (hls : List Http.Label) (app : Str → Str) (hA : Strict s.clients app) (e : Entry)
    (he : e ∈ (Http.run S s hls).log) (iss uc : Str) (d : DeviceSession) (hc : e.cmd = .dsReg iss uc d) :
    ∃ c, d.client = some c ∧ s.clients c.clientId = some c ∧ app c.clientId = g!"device" := by
  obtain ⟨ls, own, hR, _⟩ := C87_refines S s hls
  obtain ⟨e', h1, rfl⟩ := hR.back he (by rw [hc]; rfl)
  have hc' : e'.cmd = .dsReg iss uc d := hc
  obtain ⟨n, hn⟩ := List.getElem?_of_mem h1
  obtain ⟨q, cl, _, _, _, _, b7, _, _, b8, _, b9, _⟩ := C70_sessions_registered hn hc'
  have hcl : s.clients q.clientId = some cl := by
    refine Verif.client_found (E := S.E) (ls := ls) (i := e'.tid) ?_
    obtain ⟨p, e2, _, w1, w2, w3⟩ := mem_calls_take b7
    exact mem_callsOf_iff.2 ⟨p, e2, w1, w2, w3⟩
  have hid := hA.named _ _ hcl
  refine ⟨cl, b9, by rw [hid]; exact hcl, ?_⟩
  rw [hid]; exact within_device (hA.within _ _ hcl) b8

/-- **C109** (introspection). If no client is of the public type, which the profile does
not see to, something about a token is
told only to a caller who presents a text signed with a key that a client registered. -/
theorem C109_introspection (S : Http.Server) (s : St) (hls : List Http.Label)
    (hpub : ∀ id c, s.clients id = some c → c.clientType ≠ .pub) (i : Nat) (r : Http.Req) (st : Nat) (b : Option ActiveBody)
    (h : Http.Answered (Http.run S s hls) i .introspect r ⟨st, .introspection b⟩) :
    ∃ a t id c keys k, (r.post g!"client_assertion" = some a ∨ ∃ pop, r.post g!"client_assertion" = some (a ++ g!"~" ++ pop)) ∧
      S.P.parse a = some t ∧ s.clients id = some c ∧ S.P.jwks c.jwks = some keys ∧ k ∈ keys ∧ t.verifies k = true := by
  obtain ⟨a, t, id, c, keys, k, h1, h2, h3, h4⟩ := C76_partial S r _ st b (fun id => Http.no_nil_client _ _ _ id)
    (fun id c hc => hpub id c (Http.client_found hc)) h.exec
  exact ⟨a, t, id, c, keys, k, h1, h2, Http.client_found h3, h4⟩

/-! ### A server at work -/

/-- A native application, a service, a television and a web application, within the profile. -/
def strictApp (id : Str) : Str :=
  if id = g!"good" then g!"native" else if id = g!"svc" then g!"service" else if id = g!"tv" then g!"device" else g!"web"

def strictClient (id : Str) : Option Client :=
  let base : Client :=
    { Demo.client with clientId := id, clientType := .confidential, tokenEndpointAuthMethod := g!"private_key_jwt" }
  if id = g!"good" then
    some { base with jwks := g!"goodkeys", grantTypes := [g!"authorization_code", g!"refresh_token"], responseTypes := [g!"code"] }
  else if id = g!"svc" then
    some { base with jwks := g!"svckeys", grantTypes := [g!"client_credentials"], responseTypes := [g!"token"] }
  else if id = g!"tv" then
    some { base with grantTypes := [g!"urn:ietf:params:oauth:grant-type:device_code"], responseTypes := [] }
  else if id = g!"evil" then
    some { base with jwks := g!"evilkeys", grantTypes := [g!"authorization_code"], responseTypes := [g!"code"] }
  else none

def strictStore : St := { Demo.webStore with clients := strictClient }

theorem strictStore_strict : Strict strictStore.clients strictApp := by
  constructor
  · intro id c h
    simp only [strictStore, strictClient] at h
    split at h <;> [skip; split at h <;> [skip; split at h <;> [skip; split at h]]] <;> cases h <;> rfl
  · intro id c h
    simp only [strictStore, strictClient] at h
    split at h <;> [skip; split at h <;> [skip; split at h <;> [skip; split at h]]] <;> cases h <;> rename_i hid <;> subst hid <;>
      exact ⟨by decide +kernel, fun p hp => by
        rcases profile_cases hp with ⟨e, e1, e2⟩ | ⟨e, e1, e2⟩ | ⟨e, e1, e2⟩ | ⟨e, e1, e2⟩ <;>
          first | exact absurd e (by decide +kernel) | (rw [e1]; decide +kernel), fun p hp => by
        rcases profile_cases hp with ⟨e, e1, e2⟩ | ⟨e, e1, e2⟩ | ⟨e, e1, e2⟩ | ⟨e, e1, e2⟩ <;>
          first | exact absurd e (by decide +kernel) | (rw [e2]; decide +kernel), fun p hp => by cases hp; decide +kernel⟩

/-- Assertions are named by literals. `att~pop` is an attestation signed by the web application `evil` with a
proof that names the service. -/
def strictServer : Http.Server :=
  { Demo.server with
    P := {
      parse := fun s =>
        if s = g!"good-a" then some { payload := s, verifies := fun k => k.key == g!"gk" }
        else if s = g!"svc-a" then some { payload := s, verifies := fun k => k.key == g!"sk" }
        else if s = g!"att" then some { payload := s, verifies := fun k => k.key == g!"ek" }
        else if s = g!"pop" then some { payload := s, verifies := fun k => k.key == g!"instance" }
        else none
      privClaims := fun s =>
        let id := if s = g!"good-a" then g!"good" else g!"svc"
        some { jti := g!"1", sub := id, iss := id, aud := g!"https://as", exp := 1000 }
      attClaims := fun _ => some { iss := g!"evil", sub := g!"whoever", exp := 1000, cnf := some (some { key := g!"instance" }) }
      popClaims := fun _ => some { iss := g!"svc", aud := g!"https://as", exp := 1000, jti := g!"1" }
      jwks := fun s =>
        if s = g!"goodkeys" then some [{ key := g!"gk" }] else if s = g!"svckeys" then some [{ key := g!"sk" }]
        else if s = g!"evilkeys" then some [{ key := g!"ek" }] else none }
    requestDec := fun s => if s = g!"ro" then some { Demo.request with clientId := g!"good", responseMode := none } else none }

/-- The user logs in and the native application gets tokens and refreshes; the service gets a token;
a session for the television is made; `evil` gets a token of the service; the application asks about the first
token. -/
def strictLabels : List Http.Label :=
  .arrive .authorize { Demo.webLogin with query := Demo.form [(g!"client_id", g!"good"), (g!"request", g!"ro")] } ::
    Demo.webCalls 0 [[], [], g!"c0de", [], [], []] ++
  .arrive .token (shippedForm g!"jwt-bearer" g!"good-a" [(g!"grant_type", g!"authorization_code"), (g!"code", g!"c0de"),
    (g!"redirect_uri", g!"https://app/cb"), (g!"code_verifier", Demo.verifier)] g!"/token" []) ::
    Demo.webCalls 1 [[], [], [], [], [], [], g!"id-at", g!"at", [], [], g!"id-rt", g!"rt", [], []] ++
  .arrive .token (shippedForm g!"jwt-bearer" g!"svc-a" [(g!"grant_type", g!"client_credentials")] g!"/token" []) ::
    Demo.webCalls 2 [[], [], [], [], g!"id-cc", g!"cc", [], [], []] ++
  .arrive .deviceAuthorize (shippedForm g!"jwt-bearer" g!"svc-a" [(g!"client_id", g!"tv")] g!"/device_authorization" []) ::
    Demo.webCalls 3 [[], [], [], g!"dc", g!"uc", [], []] ++
  .arrive .token (shippedForm g!"jwt-client-attestation" g!"att~pop" [(g!"grant_type", g!"client_credentials")] g!"/token" []) ::
    Demo.webCalls 4 [[], [], [], [], [], [], [], [], g!"id-ev", g!"ev", [], [], []] ++
  .tick (2 * second) ::
  .arrive .token (shippedForm g!"jwt-bearer" g!"good-a" [(g!"grant_type", g!"refresh_token"), (g!"refresh_token", g!"rt")] g!"/token" []) ::
    Demo.webCalls 5 [[], [], [], [], [], [], g!"id-at2", g!"at2", [], [], g!"id-rt2", g!"rt2", [], [], []] ++
  .arrive .introspect (shippedForm g!"jwt-bearer" g!"good-a" [(g!"token", g!"at")] g!"/token/introspect" []) ::
    Demo.webCalls 6 [[], [], [], [], [], []]

theorem strictStore_empty : Empty strictStore := ⟨fun _ => rfl, fun _ => rfl, rfl, fun _ => rfl, fun _ => rfl, fun _ => rfl,
  fun _ => rfl, fun _ => rfl⟩

theorem strictStore_secret (id : Str) (c : Client) (h : strictStore.clients id = some c) : c.clientType ≠ .pub := by
  simp only [strictStore, strictClient] at h
  split at h <;> [skip; split at h <;> [skip; split at h <;> [skip; split at h]]] <;> cases h <;> (intro h; cases h)

/-- Tokens created in the history for a request and a client. -/
theorem strict_created (i : Nat) (id : Str)
    (h : ((Http.run strictServer strictStore strictLabels).log.any fun e => decide (e.tid = i) && match e.cmd with
      | .tkCreate _ t => t.metadata.any fun m => decide (m.clientId = id)
      | _ => false) = true) :
    ∃ e ∈ (Http.run strictServer strictStore strictLabels).log, e.tid = i ∧ ∃ iss t md, e.cmd = .tkCreate iss t ∧
      t.metadata = some md ∧ md.clientId = id := by
  obtain ⟨e, he, h1⟩ := List.any_eq_true.1 h
  obtain ⟨h0, h1⟩ := Bool.and_eq_true_iff.1 h1
  split at h1
  · rename_i iss t hc
    obtain ⟨md, hm, h2⟩ := (Option.any_eq_true _ _).1 h1
    exact ⟨e, he, of_decide_eq_true h0, iss, t, md, hc, hm, of_decide_eq_true h2⟩
  · cases h1

/-- The hypotheses of `C109_tokens`, `C109_codes`, `C109_devices` and `C109_introspection` hold of a history in which a
code and a device session are stored, tokens of all three kinds are created and one is asked about. -/
example : Empty strictStore ∧ Strict strictStore.clients strictApp ∧
    (∀ id c, strictStore.clients id = some c → c.clientType ≠ .pub) ∧
    (let c := Http.run strictServer strictStore strictLabels
     NoKeyClash strictServer.E (logOf c) ∧
     (∀ x ∈ [(1, g!"good"), (2, g!"svc"), (5, g!"good")], ∃ e ∈ c.log, e.tid = x.1 ∧ ∃ iss t md, e.cmd = .tkCreate iss t ∧
       t.metadata = some md ∧ md.clientId = x.2) ∧
     (∃ e ∈ c.log, ∃ iss code cs, e.cmd = .csReg iss code cs) ∧ (∃ e ∈ c.log, ∃ iss uc d, e.cmd = .dsReg iss uc d) ∧
     ∃ r b, Http.Answered c 6 .introspect r ⟨200, .introspection (some b)⟩) := by
  refine ⟨strictStore_empty, strictStore_strict, strictStore_secret, Demo.noKeyClash_of (by decide +kernel), ?_, ?_, ?_, ?_⟩
  · intro x hx
    simp only [List.mem_cons, List.not_mem_nil, or_false] at hx
    rcases hx with rfl | rfl | rfl <;> exact strict_created _ _ (by decide +kernel)
  · have h : ((Http.run strictServer strictStore strictLabels).log.any fun e => match e.cmd with
        | .csReg .. => true | _ => false) = true := by decide +kernel
    obtain ⟨e, he, h1⟩ := List.any_eq_true.1 h
    split at h1
    · exact ⟨e, he, _, _, _, by assumption⟩
    · cases h1
  · have h : ((Http.run strictServer strictStore strictLabels).log.any fun e => match e.cmd with
        | .dsReg .. => true | _ => false) = true := by decide +kernel
    obtain ⟨e, he, h1⟩ := List.any_eq_true.1 h
    split at h1
    · exact ⟨e, he, _, _, _, by assumption⟩
    · cases h1
  · obtain ⟨_, r, a, h, rfl, h1⟩ := Http.answer_ex (c := Http.run strictServer strictStore strictLabels) (i := 6)
      (fun x _ z => x = .introspect ∧ (match z with
        | ⟨200, .introspection (some _)⟩ => true
        | _ => false) = true) (by decide +kernel)
    split at h1
    · exact ⟨r, _, h⟩
    · cases h1

/-- **C109** (disagreement). The method of authentication a client is registered with is not looked at. In
a server whose clients all keep to the strict profile, which provides for `private_key_jwt` only, a token is created for
a service on a request that carries a client attestation, no part of which is signed with a key of the service: it was made by
a web application, which may not use the grant. -/
theorem C109_method_violated : ∃ (S : Http.Server) (s : St) (hls : List Http.Label) (app : Str → Str) (e : Entry) (iss : Str)
    (t : Token) (md : TokenMeta) (r : Http.Req) (c : Client) (att pop : Str),
    Empty s ∧ Strict s.clients app ∧ (∀ id c, s.clients id = some c → c.clientType ≠ .pub) ∧
    NoKeyClash S.E (logOf (Http.run S s hls)) ∧ e ∈ (Http.run S s hls).log ∧ e.cmd = .tkCreate iss t ∧ t.metadata = some md ∧
    s.clients md.clientId = some c ∧ c.tokenEndpointAuthMethod = g!"private_key_jwt" ∧
    Http.Asked (Http.run S s hls) e.tid .token r ∧ r.post g!"client_assertion" = some (att ++ g!"~" ++ pop) ∧
    (∀ x ∈ [att ++ g!"~" ++ pop, att, pop], ∀ j keys k, S.P.parse x = some j → S.P.jwks c.jwks = some keys → k ∈ keys →
      j.verifies k = false) := by
  obtain ⟨e, he, h4, iss, t, md, hc, hm, hid⟩ := strict_created 4 g!"svc" (by decide +kernel)
  obtain ⟨_, r, _, ⟨th, g1, g2, g3, _⟩, rfl, h5⟩ := Http.answer_ex (c := Http.run strictServer strictStore strictLabels) (i := 4)
    (fun x y _ => x = .token ∧ y.post g!"client_assertion" = some g!"att~pop") (by decide +kernel)
  obtain ⟨c, hcl⟩ : ∃ c, strictStore.clients md.clientId = some c := by rw [hid]; exact Option.isSome_iff_exists.1 (by decide +kernel)
  have hcl' := hcl
  rw [hid] at hcl'
  refine ⟨strictServer, strictStore, strictLabels, strictApp, e, iss, t, md, r, c, g!"att", g!"pop", strictStore_empty,
    strictStore_strict, strictStore_secret, Demo.noKeyClash_of (by decide +kernel), he, hc, hm, hcl, ?_,
    ⟨th, by rw [h4]; exact g1, g2, g3⟩, h5, ?_⟩
  · cases hcl'; rfl
  · intro x hx j keys k hj hk hm
    cases hcl'
    simp only [List.mem_cons, List.not_mem_nil, or_false] at hx
    rcases hx with rfl | rfl | rfl
    · exact absurd hj (by simp [strictServer])
    · cases hj; cases hk
      rw [List.mem_singleton.1 hm]; decide +kernel
    · cases hj; cases hk
      rw [List.mem_singleton.1 hm]; decide +kernel

/-- **C109** (disagreement). None of the clients of the in-memory storage keeps to the strict profile, whatever type of
application it is taken for: none is registered for `private_key_jwt`. -/
theorem C109_shipped_violated (id : Str) (c : Client) (h : Registry.get id = some c) (app : Str) : ¬ WithinProfile app c := by
  intro hW
  obtain ⟨p, hp⟩ := Option.isSome_iff_exists.1 hW.known
  have hm := hW.method p hp
  have hp' : p.authMethods = [g!"private_key_jwt"] := by
    obtain ⟨n, h⟩ : ∃ n : Nat, Profile.strict[n]? = some (app, p) := by
      apply List.getElem?_of_mem
      unfold Profile.applicationType at hp
      obtain ⟨l1, l2, hl, _⟩ := List.lookup_eq_some_iff.1 hp
      rw [hl]; simp
    unfold Profile.strict at h
    rcases n with _ | _ | _ | _ | n <;> simp at h <;> obtain ⟨rfl, rfl⟩ := h <;> rfl
  rw [hp'] at hm
  rcases (shipped_cases h).2 with rfl | rfl | rfl | rfl | rfl | rfl <;> exact absurd hm (by decide +kernel)

end Verif.Props
