import Verif.Props.AuthzErrors
import Verif.Props.Authorization
import Verif.Props.ClientAuth

/-!
C79, continued: the authorization parameters and the algorithms of client assertions in the server
metadata.
-/
namespace Verif.Props
open Verif.Spec Verif.Prog Verif.Authorization Verif.Discovery
open Verif.Jose (Jws)

/-- **C79** (authorization parameters that are accepted). A code is issued only for a code challenge
method and a response mode that the description names. -/
theorem C79_accepted (E : Env) (req : Option AuthorizeReq) (tr : List Ev) (a : AuthorizeResp) (issuer : Str)
    (h : Exec (authorize E req) tr (.done a)) (hi : Issued a) : ∃ q r, req = some q ∧ ActedOn q tr r ∧
      r.codeChallengeMethod ∈ (metadata issuer).codeChallengeMethodsSupported ∧
      ∀ m, r.responseMode = some m → m ∈ (metadata issuer).responseModesSupported := by
  obtain ⟨q, r, h1, h2, _, _, hw⟩ := C01_code_only_for_wellformed E req tr a h hi
  refine ⟨q, r, h1, h2, ?_, fun m hm => ?_⟩
  · rw [hw.method]
    show g!"S256" ∈ [g!"S256"]
    decide
  · have : ∀ m ∈ [g!"query", g!"fragment", g!"form_post", g!"jwt", g!"query.jwt", g!"fragment.jwt", g!"form_post.jwt"],
        m ∈ (metadata issuer).responseModesSupported := by
      show ∀ m ∈ [g!"query", g!"fragment", g!"form_post", g!"jwt", g!"query.jwt", g!"fragment.jwt", g!"form_post.jwt"],
        m ∈ [Oidc.modeQuery, Oidc.modeFragment, Oidc.modeFormPost, Oidc.modeQueryJWT, Oidc.modeFragmentJWT,
          Oidc.modeFormPostJWT, Oidc.modeJWT]
      decide
    exact this m (hw.responseMode m hm)

/-- **C79** (authorization parameters that are advertised). A request that is fine apart from its
response type, its response mode and its challenge method, and that takes these three from the
description, is answered with a code if its client may use them and nothing fails. -/
theorem C79_advertised (E : Env) (q : AuthorizeReq) (r : AuthzRequest) (cl : Client) (tr : List Ev) (a : AuthorizeResp)
    (issuer : Str) (hq : q.request = some r) (hu : r.requestUri = none) (hi : q.issuer ≠ []) (hs : q.subject ≠ [])
    (hw : WellFormed E { r with responseType := g!"code", responseMode := none, codeChallengeMethod := g!"S256" })
    (ht : r.responseType ∈ (metadata issuer).responseTypesSupported)
    (hm : ∀ m, r.responseMode = some m → m ∈ (metadata issuer).responseModesSupported)
    (hc : r.codeChallengeMethod ∈ (metadata issuer).codeChallengeMethodsSupported)
    (hcl : ∀ x, ⟨.clientsGet r.clientId, x⟩ ∈ tr → x = .ok (some cl)) (hr : Registered cl r) (hf : ∀ ev ∈ tr, ¬ Disturbed ev)
    (h : Exec (authorize E (some q)) tr (.done a)) : a.goErr = false := by
  have ha : ∀ r', ActedOn q tr r' → r' = r := by
    rintro r' ⟨r0, h0, h1 | ⟨uri, h1, _⟩⟩
    · cases hq.symm.trans h0
      exact h1.2
    · cases hq.symm.trans h0
      rw [hu] at h1
      cases h1
  have ht' : r.responseType = g!"code" := by
    have : r.responseType ∈ [Oidc.responseTypeCode] := ht
    exact List.mem_singleton.1 this
  have hc' : r.codeChallengeMethod = g!"S256" := by
    have : r.codeChallengeMethod ∈ [g!"S256"] := hc
    exact List.mem_singleton.1 this
  have hm' : ∀ m, r.responseMode = some m →
      m ∈ [g!"query", g!"fragment", g!"form_post", g!"jwt", g!"query.jwt", g!"fragment.jwt", g!"form_post.jwt"] := by
    intro m h
    have : ∀ m ∈ [Oidc.modeQuery, Oidc.modeFragment, Oidc.modeFormPost, Oidc.modeQueryJWT, Oidc.modeFragmentJWT,
        Oidc.modeFormPostJWT, Oidc.modeJWT],
        m ∈ [g!"query", g!"fragment", g!"form_post", g!"jwt", g!"query.jwt", g!"fragment.jwt", g!"form_post.jwt"] := by decide
    exact this m (hm m h)
  have hw' : WellFormed E { r with responseType := g!"code" } :=
    ⟨hw.state, hw.nonce, hw.challenge, hc', hw.scope, hw.audience, hw.client, hw.redirect, .inl rfl, hm'⟩
  by_contra hn
  obtain ⟨k, hk⟩ := (C93_authorize E (some q) tr a h).1.1 (by simpa using hn)
  cases k with
  | request =>
    rcases hk with hk | ⟨r0, uri, h0, h1, _⟩
    · rw [hq] at hk; cases hk
    · cases hq.symm.trans h0
      rw [hu] at h1; cases h1
  | issuer => exact hi hk
  | subject => exact hs hk
  | pushed =>
    obtain ⟨r0, uri, h0, h1, _⟩ := hk
    cases hq.symm.trans h0
    rw [hu] at h1; cases h1
  | broken =>
    obtain ⟨ev, h1, h2⟩ := hk
    exact hf ev h1 h2
  | client => obtain ⟨r', _, hk⟩ := hk; exact hk
  | nested => obtain ⟨r', _, hk⟩ := hk; exact hk
  | foreign => obtain ⟨r', _, hk⟩ := hk; exact hk
  | malformed =>
    obtain ⟨r', hr', hk⟩ := hk
    cases ha r' hr'
    rcases hk with hk | hk
    · rw [ht'] at hk; cases hk
    · exact hk hw'
  | responseType =>
    obtain ⟨r', hr', hk⟩ := hk
    cases ha r' hr'
    exact hk.2.1 ht'
  | clientUnknown =>
    obtain ⟨r', hr', hk⟩ := hk
    cases ha r' hr'
    cases hcl _ hk
  | clientGrant =>
    obtain ⟨r', hr', c, hk, hx⟩ := hk
    cases ha r' hr'
    cases hcl _ hk
    exact hx hr.grant
  | clientType =>
    obtain ⟨r', hr', c, hk, hx⟩ := hk
    cases ha r' hr'
    cases hcl _ hk
    exact hx hr.responseType
  | clientRedirect =>
    obtain ⟨r', hr', c, hk, hx⟩ := hk
    cases ha r' hr'
    cases hcl _ hk
    exact hx hr.redirectUri
  | clientMode =>
    obtain ⟨r', hr', c, m, hk, hm, hx⟩ := hk
    cases ha r' hr'
    cases hcl _ hk
    exact hx (hr.responseMode m hm)

/-- **C79_violated** (response types). A code is issued for a response type that the description
does not name. -/
theorem C79_response_type_violated (issuer : Str) : ∃ (E : Env) (q : AuthorizeReq) (r : AuthzRequest) (tr : List Ev)
    (a : AuthorizeResp), Exec (authorize E (some q)) tr (.done a) ∧ Issued a ∧ ActedOn q tr r ∧
      r.responseType ∉ (metadata issuer).responseTypesSupported := by
  let q : AuthorizeReq := { Demo.authorizeReq with request := some { Demo.request with responseType := g!"token", responseMode := none } }
  let ans : (c : Cmd) → c.Res := fun
    | .clientsGet _ => .ok (some { Demo.client with responseTypes := [g!"token"] })
    | c => Demo.answers c
  obtain ⟨tr, a, h, hi⟩ := oracle_ex ans (authorize Demo.env (some q)) Issued (by decide)
  refine ⟨Demo.env, q, _, tr, a, h, hi, ⟨_, rfl, .inl ⟨rfl, rfl⟩⟩, ?_⟩
  show g!"token" ∉ [Oidc.responseTypeCode]
  decide

/-- The hypotheses of `C79_advertised` are met by every advertised response mode. -/
example (issuer m : Str) (hm : m ∈ (metadata issuer).responseModesSupported) : ∃ (q : AuthorizeReq) (r : AuthzRequest)
    (cl : Client) (tr : List Ev) (a : AuthorizeResp), q.request = some r ∧ r.responseMode = some m ∧
    WellFormed Demo.env { r with responseType := g!"code", responseMode := none, codeChallengeMethod := g!"S256" } ∧
    r.responseType ∈ (metadata issuer).responseTypesSupported ∧
    r.codeChallengeMethod ∈ (metadata issuer).codeChallengeMethodsSupported ∧
    tr.head? = some ⟨.clientsGet r.clientId, .ok (some cl)⟩ ∧ Registered cl r ∧
    Exec (authorize Demo.env (some q)) tr (.done a) := by
  let cl : Client := { Demo.client with responseModes := [Oidc.modeQuery, Oidc.modeFragment, Oidc.modeFormPost, Oidc.modeQueryJWT,
    Oidc.modeFragmentJWT, Oidc.modeFormPostJWT] }
  let ans : (c : Cmd) → c.Res := fun
    | .clientsGet _ => .ok (some cl)
    | c => Demo.answers c
  have hm : m ∈ [Oidc.modeQuery, Oidc.modeFragment, Oidc.modeFormPost, Oidc.modeQueryJWT, Oidc.modeFragmentJWT,
      Oidc.modeFormPostJWT, Oidc.modeJWT] := hm
  have key : ∀ r : AuthzRequest, (oracle ans (authorize Demo.env (some { Demo.authorizeReq with request := some r }))).2.get?.isSome = true →
      ∃ a, Exec (authorize Demo.env (some { Demo.authorizeReq with request := some r }))
        (oracle ans (authorize Demo.env (some { Demo.authorizeReq with request := some r }))).1 (.done a) := by
    intro r h
    obtain ⟨a, ha⟩ := Option.isSome_iff_exists.1 h
    exact ⟨a, oracle_done ans _ a ha⟩
  suffices hs : (oracle ans (authorize Demo.env (some { Demo.authorizeReq with
      request := some { Demo.request with responseMode := some m } }))).2.get?.isSome = true ∧
      StringArray.contains cl.responseModes (effectiveMode g!"code" m) = true by
    obtain ⟨a, ha⟩ := key _ hs.1
    have hw : WellFormed Demo.env { Demo.request with responseType := g!"code", responseMode := none, codeChallengeMethod := g!"S256" } :=
      ⟨by decide, by decide, by decide, rfl, by decide, by decide, by decide, ⟨by decide, rfl⟩, .inl rfl, by simp⟩
    refine ⟨_, { Demo.request with responseMode := some m }, cl, _, a, rfl, rfl, hw,
      List.mem_singleton.2 rfl, List.mem_singleton.2 rfl, ?_, ⟨(contains_iff _ _).1 rfl, (contains_iff _ _).1 rfl,
        (contains_iff _ _).1 rfl, fun m' e => ?_⟩, ha⟩
    · simp only [List.mem_cons, List.not_mem_nil, or_false] at hm
      rcases hm with rfl | rfl | rfl | rfl | rfl | rfl | rfl <;> rfl
    · cases e
      exact (contains_iff _ _).1 hs.2
  simp only [List.mem_cons, List.not_mem_nil, or_false] at hm
  rcases hm with rfl | rfl | rfl | rfl | rfl | rfl | rfl <;> exact ⟨rfl, by decide⟩

/-- **C79** (algorithms of assertions). An assertion is accepted only if it is signed by ES256 or ES384, and
assertions signed by an algorithm that the description names, for any of the three endpoints, are not refused for that. -/
theorem C79_assertions (issuer : Str) (P : ClientAuth.Parsers) (parse : Str → Option Jws) (hP : P.parse = restrict assertionAlgs parse) :
    (∀ req tr r a t, Exec (ClientAuth.privateKeyJwt P (some req)) tr (.done r) → r.goErr = false → req.assertion = some a → parse a = some t →
      t.alg = g!"ES256" ∨ t.alg = g!"ES384") ∧
    (∀ a t, parse a = some t → t.alg ∈ (metadata issuer).tokenEndpointAuthSigningAlgValuesSupported ∨
      t.alg ∈ (metadata issuer).introspectionEndpointAuthSigningAlgValuesSupported ∨
      t.alg ∈ (metadata issuer).revocationEndpointAuthSigningAlgValuesSupported → P.parse a = some t) := by
  constructor
  · intro req tr r a t h hok ha ht
    obtain ⟨a', t', _, _, _, _, _, _, ha', hp, _⟩ := C42_private_key_jwt P req tr r h hok
    cases ha.symm.trans ha'
    rw [hP, restrict, ht, Option.filter_eq_some_iff] at hp
    obtain ⟨e, hm⟩ := hp
    cases e
    simpa [assertionAlgs] using hm
  · intro a t ht h
    have e : t.alg = g!"ES384" := by
      rcases h with h | h | h <;> exact List.mem_singleton.mp h
    rw [hP, restrict, ht, Option.filter_eq_some_iff]
    exact ⟨rfl, by rw [e]; decide⟩

/-- **C79_assertion_violated.** Assertions signed by ES256 are accepted, although the description names ES384
only. -/
theorem C79_assertion_violated (issuer : Str) : ∃ (P : ClientAuth.Parsers) (parse : Str → Option Jws) (req : ClientAuth.AuthReq) (a : Str)
    (t : Jws) (tr : List Ev) (r : ClientAuth.AuthResult), P.parse = restrict assertionAlgs parse ∧ req.assertion = some a ∧ parse a = some t ∧
    Exec (ClientAuth.privateKeyJwt P (some req)) tr (.done r) ∧ r.goErr = false ∧
    t.alg ∉ (metadata issuer).tokenEndpointAuthSigningAlgValuesSupported := by
  let parse : Str → Option Jws := fun s => (demoP.parse s).map fun t => { t with alg := g!"ES256" }
  let P : ClientAuth.Parsers := { demoP with parse := restrict assertionAlgs parse }
  obtain ⟨tr, r, h, hr⟩ := oracle_ex demoAns (ClientAuth.privateKeyJwt P (some demoReq)) (fun r => r.goErr = false) (by decide +kernel)
  refine ⟨P, parse, demoReq, g!"assertion", _, tr, r, rfl, rfl, rfl, h, hr, ?_⟩
  show g!"ES256" ∉ [g!"ES384"]
  decide

end Verif.Props
