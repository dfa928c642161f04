import Verif.Proofs.AuthzErrors
import Verif.Props.Http
import Verif.Props.Discovery

/-!
Error codes of the authorization endpoints, for every behaviour of the stores and the
generators (any answer to any call).
-/
namespace Verif.Props
open Verif.Spec Verif.Prog Verif.Authorization

/-- **C93** (authorization requests). A request is refused exactly when one of the listed faults
is there, and the answer tells one of the faults that are there. -/
theorem C93_authorize (E : Env) (req : Option AuthorizeReq) (tr : List Ev) (a : AuthorizeResp)
    (h : Exec (authorize E req) tr (.done a)) :
    (a.goErr = true ↔ ∃ k, AuthorizeFault E req tr k) ∧
    (a.goErr = true → ∃ k, AuthorizeFault E req tr k ∧ TellsFault (fun r => ∃ q, req = some q ∧ ActedOn q tr r) a.error k) := by
  cases req with
  | none =>
    have : authorize E none = .ret (Authorization.fail .invalidRequest) := rfl
    rw [this] at h
    cases h
    have hr : AuthorizeFault E none [] .request := rfl
    exact ⟨⟨fun _ => ⟨_, hr⟩, fun _ => rfl⟩, fun _ => ⟨_, hr, _, rfl, rfl, fun h => absurd h (by decide), fun _ => Or.inl rfl⟩⟩
  | some q =>
    rcases done_sound (authorize_verdict E q) h with ⟨ha, k, hk, e, h1, h2, h3, h4⟩ | ⟨ha, hn⟩
    · refine ⟨⟨fun _ => ⟨k, hk⟩, fun _ => ha⟩, fun _ => ⟨k, hk, e, h1, h2, fun hl => ?_, fun hl => ?_⟩⟩
      · obtain ⟨r, hr, hs⟩ := h3 hl
        exact ⟨r, ⟨q, rfl, hr⟩, hs⟩
      · rcases h4 hl with h4 | ⟨h4, r, hr, hs⟩
        · exact Or.inl h4
        · exact Or.inr ⟨h4, r, ⟨q, rfl, hr⟩, hs⟩
    · refine ⟨⟨fun h => ?_, fun ⟨k, hk⟩ => absurd hk (hn k)⟩, fun h => ?_⟩ <;> rw [ha] at h <;> cases h

/-- **C93** (pushed authorization requests). -/
theorem C93_register (E : Env) (req : Option RegistrationReq) (tr : List Ev) (a : RegistrationResp)
    (h : Exec (register E req) tr (.done a)) :
    (a.goErr = true ↔ ∃ k, RegisterFault E req tr k) ∧
    (a.goErr = true → ∃ k, RegisterFault E req tr k ∧ TellsFault (fun r => ∃ q, req = some q ∧ q.request = some r) a.error k) := by
  cases req with
  | none =>
    have : register E none = .ret (failR .invalidRequest) := rfl
    rw [this] at h
    cases h
    have hr : RegisterFault E none [] .request := rfl
    exact ⟨⟨fun _ => ⟨_, hr⟩, fun _ => rfl⟩, fun _ => ⟨_, hr, _, rfl, rfl, fun h => absurd h (by decide), fun _ => Or.inl rfl⟩⟩
  | some q =>
    rcases done_sound (register_verdict E q) h with ⟨ha, k, hk, e, h1, h2, h3, h4⟩ | ⟨ha, hn⟩
    · refine ⟨⟨fun _ => ⟨k, hk⟩, fun _ => ha⟩, fun _ => ⟨k, hk, e, h1, h2, fun hl => ?_, fun hl => ?_⟩⟩
      · obtain ⟨r, hr, hs⟩ := h3 hl
        exact ⟨r, ⟨q, rfl, hr⟩, hs⟩
      · rcases h4 hl with h4 | ⟨h4, r, hr, hs⟩
        · exact Or.inl h4
        · exact Or.inr ⟨h4, r, ⟨q, rfl, hr⟩, hs⟩
    · refine ⟨⟨fun h => ?_, fun ⟨k, hk⟩ => absurd hk (hn k)⟩, fun h => ?_⟩ <;> rw [ha] at h <;> cases h

/-- The faults that are told with another code than the prescribed one. -/
def misnamed : List AFault := [.responseType, .clientGrant, .clientType]

/-- **C93 (partial).** The full claim is that the code of a refusal is always one that the
standards prescribe for a fault that is there. It holds unless an unknown response type or a
client that may not use the code grant or the response type is among the faults. -/
theorem C93_prescribed_partial (E : Env) (req : Option AuthorizeReq) (tr : List Ev) (a : AuthorizeResp)
    (h : Exec (authorize E req) tr (.done a)) (ha : a.goErr = true) (hc : ∀ k, AuthorizeFault E req tr k → k ∉ misnamed) :
    ∃ k e, AuthorizeFault E req tr k ∧ a.error = some e ∧ Discovery.codeText e.code = k.prescribed := by
  obtain ⟨k, hk, e, h1, h2, _⟩ := (C93_authorize E req tr a h).2 ha
  refine ⟨k, e, hk, h1, ?_⟩
  have := hc k hk
  rw [h2]
  revert this
  cases k <;> decide

/-- **C93** (state). The error of a request that is refused for what it says or for the client it
names carries its state. -/
theorem C93_state (E : Env) (q : AuthorizeReq) (r : AuthzRequest) (tr : List Ev) (a : AuthorizeResp)
    (h : Exec (authorize E (some q)) tr (.done a)) (ha : a.goErr = true) (hr : ∀ r', ActedOn q tr r' → r' = r)
    (hs : r.state ≠ []) (hc : ∀ k, AuthorizeFault E (some q) tr k → k.late) :
    ∃ e, a.error = some e ∧ e.state = some r.state := by
  obtain ⟨k, hk, e, h1, _, h3, _⟩ := (C93_authorize E _ tr a h).2 ha
  obtain ⟨r', ⟨q', hq, hr'⟩, hst⟩ := h3 (hc k hk)
  cases hq
  cases hr r' hr'
  rw [if_neg hs] at hst
  exact ⟨e, h1, hst⟩

/-- **C93 is violated** for each of the three faults of `misnamed`: every request with only this
fault is told another code than the one that the standards prescribe. -/
theorem C93_violated (E : Env) (req : Option AuthorizeReq) (tr : List Ev) (a : AuthorizeResp) (k : AFault) (hk : k ∈ misnamed)
    (h : Exec (authorize E req) tr (.done a)) (hr : ∀ k', AuthorizeFault E req tr k' ↔ k' = k) :
    ∃ e, a.error = some e ∧ e.code = k.given ∧ Discovery.codeText e.code ≠ k.prescribed := by
  obtain ⟨h1, h2⟩ := C93_authorize E req tr a h
  obtain ⟨k', hk', e, h3, h4, _⟩ := h2 (h1.2 ⟨k, (hr k).2 rfl⟩)
  cases (hr k').1 hk'
  refine ⟨e, h3, h4, ?_⟩
  rw [h4]
  revert hk
  cases k <;> decide

/-- **C93** (device authorization requests). -/
theorem C93_device (q : DeviceAuthzReq) (tr : List Ev) (a : DeviceAuthzResp) (h : Exec (Device.authorize (some q)) tr (.done a)) :
    (a.goErr = true ↔ ∃ k, HasDeviceFault (some q) tr k) ∧
    (a.goErr = true → ∃ k, HasDeviceFault (some q) tr k ∧ TellsDevice q tr a.error k) := by
  rcases done_sound (Device.authorize_verdict q) h with ⟨ha, k, hk⟩ | ⟨ha, hn⟩
  · exact ⟨⟨fun _ => ⟨k, hk.1⟩, fun _ => ha⟩, fun _ => ⟨k, hk⟩⟩
  · refine ⟨⟨fun h => ?_, fun ⟨k, hk⟩ => absurd hk (hn k)⟩, fun h => ?_⟩ <;> rw [ha] at h <;> cases h

/-- A device of a client that nobody knows is told `invalid_request` instead of `invalid_client`,
one of a client that may not use the grant is told `unsupported_grant_type` instead of
`unauthorized_client`, and a failing client store is told `invalid_request` instead of
`server_error`. -/
theorem C93_device_violated (q : DeviceAuthzReq) (tr : List Ev) (a : DeviceAuthzResp)
    (h : Exec (Device.authorize (some q)) tr (.done a)) (k : DeviceFault) (hr : ∀ k', HasDeviceFault (some q) tr k' ↔ k' = k)
    (hk : k = .clientGrant ∨ k = .clientUnknown ∧ ⟨.clientsGet q.clientId, .ok none⟩ ∉ tr ∨
      k = .broken ∧ ⟨.clientsGet q.clientId, .error .other⟩ ∈ tr) :
    ∃ e, a.error = some e ∧ e.code ≠ k.prescribed := by
  obtain ⟨h1, h2⟩ := C93_device q tr a h
  obtain ⟨k', hk', ht⟩ := h2 (h1.2 ⟨k, (hr k).2 rfl⟩)
  cases (hr k').1 hk'
  rcases hk with rfl | ⟨rfl, hk⟩ | ⟨rfl, hk⟩
  · exact ⟨_, ht, by decide⟩
  · rcases ht with ⟨ht, _⟩ | ⟨_, ht⟩
    · exact ⟨_, ht, by decide⟩
    · exact absurd ht hk
  · rcases ht with ⟨ht, _⟩ | ⟨_, ht⟩
    · exact ⟨_, ht, by decide⟩
    · exact absurd hk ht

/-! ### Errors are not redirected -/

/-- Without a registered code the browser is not sent anywhere: no error reaches an unregistered
redirect URI. -/
theorem C93_not_sent (S : Http.Server) (r : Http.Req) (tr : List Ev) (a : Http.Resp)
    (h : Exec (Http.serve S .authorize r) tr (.done a)) (hn : ∀ c s n, ⟨.csReg S.issuer c s, .ok n⟩ ∉ tr) (u : Str)
    (d : Http.Delivery) (x : Str) : a.body ≠ .authorization u d x := by
  intro hb
  obtain ⟨st, b⟩ := a
  cases hb
  obtain ⟨_, code, sess, n, _, _, hm, _⟩ := C68_content S r tr st u d x h
  exact hn _ _ _ hm

/-- Nor does an error reach a registered one: a known client whose signed request names its own
redirect URI and has a state, but a response mode that it is not registered for, gets no
redirection, though RFC 6749 section 4.1.2.1 prescribes one. -/
theorem C93_redirect_violated : ∃ (S : Http.Server) (r : Http.Req) (tr : List Ev) (cl : Client) (ar : AuthzRequest) (c : ErrCode),
    Exec (Http.serve S .authorize r) tr (.done ⟨400, .error c⟩) ∧
      ⟨.clientsGet (r.get g!"client_id"), .ok (some cl)⟩ ∈ tr ∧ Http.decodeRequest S cl (r.get g!"request") = some ar ∧
      ar.clientId = cl.clientId ∧ MemFold ar.redirectUri cl.redirectUris ∧ ar.state ≠ [] := by
  let ans : (c : Cmd) → c.Res := fun
    | .clientsGet id => .ok (some { Demo.httpClient id with responseModes := [] })
    | c => Demo.httpAnswers c
  have hx := oracle_exec ans (Http.serve Demo.server .authorize (Demo.httpAuthorize g!"ro"))
  refine ⟨Demo.server, Demo.httpAuthorize g!"ro",
    (oracle ans (Http.serve Demo.server .authorize (Demo.httpAuthorize g!"ro"))).1, { Demo.httpClient g!"app" with responseModes := [] },
    { Demo.request with responseMode := some g!"form_post.jwt" }, .invalidRequest, ?_, ?_, ?_, rfl,
    (contains_iff _ _).1 (by decide), by decide⟩
  · have : (oracle ans (Http.serve Demo.server .authorize (Demo.httpAuthorize g!"ro"))).2 = .done ⟨400, .error .invalidRequest⟩ := by
      rfl
    rw [this] at hx
    exact hx
  · exact List.mem_cons_self ..
  · rfl

/-! ### The hypotheses are met -/

/-- Decide the faults on a literal trace. -/
local macro "faults" : tactic => `(tactic| (
  simp (decide := true) [AuthorizeFault, RegisterFault, AFault.Of, ActedOn, Disturbed, HasDeviceFault, Demo.client, Demo.env, Demo.issuer,
    Demo.request, Demo.authorizeReq, effectiveMode]
  <;> first
    | exact (contains_iff _ _).1 (by decide)
    | exact fun h => absurd ((contains_iff _ _).2 h) (by decide)
    | exact ⟨by decide, by decide, by decide, rfl, by decide, by decide, by decide, ⟨by decide, rfl⟩, Or.inl rfl, by decide⟩
    | exact fun h => absurd h.nonce (by decide)
    | skip))

/-- Every fault of authorization requests occurs alone. -/
theorem C93_occurs (k : AFault) (hk : k ≠ .client ∧ k ≠ .nested ∧ k ≠ .foreign) :
    ∃ (req : Option AuthorizeReq) (tr : List Ev) (a : AuthorizeResp),
    Exec (authorize Demo.env req) tr (.done a) ∧ ∀ k', AuthorizeFault Demo.env req tr k' ↔ k' = k := by
  have go : ∀ (req : Option AuthorizeReq) (ans : (c : Cmd) → c.Res) (tr : List Ev),
      (oracle ans (authorize Demo.env req)).1 = tr → (oracle ans (authorize Demo.env req)).2.get?.isSome = true →
      (∀ k', AuthorizeFault Demo.env req tr k' ↔ k' = k) →
      ∃ (req : Option AuthorizeReq) (tr : List Ev) (a : AuthorizeResp), Exec (authorize Demo.env req) tr (.done a) ∧
      ∀ k', AuthorizeFault Demo.env req tr k' ↔ k' = k := by
    intro req ans tr h1 h3 h2
    obtain ⟨a, ha⟩ := Option.isSome_iff_exists.1 h3
    subst h1
    exact ⟨req, _, a, oracle_done ans _ a ha, h2⟩
  cases k with
  | request => exact go none Demo.answers [] rfl rfl (fun k' => Iff.rfl)
  | issuer =>
    refine go (some { Demo.authorizeReq with issuer := [] }) Demo.answers
      [] rfl rfl ?_
    intro k'
    cases k' <;> faults
  | subject =>
    refine go (some { Demo.authorizeReq with subject := [] }) Demo.answers
      [] rfl rfl ?_
    intro k'
    cases k' <;> faults
  | pushed =>
    refine go (some { Demo.authorizeReq with request := some { Demo.request with requestUri := some g!"u" } })
      (fun | .arGet .. => .error .notFound | c => Demo.answers c)
      [⟨.arGet Demo.issuer g!"u", .error .notFound⟩] rfl rfl ?_
    intro k'
    cases k' <;> faults
  | malformed =>
    refine go (some { Demo.authorizeReq with request := some { Demo.request with nonce := [] } }) Demo.answers
      [] rfl rfl ?_
    intro k'
    cases k' <;> faults
  | responseType =>
    refine go (some { Demo.authorizeReq with request := some { Demo.request with responseType := g!"none" } }) Demo.answers
      [] rfl rfl ?_
    intro k'
    cases k' <;> faults
  | clientUnknown =>
    refine go (some Demo.authorizeReq) (fun | .clientsGet _ => .error .notFound | c => Demo.answers c)
      [⟨.clientsGet g!"app", .error .notFound⟩] rfl rfl ?_
    intro k'
    cases k' <;> faults
  | clientGrant =>
    refine go (some Demo.authorizeReq) (fun | .clientsGet _ => .ok (some { Demo.client with grantTypes := [] }) | c => Demo.answers c)
      [⟨.clientsGet g!"app", .ok (some { Demo.client with grantTypes := [] })⟩] rfl rfl ?_
    intro k'
    cases k' <;> faults
  | clientType =>
    refine go (some Demo.authorizeReq) (fun | .clientsGet _ => .ok (some { Demo.client with responseTypes := [] }) | c => Demo.answers c)
      [⟨.clientsGet g!"app", .ok (some { Demo.client with responseTypes := [] })⟩] rfl rfl ?_
    intro k'
    cases k' <;> faults
  | clientRedirect =>
    refine go (some Demo.authorizeReq) (fun | .clientsGet _ => .ok (some { Demo.client with redirectUris := [] }) | c => Demo.answers c)
      [⟨.clientsGet g!"app", .ok (some { Demo.client with redirectUris := [] })⟩] rfl rfl ?_
    intro k'
    cases k' <;> faults
  | clientMode =>
    refine go (some Demo.authorizeReq) (fun | .clientsGet _ => .ok (some { Demo.client with responseModes := [] }) | c => Demo.answers c)
      [⟨.clientsGet g!"app", .ok (some { Demo.client with responseModes := [] })⟩] rfl rfl ?_
    intro k'
    cases k' <;> faults
  | broken =>
    refine go (some Demo.authorizeReq) (fun | .genCode _ => .error .other | c => Demo.answers c)
      [⟨.clientsGet g!"app", .ok (some Demo.client)⟩, ⟨.genCode Demo.issuer, .error .other⟩] rfl rfl ?_
    intro k'
    cases k' <;> faults
  | client => exact absurd rfl hk.1
  | nested => exact absurd rfl hk.2.1
  | foreign => exact absurd rfl hk.2.2

/-- The faults that only pushed requests have occur alone, too. -/
theorem C93_occurs_pushed (k : AFault) (hk : k = .client ∨ k = .nested ∨ k = .foreign) :
    ∃ (req : Option RegistrationReq) (tr : List Ev) (a : RegistrationResp),
    Exec (register Demo.env req) tr (.done a) ∧ ∀ k', RegisterFault Demo.env req tr k' ↔ k' = k := by
  have go : ∀ (req : Option RegistrationReq) (ans : (c : Cmd) → c.Res) (tr : List Ev),
      (oracle ans (register Demo.env req)).1 = tr → (oracle ans (register Demo.env req)).2.get?.isSome = true →
      (∀ k', RegisterFault Demo.env req tr k' ↔ k' = k) →
      ∃ (req : Option RegistrationReq) (tr : List Ev) (a : RegistrationResp), Exec (register Demo.env req) tr (.done a) ∧
      ∀ k', RegisterFault Demo.env req tr k' ↔ k' = k := by
    intro req ans tr h1 h3 h2
    obtain ⟨a, ha⟩ := Option.isSome_iff_exists.1 h3
    subst h1
    exact ⟨req, _, a, oracle_done ans _ a ha, h2⟩
  rcases hk with rfl | rfl | rfl
  · refine go (some ⟨Demo.issuer, none, some Demo.request, none⟩) Demo.answers [] rfl rfl ?_
    intro k'
    cases k' <;> faults
  · refine go (some ⟨Demo.issuer, some Demo.client, some { Demo.request with requestUri := some g!"u" }, none⟩) Demo.answers [] rfl rfl ?_
    intro k'
    cases k' <;> faults
  · refine go (some ⟨Demo.issuer, some { Demo.client with clientId := g!"other" }, some Demo.request, none⟩) Demo.answers
      [⟨.clientsGet g!"app", .ok (some Demo.client)⟩] rfl rfl ?_
    intro k'
    cases k' <;> faults

/-- Every fault of device authorization requests occurs alone, the failing client store among the
failures. -/
theorem C93_occurs_device (k : DeviceFault) : ∃ (req : Option DeviceAuthzReq) (tr : List Ev) (a : DeviceAuthzResp),
    Exec (Device.authorize req) tr (.done a) ∧ (∀ k', HasDeviceFault req tr k' ↔ k' = k) ∧
    (k = .broken → ⟨.clientsGet g!"app", .error .other⟩ ∈ tr) := by
  have go : ∀ (req : Option DeviceAuthzReq) (ans : (c : Cmd) → c.Res) (tr : List Ev),
      (oracle ans (Device.authorize req)).1 = tr → (oracle ans (Device.authorize req)).2.get?.isSome = true →
      (∀ k', HasDeviceFault req tr k' ↔ k' = k) → (k = .broken → ⟨.clientsGet g!"app", .error .other⟩ ∈ tr) →
      ∃ (req : Option DeviceAuthzReq) (tr : List Ev) (a : DeviceAuthzResp), Exec (Device.authorize req) tr (.done a) ∧
      (∀ k', HasDeviceFault req tr k' ↔ k' = k) ∧ (k = .broken → ⟨.clientsGet g!"app", .error .other⟩ ∈ tr) := by
    intro req ans tr h1 h3 h2 h4
    obtain ⟨a, ha⟩ := Option.isSome_iff_exists.1 h3
    subst h1
    exact ⟨req, _, a, oracle_done ans _ a ha, h2, h4⟩
  cases k with
  | request => exact go none Demo.answers [] rfl rfl (fun k' => Iff.rfl) (fun h => by cases h)
  | issuer =>
    refine go (some { issuer := [], clientId := g!"app" }) Demo.answers
      [] rfl rfl ?_ (by simp)
    intro k'
    cases k' <;> faults
  | client =>
    refine go (some { issuer := Demo.issuer, clientId := [] }) Demo.answers
      [] rfl rfl ?_ (by simp)
    intro k'
    cases k' <;> faults
  | clientUnknown =>
    refine go (some { issuer := Demo.issuer, clientId := g!"app" }) (fun | .clientsGet _ => .error .notFound | c => Demo.answers c)
      [⟨.clientsGet g!"app", .error .notFound⟩] rfl rfl ?_ (by simp)
    intro k'
    cases k' <;> faults
  | clientGrant =>
    refine go (some { issuer := Demo.issuer, clientId := g!"app" }) (fun | .clientsGet _ => .ok (some { Demo.client with grantTypes := [] }) | c => Demo.answers c)
      [⟨.clientsGet g!"app", .ok (some { Demo.client with grantTypes := [] })⟩] rfl rfl ?_ (by simp)
    intro k'
    cases k' <;> faults
  | broken =>
    refine go (some { issuer := Demo.issuer, clientId := g!"app" }) (fun | .clientsGet _ => .error .other | c => Demo.answers c)
      [⟨.clientsGet g!"app", .error .other⟩] rfl rfl ?_ (by simp)
    intro k'
    cases k' <;> faults

end Verif.Props
