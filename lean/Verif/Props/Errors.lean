import Verif.Proofs.Errors
import Verif.Props.Token

/-!
Error codes of the token endpoint, for every behaviour of the stores, the generators and the
clock (any answer to any call).
-/
namespace Verif.Props
open Verif.Spec Verif.Prog Verif.TokenSvc

/-- **C92.** A token request is refused exactly when one of the listed reasons is there, and
the answer tells one of the reasons that are there. -/
theorem C92_reasons (E : Env) (req : Option TokenReq) (tr : List Ev) (a : TokenResp)
    (h : Exec (token E req) tr (.done a)) :
    (a.goErr = true ↔ ∃ k, HasReason E req tr k) ∧
    (a.goErr = true → ∃ k, HasReason E req tr k ∧ Tells req tr a k) := by
  cases req with
  | none =>
    have : token E none = .ret (TokenSvc.fail .invalidRequest) := rfl
    rw [this] at h
    cases h
    have hr : HasReason E none [] .request := rfl
    exact ⟨⟨fun _ => ⟨_, hr⟩, fun _ => rfl⟩, fun _ => ⟨_, hr, Or.inl ⟨_, rfl, rfl, Or.inl rfl⟩⟩⟩
  | some q =>
    rcases done_sound (token_verdict E q) h with ⟨ha, k, hk, ht⟩ | ⟨ha, hn⟩
    · exact ⟨⟨fun _ => ⟨k, hk⟩, fun _ => ha⟩, fun _ => ⟨k, hk, ht⟩⟩
    · refine ⟨⟨fun h => ?_, fun ⟨k, hk⟩ => absurd hk (hn k)⟩, fun h => ?_⟩ <;> rw [ha] at h <;> cases h

/-- The reasons for which the answer carries the code of the standards. -/
def conformant : List Reason :=
  [.request, .parameter, .noClient, .unknownClient, .codeUnknown, .codeMismatch, .deviceExpired, .devicePending, .subjectInvalid]

/-- The reasons for which the answer carries another code. -/
def deviant : List Reason :=
  [.codeParameter, .grantUnknown, .grantMissing, .notRegistered, .publicClient, .deviceUnknown, .deviceForeign, .deviceState,
    .refreshInvalid]

/-- **C92 (partial).** The full claim is that the code of a refusal is always one that the
standards prescribe for a reason that is there. It holds when all reasons that are there are
among the nine of `conformant`. -/
theorem C92_prescribed_partial (E : Env) (req : Option TokenReq) (tr : List Ev) (a : TokenResp)
    (h : Exec (token E req) tr (.done a)) (ha : a.goErr = true)
    (hc : ∀ k, HasReason E req tr k → k ∈ conformant) :
    ∃ k e, HasReason E req tr k ∧ a.error = some e ∧ k.prescribed = some e.code := by
  obtain ⟨k, hk, ht⟩ := (C92_reasons E req tr a h).2 ha
  have hm := hc k hk
  rcases ht with ⟨e, h1, h2, _⟩ | ⟨_, h2, _⟩
  · refine ⟨k, e, hk, h1, ?_⟩
    rw [← h2]
    revert hm
    cases k <;> decide
  · exfalso; revert h2 hm; cases k <;> decide

/-- A failure of the server is told as `server_error`, never as a fault of the client, unless
a reason of the client is there too; the token exchange may give no code. -/
theorem C92_broken (E : Env) (q : TokenReq) (tr : List Ev) (a : TokenResp)
    (h : Exec (token E (some q)) tr (.done a)) (ha : a.goErr = true)
    (hc : ∀ k, HasReason E (some q) tr k → k = .broken) :
    (∃ e, a.error = some e ∧ e.code = .serverError ∧ e.state = none) ∨
    (a.error = none ∧ ∃ g, q.grant = some (.tokenExchange g)) := by
  obtain ⟨k, hk, ht⟩ := (C92_reasons E _ tr a h).2 ha
  have hm := hc k hk
  subst hm
  rcases ht with ⟨e, h1, h2, h3 | ⟨h3, _⟩⟩ | ⟨h1, _, r, g, h2, h3⟩
  · exact Or.inl ⟨e, h1, (Option.some.inj h2).symm, h3⟩
  · cases h3
  · simp only [Option.some.injEq] at h2; subst h2
    exact Or.inr ⟨h1, g, h3⟩

/-- **C92 is violated** for each of the nine reasons of `deviant`: every request with only this
reason is told another code than the one that the standards prescribe. -/
theorem C92_violated (E : Env) (req : Option TokenReq) (tr : List Ev) (a : TokenResp) (k : Reason) (hk : k ∈ deviant)
    (h : Exec (token E req) tr (.done a)) (hr : ∀ k', HasReason E req tr k' ↔ k' = k) :
    ∃ e, a.error = some e ∧ k.given = some e.code ∧ k.prescribed ≠ some e.code := by
  obtain ⟨h1, h2⟩ := C92_reasons E req tr a h
  obtain ⟨k', hk', ht⟩ := h2 (h1.2 ⟨k, (hr k).2 rfl⟩)
  have := (hr k').1 hk'
  subst this
  rcases ht with ⟨e, h1, h2, _⟩ | ⟨_, h2, _⟩
  · refine ⟨e, h1, h2, ?_⟩
    rw [← h2]
    revert hk
    cases k' <;> decide
  · exfalso; revert h2 hk; cases k' <;> decide

/-- An unknown audience, for which `invalid_target` is prescribed, is told without any code. -/
theorem C92_violated_audience (E : Env) (q : TokenReq) (tr : List Ev) (a : TokenResp)
    (h : Exec (token E (some q)) tr (.done a)) (hr : ∀ k', HasReason E (some q) tr k' ↔ k' = .audienceUnknown) :
    a.goErr = true ∧ a.error = none := by
  obtain ⟨h1, h2⟩ := C92_reasons E _ tr a h
  have ha := h1.2 ⟨_, (hr _).2 rfl⟩
  obtain ⟨k', hk', ht⟩ := h2 ha
  have := (hr k').1 hk'
  subst this
  rcases ht with ⟨e, _, h2, _⟩ | ⟨h, _, _⟩
  · cases h2
  · exact ⟨ha, h⟩

/-! ### The hypotheses are met -/

/-- A device request of the examples. -/
def errDevice : TokenReq :=
  { issuer := Demo.issuer, client := some Demo.client, grantType := g!"urn:ietf:params:oauth:grant-type:device_code"
    grant := some (.deviceCode g!"dc") }

/-- A device session of the examples. -/
def errSession (id : Str) (st : DeviceStatus) : DeviceSession :=
  { client := some Demo.client, issuer := Demo.issuer, expiresAt := 200
    request := some ⟨Demo.issuer, id, some g!"openid", none⟩, status := st, deviceCode := g!"dc", subject := some g!"alice" }

/-- Decide the reasons on a literal trace. -/
local macro "reasons" : tactic => `(tactic| (
  simp (decide := true) [HasReason, ByClient, demoCode, demoRefresh, errDevice, demoExchange, errSession, Broken, Demo.client2,
    Demo.client, Demo.env, Demo.issuer, Demo.answers, Demo.request, firstClock, second]
  <;> first
    | exact .code _
    | exact .cc
    | exact .device _
    | exact .refresh _
    | exact .exchange _
    | exact (contains_iff _ _).1 (by decide)
    | exact fun h => absurd ((contains_iff _ _).2 h) (by decide)
    | exact ⟨_, _, ⟨rfl, rfl⟩, _, rfl, by decide⟩
    | exact ⟨_, _, ⟨rfl, rfl⟩, by decide⟩
    | skip))

set_option maxHeartbeats 1000000 in
/-- Every reason occurs alone. -/
theorem C92_occurs (k : Reason) : ∃ (req : Option TokenReq) (tr : List Ev) (a : TokenResp),
    Exec (token Demo.env req) tr (.done a) ∧ ∀ k', HasReason Demo.env req tr k' ↔ k' = k := by
  have go : ∀ (req : Option TokenReq) (ans : (c : Cmd) → c.Res) (tr : List Ev),
      (oracle ans (token Demo.env req)).1 = tr → (oracle ans (token Demo.env req)).2.get?.isSome = true →
      (∀ k', HasReason Demo.env req tr k' ↔ k' = k) →
      ∃ (req : Option TokenReq) (tr : List Ev) (a : TokenResp), Exec (token Demo.env req) tr (.done a) ∧
      ∀ k', HasReason Demo.env req tr k' ↔ k' = k := by
    intro req ans tr h1 h3 h2
    obtain ⟨a, ha⟩ := Option.isSome_iff_exists.1 h3
    subst h1
    exact ⟨req, _, a, oracle_done ans _ a ha, h2⟩
  cases k with
  | request => exact go none Demo.answers [] rfl rfl (fun k' => Iff.rfl)
  | parameter =>
    refine go (some { errDevice with grant := some (.deviceCode []) }) Demo.answers
      [⟨.clientsGet g!"app", .ok (some Demo.client)⟩] rfl rfl ?_
    intro k'
    cases k' <;> reasons
  | codeParameter =>
    refine go (some { demoCode with grant := some (.authorizationCode ⟨g!"c0de", g!"https://app/cb", []⟩) }) Demo.answers
      [⟨.clientsGet g!"app", .ok (some Demo.client)⟩] rfl rfl ?_
    intro k'
    cases k' <;> reasons
  | issuer =>
    refine go (some { demoCode with issuer := [] }) Demo.answers
      [] rfl rfl ?_
    intro k'
    cases k' <;> reasons
  | noClient =>
    refine go (some { demoCode with client := none }) Demo.answers
      [] rfl rfl ?_
    intro k'
    cases k' <;> reasons
  | unknownClient =>
    refine go (some demoCode) (fun | .clientsGet _ => .error .notFound | c => Demo.answers c)
      [⟨.clientsGet g!"app", .error .notFound⟩] rfl rfl ?_
    intro k'
    cases k' <;> reasons
  | grantUnknown =>
    refine go (some { demoCode with grantType := g!"password" }) Demo.answers
      [] rfl rfl ?_
    intro k'
    cases k' <;> reasons
  | grantMissing =>
    refine go (some { demoCode with grant := none }) Demo.answers
      [] rfl rfl ?_
    intro k'
    cases k' <;> reasons
  | notRegistered =>
    refine go (some demoRefresh) (fun | .clientsGet _ => .ok (some { Demo.client with grantTypes := [] }) | c => Demo.answers c)
      [⟨.clientsGet g!"app", .ok (some { Demo.client with grantTypes := [] })⟩] rfl rfl ?_
    intro k'
    cases k' <;> reasons
  | publicClient =>
    refine go (some { demoCode with grantType := g!"client_credentials", grant := some .clientCredentials }) (fun | .clientsGet _ => .ok (some { Demo.client with clientType := .pub }) | c => Demo.answers c)
      [⟨.clientsGet g!"app", .ok (some { Demo.client with clientType := .pub })⟩] rfl rfl ?_
    intro k'
    cases k' <;> reasons
  | codeUnknown =>
    refine go (some demoCode) (fun | .csGet .. => .error .notFound | c => Demo.answers c)
      [⟨.clientsGet g!"app", .ok (some Demo.client)⟩, ⟨.csGet Demo.issuer g!"c0de", .error .notFound⟩] rfl rfl ?_
    intro k'
    cases k' <;> reasons
  | codeMismatch =>
    refine go (some { demoCode with grant := some (.authorizationCode ⟨g!"c0de", g!"https://evil/cb", Demo.verifier⟩) }) Demo.answers
      [⟨.clientsGet g!"app", .ok (some Demo.client)⟩, ⟨.csGet Demo.issuer g!"c0de", Demo.answers (.csGet Demo.issuer g!"c0de")⟩,
        ⟨.csDel Demo.issuer g!"c0de", .ok ()⟩] rfl rfl ?_
    intro k'
    cases k' <;> reasons
  | deviceUnknown =>
    refine go (some errDevice) (fun | .dsGetDev .. => .error .notFound | c => Demo.answers c)
      [⟨.clientsGet g!"app", .ok (some Demo.client)⟩, ⟨.dsGetDev Demo.issuer g!"dc", .error .notFound⟩] rfl rfl ?_
    intro k'
    cases k' <;> reasons
  | deviceForeign =>
    refine go (some errDevice) (fun | .dsGetDev .. => .ok (some (0, errSession g!"other" .validated)) | c => Demo.answers c)
      [⟨.clientsGet g!"app", .ok (some Demo.client)⟩, ⟨.dsGetDev Demo.issuer g!"dc", .ok (some (0, errSession g!"other" .validated))⟩] rfl rfl ?_
    intro k'
    cases k' <;> reasons
  | deviceExpired =>
    refine go (some errDevice) (fun | .dsGetDev .. => .ok (some (0, errSession g!"app" .validated)) | .now => (300 * second : Nat) | c => Demo.answers c)
      [⟨.clientsGet g!"app", .ok (some Demo.client)⟩, ⟨.dsGetDev Demo.issuer g!"dc", .ok (some (0, errSession g!"app" .validated))⟩,
        ⟨.now, (300 * second : Nat)⟩] rfl rfl ?_
    intro k'
    cases k' <;> reasons
  | devicePending =>
    refine go (some errDevice) (fun | .dsGetDev .. => .ok (some (0, errSession g!"app" .authorizationPending)) | c => Demo.answers c)
      [⟨.clientsGet g!"app", .ok (some Demo.client)⟩, ⟨.dsGetDev Demo.issuer g!"dc", .ok (some (0, errSession g!"app" .authorizationPending))⟩,
        ⟨.now, (100 * second : Nat)⟩] rfl rfl ?_
    intro k'
    cases k' <;> reasons
  | deviceState =>
    refine go (some errDevice) (fun | .dsGetDev .. => .ok (some (0, errSession g!"app" .unknown)) | c => Demo.answers c)
      [⟨.clientsGet g!"app", .ok (some Demo.client)⟩, ⟨.dsGetDev Demo.issuer g!"dc", .ok (some (0, errSession g!"app" .unknown))⟩,
        ⟨.now, (100 * second : Nat)⟩] rfl rfl ?_
    intro k'
    cases k' <;> reasons
  | refreshInvalid =>
    refine go (some demoRefresh) (fun | .tkGetVal .. => .error .notFound | c => Demo.answers c)
      [⟨.clientsGet g!"app", .ok (some Demo.client)⟩, ⟨.tkGetVal Demo.issuer g!"rt", .error .notFound⟩] rfl rfl ?_
    intro k'
    cases k' <;> reasons
  | subjectInvalid =>
    refine go (some demoExchange) (fun | .tkGetVal .. => .error .notFound | c => Demo.answers c)
      [⟨.clientsGet g!"other", .ok (some Demo.client2)⟩, ⟨.tkGetVal Demo.issuer g!"at0", .error .notFound⟩] rfl rfl ?_
    intro k'
    cases k' <;> reasons
  | audienceUnknown =>
    refine go (some { demoExchange with audience := some g!"api" }) (fun | .resourcesGet .. => .error .notFound | c => Demo.answers c)
      [⟨.clientsGet g!"other", .ok (some Demo.client2)⟩, ⟨.tkGetVal Demo.issuer g!"at0", Demo.answers (.tkGetVal Demo.issuer g!"at0")⟩,
        ⟨.now, (100 * second : Nat)⟩, ⟨.now, (100 * second : Nat)⟩, ⟨.jti, g!"jti"⟩, ⟨.resourcesGet g!"api", .error .notFound⟩] rfl rfl ?_
    intro k'
    cases k' <;> reasons
  | broken =>
    refine go (some demoCode) (fun | .clientsGet _ => .error .other | c => Demo.answers c)
      [⟨.clientsGet g!"app", .error .other⟩] rfl rfl ?_
    intro k'
    cases k' <;> reasons

/-- The violation happens, for each of the nine reasons. -/
example (k : Reason) (hk : k ∈ deviant) : ∃ req tr a e, Exec (token Demo.env req) tr (.done a) ∧ HasReason Demo.env req tr k ∧
    a.error = some e ∧ ∀ k', HasReason Demo.env req tr k' → k'.prescribed ≠ some e.code := by
  obtain ⟨req, tr, a, h, hr⟩ := C92_occurs k
  obtain ⟨e, h1, _, h3⟩ := C92_violated Demo.env req tr a k hk h hr
  exact ⟨req, tr, a, e, h, (hr k).2 rfl, h1, fun k' hk' => (hr k').1 hk' ▸ h3⟩

/-- The hypotheses of the partial theorem are met for each conformant reason. -/
example (k : Reason) (hk : k ∈ conformant) : ∃ req tr a e, Exec (token Demo.env req) tr (.done a) ∧ HasReason Demo.env req tr k ∧
    a.error = some e ∧ k.prescribed = some e.code := by
  obtain ⟨req, tr, a, h, hr⟩ := C92_occurs k
  have ha := (C92_reasons Demo.env req tr a h).1.2 ⟨k, (hr k).2 rfl⟩
  obtain ⟨k', e, h1, h2, h3⟩ := C92_prescribed_partial Demo.env req tr a h ha fun k' hk' => (hr k').1 hk' ▸ hk
  cases (hr k').1 h1
  exact ⟨req, tr, a, e, h, h1, h2, h3⟩

end Verif.Props
