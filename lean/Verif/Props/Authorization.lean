import Verif.Proofs.Authorization
import Verif.Proofs.Demo

/-!
Properties of the authorization endpoint (C01, C02, C03, C16, C18), for every
behaviour of the client store, the session store and the generators.
-/
namespace Verif.Props
open Verif.Spec Verif.Prog Verif.Authorization

/-- **C01.** Whenever `Authorize` answers with a code, the request it acted on is
well formed and issuer and subject are non-empty. -/
theorem C01_code_only_for_wellformed (E : Env) (req : Option AuthorizeReq) (tr : List Ev)
    (a : AuthorizeResp) (h : Exec (authorize E req) tr (.done a)) (hi : Issued a) :
    ∃ q r, req = some q ∧ ActedOn q tr r ∧ q.issuer ≠ [] ∧ q.subject ≠ [] ∧ WellFormed E r := by
  have := done_sound (authorize_done E req) h
  simp only [List.nil_append] at this
  rcases this with ⟨_, q, r, eff, cl, n, s, h1, ⟨h2, h3, h4, h5, _⟩, _⟩ | ⟨hn, _⟩
  · exact ⟨q, r, h1, h4, h2, h3, h5⟩
  · exact absurd hi hn

/-- **C02.** Whenever `Authorize` answers with a code, the client named in the
request acted on was found in the store and is registered for it. -/
theorem C02_client_registered (E : Env) (req : Option AuthorizeReq) (tr : List Ev)
    (a : AuthorizeResp) (h : Exec (authorize E req) tr (.done a)) (hi : Issued a) :
    ∃ q r cl, req = some q ∧ ActedOn q tr r ∧
      ⟨.clientsGet r.clientId, .ok (some cl)⟩ ∈ tr ∧ Registered cl r := by
  have := done_sound (authorize_done E req) h
  simp only [List.nil_append] at this
  rcases this with ⟨_, q, r, eff, cl, n, s, h1, ⟨h2, h3, h4, h5, h6, h7, h8, _⟩, _⟩ | ⟨hn, _⟩
  · exact ⟨q, r, cl, h1, h4, h7, h8⟩
  · exact absurd hi hn

/-- **C03** (complete answers). A code answer was preceded by exactly one storage
of a session: under the issuer and the returned code, holding issuer, subject and
effective request; the answer repeats the request's state, redirect URI and client
id and the lifetime announced by the store. -/
theorem C03_code_bound_to_session (E : Env) (req : Option AuthorizeReq) (tr : List Ev)
    (a : AuthorizeResp) (h : Exec (authorize E req) tr (.done a)) (hi : Issued a) :
    ∃ q r eff n, req = some q ∧ ActedOn q tr r ∧ Effective r eff ∧
      tr.filter storesSession = [⟨.csReg q.issuer a.code
        { issuer := q.issuer, subject := q.subject, request := some eff }, .ok n⟩] ∧
      a = { code := a.code, state := r.state, redirectUri := r.redirectUri, clientId := r.clientId,
            expiresIn := n, issuer := q.issuer } := by
  have := done_sound (authorize_done E req) h
  simp only [List.nil_append] at this
  rcases this with ⟨_, q, r, eff, cl, n, s, h1, ⟨h2, h3, h4, h5, h6, h7, h8, h9, hs⟩, hf, ha⟩ | ⟨hn, _⟩
  · subst hs; exact ⟨q, r, eff, n, h1, h4, h6, hf, ha⟩
  · exact absurd hi hn

/-- **C03** (refusals). When no code is returned, every session handed to the
store was answered by a failure of the store. -/
theorem C03_no_code_no_session (E : Env) (req : Option AuthorizeReq) (tr : List Ev)
    (a : AuthorizeResp) (h : Exec (authorize E req) tr (.done a)) (hi : ¬ Issued a) :
    ∀ ev ∈ tr, storesSession ev = true → ∃ i c s e, ev = ⟨.csReg i c s, .error e⟩ := by
  have := done_sound (authorize_done E req) h
  simp only [List.nil_append] at this
  rcases this with ⟨hn, _⟩ | ⟨_, hs⟩
  · exact absurd hn hi
  · intro ev hev hst; exact hs ev (by simp [hev, hst])

/-- **C03** (crash at any point). Also in an interrupted execution, a session is
only ever handed to the store for a well-formed request of a registered client
and holds exactly issuer, subject and effective request. -/
theorem C03_session_justified (E : Env) (req : Option AuthorizeReq) (tr : List Ev)
    (o : Outcome AuthorizeResp) (h : Exec (authorize E req) tr o) (i c : Str) (s : CodeSession)
    (res : SRes Nat) (hm : ⟨.csReg i c s, res⟩ ∈ tr) :
    ∃ q r eff cl, req = some q ∧ SessionJustified E q tr i s r eff cl := by
  obtain ⟨pre, post, e, hj⟩ := calls_mem (authorize_calls E req) h hm
  obtain ⟨q, r, eff, cl, h1, h2, h3, ⟨r0, ha, hb⟩, h5, h6, h7, h8, h9, h10⟩ := hj i c s rfl
  refine ⟨q, r, eff, cl, h1, h2, h3, ⟨r0, ha, ?_⟩, h5, h6, by rw [e]; simp [h7], h8, h9, h10⟩
  rcases hb with hb | ⟨u, hu, hb⟩
  · exact Or.inl hb
  · exact Or.inr ⟨u, hu, by rw [e]; simp [hb]⟩

/-- **C18.** Every session created by the authorization endpoint carries the
effective response mode, never `jwt`, and that mode is registered for the client. -/
theorem C18_response_mode (E : Env) (req : Option AuthorizeReq) (tr : List Ev)
    (o : Outcome AuthorizeResp) (h : Exec (authorize E req) tr o) (i c : Str) (s : CodeSession)
    (res : SRes Nat) (hm : ⟨.csReg i c s, res⟩ ∈ tr) :
    ∃ q r eff cl, req = some q ∧ ActedOn q tr r ∧ s.request = some eff ∧
      ⟨.clientsGet r.clientId, .ok (some cl)⟩ ∈ tr ∧
      (∀ m, r.responseMode = some m →
        eff.responseMode = some (effectiveMode r.responseType m) ∧
        MemFold (effectiveMode r.responseType m) cl.responseModes) ∧
      (r.responseMode = none → eff.responseMode = none) ∧
      eff.responseMode ≠ some g!"jwt" := by
  obtain ⟨q, r, eff, cl, h1, h2, h3, h4, h5, h6, h7, h8, h9, h10⟩ :=
    C03_session_justified E req tr o h i c s res hm
  refine ⟨q, r, eff, cl, h1, h4, by rw [h10], h7, ?_, ?_, ?_⟩
  · intro m hmm
    exact ⟨by rw [h6.mode, hmm]; rfl, h8.responseMode m hmm⟩
  · intro hn; rw [h6.mode, hn]; rfl
  · rw [h6.mode]
    intro hjwt
    simp only [Option.map_eq_some_iff] at hjwt
    obtain ⟨m, _, he⟩ := hjwt
    unfold effectiveMode at he
    split at he
    · split at he <;> exact absurd he (by decide)
    · exact absurd he (by assumption)

/-- **C16.** A push answers with a request URI only if the pushed request is well
formed, has no request URI itself, names the authenticated client, whose
registration allows it; and exactly the effective request was stored. -/
theorem C16_push_by_owner (E : Env) (req : Option RegistrationReq) (tr : List Ev)
    (a : RegistrationResp) (h : Exec (register E req) tr (.done a)) (hp : Pushed a) :
    ∃ q cl r eff n, req = some q ∧ q.issuer ≠ [] ∧ q.client = some cl ∧ q.request = some r ∧
      r.requestUri = none ∧ r.clientId = cl.clientId ∧ WellFormed E r ∧ Effective r eff ∧
      (∃ reg, ⟨.clientsGet r.clientId, .ok (some reg)⟩ ∈ tr ∧ Registered reg r) ∧
      tr.filter storesRequest = [⟨.arReg q.issuer a.requestUri eff, .ok n⟩] ∧
      a = { requestUri := a.requestUri, expiresIn := n, issuer := q.issuer } := by
  have := done_sound (register_done E req) h
  simp only [List.nil_append] at this
  rcases this with ⟨_, q, cl0, r, eff, cl, n, h1, h2, h3, h4, h5, h6, h7, h8, h9, h10, h11, h12⟩ | ⟨hn, _⟩
  · exact ⟨q, cl0, r, eff, n, h1, h2, h3, h4, h5, h6, h7, h8, ⟨cl, h10, h9⟩, h11, h12⟩
  · exact absurd hp hn

/-- **C16** (crash at any point). In every execution, even interrupted, a request
is handed to the store only for its owner, without nesting. -/
theorem C16_pushed_request_justified (E : Env) (req : Option RegistrationReq) (tr : List Ev)
    (o : Outcome RegistrationResp) (h : Exec (register E req) tr o) (i u : Str) (eff : AuthzRequest)
    (res : SRes Nat) (hm : ⟨.arReg i u eff, res⟩ ∈ tr) :
    ∃ q cl r, req = some q ∧ q.client = some cl ∧ q.request = some r ∧ r.requestUri = none ∧
      r.clientId = cl.clientId ∧ WellFormed E r ∧ Effective r eff ∧ i = q.issuer := by
  obtain ⟨pre, post, e, hj⟩ := calls_mem (register_calls E req) h hm
  obtain ⟨q, cl0, r, cl, h1, h2, h3, h4, h5, h6, h7, h8, h9, h10, h11⟩ := hj i u eff rfl
  exact ⟨q, cl0, r, h1, h3, h4, h5, h6, h7, h8, h11⟩

/-! Non-vacuity: a well-formed request of a registered client obtains a code,
directly and through a pushed request, and the alias is expanded. -/

example : ∃ tr a, Exec (authorize Demo.env (some Demo.authorizeReq)) tr (.done a) ∧
    Issued a ∧ a.code = g!"c0de" ∧ a.expiresIn = 60 :=
  oracle_ex Demo.answers _ (fun a => Issued a ∧ _ ∧ _) (by decide)

/-- the same through a pushed request -/
example : ∃ tr a, Exec (authorize Demo.env (some { Demo.authorizeReq with
    request := some { requestUri := some g!"uri" } })) tr (.done a) ∧ Issued a ∧ a.clientId = g!"app" :=
  oracle_ex Demo.answers _ (fun a => Issued a ∧ _) (by decide)

/-- the session stored for response mode `jwt` carries `query.jwt` -/
example : ∃ tr o i c s res, Exec (authorize Demo.env (some Demo.authorizeReq)) tr o ∧
    ⟨.csReg i c s, res⟩ ∈ tr ∧ (s.request.bind (·.responseMode)) = some g!"query.jwt" :=
  ⟨_, _, Demo.issuer, g!"c0de", _, .ok (60 : Nat), oracle_exec Demo.answers _,
    List.mem_cons_of_mem _ (List.mem_cons_of_mem _ (List.mem_cons_self ..)), by decide⟩

/-- a refusal: unknown client, so no session is stored -/
example : ∃ tr a, Exec (authorize Demo.env (some Demo.authorizeReq)) tr (.done a) ∧ ¬ Issued a :=
  oracle_ex (fun | .clientsGet _ => .error .notFound | c => Demo.answers c) _ (fun a => ¬ Issued a) (by decide)

example : ∃ tr a, Exec (register Demo.env (some ⟨Demo.issuer, some Demo.client, some Demo.request, none⟩)) tr (.done a) ∧
    Pushed a :=
  oracle_ex Demo.answers _ Pushed (by decide)

end Verif.Props
