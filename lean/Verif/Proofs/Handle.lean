import Verif.Proofs.History
import Verif.Proofs.StoreFacts
import Verif.Proofs.TokenCalls
import Verif.Proofs.Authorization

/-! From requests of a history to executions of the service functions. -/
namespace Verif
open Verif.Prog
variable {E : Env}

theorem exec_map {α β : Type} {p : Prog α} {f : α → β} {tr : List Ev} {b : β}
    (h : Exec (p >>= fun a => .ret (f a)) tr (.done b)) : ∃ a, b = f a ∧ Exec p tr (.done a) := by
  obtain ⟨t1, t2, a, rfl, h1, h2⟩ := exec_bind_done h
  cases h2
  exact ⟨a, rfl, by simpa using h1⟩

theorem calls_map {α β : Type} {J : List Ev → Cmd → Prop} {p : Prog α} {f : α → β} {acc : List Ev}
    (h : Calls J p acc) : Calls J (p >>= fun a => .ret (f a)) acc :=
  calls_bind h (by
    have : ∀ (p : Prog α) acc, Done (fun tr a => Calls J (Prog.ret (f a)) tr) p acc := by
      intro p
      induction p with
      | ret a => intro acc; trivial
      | panic => intro acc; trivial
      | op c k ih => intro acc r; exact ih r _
    exact this p acc)

/-- `Only` as a `Calls` statement. -/
theorem calls_only {α : Type} {S : Cmd → Bool} {p : Prog α} (h : Only S p) (acc : List Ev) :
    Calls (fun _ c => S c = true) p acc := by
  induction p generalizing acc with
  | ret a => trivial
  | panic => trivial
  | op c k ih => exact ⟨h.1, fun r => ih r (h.2 r) _⟩

theorem only_calls {α : Type} {S : Cmd → Bool} {p : Prog α} {acc : List Ev}
    (h : Calls (fun _ c => S c = true) p acc) : Only S p := by
  induction p generalizing acc with
  | ret a => trivial
  | panic => trivial
  | op c k ih => exact ⟨h.1, fun r => ih r (h.2 r)⟩

/-- The calls a request may make. -/
def reqCmds : Req → Cmd → Bool
  | .authorize _ => authorizeCmds
  | .register _ => registerCmds
  | .deviceAuthorize _ => deviceAuthorizeCmds
  | .deviceValidate _ => deviceValidateCmds
  | .token _ => tokenCmds
  | .introspect _ => introspectCmds
  | .revoke _ => revokeCmds
  | .dpop _ => dpopCmds

theorem only_token (E : Env) (r : Option TokenReq) : Only tokenCmds (TokenSvc.token E r) :=
  only_calls (calls_mono (TokenSvc.token_calls E r) fun _ _ h => h.foot)

theorem only_handle (E : Env) (r : Req) : Only (reqCmds r) (handle E r) := by
  cases r with
  | authorize r => exact only_bind (only_authorize E r) fun _ => trivial
  | register r => exact only_bind (only_register E r) fun _ => trivial
  | deviceAuthorize r => exact only_bind (only_deviceAuthorize r) fun _ => trivial
  | deviceValidate r => exact only_bind (only_deviceValidate r) fun _ => trivial
  | token r => exact only_bind (only_token E r) fun _ => trivial
  | introspect r => exact only_bind (only_introspect E r) fun _ => trivial
  | revoke r => exact only_bind (only_revoke E r) fun _ => trivial
  | dpop r => exact only_bind (only_dpop E r) fun _ => trivial

/-- Every executed call belongs to a request that may make it. -/
theorem entry_foot {s : St} {ls : List Label} {n : Nat} {e : Entry} (h : (run E s ls).log[n]? = some e) :
    ∃ r, Asked (run E s ls) e.tid r ∧ reqCmds r e.cmd = true := by
  obtain ⟨r, hr⟩ := entry_asked h
  exact ⟨r, hr, entry_calls h hr (calls_only (only_handle E r) [])⟩

/-- Sessions are only stored by authorization requests, and justified. -/
theorem entry_csReg {s : St} {ls : List Label} {n : Nat} {e : Entry} (h : (run E s ls).log[n]? = some e)
    {i code : Str} {cs : CodeSession} (hc : e.cmd = .csReg i code cs) :
    ∃ q r eff cl, Asked (run E s ls) e.tid (.authorize (some q)) ∧
      Spec.SessionJustified E q (callsOf E e.tid ((run E s ls).log.take n)) i cs r eff cl := by
  obtain ⟨r, hr, hf⟩ := entry_foot h
  rw [hc] at hf
  cases r <;> simp [reqCmds, registerCmds, deviceAuthorizeCmds, deviceValidateCmds, tokenCmds, introspectCmds,
    revokeCmds, dpopCmds] at hf
  rename_i r
  obtain ⟨q, r', eff, cl, h1, h2⟩ := entry_calls h hr (calls_map (Authorization.authorize_calls E r)) i code cs hc
  subst h1
  exact ⟨q, r', eff, cl, hr, h2⟩

/-- Requests are only pushed by push requests, and justified. -/
theorem entry_arReg {s : St} {ls : List Label} {n : Nat} {e : Entry} (h : (run E s ls).log[n]? = some e)
    {i uri : Str} {eff : AuthzRequest} (hc : e.cmd = .arReg i uri eff) :
    ∃ q cl0 r, Asked (run E s ls) e.tid (.register (some q)) ∧ q.issuer ≠ [] ∧ q.client = some cl0 ∧
        q.request = some r ∧ r.requestUri = none ∧ r.clientId = cl0.clientId ∧ Spec.WellFormed E r ∧
        Spec.Effective r eff ∧ i = q.issuer := by
  obtain ⟨r, hr, hf⟩ := entry_foot h
  rw [hc] at hf
  cases r <;> simp [reqCmds, authorizeCmds, deviceAuthorizeCmds, deviceValidateCmds, tokenCmds, introspectCmds,
    revokeCmds, dpopCmds] at hf
  rename_i r
  obtain ⟨q, cl0, r', cl, h1, h2, h3, h4, h5, h6, h7, h8, h9, h10, h11⟩ :=
    entry_calls h hr (calls_map (Authorization.register_calls E r)) i uri eff hc
  subst h1
  exact ⟨q, cl0, r', hr, h2, h3, h4, h5, h6, h7, h8, h11⟩

/-- Tokens are only created by token requests, and justified. -/
theorem entry_tkCreate {s : St} {ls : List Label} {n : Nat} {e : Entry} (h : (run E s ls).log[n]? = some e)
    {i : Str} {t : Token} (hc : e.cmd = .tkCreate i t) :
    ∃ q c0 cl, Asked (run E s ls) e.tid (.token (some q)) ∧ q.client = some c0 ∧
      ⟨.clientsGet c0.clientId, .ok (some cl)⟩ ∈ callsOf E e.tid ((run E s ls).log.take n) ∧
      TokenSvc.Mints E q cl (callsOf E e.tid ((run E s ls).log.take n)) i t := by
  obtain ⟨r, hr, hf⟩ := entry_foot h
  rw [hc] at hf
  cases r <;> simp [reqCmds, registerCmds, authorizeCmds, deviceAuthorizeCmds, deviceValidateCmds, introspectCmds,
    revokeCmds, dpopCmds] at hf
  rename_i r
  obtain ⟨q, c0, cl, h1, h2, h3, h4⟩ := (entry_calls h hr (calls_map (TokenSvc.token_calls E r))).create i t hc
  subst h1
  exact ⟨q, c0, cl, hr, h2, h3, h4⟩

/-- Code sessions are only deleted by token requests for that code that found it. -/
theorem entry_csDel {s : St} {ls : List Label} {n : Nat} {e : Entry} (h : (run E s ls).log[n]? = some e)
    {i code : Str} (hc : e.cmd = .csDel i code) :
    ∃ q g s', Asked (run E s ls) e.tid (.token (some q)) ∧ q.grant = some (.authorizationCode g) ∧
      i = q.issuer ∧ code = g.code ∧
      ⟨.csGet i code, .ok (some s')⟩ ∈ callsOf E e.tid ((run E s ls).log.take n) := by
  obtain ⟨r, hr, hf⟩ := entry_foot h
  rw [hc] at hf
  cases r <;> simp [reqCmds, registerCmds, authorizeCmds, deviceAuthorizeCmds, deviceValidateCmds, introspectCmds,
    revokeCmds, dpopCmds] at hf
  rename_i r
  obtain ⟨q, g, s', h1, h2, h3, h4, h5⟩ := (entry_calls h hr (calls_map (TokenSvc.token_calls E r))).del i code hc
  subst h1
  exact ⟨q, g, s', hr, h2, h3, h4, h5⟩

/-- Code sessions are only looked up by token requests for that code. -/
theorem entry_csGet {s : St} {ls : List Label} {n : Nat} {e : Entry} (h : (run E s ls).log[n]? = some e)
    {i code : Str} (hc : e.cmd = .csGet i code) :
    ∃ q g, Asked (run E s ls) e.tid (.token (some q)) ∧ q.grant = some (.authorizationCode g) ∧
      i = q.issuer ∧ code = g.code := by
  obtain ⟨r, hr, hf⟩ := entry_foot h
  rw [hc] at hf
  cases r <;> simp [reqCmds, registerCmds, authorizeCmds, deviceAuthorizeCmds, deviceValidateCmds, introspectCmds,
    revokeCmds, dpopCmds] at hf
  rename_i r
  obtain ⟨q, g, h1, h2, h3, h4⟩ := (entry_calls h hr (calls_map (TokenSvc.token_calls E r))).get i code hc
  subst h1
  exact ⟨q, g, hr, h2, h3, h4⟩

/-! ### Answers -/

theorem Answered.token {s : St} {ls : List Label} {i : Nat} {r : Option TokenReq} {a : TokenResp}
    (h : Answered (run E s ls) i (.token r) (.token a)) :
    Exec (TokenSvc.token E r) (callsOf E i (run E s ls).log) (.done a) := by
  obtain ⟨b, e, hx⟩ := exec_map (f := Resp.token) h.exec
  cases e; exact hx

theorem Answered.authorize {s : St} {ls : List Label} {i : Nat} {r : Option AuthorizeReq} {a : AuthorizeResp}
    (h : Answered (run E s ls) i (.authorize r) (.authorize a)) :
    Exec (Authorization.authorize E r) (callsOf E i (run E s ls).log) (.done a) := by
  obtain ⟨b, e, hx⟩ := exec_map (f := Resp.authorize) h.exec
  cases e; exact hx

theorem Answered.register {s : St} {ls : List Label} {i : Nat} {r : Option RegistrationReq} {a : RegistrationResp}
    (h : Answered (run E s ls) i (.register r) (.register a)) :
    Exec (Authorization.register E r) (callsOf E i (run E s ls).log) (.done a) := by
  obtain ⟨b, e, hx⟩ := exec_map (f := Resp.register) h.exec
  cases e; exact hx

theorem Answered.introspect {s : St} {ls : List Label} {i : Nat} {r : Option TokenRefReq} {a : IntrospectResp}
    (h : Answered (run E s ls) i (.introspect r) (.introspect a)) :
    Exec (TokenSvc.introspect E r) (callsOf E i (run E s ls).log) (.done a) := by
  obtain ⟨b, e, hx⟩ := exec_map (f := Resp.introspect) h.exec
  cases e; exact hx

theorem Answered.revoke {s : St} {ls : List Label} {i : Nat} {r : Option TokenRefReq} {a : RevokeResp}
    (h : Answered (run E s ls) i (.revoke r) (.revoke a)) :
    Exec (TokenSvc.revoke E r) (callsOf E i (run E s ls).log) (.done a) := by
  obtain ⟨b, e, hx⟩ := exec_map (f := Resp.revoke) h.exec
  cases e; exact hx

theorem Answered.deviceValidate {s : St} {ls : List Label} {i : Nat} {r : Option DeviceValidationReq}
    {a : DeviceValidationResp} (h : Answered (run E s ls) i (.deviceValidate r) (.deviceValidate a)) :
    Exec (Device.validate r) (callsOf E i (run E s ls).log) (.done a) := by
  obtain ⟨b, e, hx⟩ := exec_map (f := Resp.deviceValidate) h.exec
  cases e; exact hx

theorem Answered.dpop {s : St} {ls : List Label} {i : Nat} {r : DPoP.VerifyReq} {a : Option Str}
    (h : Answered (run E s ls) i (.dpop r) (.dpop a)) :
    Exec (DPoP.verify E r) (callsOf E i (run E s ls).log) (.done a) := by
  obtain ⟨b, e, hx⟩ := exec_map (f := Resp.dpop) h.exec
  cases e; exact hx

end Verif
