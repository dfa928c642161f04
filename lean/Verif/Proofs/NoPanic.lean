import Verif.Proofs.Prog
import Verif.Model.System
import Verif.Spec.Token

/-! Absence of crashes of the services, given what the stores may answer. -/
namespace Verif
open Verif.Prog Verif.Spec

variable {W : Ev → Prop}

/-- A lookup never answers a nil pointer without error. -/
def Contract (W : Ev → Prop) : Prop := ∀ ev, W ev → StoreContract ev

theorem noPanic_generateAT (c : Client) (md : TokenMeta) (cnf : Option Cnf) :
    NoPanic W (TokenSvc.generateAccessToken c md cnf) := by
  unfold TokenSvc.generateAccessToken
  simp only [Prog.call, bind_op, bind_ret, pure_eq, NoPanic]
  intro _ _ _ _
  rintro (_ | v) _
  · trivial
  · simp only; split
    · trivial
    · rintro (_ | u) _ <;> trivial

theorem noPanic_generateRT (c : Client) (md : TokenMeta) (cnf : Option Cnf) :
    NoPanic W (TokenSvc.generateRefreshToken c md cnf) := by
  unfold TokenSvc.generateRefreshToken
  simp only [Prog.call, bind_op, bind_ret, pure_eq, NoPanic]
  intro _ _ _ _
  rintro (_ | v) _
  · trivial
  · simp only; split
    · trivial
    · rintro (_ | u) _ <;> trivial

theorem noPanic_code (hW : Contract W) (E : Env) (c : Option Client) (q : TokenReq) (g : GrantCode) :
    NoPanic W (TokenSvc.authorizationCode E c q g) := by
  unfold TokenSvc.authorizationCode
  cases c with
  | none => trivial
  | some c =>
    simp only
    repeat' (split; · trivial)
    simp only [Prog.call, bind_op, bind_ret, pure_eq, NoPanic]
    rintro ((_ | _) | (_ | s)) hr
    · trivial
    · trivial
    · exact absurd rfl (hW _ hr)
    · simp only
      cases s.request with
      | none => trivial
      | some ar =>
        simp only [NoPanic]
        rintro (_ | u) _
        · trivial
        · simp only
          split
          · trivial
          · unfold TokenSvc.codeTokens
            simp only
            split
            · refine noPanic_bind (noPanic_generateAT _ _ _) ?_
              rintro (_ | t)
              · trivial
              · simp only
                split
                · refine noPanic_bind (noPanic_generateRT _ _ _) ?_
                  rintro (_ | t) <;> trivial
                · trivial
            · trivial

theorem noPanic_cc (E : Env) (c : Option Client) (q : TokenReq) :
    NoPanic W (TokenSvc.clientCredentials E c q) := by
  unfold TokenSvc.clientCredentials
  cases c with
  | none => trivial
  | some c =>
    simp only
    repeat' (split; · trivial)
    refine noPanic_bind (noPanic_generateAT _ _ _) ?_
    rintro (_ | t) <;> trivial

theorem noPanic_device (E : Env) (c : Option Client) (q : TokenReq) (dc : Str) :
    NoPanic W (TokenSvc.deviceCode E c q dc) := by
  unfold TokenSvc.deviceCode
  cases c with
  | none => trivial
  | some c =>
    simp only
    repeat' (split; · trivial)
    simp only [Prog.call, bind_op, bind_ret, pure_eq, NoPanic]
    rintro ((_ | _) | (_ | ⟨ref, s⟩)) hr
    · trivial
    · trivial
    · trivial
    · simp only
      cases s.request with
      | none => trivial
      | some ar =>
        simp only
        split; · trivial
        split; · trivial
        simp only [NoPanic]
        intro now _
        split; · trivial
        split; · trivial
        split; · trivial
        cases s.subject with
        | none => trivial
        | some sub =>
          unfold TokenSvc.deviceTokens
          simp only
          refine noPanic_bind (noPanic_generateAT _ _ _) ?_
          rintro (_ | t)
          · trivial
          · simp only
            cases s.scope with
            | none => trivial
            | some sc =>
              simp only
              split
              · refine noPanic_bind (noPanic_generateRT _ _ _) ?_
                rintro (_ | t) <;> trivial
              · trivial

theorem noPanic_refresh (hW : Contract W) (E : Env) (c : Option Client) (q : TokenReq) (v : Str) :
    NoPanic W (TokenSvc.refreshToken E c q v) := by
  unfold TokenSvc.refreshToken
  cases c with
  | none => trivial
  | some c =>
    simp only
    repeat' (split; · trivial)
    simp only [Prog.call, bind_op, bind_ret, pure_eq, NoPanic]
    rintro ((_ | _) | (_ | rt)) hr
    · trivial
    · trivial
    · exact absurd rfl (hW _ hr)
    · simp only
      split; · trivial
      split; · trivial
      cases rt.metadata with
      | none => trivial
      | some md =>
        simp only [NoPanic]
        intro now _
        split; · trivial
        split; · trivial
        unfold TokenSvc.refreshTokens
        refine noPanic_bind (noPanic_generateAT _ _ _) ?_
        rintro (_ | t)
        · trivial
        · simp only
          split
          · refine noPanic_bind (noPanic_generateRT _ _ _) ?_
            rintro (_ | t)
            · trivial
            · simp only [Prog.call, bind_op, bind_ret, pure_eq, NoPanic]
              rintro (_ | u) _ <;> trivial
          · trivial

theorem noPanic_finish (q : TokenReq) (md : TokenMeta) (sc : Str) (spec : Token) :
    NoPanic W (TokenSvc.exchangeFinish q md sc spec) := by
  unfold TokenSvc.exchangeFinish
  simp only [Prog.call, bind_op, bind_ret, pure_eq, NoPanic]
  rintro (_ | v) _
  · trivial
  · simp only
    by_cases hv : v = []
    · rw [if_pos hv]; trivial
    · rw [if_neg hv]; rintro (_ | u) _ <;> trivial

/-- The exchange needs the resource store not to fail, when an audience is named. -/
theorem noPanic_exchange (hW : Contract W) (E : Env) (c : Option Client) (q : TokenReq) (g : GrantExchange)
    (hR : q.audience = none ∨ ∀ ev, W ev → ResourceContract ev) :
    NoPanic W (TokenSvc.tokenExchange E c q g) := by
  unfold TokenSvc.tokenExchange
  cases c with
  | none => trivial
  | some c =>
    simp only
    repeat' (split; · trivial)
    simp only [Prog.call, bind_op, bind_ret, pure_eq, NoPanic]
    rintro ((_ | _) | (_ | st)) hr
    · trivial
    · trivial
    · exact absurd rfl (hW _ hr)
    · simp only
      split; · trivial
      split; · trivial
      cases st.metadata with
      | none => trivial
      | some md =>
        simp only [NoPanic]
        intro now _
        split; · trivial
        unfold TokenSvc.exchangeBuild
        simp only [Prog.call, bind_op, bind_ret, pure_eq, NoPanic]
        intro _ _ _ _
        cases ha : q.audience with
        | none => exact noPanic_finish _ _ _ _
        | some u =>
          have hR := hR.resolve_left (by simp [ha])
          simp only [NoPanic]
          rintro ((_ | _) | (_ | res)) hr
          · trivial
          · exact absurd rfl (hR _ hr)
          · exact absurd rfl (hW _ hr)
          · exact noPanic_finish _ _ _ _

/-- The request does not combine token exchange with an audience. -/
def NoAudience (req : Option TokenReq) : Prop :=
  ∀ q g, req = some q → q.grant = some (.tokenExchange g) → q.audience = none

theorem noPanic_token (hW : Contract W) (E : Env) (req : Option TokenReq)
    (hR : NoAudience req ∨ ∀ ev, W ev → ResourceContract ev) :
    NoPanic W (TokenSvc.token E req) := by
  unfold TokenSvc.token
  cases req with
  | none => trivial
  | some q =>
    cases hv : TokenSvc.validateRequest (some q) with
    | some e => trivial
    | none =>
      simp only
      cases hc : q.client with
      | none =>
        simp only [TokenSvc.validateRequest, hc] at hv
        split at hv <;> simp at hv
      | some c =>
        simp only [Prog.call, bind_op, bind_ret, pure_eq, NoPanic]
        rintro ((_ | _) | client) _
        · trivial
        · trivial
        · simp only
          unfold TokenSvc.dispatch
          split
          · split
            · exact noPanic_cc _ _ _
            · trivial
          split
          · split
            · exact noPanic_code hW _ _ _ _
            · trivial
          split
          · split
            · exact noPanic_device _ _ _ _
            · trivial
          split
          · split
            · exact noPanic_refresh hW _ _ _ _
            · trivial
          split
          · split
            · rename_i hg
              exact noPanic_exchange hW _ _ _ _ (hR.imp (fun h => h q _ rfl hg) id)
            · trivial
          · trivial

theorem noPanic_validate (hW : Contract W) (E : Env) (r : Option AuthzRequest) :
    NoPanic W (Authorization.validate E r) := by
  unfold Authorization.validate
  split
  · trivial
  · simp only [Prog.call, bind_op, bind_ret, pure_eq, NoPanic]
    rintro ((_ | _) | (_ | s)) hr
    · trivial
    · trivial
    · exact absurd rfl (hW _ hr)
    · simp only; split <;> trivial

theorem noPanic_authorizeWith (hW : Contract W) (E : Env) (i s : Str) (r : Option AuthzRequest) :
    NoPanic W (Authorization.authorizeWith E i s r) := by
  unfold Authorization.authorizeWith
  refine noPanic_bind (noPanic_validate hW _ _) ?_
  rintro (e | ar)
  · trivial
  · simp only [Prog.call, bind_op, bind_ret, pure_eq, NoPanic]
    rintro (_ | code) _
    · trivial
    · rintro (_ | n) _ <;> trivial

theorem noPanic_authorize (hW : Contract W) (E : Env) (req : Option AuthorizeReq) :
    NoPanic W (Authorization.authorize E req) := by
  unfold Authorization.authorize
  cases req with
  | none => trivial
  | some q =>
    simp only
    cases q.request with
    | none => trivial
    | some r =>
      simp only
      split; · trivial
      split; · trivial
      cases r.requestUri with
      | none => exact noPanic_authorizeWith hW _ _ _ _
      | some uri =>
        simp only
        split; · trivial
        simp only [Prog.call, bind_op, bind_ret, pure_eq, NoPanic]
        rintro ((_ | _) | ar) _
        · trivial
        · trivial
        · rintro ((_ | _) | u) _
          · trivial
          · trivial
          · exact noPanic_authorizeWith hW _ _ _ _

theorem noPanic_register (hW : Contract W) (E : Env) (req : Option RegistrationReq) :
    NoPanic W (Authorization.register E req) := by
  unfold Authorization.register
  cases req with
  | none => trivial
  | some q =>
    simp only
    split; · trivial
    cases q.client with
    | none => trivial
    | some c =>
      cases q.request with
      | none => trivial
      | some r =>
        simp only
        split; · trivial
        refine noPanic_bind (noPanic_validate hW _ _) ?_
        rintro (e | ar)
        · trivial
        · simp only [Prog.call, bind_op, bind_ret, pure_eq]
          split; · trivial
          simp only [NoPanic]
          rintro (_ | uri) _
          · trivial
          · rintro (_ | n) _ <;> trivial

theorem noPanic_deviceAuthorize (req : Option DeviceAuthzReq) : NoPanic W (Device.authorize req) := by
  unfold Device.authorize
  cases req with
  | none => trivial
  | some q =>
    simp only
    split; · trivial
    split; · trivial
    simp only [Prog.call, bind_op, bind_ret, pure_eq, NoPanic]
    rintro (_ | (_ | c)) _
    · trivial
    · trivial
    · simp only
      split; · trivial
      rintro (_ | dc) _
      · trivial
      · rintro (_ | uc) _
        · trivial
        · rintro (_ | n) _ <;> trivial

theorem noPanic_deviceValidate (req : Option DeviceValidationReq) : NoPanic W (Device.validate req) := by
  unfold Device.validate
  cases req with
  | none => trivial
  | some q =>
    simp only
    split; · trivial
    split; · trivial
    split; · trivial
    simp only [Prog.call, bind_op, bind_ret, pure_eq, NoPanic]
    rintro ((_ | _) | (_ | ⟨ref, s⟩)) _
    · trivial
    · trivial
    · trivial
    · simp only
      split; · trivial
      split; · trivial
      simp only [NoPanic]
      intro now _
      split; · trivial
      split; · trivial
      simp only [NoPanic]
      intro _ _
      rintro (_ | u) _
      · trivial
      · rintro (_ | u) _ <;> trivial

theorem noPanic_introspect (E : Env) (req : Option TokenRefReq) : NoPanic W (TokenSvc.introspect E req) := by
  unfold TokenSvc.introspect
  cases req with
  | none => trivial
  | some q =>
    simp only
    split; · trivial
    split; · trivial
    cases q.client with
    | none => trivial
    | some c =>
      simp only
      split; · trivial
      simp only [Prog.call, bind_op, bind_ret, pure_eq, NoPanic]
      rintro ((_ | _) | c) _
      · trivial
      · trivial
      · rintro ((_ | _) | t) _ <;> trivial

theorem noPanic_revoke (hW : Contract W) (E : Env) (req : Option TokenRefReq) :
    NoPanic W (TokenSvc.revoke E req) := by
  unfold TokenSvc.revoke
  cases req with
  | none => trivial
  | some q =>
    simp only
    split; · trivial
    split; · trivial
    cases q.client with
    | none => trivial
    | some c =>
      simp only
      split; · trivial
      simp only [Prog.call, bind_op, bind_ret, pure_eq, NoPanic]
      rintro ((_ | _) | c) _
      · trivial
      · trivial
      · rintro (_ | (_ | t)) hr
        · trivial
        · exact absurd rfl (hW _ hr)
        · rintro (_ | u) _ <;> trivial

theorem noPanic_dpop (E : Env) (r : DPoP.VerifyReq) : NoPanic W (DPoP.verify E r) := by
  unfold DPoP.verify
  split; · trivial
  split; · trivial
  split; · trivial
  split; · trivial
  split; · trivial
  split; · trivial
  split; · trivial
  split; · trivial
  refine noPanic_bind ?_ ?_
  · unfold DPoP.fresh
    simp only [Prog.call, bind_op, bind_ret, pure_eq]
    intro n1 _
    dsimp only
    split
    · trivial
    · intro _ _; trivial
  · rintro (_ | _)
    · trivial
    · simp only [DPoP.replay, Prog.call, bind_op, bind_ret, pure_eq]
      rintro (_ | _ | _) _
      · trivial
      · rintro (_ | u) _ <;> trivial
      · trivial

/-- The request is not a token exchange naming an audience. -/
def Req.NoAudience : Req → Prop
  | .token r => Verif.NoAudience r
  | _ => True

theorem noPanic_handle (hW : Contract W) (E : Env) (r : Req)
    (hR : r.NoAudience ∨ ∀ ev, W ev → ResourceContract ev) : NoPanic W (handle E r) := by
  cases r <;> refine noPanic_bind ?_ (fun _ => trivial)
  · exact noPanic_authorize hW _ _
  · exact noPanic_register hW _ _
  · exact noPanic_deviceAuthorize _
  · exact noPanic_deviceValidate _
  · exact noPanic_token hW _ _ hR
  · exact noPanic_introspect _ _
  · exact noPanic_revoke hW _ _
  · exact noPanic_dpop _ _

end Verif
