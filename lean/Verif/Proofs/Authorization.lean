import Verif.Spec.Authorization
import Verif.Proofs.Prog
import Verif.Proofs.Strings
import Verif.Model.Authorization
import Mathlib.Tactic.Tauto

namespace Verif.Authorization
open Verif.Spec Verif.Prog Verif.Oidc Verif.StringArray

theorem effective_mode (t m : Str) (ht : responseTypeOk t = true) : expandMode t m = effectiveMode t m := by
  simp [responseTypeOk, responseTypeCode, responseTypeToken] at ht
  unfold expandMode effectiveMode
  simp only [modeJWT, responseTypeCode, modeQueryJWT, responseTypeToken, modeFragmentJWT]
  rcases ht with rfl | rfl <;> simp

theorem cleanScope_words (scope : Str) (prompt : Option Str) :
    (∀ w, IsWord w (cleanScope scope prompt) → IsWord w scope) ∧
    (∀ w, IsWord w scope → ¬ SameFold g!"offline_access" w → IsWord w (cleanScope scope prompt)) ∧
    (prompt = some g!"consent" → ∀ w, IsWord w scope → IsWord w (cleanScope scope prompt)) := by
  have hall := fields_ok scope
  have hrem : ∀ w ∈ remove (Go.fields scope) scopeOfflineAccess, w ≠ [] ∧ ∀ c ∈ Go.chunks w, Go.isSpace c = false :=
    fun w hw => hall w (remove_subset _ _ w hw)
  have hkeep : ∀ w ∈ Go.fields scope, ¬ SameFold g!"offline_access" w →
      w ∈ remove (Go.fields scope) scopeOfflineAccess := by
    intro w hw hn
    rcases remove_spec (Go.fields scope) scopeOfflineAccess with ⟨h, _⟩ | ⟨a, y, b, e, hs, _, h⟩
    · rw [h]; exact hw
    · rw [h]; rw [e] at hw
      simp at hw ⊢
      rcases hw with hw | rfl | hw
      · exact Or.inl hw
      · exact absurd hs hn
      · exact Or.inr hw
  have e1 : ∀ w, IsWord w (Go.join g!" " (remove (Go.fields scope) scopeOfflineAccess)) ↔
      w ∈ remove (Go.fields scope) scopeOfflineAccess := by
    intro w; rw [← mem_fields, fields_join _ hrem]
  have e2 : ∀ w, IsWord w (Go.join g!" " (Go.fields scope)) ↔ IsWord w scope := by
    intro w; rw [← mem_fields, fields_join _ hall, mem_fields]
  have hsub : ∀ w, IsWord w (Go.join g!" " (remove (Go.fields scope) scopeOfflineAccess)) → IsWord w scope := by
    intro w hw; rw [e1] at hw; exact (mem_fields _ _).1 (remove_subset _ _ _ hw)
  have hk : ∀ w, IsWord w scope → ¬ SameFold g!"offline_access" w →
      IsWord w (Go.join g!" " (remove (Go.fields scope) scopeOfflineAccess)) := by
    intro w hw hn; rw [e1]; exact hkeep w ((mem_fields _ _).2 hw) hn
  unfold cleanScope
  simp only []
  by_cases ho : contains (Go.fields scope) scopeOpenID = true
  · rw [if_pos ho]
    by_cases hoff : contains (Go.fields scope) scopeOfflineAccess = true
    · rw [if_pos hoff]
      cases prompt with
      | none => exact ⟨hsub, hk, by simp⟩
      | some p =>
        by_cases hp : p ≠ promptConsent
        · simp only [if_pos hp]
          exact ⟨hsub, hk, fun h => absurd (by simpa [promptConsent] using h) hp⟩
        · simp only [if_neg hp]
          exact ⟨fun w h => (e2 w).1 h, fun w h _ => (e2 w).2 h, fun _ w h => (e2 w).2 h⟩
    · rw [if_neg hoff]; exact ⟨fun w h => (e2 w).1 h, fun w h _ => (e2 w).2 h, fun _ w h => (e2 w).2 h⟩
  · rw [if_neg ho]; exact ⟨fun _ h => h, fun _ h _ => h, fun _ _ h => h⟩

theorem cleanScope_offline (scope : Str) (prompt : Option Str) (hp : prompt ≠ some g!"consent")
    (ho : HasWord g!"openid" scope) (hc : wordCount g!"offline_access" scope ≤ 1) :
    ¬ HasWord g!"offline_access" (cleanScope scope prompt) := by
  rw [← contains_fields] at ho ⊢
  have hrem : ∀ w ∈ remove (Go.fields scope) scopeOfflineAccess, w ≠ [] ∧ ∀ c ∈ Go.chunks w, Go.isSpace c = false :=
    fun w hw => fields_ok scope w (remove_subset _ _ w hw)
  have key : ¬ contains (remove (Go.fields scope) scopeOfflineAccess) scopeOfflineAccess = true := by
    rw [contains_iff]
    rcases remove_spec (Go.fields scope) scopeOfflineAccess with ⟨h, hn⟩ | ⟨a, y, b, e, hs, ha, h⟩
    · rw [h]; exact hn
    · rw [h]
      rintro ⟨z, hz, hzs⟩
      have hzb : z ∈ b := by
        simp at hz; rcases hz with hz | hz
        · exact absurd hzs (ha z hz)
        · exact hz
      unfold wordCount at hc
      rw [e, List.countP_append, List.countP_cons] at hc
      have h1 : 0 < List.countP (fun v => decide (SameFold g!"offline_access" v)) b :=
        List.countP_pos_iff.2 ⟨z, hzb, by simpa [scopeOfflineAccess] using hzs⟩
      have h2 : decide (SameFold g!"offline_access" y) = true := by simpa [scopeOfflineAccess] using hs
      rw [h2] at hc
      simp at hc; omega
  have ho' : contains (Go.fields scope) scopeOpenID = true := ho
  unfold cleanScope
  simp only [ho', if_true]
  by_cases hoff : contains (Go.fields scope) scopeOfflineAccess = true
  · simp only [hoff, if_true]
    cases prompt with
    | none => simp only; rw [fields_join _ hrem]; exact key
    | some p =>
      have : p ≠ promptConsent := fun e => hp (by simp [e, promptConsent])
      simp only [if_pos this]; rw [fields_join _ hrem]; exact key
  · simp only [hoff]
    simp only [Bool.false_eq_true, if_false]
    rw [fields_join _ (fields_ok scope)]; exact hoff

theorem checkRequest_ok {E : Env} {q : Option AuthzRequest} {eff : AuthzRequest}
    (h : checkRequest E q = .ok eff) :
    ∃ r, q = some r ∧ WellFormed E r ∧ Effective r eff ∧ responseTypeOk r.responseType = true := by
  unfold checkRequest at h
  cases q with
  | none => simp at h
  | some r =>
    simp only at h
    repeat' (split at h <;> try (simp at h; done))
    rename_i h1 h2 h3 h4 h5 h6 h7 h8 h9
    simp only [Except.ok.injEq] at h
    have h8' : responseTypeOk r.responseType = true := by simpa using h8
    have hm : ∀ m, r.responseMode = some m → responseModeOk m = true := by
      intro m hm; rw [hm] at h9; simpa [responseModeBad] using h9
    refine ⟨r, rfl, ⟨by omega, by omega, by simpa using h6, by simpa [methodS256] using h5,
      fun e => h3 (by simp [e]), fun e => h3 (by simp [e]), fun e => h3 (by simp [e]),
      ⟨fun e => h3 (by simp [e]), by simpa using h7⟩, ?_, ?_⟩, ?_, h8'⟩
    · simpa [responseTypeOk, responseTypeCode, responseTypeToken] using h8'
    · intro m e
      have := hm m e
      simp [responseModeOk, modeQuery, modeFragment, modeFormPost, modeJWT, modeFormPostJWT, modeQueryJWT, modeFragmentJWT] at this
      simp; tauto
    · obtain ⟨w1, w2, w3⟩ := cleanScope_words r.scope r.prompt
      subst h
      refine ⟨rfl, ?_, w1, w2, w3, cleanScope_offline _ _⟩
      cases r.responseMode with
      | none => rfl
      | some m => simp [effective_mode _ _ h8']

theorem checkClient_ok {cl : Client} {r eff : AuthzRequest} (he : Effective r eff)
    (h : checkClient cl eff = .ok ()) : Registered cl r := by
  unfold checkClient at h
  have e1 : eff.responseType = r.responseType := by have := congrArg AuthzRequest.responseType he.rest; simpa using this
  have e2 : eff.redirectUri = r.redirectUri := by have := congrArg AuthzRequest.redirectUri he.rest; simpa using this
  rw [e1, e2] at h
  split at h
  · simp at h
  split at h
  · simp at h
  split at h
  · simp at h
  rename_i h1 h2 h3
  simp only [Bool.not_eq_true, Bool.not_eq_false] at h1 h2 h3
  refine ⟨(contains_iff _ _).1 h1, (contains_iff _ _).1 h2, (contains_iff _ _).1 h3, ?_⟩
  intro m hm
  have hmode := he.mode
  rw [hm] at hmode
  simp at hmode
  rw [hmode] at h
  simp only at h
  split at h
  · simp at h
  · rename_i h4
    simp only [Bool.not_eq_true, Bool.not_eq_false] at h4
    exact (contains_iff _ _).1 h4

/-- What a successful `validate` guarantees. -/
def ValidFor (E : Env) (q : Option AuthzRequest) (cl : Client) (eff : AuthzRequest) : Prop :=
  ∃ r, q = some r ∧ WellFormed E r ∧ Effective r eff ∧ Registered cl r ∧ eff.clientId = r.clientId

/-- `validate` makes at most one call, a client lookup, and on success the client
is registered for the request. -/
theorem validate_done (E : Env) (q : Option AuthzRequest) (acc : List Ev) :
    Done (fun tr res => ∀ eff, res = .ok eff →
      ∃ cl, tr = acc ++ [⟨.clientsGet eff.clientId, .ok (some cl)⟩] ∧ ValidFor E q cl eff)
      (validate E q) acc := by
  unfold validate
  cases hc : checkRequest E q with
  | error e => simp [Done]
  | ok eff =>
    obtain ⟨r, hr, hwf, heff, _⟩ := checkRequest_ok hc
    have e0 : eff.clientId = r.clientId := by
      have := congrArg AuthzRequest.clientId heff.rest; simpa using this
    simp only [Prog.call, bind_op, bind_ret, pure_eq, Done]
    intro res
    rcases res with (_ | _) | (_ | cl)
    · simp [Done]
    · simp [Done]
    · simp [Done]
    · simp only
      cases hcc : checkClient cl eff with
      | error e => simp [Done]
      | ok u =>
        intro eff' h
        simp at h; subst h
        exact ⟨cl, rfl, r, hr, hwf, heff, checkClient_ok heff hcc, e0⟩

theorem validate_trace (E : Env) (q : Option AuthzRequest) (acc : List Ev) :
    Done (fun tr _ => ∃ l, tr = acc ++ l ∧ ∀ ev ∈ l, ∃ id, ev.1 = .clientsGet id) (validate E q) acc := by
  unfold validate
  cases hc : checkRequest E q with
  | error e => exact ⟨[], by simp⟩
  | ok eff =>
    simp only [Prog.call, bind_op, bind_ret, pure_eq, Done]
    intro res
    rcases res with (_ | _) | (_ | cl)
    · exact ⟨[_], rfl, by simp⟩
    · exact ⟨[_], rfl, by simp⟩
    · trivial
    · simp only
      cases hcc : checkClient cl eff with
      | error e => exact ⟨[_], rfl, by simp⟩
      | ok u => exact ⟨[_], rfl, by simp⟩

theorem validate_calls (E : Env) (q : Option AuthzRequest) (acc : List Ev) (J : List Ev → Cmd → Prop)
    (hJ : ∀ acc id, J acc (.clientsGet id)) : Calls J (validate E q) acc := by
  unfold validate
  cases hc : checkRequest E q with
  | error e => trivial
  | ok eff =>
    simp only [Prog.call, bind_op, bind_ret, pure_eq, Calls]
    refine ⟨hJ _ _, fun res => ?_⟩
    rcases res with (_ | _) | (_ | cl)
    · trivial
    · trivial
    · trivial
    · simp only
      cases hcc : checkClient cl eff <;> trivial

/-! ### `Authorize` -/

/-- Completed `authorizeWith`: see `authorize_done`. -/
theorem authorizeWith_done (E : Env) (iss sub : Str) (q : Option AuthzRequest) (acc : List Ev)
    (hacc : acc.filter storesSession = []) :
    Done (fun tr a =>
      (Issued a ∧ ∃ r eff cl n, q = some r ∧ WellFormed E r ∧ Effective r eff ∧ Registered cl r ∧
        ⟨.clientsGet r.clientId, .ok (some cl)⟩ ∈ tr ∧ (∀ ev ∈ acc, ev ∈ tr) ∧
        tr.filter storesSession =
          [⟨.csReg iss a.code { issuer := iss, subject := sub, request := some eff }, .ok n⟩] ∧
        a = { code := a.code, state := r.state, redirectUri := r.redirectUri, clientId := r.clientId,
              expiresIn := n, issuer := iss }) ∨
      (¬ Issued a ∧ ∀ ev ∈ tr.filter storesSession, ∃ code s e, ev = ⟨.csReg iss code s, .error e⟩))
      (authorizeWith E iss sub q) acc := by
  unfold authorizeWith
  rw [done_bind]
  refine done_mono (done_and (validate_done E q acc) (validate_trace E q acc)) ?_
  rintro tr res ⟨h1, l, htr, hl⟩
  have hf : tr.filter storesSession = [] := by
    rw [htr, List.filter_append, hacc, List.nil_append, List.filter_eq_nil_iff]
    intro ev hev
    obtain ⟨id, hid⟩ := hl ev hev
    simp [storesSession, hid]
  cases res with
  | error e => right; simp [Issued, hf]
  | ok eff =>
    obtain ⟨cl, htr', r, hr, hwf, heff, hreg, he⟩ := h1 eff rfl
    simp only [Prog.call, bind_op, bind_ret, pure_eq, Done]
    have hst : eff.state = r.state := by have := congrArg AuthzRequest.state heff.rest; simpa using this
    have hru : eff.redirectUri = r.redirectUri := by
      have := congrArg AuthzRequest.redirectUri heff.rest; simpa using this
    rintro (_ | code)
    · right
      refine ⟨by simp [Issued], ?_⟩
      rw [List.filter_append, hf]; simp [storesSession]
    · rintro (e | n)
      · right
        refine ⟨by simp [Issued], ?_⟩
        rw [List.filter_append, List.filter_append, hf]
        simp [storesSession]
      · left
        refine ⟨by simp [Issued], r, eff, cl, n, hr, hwf, heff, hreg, ?_, ?_, ?_, ?_⟩
        · rw [htr', he]; simp
        · rw [htr']; intro ev hev; simp [hev]
        · rw [List.filter_append, List.filter_append, hf]; simp [storesSession]
        · simp [hst, hru, he]

/-- Completed `authorizeWith`: sessions handed to the store, also in interrupted runs. -/
theorem authorizeWith_calls (E : Env) (iss sub : Str) (q : Option AuthzRequest) (acc : List Ev) :
    Calls (fun tr c => ∀ i code s, c = .csReg i code s →
      ∃ r eff cl, q = some r ∧ WellFormed E r ∧ Effective r eff ∧ Registered cl r ∧
        ⟨.clientsGet r.clientId, .ok (some cl)⟩ ∈ tr ∧ (∀ ev ∈ acc, ev ∈ tr) ∧ i = iss ∧
        s = { issuer := iss, subject := sub, request := some eff })
      (authorizeWith E iss sub q) acc := by
  unfold authorizeWith
  refine calls_bind (validate_calls E q acc _ (by simp)) ?_
  refine done_mono (validate_done E q acc) ?_
  rintro tr res h1
  cases res with
  | error e => trivial
  | ok eff =>
    obtain ⟨cl, htr', r, hr, hwf, heff, hreg, he⟩ := h1 eff rfl
    simp only [Prog.call, bind_op, bind_ret, pure_eq, Calls]
    refine ⟨by simp, ?_⟩
    rintro (_ | code)
    · trivial
    · simp only [Calls]
      refine ⟨?_, ?_⟩
      · rintro i code' s h
        simp only [Cmd.csReg.injEq] at h
        obtain ⟨h1, h2, h3⟩ := h
        refine ⟨r, eff, cl, hr, hwf, heff, hreg, ?_, ?_, h1.symm, h3.symm⟩
        · rw [htr', he]; simp
        · rw [htr']; intro ev hev; simp [hev]
      · rintro (_ | n) <;> trivial

theorem authorize_done (E : Env) (req : Option AuthorizeReq) :
    Done (fun tr a =>
      (Issued a ∧ ∃ q r eff cl n s, req = some q ∧ SessionJustified E q tr q.issuer s r eff cl ∧
        tr.filter storesSession = [⟨.csReg q.issuer a.code s, .ok n⟩] ∧
        a = { code := a.code, state := r.state, redirectUri := r.redirectUri, clientId := r.clientId,
              expiresIn := n, issuer := q.issuer }) ∨
      (¬ Issued a ∧ ∀ ev ∈ tr.filter storesSession, ∃ i code s e, ev = ⟨.csReg i code s, .error e⟩))
      (authorize E req) [] := by
  unfold authorize
  cases req with
  | none => right; simp [fail, Issued]
  | some q =>
    simp only
    cases hq : q.request with
    | none => right; simp [fail, Issued]
    | some r0 =>
      simp only
      split
      · right; simp [fail, Issued]
      split
      · right; simp [fail, Issued]
      rename_i hiss hsub
      cases hu : r0.requestUri with
      | none =>
        simp only
        refine done_mono (authorizeWith_done E q.issuer q.subject (some r0) [] rfl) ?_
        rintro tr a (⟨hi, r, eff, cl, n, hr, h1, h2, h3, h4, h5, h6, h7⟩ | ⟨hn, h⟩)
        · left
          simp at hr; subst hr
          exact ⟨hi, q, r0, eff, cl, n, _, rfl, ⟨hiss, hsub, ⟨r0, hq, Or.inl ⟨hu, rfl⟩⟩, h1, h2, h4, h3, rfl, rfl⟩, h6, h7⟩
        · right
          exact ⟨hn, fun ev hev => by obtain ⟨c, s, e, h⟩ := h ev hev; exact ⟨_, c, s, e, h⟩⟩
      | some uri =>
        simp only
        split
        · right; simp [fail, Issued]
        simp only [Prog.call, bind_op, bind_ret, pure_eq, Done]
        rintro ((_ | _) | ar)
        · right; simp [fail, Issued, storesSession]
        · right; simp [fail, Issued, storesSession]
        simp only [Done]
        rintro ((_ | _) | u)
        · right; simp [fail, Issued, storesSession]
        · right; simp [fail, Issued, storesSession]
        refine done_mono (authorizeWith_done E q.issuer q.subject ar _ (by simp [storesSession])) ?_
        rintro tr a (⟨hi, r, eff, cl, n, hr, h1, h2, h3, h4, h5, h6, h7⟩ | ⟨hn, h⟩)
        · left
          refine ⟨hi, q, r, eff, cl, n, _, rfl, ⟨hiss, hsub, ⟨r0, hq, Or.inr ⟨uri, hu, ?_⟩⟩, h1, h2, h4, h3, rfl, rfl⟩, h6, h7⟩
          subst hr
          exact h5 _ (by simp)
        · right
          exact ⟨hn, fun ev hev => by obtain ⟨c, s, e, h⟩ := h ev hev; exact ⟨_, c, s, e, h⟩⟩

theorem authorize_calls (E : Env) (req : Option AuthorizeReq) :
    Calls (fun tr c => ∀ i code s, c = .csReg i code s →
      ∃ q r eff cl, req = some q ∧ SessionJustified E q tr i s r eff cl)
      (authorize E req) [] := by
  unfold authorize
  cases req with
  | none => trivial
  | some q =>
    simp only
    cases hq : q.request with
    | none => trivial
    | some r0 =>
      simp only
      split
      · trivial
      split
      · trivial
      rename_i hiss hsub
      cases hu : r0.requestUri with
      | none =>
        simp only
        refine calls_mono (authorizeWith_calls E q.issuer q.subject (some r0) []) ?_
        rintro tr c h i code s hc
        obtain ⟨r, eff, cl, hr, h1, h2, h3, h4, h5, h6, h7⟩ := h i code s hc
        simp at hr; subst hr
        exact ⟨q, r0, eff, cl, rfl, hiss, hsub, ⟨r0, hq, Or.inl ⟨hu, rfl⟩⟩, h1, h2, h4, h3, h6, h7⟩
      | some uri =>
        simp only
        split
        · trivial
        simp only [Prog.call, bind_op, bind_ret, pure_eq, Calls]
        refine ⟨by simp, ?_⟩
        rintro ((_ | _) | ar)
        · trivial
        · trivial
        simp only [Calls]
        refine ⟨by simp, ?_⟩
        rintro ((_ | _) | u)
        · trivial
        · trivial
        refine calls_mono (authorizeWith_calls E q.issuer q.subject ar _) ?_
        rintro tr c h i code s hc
        obtain ⟨r, eff, cl, hr, h1, h2, h3, h4, h5, h6, h7⟩ := h i code s hc
        refine ⟨q, r, eff, cl, rfl, hiss, hsub, ⟨r0, hq, Or.inr ⟨uri, hu, ?_⟩⟩, h1, h2, h4, h3, h6, h7⟩
        subst hr
        exact h5 _ (by simp)

/-! ### `Register` -/

theorem register_done (E : Env) (req : Option RegistrationReq) :
    Done (fun tr a =>
      (Pushed a ∧ ∃ q cl0 r eff cl n, req = some q ∧ q.issuer ≠ [] ∧ q.client = some cl0 ∧
        q.request = some r ∧ r.requestUri = none ∧ r.clientId = cl0.clientId ∧ WellFormed E r ∧
        Effective r eff ∧ Registered cl r ∧ ⟨.clientsGet r.clientId, .ok (some cl)⟩ ∈ tr ∧
        tr.filter storesRequest = [⟨.arReg q.issuer a.requestUri eff, .ok n⟩] ∧
        a = { requestUri := a.requestUri, expiresIn := n, issuer := q.issuer }) ∨
      (¬ Pushed a ∧ ∀ ev ∈ tr.filter storesRequest, ∃ i u s e, ev = ⟨.arReg i u s, .error e⟩))
      (register E req) [] := by
  unfold register
  cases req with
  | none => right; simp [failR, Pushed]
  | some q =>
    simp only
    split
    · right; simp [failR, Pushed]
    rename_i hiss
    cases hcl : q.client with
    | none => right; simp [failR, Pushed]
    | some cl0 =>
      cases hq : q.request with
      | none => right; simp [failR, Pushed]
      | some r =>
        simp only
        split
        · right; simp [failR, Pushed]
        rename_i hu
        rw [done_bind]
        refine done_mono (done_and (validate_done E (some r) []) (validate_trace E (some r) [])) ?_
        rintro tr res ⟨h1, l, htr, hl⟩
        have hf : tr.filter storesRequest = [] := by
          rw [htr, List.nil_append, List.filter_eq_nil_iff]
          intro ev hev
          obtain ⟨id, hid⟩ := hl ev hev
          simp [storesRequest, hid]
        cases res with
        | error e => right; simp [Pushed, hf]
        | ok eff =>
          obtain ⟨cl, htr', r', hr, hwf, heff, hreg, he⟩ := h1 eff rfl
          simp at hr; subst hr
          simp only [Prog.call, bind_op, bind_ret, pure_eq]
          split
          · right; simp [failR, Pushed, hf]
          rename_i hid
          simp only [Done]
          rintro (_ | uri)
          · right; simp [failR, Pushed, hf, storesRequest]
          simp only [Done]
          rintro (_ | n)
          · right; simp [failR, Pushed, hf, storesRequest]
          left
          refine ⟨by simp [Pushed], q, cl0, r, eff, cl, n, rfl, hiss, hcl, hq, by simpa using hu, ?_, hwf, heff, hreg, ?_, ?_, rfl⟩
          · rw [← he]; simpa using hid
          · rw [htr', he]; simp
          · simp [hf, storesRequest]

theorem register_calls (E : Env) (req : Option RegistrationReq) :
    Calls (fun tr c => ∀ i uri eff, c = .arReg i uri eff →
      ∃ q cl0 r cl, req = some q ∧ q.issuer ≠ [] ∧ q.client = some cl0 ∧
        q.request = some r ∧ r.requestUri = none ∧ r.clientId = cl0.clientId ∧ WellFormed E r ∧
        Effective r eff ∧ Registered cl r ∧ ⟨.clientsGet r.clientId, .ok (some cl)⟩ ∈ tr ∧ i = q.issuer)
      (register E req) [] := by
  unfold register
  cases req with
  | none => trivial
  | some q =>
    simp only
    split
    · trivial
    rename_i hiss
    cases hcl : q.client with
    | none => trivial
    | some cl0 =>
      cases hq : q.request with
      | none => trivial
      | some r =>
        simp only
        split
        · trivial
        rename_i hu
        refine calls_bind (validate_calls E _ _ _ (by simp)) ?_
        refine done_mono (validate_done E (some r) []) ?_
        rintro tr res h1
        cases res with
        | error e => trivial
        | ok eff =>
          obtain ⟨cl, htr', r', hr, hwf, heff, hreg, he⟩ := h1 eff rfl
          simp at hr; subst hr
          simp only [Prog.call, bind_op, bind_ret, pure_eq]
          split
          · trivial
          rename_i hid
          simp only [Calls]
          refine ⟨by simp, ?_⟩
          rintro (_ | uri)
          · trivial
          simp only [Calls]
          refine ⟨?_, ?_⟩
          · intro i u ef h
            simp only [Cmd.arReg.injEq] at h
            obtain ⟨h1, h2, h3⟩ := h
            subst h3
            refine ⟨q, cl0, r, cl, rfl, hiss, hcl, hq, by simpa using hu, ?_, hwf, heff, hreg, ?_, h1.symm⟩
            · rw [← he]; simpa using hid
            · rw [htr', he]; simp
          · rintro (_ | n) <;> trivial

end Verif.Authorization
