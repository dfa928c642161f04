import Verif.Spec.AuthzErrors
import Verif.Proofs.Authorization
import Verif.Proofs.Device
import Verif.Props.Complete

/-! Which faults the authorization endpoints find, and what they tell. -/
namespace Verif.Authorization
open Verif.Spec Verif.Prog Verif.Oidc Verif.StringArray

theorem last_mem {ev : Ev} {acc : List Ev} : ev ∈ acc ++ [ev] := List.mem_append_right _ (List.mem_singleton.2 rfl)

theorem withState_state (c : ErrCode) (s : Str) : (OErr.withState c s).state = if s = [] then none else some s := rfl

theorem wellFormed_split {E : Env} {r : AuthzRequest} :
    WellFormed E r ↔ WellFormed E { r with responseType := g!"code" } ∧ (r.responseType = g!"code" ∨ r.responseType = g!"token") := by
  constructor
  · rintro ⟨h1, h2, h3, h4, h5, h6, h7, h8, h9, h10⟩
    exact ⟨⟨h1, h2, h3, h4, h5, h6, h7, h8, Or.inl rfl, h10⟩, h9⟩
  · rintro ⟨⟨h1, h2, h3, h4, h5, h6, h7, h8, _, h10⟩, h9⟩
    exact ⟨h1, h2, h3, h4, h5, h6, h7, h8, h9, h10⟩

/-- A refused request has a fault; the error has its code and the state of the request. -/
theorem checkRequest_error {E : Env} {r : AuthzRequest} {e : OErr} (h : checkRequest E (some r) = .error e) (tr : List Ev) :
    ∃ k : AFault, k.late ∧ k.Of E r tr ∧ e.code = k.given ∧ e.state = if r.state = [] then none else some r.state := by
  have he : e.code = .invalidRequest ∧ e.state = if r.state = [] then none else some r.state := by
    unfold checkRequest at h
    simp only at h
    repeat' (split at h <;> try (cases h; done))
    · rename_i hs; cases h; exact ⟨rfl, by rw [if_pos hs]⟩
    all_goals cases h; exact ⟨rfl, rfl⟩
  by_cases h1 : r.responseType = []
  · exact ⟨.malformed, by decide, Or.inl h1, he⟩
  by_cases h2 : WellFormed E { r with responseType := g!"code" }
  · refine ⟨.responseType, by decide, ⟨h1, ?_, ?_⟩, he⟩
    · intro h3
      obtain ⟨eff, h4⟩ := Props.checkRequest_complete (wellFormed_split.2 ⟨h2, Or.inl h3⟩)
      rw [h] at h4; cases h4
    · intro h3
      obtain ⟨eff, h4⟩ := Props.checkRequest_complete (wellFormed_split.2 ⟨h2, Or.inr h3⟩)
      rw [h] at h4; cases h4
  · exact ⟨.malformed, by decide, Or.inr h2, he⟩

theorem checkClient_error {E : Env} {cl : Client} {r eff : AuthzRequest} (he : Effective r eff) {e : OErr}
    (h : checkClient cl eff = .error e) {tr : List Ev} (ht : ⟨.clientsGet r.clientId, .ok (some cl)⟩ ∈ tr) :
    ∃ k : AFault, k.late ∧ k.Of E r tr ∧ e.code = k.given ∧ e.state = if r.state = [] then none else some r.state := by
  have e1 : eff.responseType = r.responseType := by have := congrArg AuthzRequest.responseType he.rest; simpa using this
  have e2 : eff.redirectUri = r.redirectUri := by have := congrArg AuthzRequest.redirectUri he.rest; simpa using this
  have e3 : eff.state = r.state := by have := congrArg AuthzRequest.state he.rest; simpa using this
  have nc : ∀ {l : List Str} {x : Str}, ¬ contains l x = true → ¬ MemFold x l := fun h h' => h ((contains_iff _ _).2 h')
  unfold checkClient at h
  rw [e1, e2, e3] at h
  split at h
  · rename_i h1; cases h; exact ⟨.clientGrant, by decide, ⟨cl, ht, nc h1⟩, rfl, rfl⟩
  split at h
  · rename_i h1; cases h; exact ⟨.clientType, by decide, ⟨cl, ht, nc h1⟩, rfl, rfl⟩
  split at h
  · rename_i h1; cases h; exact ⟨.clientRedirect, by decide, ⟨cl, ht, nc h1⟩, rfl, rfl⟩
  rw [he.mode] at h
  cases hm : r.responseMode with
  | none => rw [hm] at h; cases h
  | some m =>
    rw [hm] at h
    simp only [Option.map_some] at h
    split at h
    · rename_i h1; cases h; exact ⟨.clientMode, by decide, ⟨cl, m, ht, hm, nc h1⟩, rfl, rfl⟩
    · cases h

/-- No fault of the request is there. -/
theorem no_fault {E : Env} {r : AuthzRequest} {cl : Client} (hw : WellFormed E r) (hr : Registered cl r) {tr : List Ev}
    (ht : ∀ x, ⟨.clientsGet r.clientId, x⟩ ∈ tr → x = .ok (some cl)) (k : AFault) : ¬ k.Of E r tr := by
  obtain ⟨h1, h2⟩ := wellFormed_split.1 hw
  cases k <;> simp only [AFault.Of, not_false_iff]
  · rintro (h | h)
    · rw [h] at h2; exact absurd h2 (by decide)
    · exact h h1
  · rintro ⟨_, h3, h4⟩; exact h2.elim h3 h4
  · intro h; cases ht _ h
  · rintro ⟨c, h, h'⟩; cases ht _ h; exact h' hr.grant
  · rintro ⟨c, h, h'⟩; cases ht _ h; exact h' hr.responseType
  · rintro ⟨c, h, h'⟩; cases ht _ h; exact h' hr.redirectUri
  · rintro ⟨c, m, h, hm, h'⟩; cases ht _ h; exact h' (hr.responseMode m hm)

/-- What `validate` finds out about the request `r`. -/
theorem validate_finds (E : Env) (r : AuthzRequest) (acc : List Ev) :
    Done (fun tr res =>
      (∃ (e : OErr) (k : AFault), res = .error e ∧ k.late ∧ k.Of E r tr ∧ e.code = k.given ∧ e.state = (if r.state = [] then none else some r.state) ∧
        ∃ l, tr = acc ++ l) ∨
      (res = .error (.withState .serverError r.state) ∧ r.state ≠ [] ∧ tr = acc ++ [⟨.clientsGet r.clientId, .error .other⟩]) ∨
      (∃ eff cl, res = .ok eff ∧ tr = acc ++ [⟨.clientsGet r.clientId, .ok (some cl)⟩] ∧ WellFormed E r ∧ Effective r eff ∧
        Registered cl r)) (validate E (some r)) acc := by
  unfold validate
  cases hc : checkRequest E (some r) with
  | error e =>
    obtain ⟨k, h1, h2, h3, h4⟩ := checkRequest_error hc acc
    exact Or.inl ⟨e, k, rfl, h1, h2, h3, h4, [], by simp⟩
  | ok eff =>
    obtain ⟨r', hr, hwf, heff, _⟩ := checkRequest_ok hc
    cases hr
    have e0 : eff.clientId = r.clientId := by have := congrArg AuthzRequest.clientId heff.rest; simpa using this
    have e1 : eff.state = r.state := by have := congrArg AuthzRequest.state heff.rest; simpa using this
    have hs : r.state ≠ [] := by intro h; have := hwf.state; rw [h] at this; exact absurd this (by decide)
    simp only [Prog.call, bind_op, bind_ret, pure_eq, Done]
    generalize heq : eff.clientId = id at e0
    subst e0
    rw [e1]
    rintro ((_ | _) | (_ | cl))
    · exact Or.inl ⟨_, .clientUnknown, rfl, by decide, last_mem, rfl, rfl, _, rfl⟩
    · exact Or.inr (Or.inl ⟨rfl, hs, rfl⟩)
    · trivial
    · simp only
      cases hcc : checkClient cl eff with
      | error e =>
        obtain ⟨k, h1, h2, h3, h4⟩ := checkClient_error (E := E) heff hcc (tr := acc ++ [⟨.clientsGet r.clientId, .ok (some cl)⟩]) last_mem
        exact Or.inl ⟨e, k, rfl, h1, h2, h3, h4, _, rfl⟩
      | ok u =>
        exact Or.inr (Or.inr ⟨eff, cl, rfl, rfl, hwf, heff, checkClient_ok heff hcc⟩)

/-! ### `Authorize` -/

/-- The verdict on an execution of `Authorize`. -/
def AVerdict (E : Env) (q : AuthorizeReq) (tr : List Ev) (a : AuthorizeResp) : Prop :=
  (a.goErr = true ∧ ∃ k, AuthorizeFault E (some q) tr k ∧ TellsFault (ActedOn q tr) a.error k) ∨
  (a.goErr = false ∧ ∀ k, ¬ AuthorizeFault E (some q) tr k)

theorem late_fault {E : Env} {q : AuthorizeReq} {tr : List Ev} {r : AuthzRequest} (hr : ActedOn q tr r) {k : AFault} (hl : k.late)
    (hk : k.Of E r tr) : AuthorizeFault E (some q) tr k := by
  cases k <;> first | exact ⟨r, hr, hk⟩ | exact absurd hl (by decide)

theorem early {E : Env} {q : AuthorizeReq} {tr : List Ev} (k : AFault) (hk : AuthorizeFault E (some q) tr k)
    (hl : ¬ k.late) {c : ErrCode} (hc : c = k.given) : AVerdict E q tr (fail c) :=
  Or.inl ⟨rfl, k, hk, _, rfl, hc, fun h => absurd h hl, fun _ => Or.inl rfl⟩

theorem earlyB {E : Env} {q : AuthorizeReq} {acc : List Ev} {ev : Ev} (h : Disturbed ev) :
    AVerdict E q (acc ++ [ev]) (fail .serverError) := early .broken ⟨ev, last_mem, h⟩ (by decide) rfl

/-- Calls to the store of pushed requests. -/
def Pushes (ev : Ev) : Prop :=
  match ev.1 with
  | .arGet .. => True
  | .arDel .. => True
  | _ => False

/-- The calls `acc` made `r` the request to act on, and nothing else happened. -/
structure Opened (E : Env) (q : AuthorizeReq) (r : AuthzRequest) (acc : List Ev) : Prop where
  issuer : q.issuer ≠ []
  subject : q.subject ≠ []
  acts : ∀ l, ActedOn q (acc ++ l) r
  only : ∀ l, (∀ ev ∈ l, ¬ Pushes ev) → ∀ r', ActedOn q (acc ++ l) r' → r' = r
  calm : ∀ ev ∈ acc, ¬ Disturbed ev
  clients : ∀ id x, (⟨.clientsGet id, x⟩ : Ev) ∉ acc
  request : ∀ l, (∀ ev ∈ l, ¬ Pushes ev) → ¬ AuthorizeFault E (some q) (acc ++ l) .request
  pushed : ∀ l, (∀ ev ∈ l, ¬ Pushes ev) → ¬ AuthorizeFault E (some q) (acc ++ l) .pushed

theorem TellsFault.broken {acts : AuthzRequest → Prop} {r : AuthzRequest} (hr : acts r) (hs : r.state ≠ []) :
    TellsFault acts (some (.withState .serverError r.state)) .broken :=
  ⟨_, rfl, rfl, fun h => absurd h (by decide), fun _ => Or.inr ⟨rfl, r, hr, by rw [withState_state, if_neg hs]⟩⟩

theorem authorizeWith_verdict {E : Env} {q : AuthorizeReq} {r : AuthzRequest} {acc : List Ev} (ho : Opened E q r acc) :
    Done (AVerdict E q) (authorizeWith E q.issuer q.subject (some r)) acc := by
  unfold authorizeWith
  rw [done_bind]
  refine done_mono (validate_finds E r acc) ?_
  rintro tr res (⟨e, k, rfl, h1, h2, h3, h4, l, rfl⟩ | ⟨rfl, hs, rfl⟩ | ⟨eff, cl, rfl, rfl, hw, he, hr⟩)
  · refine Or.inl ⟨rfl, k, ?_⟩
    have ha := ho.acts l
    exact ⟨late_fault ha h1 h2, e, rfl, h3, fun _ => ⟨r, ha, h4⟩, fun h => absurd h1 h⟩
  · refine Or.inl ⟨rfl, .broken, ⟨_, last_mem, rfl⟩, TellsFault.broken (ho.acts _) hs⟩
  · have e1 : eff.state = r.state := by have := congrArg AuthzRequest.state he.rest; simpa using this
    have hs : r.state ≠ [] := by intro h; have := hw.state; rw [h] at this; exact absurd this (by decide)
    simp only [Prog.call, bind_op, bind_ret, pure_eq, Done, e1]
    rintro (e | code)
    · refine Or.inl ⟨rfl, .broken, ⟨_, last_mem, e, rfl⟩, TellsFault.broken (r := r) ?_ hs⟩
      rw [List.append_assoc]; exact ho.acts _
    simp only [Done]
    rintro (e | n)
    · refine Or.inl ⟨rfl, .broken, ⟨_, last_mem, e, rfl⟩, TellsFault.broken (r := r) ?_ hs⟩
      rw [List.append_assoc, List.append_assoc]; exact ho.acts _
    refine Or.inr ⟨rfl, ?_⟩
    simp only [List.append_assoc]
    intro k hk
    generalize hl : [(⟨.clientsGet r.clientId, .ok (some cl)⟩ : Ev)] ++ ([⟨.genCode q.issuer, .ok code⟩] ++
        [⟨.csReg q.issuer code { issuer := q.issuer, subject := q.subject, request := some eff }, .ok n⟩]) = l at hk
    simp only [List.cons_append, List.nil_append] at hl
    have hn : ∀ ev ∈ l, ¬ Pushes ev := by
      intro ev hev
      rw [← hl] at hev
      simp only [List.mem_cons, List.not_mem_nil, or_false] at hev
      rcases hev with rfl | rfl | rfl <;> exact id
    have hlate : ∀ r', ActedOn q (acc ++ l) r' → ∀ k : AFault, ¬ k.Of E r' (acc ++ l) := by
      intro r' hr' k
      rw [ho.only _ hn r' hr']
      refine no_fault hw hr ?_ k
      intro x hx
      rcases List.mem_append.1 hx with hx | hx
      · exact absurd hx (ho.clients _ x)
      · rw [← hl] at hx
        simp only [List.mem_cons, List.not_mem_nil, or_false] at hx
        rcases hx with hx | hx | hx
        · cases hx; rfl
        · cases hx
        · cases hx
    cases k with
    | request => exact ho.request _ hn hk
    | issuer => exact ho.issuer hk
    | subject => exact ho.subject hk
    | pushed => exact ho.pushed _ hn hk
    | broken =>
      obtain ⟨ev, hev, hd⟩ := hk
      rcases List.mem_append.1 hev with h | h
      · exact ho.calm _ h hd
      · rw [← hl] at h
        simp only [List.mem_cons, List.not_mem_nil, or_false] at h
        rcases h with rfl | rfl | rfl
        · cases hd
        · obtain ⟨e, hd⟩ := hd; cases hd
        · obtain ⟨e, hd⟩ := hd; cases hd
    | _ => obtain ⟨r', h1, h2⟩ := hk; exact hlate r' h1 _ h2

theorem authorize_verdict (E : Env) (q : AuthorizeReq) : Done (AVerdict E q) (authorize E (some q)) [] := by
  unfold authorize
  cases hq : q.request with
  | none => simp only [hq]; exact early .request (Or.inl hq) (by decide) rfl
  | some r =>
    simp only [hq]
    split; · rename_i h; exact early .issuer h (by decide) rfl
    split; · rename_i h; exact early .subject h (by decide) rfl
    rename_i h1 h2
    cases hu : r.requestUri with
    | none =>
      simp only
      refine authorizeWith_verdict ⟨h1, h2, fun l => ⟨r, hq, Or.inl ⟨hu, rfl⟩⟩, ?_, by simp, by simp, ?_, ?_⟩
      · rintro l - r' ⟨r0, h3, ⟨_, h4⟩ | ⟨uri, h4, _⟩⟩
        · rw [hq] at h3; cases h3; exact h4
        · rw [hq] at h3; cases h3; rw [hu] at h4; cases h4
      · rintro l - (h3 | ⟨r0, uri, h3, h4, _⟩)
        · rw [hq] at h3; cases h3
        · rw [hq] at h3; cases h3; rw [hu] at h4; cases h4
      · rintro l - ⟨r0, uri, h3, h4, _⟩
        rw [hq] at h3; cases h3; rw [hu] at h4; cases h4
    | some uri =>
      simp only
      split; · rename_i h; exact early .pushed ⟨r, uri, hq, hu, Or.inl (by simpa using h)⟩ (by decide) rfl
      rename_i h3
      simp only [Prog.call, bind_op, bind_ret, pure_eq, Done]
      rintro ((_ | _) | ar)
      · exact early .pushed ⟨r, uri, hq, hu, Or.inr (Or.inl last_mem)⟩ (by decide) rfl
      · exact earlyB rfl
      · simp only [Done]
        rintro ((_ | _) | u)
        · exact early .pushed ⟨r, uri, hq, hu, Or.inr (Or.inr last_mem)⟩ (by decide) rfl
        · exact earlyB rfl
        · simp only
          cases ar with
          | none => exact early .request (Or.inr ⟨r, uri, hq, hu, List.mem_append_left _ last_mem⟩) (by decide) rfl
          | some ar =>
            have get : ∀ l, (∀ ev ∈ l, ¬ Pushes ev) → ∀ uri' x, (⟨.arGet q.issuer uri', x⟩ : Ev) ∈
                [] ++ [⟨.arGet q.issuer uri, .ok (some ar)⟩] ++ [⟨.arDel q.issuer uri, .ok u⟩] ++ l → uri' = uri → x = .ok (some ar) := by
              rintro l hl uri' x hx rfl
              simp only [List.nil_append, List.cons_append, List.mem_cons] at hx
              rcases hx with hx | hx | hx
              · cases hx; rfl
              · cases hx
              · exact absurd trivial (hl _ hx)
            have del : ∀ l, (∀ ev ∈ l, ¬ Pushes ev) → ∀ uri' x, (⟨.arDel q.issuer uri', x⟩ : Ev) ∈
                [] ++ [⟨.arGet q.issuer uri, .ok (some ar)⟩] ++ [⟨.arDel q.issuer uri, .ok u⟩] ++ l → uri' = uri → x = .ok u := by
              rintro l hl uri' x hx rfl
              simp only [List.nil_append, List.cons_append, List.mem_cons] at hx
              rcases hx with hx | hx | hx
              · cases hx
              · cases hx; rfl
              · exact absurd trivial (hl _ hx)
            refine authorizeWith_verdict ⟨h1, h2, fun l => ⟨r, hq, Or.inr ⟨uri, hu, ?_⟩⟩, ?_, ?_, by simp, ?_, ?_⟩
            · simp
            · rintro l hl r' ⟨r0, h4, ⟨h5, _⟩ | ⟨uri', h5, h6⟩⟩
              · rw [hq] at h4; cases h4; rw [hu] at h5; cases h5
              · rw [hq] at h4; cases h4; rw [hu] at h5; cases h5
                cases get l hl _ _ h6 rfl
                rfl
            · intro ev hev
              simp only [List.nil_append, List.cons_append, List.mem_cons, List.not_mem_nil, or_false] at hev
              rcases hev with rfl | rfl <;> exact fun h => nomatch h
            · rintro l hl (h4 | ⟨r0, uri', h4, h5, h6⟩)
              · rw [hq] at h4; cases h4
              · rw [hq] at h4; cases h4; rw [hu] at h5; cases h5
                cases get l hl _ _ h6 rfl
            · rintro l hl ⟨r0, uri', h4, h5, h6⟩
              rw [hq] at h4; cases h4; rw [hu] at h5; cases h5
              rcases h6 with h6 | h6 | h6
              · exact h3 (by simp [h6])
              · cases get l hl _ _ h6 rfl
              · cases del l hl _ _ h6 rfl

/-! ### `Register` -/

/-- The verdict on an execution of `Register`. -/
def RVerdict (E : Env) (q : RegistrationReq) (tr : List Ev) (a : RegistrationResp) : Prop :=
  (a.goErr = true ∧ ∃ k, RegisterFault E (some q) tr k ∧ TellsFault (fun r => q.request = some r) a.error k) ∨
  (a.goErr = false ∧ ∀ k, ¬ RegisterFault E (some q) tr k)

theorem earlyR {E : Env} {q : RegistrationReq} {tr : List Ev} (k : AFault) (hk : RegisterFault E (some q) tr k)
    (hl : ¬ k.late) {c : ErrCode} (hc : c = k.given) : RVerdict E q tr (failR c) :=
  Or.inl ⟨rfl, k, hk, _, rfl, hc, fun h => absurd h hl, fun _ => Or.inl rfl⟩

theorem earlyRB {E : Env} {q : RegistrationReq} {acc : List Ev} {ev : Ev} (h : Disturbed ev) :
    RVerdict E q (acc ++ [ev]) (failR .serverError) := earlyR .broken ⟨ev, last_mem, h⟩ (by decide) rfl

theorem register_verdict (E : Env) (q : RegistrationReq) : Done (RVerdict E q) (register E (some q)) [] := by
  unfold register
  simp only
  split; · rename_i h; exact earlyR .issuer h (by decide) rfl
  rename_i h1
  cases hc : q.client with
  | none => exact earlyR .client hc (by decide) rfl
  | some c =>
    cases hq : q.request with
    | none => exact earlyR .request hq (by decide) rfl
    | some r =>
      simp only
      split; · rename_i h; exact earlyR .nested ⟨r, hq, by intro h'; rw [h'] at h; cases h⟩ (by decide) rfl
      rename_i h2
      rw [done_bind]
      refine done_mono (validate_finds E r []) ?_
      rintro tr res (⟨e, k, rfl, h3, h4, h5, h6, l, rfl⟩ | ⟨rfl, hs, rfl⟩ | ⟨eff, cl, rfl, rfl, hw, he, hr⟩)
      · refine Or.inl ⟨rfl, k, ?_, e, rfl, h5, fun _ => ⟨r, hq, h6⟩, fun h => absurd h3 h⟩
        cases k <;> first | exact ⟨r, hq, h4⟩ | exact absurd h3 (by decide)
      · exact Or.inl ⟨rfl, .broken, ⟨_, last_mem, rfl⟩, TellsFault.broken (r := r) hq hs⟩
      · have e1 : eff.clientId = r.clientId := by have := congrArg AuthzRequest.clientId he.rest; simpa using this
        simp only [e1]
        split
        · rename_i h; exact earlyR .foreign ⟨r, c, hq, hc, h⟩ (by decide) rfl
        rename_i h3
        simp only [Prog.call, bind_op, bind_ret, pure_eq, Done]
        rintro (e | uri)
        · exact earlyRB ⟨e, rfl⟩
        simp only [Done]
        rintro (e | n)
        · exact earlyRB ⟨e, rfl⟩
        refine Or.inr ⟨rfl, ?_⟩
        intro k hk
        generalize hl : [] ++ [(⟨.clientsGet r.clientId, .ok (some cl)⟩ : Ev)] ++ [⟨.genUri q.issuer, .ok uri⟩] ++
          [⟨.arReg q.issuer uri eff, .ok n⟩] = l at hk
        simp only [List.cons_append, List.nil_append] at hl
        have hlate : ∀ r', q.request = some r' → ∀ k : AFault, ¬ k.Of E r' l := by
          intro r' hr' k
          rw [hq] at hr'; cases hr'
          refine no_fault hw hr ?_ k
          intro x hx
          rw [← hl] at hx
          simp only [List.mem_cons, List.not_mem_nil, or_false] at hx
          rcases hx with hx | hx | hx
          · cases hx; rfl
          · cases hx
          · cases hx
        cases k with
        | request => rw [RegisterFault, hq] at hk; cases hk
        | issuer => exact h1 hk
        | subject => obtain ⟨r', _, h⟩ := hk; exact h
        | client => rw [RegisterFault, hc] at hk; cases hk
        | pushed => obtain ⟨r', _, h⟩ := hk; exact h
        | nested =>
          obtain ⟨r', h, h'⟩ := hk
          rw [hq] at h; cases h
          cases hu : r.requestUri with
          | none => exact h' hu
          | some u => rw [hu] at h2; exact h2 rfl
        | foreign =>
          obtain ⟨r', c', h, h', h''⟩ := hk
          rw [hq] at h; cases h
          rw [hc] at h'; cases h'
          exact h3 h''
        | broken =>
          obtain ⟨ev, hev, hd⟩ := hk
          rw [← hl] at hev
          simp only [List.mem_cons, List.not_mem_nil, or_false] at hev
          rcases hev with rfl | rfl | rfl
          · cases hd
          · obtain ⟨e, hd⟩ := hd; cases hd
          · obtain ⟨e, hd⟩ := hd; cases hd
        | _ => obtain ⟨r', h1, h2⟩ := hk; exact hlate r' h1 _ h2

end Verif.Authorization

namespace Verif.Device
open Verif.Spec Verif.Prog Verif.Oidc Verif.StringArray
open Verif.Authorization (last_mem)

/-- The verdict on an execution of the device authorization. -/
def DVerdict (q : DeviceAuthzReq) (tr : List Ev) (a : DeviceAuthzResp) : Prop :=
  (a.goErr = true ∧ ∃ k, HasDeviceFault (some q) tr k ∧ TellsDevice q tr a.error k) ∨
  (a.goErr = false ∧ ∀ k, ¬ HasDeviceFault (some q) tr k)

theorem authorize_verdict (q : DeviceAuthzReq) : Done (DVerdict q) (authorize (some q)) [] := by
  unfold authorize
  simp only
  split; · rename_i h; exact Or.inl ⟨rfl, .issuer, h, rfl⟩
  split; · rename_i h; exact Or.inl ⟨rfl, .client, h, rfl⟩
  rename_i h1 h2
  simp only [Prog.call, bind_op, bind_ret, pure_eq, Done]
  rintro ((_ | _) | (_ | cl))
  · exact Or.inl ⟨rfl, .clientUnknown, Or.inl last_mem, Or.inl ⟨rfl, last_mem⟩⟩
  · exact Or.inl ⟨rfl, .broken, Or.inl last_mem, Or.inl ⟨rfl, last_mem⟩⟩
  · exact Or.inl ⟨rfl, .clientUnknown, Or.inr last_mem, Or.inr ⟨rfl, last_mem⟩⟩
  · simp only
    split
    · rename_i h; exact Or.inl ⟨rfl, .clientGrant, ⟨cl, last_mem, fun h' => h ((contains_iff _ _).2 h')⟩, rfl⟩
    rename_i h3
    simp only [Done]
    rintro (e | dc)
    · exact Or.inl ⟨rfl, .broken, Or.inr (Or.inl ⟨e, last_mem⟩), Or.inr ⟨rfl, by simp⟩⟩
    simp only [Done]
    rintro (e | uc)
    · exact Or.inl ⟨rfl, .broken, Or.inr (Or.inr (Or.inl ⟨e, last_mem⟩)), Or.inr ⟨rfl, by simp⟩⟩
    simp only [Done]
    rintro (e | n)
    · exact Or.inl ⟨rfl, .broken, Or.inr (Or.inr (Or.inr ⟨_, _, e, last_mem⟩)), Or.inr ⟨rfl, by simp⟩⟩
    refine Or.inr ⟨rfl, ?_⟩
    intro k
    cases k <;> simp only [HasDeviceFault, List.nil_append, List.cons_append, List.mem_cons, List.not_mem_nil, or_false]
    · exact id
    · exact h1
    · exact h2
    · simp
    · rintro ⟨c, h | h | h | h, h'⟩
      · cases h; simp only [Decidable.not_not] at h3; exact h' ((contains_iff _ _).1 h3)
      · cases h
      · cases h
      · cases h
    · simp

end Verif.Device
