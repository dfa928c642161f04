import Verif.Proofs.Handle

/-! Where the request URIs of the push flow come from and how they are checked. -/
namespace Verif.Authorization
open Verif.Prog

/-- A pushed request is stored under a string the generator produced. -/
theorem register_uri (E : Env) (req : Option RegistrationReq) :
    Calls (fun tr c => ∀ i u r, c = .arReg i u r → ⟨.genUri i, .ok u⟩ ∈ tr) (register E req) [] := by
  unfold register
  cases req with
  | none => trivial
  | some q =>
    simp only
    split
    · trivial
    cases hcl : q.client with
    | none => trivial
    | some cl0 =>
      cases hq : q.request with
      | none => trivial
      | some r =>
        simp only
        split
        · trivial
        have hv : Calls (fun tr c => ∀ i u r, c = .arReg i u r → ⟨.genUri i, .ok u⟩ ∈ tr) (validate E (some r)) [] := by
          refine calls_mono (validate_calls E (some r) [] (J := fun _ c => ∀ i u r, c ≠ .arReg i u r) (by simp)) ?_
          intro tr c h i u r hc
          exact absurd hc (h i u r)
        refine calls_bind hv ?_
        refine done_mono (validate_done E (some r) []) ?_
        rintro tr res h1
        cases res with
        | error e => trivial
        | ok eff =>
          simp only [Prog.call, bind_op, bind_ret, pure_eq]
          split
          · trivial
          simp only [Calls]
          refine ⟨by simp, ?_⟩
          rintro (_ | uri)
          · trivial
          simp only [Calls]
          refine ⟨?_, ?_⟩
          · intro i u ef h
            simp only [Cmd.arReg.injEq] at h
            obtain ⟨rfl, rfl, rfl⟩ := h
            simp
          · rintro (_ | n) <;> trivial

theorem authorizeWith_noGet (E : Env) (i sub : Str) (r : Option AuthzRequest) (acc : List Ev) :
    Calls (fun _ c => ∀ i u, c ≠ .arGet i u) (authorizeWith E i sub r) acc := by
  unfold authorizeWith
  refine calls_bind (validate_calls E r acc _ (by simp)) (done_mono (validate_done E r acc) ?_)
  rintro tr (e | ar) _
  · trivial
  simp only [Prog.call, bind_op, bind_ret, pure_eq, Calls]
  refine ⟨by simp, ?_⟩
  rintro (_ | code)
  · trivial
  simp only [Calls]
  refine ⟨by simp, ?_⟩
  rintro (_ | n) <;> trivial

/-- A pushed request is looked up only under a URI that passed the syntax check. -/
theorem authorize_uriOk (E : Env) (req : Option AuthorizeReq) :
    Calls (fun _ c => ∀ i u, c = .arGet i u → E.requestUriOk i u = true) (authorize E req) [] := by
  have aw : ∀ i sub r acc, Calls (fun _ c => ∀ i u, c = .arGet i u → E.requestUriOk i u = true)
      (authorizeWith E i sub r) acc := fun i sub r acc =>
    calls_mono (authorizeWith_noGet E i sub r acc) (fun _ _ h i u hc => absurd hc (h i u))
  unfold authorize
  cases req with
  | none => trivial
  | some q =>
    simp only
    cases hq : q.request with
    | none => trivial
    | some r0 =>
      simp only
      split
      · trivial
      split
      · trivial
      cases hu : r0.requestUri with
      | none => exact aw _ _ _ _
      | some uri =>
        simp only
        split
        · trivial
        rename_i hok
        simp only [Prog.call, bind_op, bind_ret, pure_eq, Calls]
        refine ⟨?_, ?_⟩
        · intro i u h
          simp only [Cmd.arGet.injEq] at h
          obtain ⟨rfl, rfl⟩ := h
          simpa using hok
        rintro ((_ | _) | ar)
        · trivial
        · trivial
        simp only [Calls]
        refine ⟨by simp, ?_⟩
        rintro ((_ | _) | u)
        · trivial
        · trivial
        exact aw _ _ _ _

end Verif.Authorization
