import Verif.Proofs.Prog
import Verif.Model.System

/-! Which interface calls each service can make at all. -/
namespace Verif
open Verif.Prog

/-- Every call of the program satisfies `S`. -/
def Only {α : Type} (S : Cmd → Bool) : Prog α → Prop
  | .ret _ => True
  | .panic => True
  | .op c k => S c = true ∧ ∀ r, Only S (k r)

variable {α β : Type} {S : Cmd → Bool}

theorem only_bind {p : Prog α} {f : α → Prog β} (hp : Only S p) (hf : ∀ a, Only S (f a)) : Only S (p >>= f) := by
  induction p with
  | ret a => exact hf a
  | panic => trivial
  | op c k ih => exact ⟨hp.1, fun r => ih r (hp.2 r)⟩

theorem only_mem {p : Prog α} (hp : Only S p) {tr : List Ev} {o : Outcome α} (h : Exec p tr o) :
    ∀ ev ∈ tr, S ev.1 = true := by
  induction p generalizing tr with
  | ret a => cases h <;> simp
  | panic => cases h <;> simp
  | op c k ih =>
    cases h with
    | stop => simp
    | step _ _ r tr o h =>
      intro ev hev
      rcases List.mem_cons.1 hev with rfl | hev
      · exact hp.1
      · exact ih r (hp.2 r) h ev hev

/-- Walk through a program. -/
macro "walk" : tactic => `(tactic|
  repeat' (first | exact True.intro | split | (refine ⟨rfl, fun _ => ?_⟩; try dsimp only)))

def authorizeCmds : Cmd → Bool
  | .arGet .. | .arDel .. | .clientsGet _ | .genCode _ | .csReg .. => true
  | _ => false

def registerCmds : Cmd → Bool
  | .clientsGet _ | .genUri _ | .arReg .. => true
  | _ => false

def deviceAuthorizeCmds : Cmd → Bool
  | .clientsGet _ | .genDev _ | .genUser _ | .dsReg .. => true
  | _ => false

def deviceValidateCmds : Cmd → Bool
  | .dsGetUser .. | .now | .dsAssign .. | .dsValidate .. | .dsDel .. => true
  | _ => false

def tokenCmds : Cmd → Bool
  | .now | .jti | .clientsGet _ | .resourcesGet _ | .csGet .. | .csDel .. | .dsGetDev .. | .tkGetVal ..
  | .tkCreate .. | .tkRevoke .. | .genAT _ | .genRT _ => true
  | _ => false

def introspectCmds : Cmd → Bool
  | .clientsGet _ | .tkGetVal .. => true
  | _ => false

def revokeCmds : Cmd → Bool
  | .clientsGet _ | .tkGetVal .. | .tkRevoke .. => true
  | _ => false

def dpopCmds : Cmd → Bool
  | .now | .dpopExists _ | .dpopRegister _ => true
  | _ => false

theorem only_validate (hS : ∀ id, S (.clientsGet id) = true) (E : Env) (r : Option AuthzRequest) :
    Only S (Authorization.validate E r) := by
  unfold Authorization.validate
  split
  · exact True.intro
  · simp only [Prog.call, bind_op, bind_ret, pure_eq]
    refine ⟨hS _, fun _ => ?_⟩
    dsimp only
    walk

theorem only_authorize (E : Env) (r : Option AuthorizeReq) : Only authorizeCmds (Authorization.authorize E r) := by
  have hw : ∀ i s r, Only authorizeCmds (Authorization.authorizeWith E i s r) := by
    intro i s r
    refine only_bind (only_validate (fun _ => rfl) _ _) ?_
    intro a
    cases a with
    | error e => exact True.intro
    | ok ar => simp only [Prog.call, bind_op, bind_ret, pure_eq]; walk
  unfold Authorization.authorize
  simp only [Prog.call, bind_op, bind_ret, pure_eq]
  repeat' (first | exact hw _ _ _ | exact True.intro | split | (refine ⟨rfl, fun _ => ?_⟩; try dsimp only))

theorem only_register (E : Env) (r : Option RegistrationReq) : Only registerCmds (Authorization.register E r) := by
  unfold Authorization.register
  repeat' (first | exact True.intro | split)
  refine only_bind (only_validate (fun _ => rfl) _ _) ?_
  intro a
  cases a with
  | error e => exact True.intro
  | ok ar => simp only [Prog.call, bind_op, bind_ret, pure_eq]; walk

theorem only_deviceAuthorize (r : Option DeviceAuthzReq) : Only deviceAuthorizeCmds (Device.authorize r) := by
  unfold Device.authorize
  simp only [Prog.call, bind_op, bind_ret, pure_eq]
  walk

theorem only_deviceValidate (r : Option DeviceValidationReq) : Only deviceValidateCmds (Device.validate r) := by
  unfold Device.validate
  simp only [Prog.call, bind_op, bind_ret, pure_eq]
  walk

theorem only_introspect (E : Env) (r : Option TokenRefReq) : Only introspectCmds (TokenSvc.introspect E r) := by
  unfold TokenSvc.introspect
  simp only [Prog.call, bind_op, bind_ret, pure_eq]
  walk

theorem only_revoke (E : Env) (r : Option TokenRefReq) : Only revokeCmds (TokenSvc.revoke E r) := by
  unfold TokenSvc.revoke
  simp only [Prog.call, bind_op, bind_ret, pure_eq]
  walk

theorem only_dpop (E : Env) (r : DPoP.VerifyReq) : Only dpopCmds (DPoP.verify E r) := by
  unfold DPoP.verify
  repeat' (first | exact True.intro | split)
  refine only_bind ?_ ?_
  · unfold DPoP.fresh
    simp only [Prog.call, bind_op, bind_ret, pure_eq]
    walk
  · intro a
    cases a
    · exact True.intro
    · simp only [DPoP.replay, Prog.call, bind_op, bind_ret, pure_eq]
      walk

end Verif
