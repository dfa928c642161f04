import Verif.Go.Sha256
import Verif.Model.Url
import Verif.Model.Token
import Verif.Model.Authorization
import Verif.Model.Device

/-!
Replaying the unit tests of the code on the model.

The tests of `server/services` run a service function against mocks that expect
certain calls, each once, and answer them as told; a call that no mock expects,
and an expected call that is never made, fail the test.  `replay` runs a program
of the model in the same way.  These are tests of the model, not proofs about
it: they compare what the model answers with what the authors of the code
expect.
-/
namespace Verif.Replay

/-- A call that a mock expects, with its answer.  Arguments that the test leaves
open (`gomock.Any()`) are missing or `none`. -/
inductive Expect where
  | clientsGet (id : Str) (r : SRes (Option Client))
  | arGet (iss uri : Str) (r : SRes (Option AuthzRequest))
  | arDel (iss uri : Str) (r : SRes Unit)
  | arReg (iss : Str) (uri : Option Str) (q : Option AuthzRequest) (r : SRes Nat)
  | csGet (iss code : Str) (r : SRes (Option CodeSession))
  | csDel (iss code : Str) (r : SRes Unit)
  | csReg (iss code : Option Str) (s : Option CodeSession) (r : SRes Nat)
  | dsGetDev (iss deviceCode : Str) (r : SRes (Option (Nat × DeviceSession)))
  | dsReg (iss userCode : Str) (r : SRes Nat)
  | tkGetVal (iss value : Str) (r : SRes (Option Token))
  | tkCreate (iss : Str) (r : SRes Unit)
  | tkRevoke (iss id : Str) (r : SRes Unit)
  | genCode (iss : Str) (r : SRes Str)
  | genUri (iss : Str) (r : SRes Str)
  | genDev (iss : Str) (r : SRes Str)
  | genUser (iss : Str) (r : SRes Str)
  | genAT (r : SRes Str)
  | genRT (r : SRes Str)
  | dpopExists (id : Str) (r : SRes Bool)
  | dpopRegister (id : Str) (r : SRes Unit)

/-- A matcher: the argument, or anything. -/
def fits {α : Type} [DecidableEq α] (want : Option α) (got : α) : Bool := want.all (· == got)

/-- The answer of an expected call, if it is the call made. -/
def Expect.answer (e : Expect) (c : Cmd) : Option c.Res :=
  match e, c with
  | .clientsGet i r, .clientsGet i' => if i = i' then some r else none
  | .arGet i u r, .arGet i' u' => if i = i' ∧ u = u' then some r else none
  | .arDel i u r, .arDel i' u' => if i = i' ∧ u = u' then some r else none
  | .arReg i u q r, .arReg i' u' q' => if i = i' ∧ fits u u' ∧ fits q q' then some r else none
  | .csGet i u r, .csGet i' u' => if i = i' ∧ u = u' then some r else none
  | .csDel i u r, .csDel i' u' => if i = i' ∧ u = u' then some r else none
  | .csReg i u q r, .csReg i' u' q' => if fits i i' ∧ fits u u' ∧ fits q q' then some r else none
  | .dsGetDev i u r, .dsGetDev i' u' => if i = i' ∧ u = u' then some r else none
  | .dsReg i u r, .dsReg i' u' _ => if i = i' ∧ u = u' then some r else none
  | .tkGetVal i u r, .tkGetVal i' u' => if i = i' ∧ u = u' then some r else none
  | .tkCreate i r, .tkCreate i' _ => if i = i' then some r else none
  | .tkRevoke i u r, .tkRevoke i' u' => if i = i' ∧ u = u' then some r else none
  | .genCode i r, .genCode i' => if i = i' then some r else none
  | .genUri i r, .genUri i' => if i = i' then some r else none
  | .genDev i r, .genDev i' => if i = i' then some r else none
  | .genUser i r, .genUser i' => if i = i' then some r else none
  | .genAT r, .genAT _ => some r
  | .genRT r, .genRT _ => some r
  | .dpopExists i r, .dpopExists i' => if i = i' then some r else none
  | .dpopRegister i r, .dpopRegister i' => if i = i' then some r else none
  | _, _ => none

/-- Use up the first expectation that the call meets. -/
def use (c : Cmd) : List Expect → Option (c.Res × List Expect)
  | [] => none
  | e :: es =>
    match e.answer c with
    | some r => some (r, es)
    | none => (use c es).map fun x => (x.1, e :: x.2)

/-- Calls that no mock sees: the clock, which the tests set, random identifiers,
which they ignore, and assignments through pointers. -/
def quiet (now : Nat) : (c : Cmd) → Option c.Res
  | .now => some now
  | .jti => some []
  | .dsAssign _ _ => some ()
  | _ => none

/-- Run a program against mocks; `none` if the test fails or the program crashes. -/
def replay {α : Type} (now : Nat) : Prog α → List Expect → Option α
  | .ret a, es => if es.isEmpty then some a else none
  | .panic, _ => none
  | .op c k, es =>
    match quiet now c with
    | some r => replay now (k r) es
    | none =>
      match use c es with
      | some (r, es') => replay now (k r) es'
      | none => none

/-- A program run against mocks ends with this answer, as seen by the test. -/
def runs {α β : Type} (now : Nat) (p : Prog α) (mocks : List Expect) (seen : α → β) (want : β) : Prop :=
  (replay now p mocks).map seen = some want

instance {α β : Type} [DecidableEq β] (now : Nat) (p : Prog α) (mocks : List Expect) (seen : α → β)
    (want : β) : Decidable (runs now p mocks seen want) :=
  inferInstanceAs (Decidable (_ = _))

/-- URLs are parsed as the model of `net/url` does, digests are SHA-256. -/
def env (requestUriOk : Str → Str → Bool) : Env where
  parseRequestURI s := (Url.parseRequestURI s).isSome
  sha256 := Go.sha256
  blake _ s := s
  requestUriOk := requestUriOk
  urlString := Url.urlString
  parseProof _ := none
  thumbprint _ := none
  blakeSum s := s

/-- Tests that do not push authorization requests. -/
def env0 : Env := env fun _ _ => false

/-- The tests ignore the identifiers of tokens (`cmpOpts`). -/
def anon (r : TokenResp) : TokenResp :=
  { r with
    accessToken := r.accessToken.map fun t => { t with tokenId := [] }
    refreshToken := r.refreshToken.map fun t => { t with tokenId := [] } }

/-- The same for introspection. -/
def anonI (r : IntrospectResp) : IntrospectResp :=
  { r with token := r.token.map fun t => { t with tokenId := [] } }

/-- The public error of a validation. -/
def errorOf {α : Type} : Except OErr α → Option OErr
  | .error e => some e
  | .ok _ => none

end Verif.Replay
