import Verif.Model.Store
import Verif.Model.Authorization
import Verif.Model.Device
import Verif.Model.Token
import Verif.Model.DPoP

/-!
The server as a whole: any number of requests in flight, each executing its
service function one interface call at a time on the shared stores.

* a request that is never scheduled again has crashed or hangs;
* every call can be made to fail, before or after taking effect;
* time passes only by `tick`, at any moment and by any amount.

The sequential server is the special case in which only the most recently
arrived request runs (`Sequential`).
-/
namespace Verif

/-- A request to one of the services. -/
inductive Req where
  | authorize (r : Option AuthorizeReq)
  | register (r : Option RegistrationReq)
  | deviceAuthorize (r : Option DeviceAuthzReq)
  | deviceValidate (r : Option DeviceValidationReq)
  | token (r : Option TokenReq)
  | introspect (r : Option TokenRefReq)
  | revoke (r : Option TokenRefReq)
  | dpop (r : DPoP.VerifyReq)
deriving DecidableEq, Repr

/-- The corresponding answers. -/
inductive Resp where
  | authorize (r : AuthorizeResp)
  | register (r : RegistrationResp)
  | deviceAuthorize (r : DeviceAuthzResp)
  | deviceValidate (r : DeviceValidationResp)
  | token (r : TokenResp)
  | introspect (r : IntrospectResp)
  | revoke (r : RevokeResp)
  | dpop (thumb : Option Str)
deriving DecidableEq, Repr

/-- The service function serving a request. -/
def handle (E : Env) : Req → Prog Resp
  | .authorize r => do return .authorize (← Authorization.authorize E r)
  | .register r => do return .register (← Authorization.register E r)
  | .deviceAuthorize r => do return .deviceAuthorize (← Device.authorize r)
  | .deviceValidate r => do return .deviceValidate (← Device.validate r)
  | .token r => do return .token (← TokenSvc.token E r)
  | .introspect r => do return .introspect (← TokenSvc.introspect E r)
  | .revoke r => do return .revoke (← TokenSvc.revoke E r)
  | .dpop r => do return .dpop (← DPoP.verify E r)

/-- A request being served: what it asked and what remains to be executed. -/
structure Thread where
  req : Req
  prog : Prog Resp

/-- The answer of a finished request. -/
def Thread.answer (t : Thread) : Option Resp :=
  match t.prog with
  | .ret a => some a
  | _ => none

/-- One executed call: who made it, which call, how the environment resolved it
and the state of the stores just before it. -/
structure Entry where
  tid : Nat
  cmd : Cmd
  choice : Store.Choice
  pre : St

namespace Entry
/-- The answer the call returned. -/
def res (E : Env) (e : Entry) : e.cmd.Res := (Store.exec E e.cmd e.choice e.pre).1
/-- The stores just after the call. -/
def post (E : Env) (e : Entry) : St := (Store.exec E e.cmd e.choice e.pre).2
/-- Call and answer. -/
def ev (E : Env) (e : Entry) : Ev := ⟨e.cmd, e.res E⟩
/-- When the call was made. -/
def time (e : Entry) : Nat := e.pre.clock
end Entry

/-- A server configuration. The log (oldest first) records the executed calls;
it does not influence execution. -/
structure Conf where
  st : St
  threads : List Thread := []
  log : List Entry := []

/-- What can happen next. -/
inductive Label where
  /-- a request arrives -/
  | arrive (r : Req)
  /-- request number `i` makes its next call, resolved by `ch` -/
  | run (i : Nat) (ch : Store.Choice)
  /-- time passes -/
  | tick (d : Nat)
deriving DecidableEq, Repr

/-- One step of the server. -/
def step (E : Env) (c : Conf) : Label → Conf
  | .arrive r => { c with threads := c.threads ++ [⟨r, handle E r⟩] }
  | .tick d => { c with st := { c.st with clock := c.st.clock + d } }
  | .run i ch =>
    match c.threads[i]? with
    | some ⟨req, .op cmd k⟩ =>
      let e : Entry := ⟨i, cmd, ch, c.st⟩
      { st := e.post E, threads := c.threads.set i ⟨req, k (e.res E)⟩, log := c.log ++ [e] }
    | _ => c

/-- The configuration reached from initial stores `s` by a sequence of steps. -/
def run (E : Env) (s : St) (ls : List Label) : Conf := ls.foldl (step E) { st := s }

/-- Only the most recently arrived request makes calls (`n` requests so far):
requests are served one after the other, possibly abandoned half-way. -/
def Sequential : Nat → List Label → Prop
  | _, [] => True
  | n, .arrive _ :: ls => Sequential (n + 1) ls
  | n, .run i _ :: ls => i + 1 = n ∧ Sequential n ls
  | n, .tick _ :: ls => Sequential n ls

end Verif
