import Verif.Model.Http

/-!
The example server as a whole (`examples/authorizationserver/main.go:56-106`): any number
of HTTP requests in flight (`net/http` serves each connection in a goroutine of its own),
each executing its middlewares, its handler and the service behind it one interface call
at a time on the shared stores. Failures and time are those of `Model/System.lean`.
-/
namespace Verif.Http

/-- An HTTP request being served: where it was sent, what it says and what remains to be
executed. -/
structure Thread where
  route : Route
  req : Req
  prog : Prog Resp

/-- The answer of a finished request. -/
def Thread.answer (t : Thread) : Option Resp :=
  match t.prog with
  | .ret a => some a
  | _ => none

/-- A configuration of the server; the log (oldest first) does not influence execution. -/
structure Conf where
  st : St
  threads : List Thread := []
  log : List Entry := []

/-- What can happen next. -/
inductive Label where
  /-- an HTTP request arrives -/
  | arrive (route : Route) (r : Req)
  /-- request number `i` makes its next call, resolved by `ch` -/
  | run (i : Nat) (ch : Store.Choice)
  /-- time passes -/
  | tick (d : Nat)

/-- One step of the server. -/
def step (S : Server) (c : Conf) : Label → Conf
  | .arrive route r => { c with threads := c.threads ++ [⟨route, r, serve S route r⟩] }
  | .tick d => { c with st := { c.st with clock := c.st.clock + d } }
  | .run i ch =>
    match c.threads[i]? with
    | some ⟨route, req, .op cmd k⟩ =>
      let e : Entry := ⟨i, cmd, ch, c.st⟩
      { st := e.post S.E, threads := c.threads.set i ⟨route, req, k (e.res S.E)⟩, log := c.log ++ [e] }
    | _ => c

/-- The configuration reached from initial stores `s` by a sequence of steps. -/
def run (S : Server) (s : St) (ls : List Label) : Conf := ls.foldl (step S) { st := s }

/-- Requests are served one after the other, possibly abandoned half-way (`n` requests so
far). -/
def Sequential : Nat → List Label → Prop
  | _, [] => True
  | n, .arrive _ _ :: ls => Sequential (n + 1) ls
  | n, .run i _ :: ls => i + 1 = n ∧ Sequential n ls
  | n, .tick _ :: ls => Sequential n ls

end Verif.Http
