import Verif.Model.Types

/-!
Programs: the service functions as trees of calls on their interfaces.

A service function of `server/services` talks to the outside world only through
the interfaces of `server/storage/api.go`, `sdk/generator/api.go`,
`sdk/token/api.go` (generators), `time.Now` and `uniuri`.  `Cmd` lists these
calls, `Cmd.Res` their possible answers, and `Prog` is a finite tree of calls.
-/
namespace Verif

/-- What a storage call can fail with: `storage.ErrNotFound`
(server/storage/api.go:32) or any other error. -/
inductive StErr where
  | notFound | other
deriving DecidableEq, Repr

/-- Result of a storage call. -/
abbrev SRes (α : Type) := Except StErr α

/-- The interface calls made by the services. -/
inductive Cmd where
  /-- `time.Now()`, in nanoseconds since the epoch -/
  | now
  /-- `uniuri.NewLen(jtiLength)`: random token identifier -/
  | jti
  /-- `storage.ClientReader.Get` -/
  | clientsGet (id : Str)
  /-- `storage.ResourceReader.GetByURI` -/
  | resourcesGet (uri : Str)
  /-- `storage.AuthorizationRequest` Get / Delete / Register -/
  | arGet (iss uri : Str)
  | arDel (iss uri : Str)
  | arReg (iss uri : Str) (r : AuthzRequest)
  /-- `storage.AuthorizationCodeSession` Get / Delete / Register -/
  | csGet (iss code : Str)
  | csDel (iss code : Str)
  | csReg (iss code : Str) (s : CodeSession)
  /-- `storage.DeviceCodeSession` -/
  | dsGetUser (iss userCode : Str)
  | dsGetDev (iss deviceCode : Str)
  | dsReg (iss userCode : Str) (s : DeviceSession)
  /-- assignment through a session pointer previously returned by the store -/
  | dsAssign (ref : Nat) (s : DeviceSession)
  | dsValidate (iss userCode : Str) (ref : Nat) (s : DeviceSession)
  | dsDel (iss userCode : Str)
  /-- `storage.Token` -/
  | tkGetVal (iss value : Str)
  | tkCreate (iss : Str) (t : Token)
  | tkRevoke (iss id : Str)
  /-- `generator.AuthorizationCode.Generate` etc. -/
  | genCode (iss : Str)
  | genUri (iss : Str)
  | genDev (iss : Str)
  | genUser (iss : Str)
  /-- `token.Generator.Generate` for access and refresh tokens -/
  | genAT (t : Token)
  | genRT (t : Token)
  /-- `storage.DPoP` Exists / Register -/
  | dpopExists (id : Str)
  | dpopRegister (id : Str)
deriving DecidableEq

/-- The answers a call can give. Pointers may be nil (`none`) even without error,
as the Go signatures allow. A device session pointer is an address plus the
content it points to when the call returns. -/
@[reducible] def Cmd.Res : Cmd → Type
  | .now => Nat
  | .jti => Str
  | .clientsGet _ => SRes (Option Client)
  | .resourcesGet _ => SRes (Option Resource)
  | .arGet _ _ => SRes (Option AuthzRequest)
  | .arDel _ _ => SRes Unit
  | .arReg _ _ _ => SRes Nat
  | .csGet _ _ => SRes (Option CodeSession)
  | .csDel _ _ => SRes Unit
  | .csReg _ _ _ => SRes Nat
  | .dsGetUser _ _ => SRes (Option (Nat × DeviceSession))
  | .dsGetDev _ _ => SRes (Option (Nat × DeviceSession))
  | .dsReg _ _ _ => SRes Nat
  | .dsAssign _ _ => Unit
  | .dsValidate _ _ _ _ => SRes Unit
  | .dsDel _ _ => SRes Unit
  | .tkGetVal _ _ => SRes (Option Token)
  | .tkCreate _ _ => SRes Unit
  | .tkRevoke _ _ => SRes Unit
  | .genCode _ => SRes Str
  | .genUri _ => SRes Str
  | .genDev _ => SRes Str
  | .genUser _ => SRes Str
  | .genAT _ => SRes Str
  | .genRT _ => SRes Str
  | .dpopExists _ => SRes Bool
  | .dpopRegister _ => SRes Unit

/-- A program: finish with a value, crash (nil dereference, index out of range),
or make a call and continue with its answer. -/
inductive Prog (α : Type) : Type where
  | ret (a : α)
  | panic
  | op (c : Cmd) (k : c.Res → Prog α)

namespace Prog

/-- Sequencing. -/
def bind {α β : Type} : Prog α → (α → Prog β) → Prog β
  | .ret a, f => f a
  | .panic, _ => .panic
  | .op c k, f => .op c fun r => bind (k r) f

instance : Monad Prog where
  pure := .ret
  bind := bind

/-- Make one call. -/
def call (c : Cmd) : Prog c.Res := .op c .ret

@[simp] theorem bind_ret {α β : Type} (a : α) (f : α → Prog β) : (Prog.ret a >>= f) = f a := rfl
@[simp] theorem bind_pure' {α β : Type} (a : α) (f : α → Prog β) : ((pure a : Prog α) >>= f) = f a := rfl
@[simp] theorem bind_panic {α β : Type} (f : α → Prog β) : ((Prog.panic : Prog α) >>= f) = .panic := rfl
@[simp] theorem bind_op {α β : Type} (c : Cmd) (k : c.Res → Prog α) (f : α → Prog β) :
    (Prog.op c k >>= f) = .op c fun r => k r >>= f := rfl
@[simp] theorem bind_call {β : Type} (c : Cmd) (f : c.Res → Prog β) :
    (call c >>= f) = .op c f := rfl
@[simp] theorem pure_eq {α : Type} (a : α) : (pure a : Prog α) = .ret a := rfl

theorem bind_assoc' {α β γ : Type} (p : Prog α) (f : α → Prog β) (g : β → Prog γ) :
    ((p >>= f) >>= g) = (p >>= fun a => f a >>= g) := by
  induction p with
  | ret a => rfl
  | panic => rfl
  | op c k ih => simp only [bind_op]; congr; funext r; exact ih r

end Prog

/-- One executed call with its answer. -/
abbrev Ev := (c : Cmd) × c.Res

/-- How far a (possibly interrupted) execution went. -/
inductive Outcome (α : Type) where
  /-- the function returned -/
  | done (a : α)
  /-- the function crashed -/
  | panicked
  /-- still in flight, or the process died here -/
  | stopped
deriving Repr

namespace Prog

/-- Open semantics: `Exec p tr o` when `p` can make exactly the calls `tr` (with
those answers, in that order) and then be in the situation `o`. Every answer
admitted by the Go signature is possible. -/
inductive Exec {α : Type} : Prog α → List Ev → Outcome α → Prop
  | ret (a : α) : Exec (.ret a) [] (.done a)
  | panic : Exec .panic [] .panicked
  | stop (p : Prog α) : Exec p [] .stopped
  | step (c : Cmd) (k : c.Res → Prog α) (r : c.Res) (tr : List Ev) (o : Outcome α) :
      Exec (k r) tr o → Exec (.op c k) (⟨c, r⟩ :: tr) o

/-- `Done p Φ acc`: in every complete execution of `p`, `Φ` holds of the calls
made (appended to `acc`) and the returned value. -/
def Done {α : Type} (Φ : List Ev → α → Prop) : Prog α → List Ev → Prop
  | .ret a, acc => Φ acc a
  | .panic, _ => True
  | .op c k, acc => ∀ r, Done Φ (k r) (acc ++ [⟨c, r⟩])

theorem done_sound {α : Type} {Φ : List Ev → α → Prop} {p : Prog α} {acc : List Ev}
    (h : Done Φ p acc) {tr : List Ev} {a : α} (e : Exec p tr (.done a)) : Φ (acc ++ tr) a := by
  induction p generalizing acc tr with
  | ret b => cases e; simpa [Done] using h
  | panic => cases e
  | op c k ih =>
    cases e with
    | step _ _ r tr o e => simpa using ih r (h r) e

/-- `NoPanic W p`: no execution in which all answers satisfy `W` crashes. -/
def NoPanic {α : Type} (W : Ev → Prop) : Prog α → Prop
  | .ret _ => True
  | .panic => False
  | .op c k => ∀ r, W ⟨c, r⟩ → NoPanic W (k r)

theorem noPanic_sound {α : Type} {W : Ev → Prop} {p : Prog α} (h : NoPanic W p) {tr : List Ev}
    (hw : ∀ e ∈ tr, W e) : ¬ Exec p tr .panicked := by
  induction p generalizing tr with
  | ret b => intro e; cases e
  | panic => exact h.elim
  | op c k ih =>
    intro e
    cases e with
    | step _ _ r tr o e =>
      exact ih r (h r (hw _ (List.mem_cons_self ..))) (fun e he => hw e (List.mem_cons_of_mem _ he)) e

/-- `Inv J p acc`: every call that `p` can make satisfies `J` relative to the
calls made before it. -/
def Calls {α : Type} (J : List Ev → Cmd → Prop) : Prog α → List Ev → Prop
  | .ret _, _ => True
  | .panic, _ => True
  | .op c k, acc => J acc c ∧ ∀ r, Calls J (k r) (acc ++ [⟨c, r⟩])

theorem calls_sound {α : Type} {J : List Ev → Cmd → Prop} {p : Prog α} {acc : List Ev}
    (h : Calls J p acc) {tr : List Ev} {o : Outcome α} (e : Exec p tr o)
    {pre : List Ev} {ev : Ev} {post : List Ev} (htr : tr = pre ++ ev :: post) :
    J (acc ++ pre) ev.1 := by
  induction p generalizing acc tr pre with
  | ret b => cases e <;> simp at htr
  | panic => cases e <;> simp at htr
  | op c k ih =>
    cases e with
    | stop => simp at htr
    | step _ _ r tr o e =>
      cases pre with
      | nil => simp at htr; obtain ⟨h1, h2⟩ := htr; subst h1; simpa using h.1
      | cons x pre =>
        simp at htr
        obtain ⟨h1, h2⟩ := htr
        have := ih r (h.2 r) e h2
        subst h1
        simpa using this

end Prog
end Verif
