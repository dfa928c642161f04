import Verif.Model.Store

/-!
The in-memory token store (`server/storage/inmemory/token.go`) access by access. Elsewhere a
call on a store is one step. Here the two indices are separate `sync.Map`s holding pointers,
any number of goroutines make calls, and each access to an index or to a stored object is a
step of its own.

Of a stored object only the status is ever written; a caller who was given a pointer is taken
to read it once, at any later time.
-/
namespace Verif.TokenStore

/-- The calls. `Delete` is not among them: nothing calls it. -/
inductive Op where
  | create (iss : Str) (t : Token)
  | get (id : Str)
  | getVal (iss v : Str)
  | revoke (id : Str)
deriving DecidableEq

/-- The answers: an error, success, or a token. -/
abbrev Ans := SRes (Option Token)

/-- What can be seen of a goroutine: it calls, or its call returns. -/
inductive Event where
  | inv (i : Nat) (o : Op)
  | ret (i : Nat) (a : Ans)

/-- The copy that `Create` stores (token.go:53-57). -/
def copy (E : Env) (iss : Str) (t : Token) : Token := { t with value := Store.tokenKey E iss t.value }

/-- How far a goroutine is. Pointers are positions in the heap. -/
inductive Local where
  | idle
  /-- token.go:59, `idIndex.Store` is next -/
  | create0 (iss : Str) (t : Token)
  /-- token.go:60, `valueIndex.Store` is next -/
  | create1 (iss : Str) (t : Token) (p : Nat)
  /-- token.go:68, `idIndex.Load` is next -/
  | get0 (id : Str)
  /-- token.go:79, `valueIndex.Load` is next -/
  | getVal0 (iss v : Str)
  /-- the pointer has been returned and is read next -/
  | got (o : Op) (p : Nat)
  /-- token.go:104, `idIndex.Load` is next -/
  | revoke0 (id : Str)
  /-- token.go:110, the assignment is next -/
  | revoke1 (id : Str) (p : Nat)
  /-- token.go:113 is next -/
  | revoke2 (id : Str) (p : Nat)
  /-- token.go:114 is next -/
  | revoke3 (id : Str) (p : Nat)
  | done (a : Ans)

/-- The memory and the goroutines. -/
structure Fine where
  heap : List Token := []
  idIdx : Str → Option Nat := fun _ => none
  valIdx : Str → Option Nat := fun _ => none
  thr : Nat → Local := fun _ => .idle

/-- Point update. -/
def set {X : Type} (f : Nat → X) (i : Nat) (x : X) : Nat → X := fun j => if j = i then x else f j

/-- Point update of an index. -/
def put (f : Str → Option Nat) (k : Str) (p : Nat) : Str → Option Nat := fun k' => if k' = k then some p else f k'

/-- The first state of a call. -/
def Op.start : Op → Local
  | .create iss t => .create0 iss t
  | .get id => .get0 id
  | .getVal iss v => .getVal0 iss v
  | .revoke id => .revoke0 id

/-- One access of goroutine `i`. -/
inductive Access (E : Env) (i : Nat) : Fine → Fine → Prop
  | create0 {f iss t} : f.thr i = .create0 iss t → Access E i f
      { f with heap := f.heap ++ [copy E iss t], idIdx := put f.idIdx t.tokenId f.heap.length,
               thr := set f.thr i (.create1 iss t f.heap.length) }
  | create1 {f iss t p} : f.thr i = .create1 iss t p → Access E i f
      { f with valIdx := put f.valIdx (copy E iss t).value p, thr := set f.thr i (.done (.ok none)) }
  | get {f id p} : f.thr i = .get0 id → f.idIdx id = some p → Access E i f
      { f with thr := set f.thr i (.got (.get id) p) }
  | getNone {f id} : f.thr i = .get0 id → f.idIdx id = none → Access E i f
      { f with thr := set f.thr i (.done (.error .notFound)) }
  | getVal {f iss v p} : f.thr i = .getVal0 iss v → f.valIdx (Store.tokenKey E iss v) = some p → Access E i f
      { f with thr := set f.thr i (.got (.getVal iss v) p) }
  | getValNone {f iss v} : f.thr i = .getVal0 iss v → f.valIdx (Store.tokenKey E iss v) = none → Access E i f
      { f with thr := set f.thr i (.done (.error .notFound)) }
  | read {f o p t} : f.thr i = .got o p → f.heap[p]? = some t → Access E i f
      { f with thr := set f.thr i (.done (.ok (some t))) }
  | revoke0 {f id p} : f.thr i = .revoke0 id → f.idIdx id = some p → Access E i f
      { f with thr := set f.thr i (.revoke1 id p) }
  | revokeNone {f id} : f.thr i = .revoke0 id → f.idIdx id = none → Access E i f
      { f with thr := set f.thr i (.done (.error .notFound)) }
  | revoke1 {f id p t} : f.thr i = .revoke1 id p → f.heap[p]? = some t → Access E i f
      { f with heap := f.heap.set p { t with status := .revoked }, thr := set f.thr i (.revoke2 id p) }
  | revoke2 {f id p t} : f.thr i = .revoke2 id p → f.heap[p]? = some t → Access E i f
      { f with idIdx := put f.idIdx t.tokenId p, thr := set f.thr i (.revoke3 id p) }
  | revoke3 {f id p t} : f.thr i = .revoke3 id p → f.heap[p]? = some t → Access E i f
      { f with valIdx := put f.valIdx t.value p, thr := set f.thr i (.done (.ok none)) }

/-- Executions from the empty store, with what can be seen of them. -/
inductive Run (E : Env) : List Event → Fine → Prop
  | nil : Run E [] {}
  | inv {τ f} (i : Nat) (o : Op) : Run E τ f → f.thr i = .idle →
      Run E (τ ++ [.inv i o]) { f with thr := set f.thr i o.start }
  | ret {τ f} (i : Nat) (a : Ans) : Run E τ f → f.thr i = .done a →
      Run E (τ ++ [.ret i a]) { f with thr := set f.thr i .idle }
  | access {τ f g} (i : Nat) : Run E τ f → Access E i f g → Run E τ g

/-! ### One step per call -/

/-- A call on the store of the model (`Model/Store`). -/
def call (E : Env) : Op → St → Ans × St
  | .create iss t, s => (.ok none, Store.create E iss t s)
  | .get id, s => (Store.found (s.tokId id), s)
  | .getVal iss v, s => (Store.exec E (.tkGetVal iss v) {} s)
  | .revoke id, s => ((Store.revoke id s).1.map fun _ => none, (Store.revoke id s).2)

/-- A goroutine of the model: not in a call, before the step of the call, or after it. -/
inductive ALocal where
  | idle
  | called (o : Op)
  | done (a : Ans)

/-- Executions of the model in which a call takes effect in one step, at some time between
the call and its return. -/
inductive Atomic (E : Env) : List Event → St → (Nat → ALocal) → Prop
  | nil : Atomic E [] {} fun _ => .idle
  | inv {τ s thr} (i : Nat) (o : Op) : Atomic E τ s thr → thr i = .idle →
      Atomic E (τ ++ [.inv i o]) s (set thr i (.called o))
  | ret {τ s thr} (i : Nat) (a : Ans) : Atomic E τ s thr → thr i = .done a →
      Atomic E (τ ++ [.ret i a]) s (set thr i .idle)
  | step {τ s thr} (i : Nat) (o : Op) : Atomic E τ s thr → thr i = .called o →
      Atomic E τ (call E o s).2 (set thr i (.done (call E o s).1))

end Verif.TokenStore
