import Verif.Model.Registry
import Verif.Model.Uniuri

/-!
The in-memory client storage with registration (`server/storage/inmemory/client.go`). The map holds
pointers, so the objects are kept apart from it: an object is known by its address, its position in
`heap`. The map is not protected by a mutex; the operations are taken to happen one after the other.
-/
namespace Verif.ClientStore
open Verif.Uniuri

/-- client.go:30-32; `backend` has no key twice. -/
structure Clients where
  heap : List Client
  backend : List (Str × Nat)

/-- client.go:35-170 `Clients`. -/
def start : Clients := ⟨Registry.shipped.map Prod.snd, (Registry.shipped.map Prod.fst).zipIdx⟩

/-- Assignment to an element of a map. -/
def put (m : List (Str × Nat)) (k : Str) (v : Nat) : List (Str × Nat) := (k, v) :: m.filter fun p => p.1 != k

/-- client.go:174-183 `Get`. -/
def get (s : Clients) (id : Str) : Option Client := (s.backend.lookup id).bind fun r => s.heap[r]?

/-- client.go:185-195 `GetByName`, the entries of the map coming in this order. -/
def findByName (heap : List Client) (name : Str) : List (Str × Nat) → Option Client
  | [] => none
  | (_, r) :: l =>
    match heap[r]? with
    | some c => if Go.equalFold c.clientName name then some c else findByName heap name l
    | none => findByName heap name l

/-- `GetByName`, whatever the order in which Go enumerates the map. -/
def GetByName (s : Clients) (name : Str) (x : Option Client) : Prop :=
  ∃ order, order.Perm s.backend ∧ x = findByName s.heap name order

/-- client.go:199-207 `Register` of the object at address `r`, the drawn identifier being `id`. -/
def register (s : Clients) (r : Nat) (id : Str) : Clients :=
  ⟨s.heap.modify r fun c => { c with clientId := id }, put s.backend id r⟩

/-- What an application does: make an object (`&clientv1.Client{…}`), or register one, with these
random bytes. -/
inductive Op where
  | create (c : Client)
  | register (r : Nat) (bytes : Str)

/-- One operation. There is no object at an address that was not made. -/
def step (s : Clients) : Op → Clients
  | .create c => ⟨s.heap ++ [c], s.backend⟩
  | .register r bytes =>
    match id16 sizes bytes with
    | some id => if r < s.heap.length then register s r id else s
    | none => s

def run (s : Clients) (ops : List Op) : Clients := ops.foldl step s

end Verif.ClientStore
