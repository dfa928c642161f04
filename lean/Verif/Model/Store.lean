import Verif.Model.Prog
import Verif.Model.Env

/-!
The in-memory stores (`server/storage/inmemory/*.go`), the clock and the random
generators as one state with one step per interface call.

`go-cache` (`patrickmn/go-cache`): `Set` with the default expiration stores an
entry readable while `now <= insertion time + TTL`; reading an expired entry
reports "not found". The janitor that removes expired entries is not modelled
since they are unreadable anyway.
-/
namespace Verif

/-- Point update of a map. -/
def upd {α : Type} (m : Str → Option α) (k : Str) (v : Option α) : Str → Option α :=
  fun k' => if k' = k then v else m k'

/-- One second in nanoseconds. -/
def second : Nat := 1000000000

/-- State of all stores. Maps are functions from keys; cache entries carry the
last instant at which they are readable. -/
structure St where
  /-- wall clock, nanoseconds since the epoch -/
  clock : Nat := 0
  /-- inmemory/client.go:31-33 -/
  clients : Str → Option Client := fun _ => none
  /-- inmemory/resource.go:27-29 -/
  resources : Str → Option Resource := fun _ => none
  /-- inmemory/authorization_request.go:32-44 -/
  requests : Str → Option (AuthzRequest × Nat) := fun _ => none
  /-- inmemory/authorization_code_session.go:32-44 -/
  codes : Str → Option (CodeSession × Nat) := fun _ => none
  /-- the device session objects ever stored; both indices hold addresses into it -/
  heap : List DeviceSession := []
  /-- inmemory/device_code_session.go:32-47 -/
  userIdx : Str → Option (Nat × Nat) := fun _ => none
  devIdx : Str → Option (Nat × Nat) := fun _ => none
  /-- inmemory/token.go:32-35. Both indices hold the same pointer in Go; since
  `Revoke` writes both entries back, storing values is equivalent. -/
  tokId : Str → Option Token := fun _ => none
  tokVal : Str → Option Token := fun _ => none
  /-- inmemory/proof.go:29-41 -/
  proofs : Str → Option Nat := fun _ => none

namespace Store

/-- Readable part of a cache entry. -/
def live {α : Type} (now : Nat) : Option (α × Nat) → Option α
  | some (v, exp) => if now ≤ exp then some v else none
  | none => none

/-- authorization_code_session.go:74-86 `deriveKey`: plain concatenation. -/
def codeKey (E : Env) (iss code : Str) : Str :=
  E.blake 0 (g!"solid:authorization-code-sessions:v1" ++ iss ++ code)

/-- authorization_request.go:74-86 `deriveKey`. -/
def requestKey (E : Env) (iss uri : Str) : Str :=
  E.blake 1 (g!"solid:authorization-requests:v1" ++ iss ++ uri)

/-- device_code_session.go:97-109 `deriveUserCode`. -/
def userKey (E : Env) (iss code : Str) : Str :=
  E.blake 2 (g!"solid:device-authorization-user-code:v1" ++ iss ++ code)

/-- device_code_session.go:111-123 `deriveDeviceCode` (same hash key as above). -/
def devKey (E : Env) (iss code : Str) : Str :=
  E.blake 2 (g!"solid:device-authorization-device-code:v1" ++ iss ++ code)

/-- token.go:122-134 `deriveValue`. -/
def tokenKey (E : Env) (iss value : Str) : Str :=
  E.blake 3 (g!"solid:token:v1" ++ iss ++ value)

/-- How the environment resolves one call: does it fail (before or after taking
effect), and which string does a random generator produce. The shipped
in-memory store never fails; faults stand for any other backend's failures. -/
inductive Fault where
  | none | before | after
deriving DecidableEq, Repr

structure Choice where
  fault : Fault := .none
  str : Str := []
deriving DecidableEq, Repr

/-- token.go:47-64 `Create`. -/
def create (E : Env) (iss : Str) (t : Token) (s : St) : St :=
  let t' := { t with value := tokenKey E iss t.value }
  { s with tokId := upd s.tokId t'.tokenId (some t'), tokVal := upd s.tokVal t'.value (some t') }

/-- token.go:102-118 `Revoke`. -/
def revoke (id : Str) (s : St) : SRes Unit × St :=
  match s.tokId id with
  | none => (.error .notFound, s)
  | some t =>
    let t' := { t with status := TokenStatus.revoked }
    (.ok (), { s with tokId := upd s.tokId t'.tokenId (some t'), tokVal := upd s.tokVal t'.value (some t') })

/-- Result of a storage call under a fault decision: `before` loses the effect,
`after` keeps it; both report an error. -/
def faulty {α : Type} (f : Fault) (s : St) (rs : SRes α × St) : SRes α × St :=
  match f with
  | .none => rs
  | .before => (.error .other, s)
  | .after => (.error .other, rs.2)

/-- Result of a generator under a choice. -/
def gen (ch : Choice) (s : St) : SRes Str × St :=
  match ch.fault with
  | .none => (.ok ch.str, s)
  | _ => (.error .other, s)

/-- "Not found" or the value. -/
def found {α : Type} : Option α → SRes (Option α)
  | none => .error .notFound
  | some a => .ok (some a)

/-- Dereference a device session pointer. -/
def deref (s : St) : Option Nat → Option (Nat × DeviceSession)
  | none => none
  | some r => (s.heap[r]?).map fun d => (r, d)

/-- One call on the stores. -/
def exec (E : Env) : (c : Cmd) → Choice → St → c.Res × St
  | .now, _, s => (s.clock, s)
  | .jti, ch, s => (ch.str, s)
  | .clientsGet id, ch, s => faulty ch.fault s (found (s.clients id), s)
  | .resourcesGet uri, ch, s => faulty ch.fault s (found (s.resources uri), s)
  | .arGet iss uri, ch, s =>
    faulty ch.fault s (found (live s.clock (s.requests (requestKey E iss uri))), s)
  | .arDel iss uri, ch, s =>
    faulty ch.fault s (.ok (), { s with requests := upd s.requests (requestKey E iss uri) none })
  | .arReg iss uri r, ch, s =>
    faulty ch.fault s (.ok 60,
      { s with requests := upd s.requests (requestKey E iss uri) (some (r, s.clock + 60 * second)) })
  | .csGet iss code, ch, s =>
    faulty ch.fault s (found (live s.clock (s.codes (codeKey E iss code))), s)
  | .csDel iss code, ch, s =>
    faulty ch.fault s (.ok (), { s with codes := upd s.codes (codeKey E iss code) none })
  | .csReg iss code cs, ch, s =>
    faulty ch.fault s (.ok 60,
      { s with codes := upd s.codes (codeKey E iss code) (some (cs, s.clock + 60 * second)) })
  | .dsGetUser iss uc, ch, s =>
    faulty ch.fault s (found (deref s (live s.clock (s.userIdx (userKey E iss uc)))), s)
  | .dsGetDev iss dc, ch, s =>
    faulty ch.fault s (found (deref s (live s.clock (s.devIdx (devKey E iss dc)))), s)
  | .dsReg _ uc d, ch, s =>
    faulty ch.fault s (.ok 120,
      { s with
        heap := s.heap ++ [d]
        userIdx := upd s.userIdx (userKey E d.issuer uc) (some (s.heap.length, s.clock + 120 * second))
        devIdx := upd s.devIdx (devKey E d.issuer d.deviceCode) (some (s.heap.length, s.clock + 120 * second)) })
  | .dsAssign ref d, _, s => ((), { s with heap := s.heap.set ref d })
  | .dsValidate _ uc ref d, ch, s =>
    faulty ch.fault s (.ok (),
      { s with
        userIdx := upd s.userIdx (userKey E d.issuer uc) (some (ref, s.clock + 120 * second))
        devIdx := upd s.devIdx (devKey E d.issuer d.deviceCode) (some (ref, s.clock + 120 * second)) })
  | .dsDel iss uc, ch, s =>
    faulty ch.fault s (.ok (), { s with userIdx := upd s.userIdx (userKey E iss uc) none })
  | .tkGetVal iss v, ch, s => faulty ch.fault s (found (s.tokVal (tokenKey E iss v)), s)
  | .tkCreate iss t, ch, s => faulty ch.fault s (.ok (), create E iss t s)
  | .tkRevoke _ id, ch, s => faulty ch.fault s (revoke id s)
  | .genCode _, ch, s => gen ch s
  | .genUri _, ch, s => gen ch s
  | .genDev _, ch, s => gen ch s
  | .genUser _, ch, s => gen ch s
  | .genAT _, ch, s => gen ch s
  | .genRT _, ch, s => gen ch s
  | .dpopExists id, ch, s =>
    faulty ch.fault s (.ok (match s.proofs id with | some e => decide (s.clock ≤ e) | none => false), s)
  | .dpopRegister id, ch, s =>
    faulty ch.fault s (.ok (), { s with proofs := upd s.proofs id (some (s.clock + 60 * second)) })

end Store
end Verif
