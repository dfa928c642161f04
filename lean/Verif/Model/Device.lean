import Verif.Model.Prog
import Verif.Model.Env
import Verif.Model.Oidc
import Verif.Model.StringArray

/-! `server/services/device/service.go` -/
namespace Verif.Device
open Verif.Oidc Verif.StringArray

/-- Seconds since the epoch of a nanosecond clock value: `timeFunc().Unix()`. -/
def unix (ns : Nat) : Nat := ns / 1000000000

def failA (c : ErrCode) : DeviceAuthzResp := { error := some ⟨c, none⟩, goErr := true }
def failV (c : ErrCode) : DeviceValidationResp := { error := some ⟨c, none⟩, goErr := true }

/-- service.go:108-116: the session as created; `ExpiresAt`, `Status` and
`Subject` keep their zero values. -/
def newSession (client : Client) (req : DeviceAuthzReq) (deviceCode : Str) : DeviceSession :=
  { issuer := req.issuer, client := some client, request := some req, scope := req.scope,
    audience := req.audience, deviceCode := deviceCode }

/-- service.go:56-138 `Authorize`. -/
def authorize (req : Option DeviceAuthzReq) : Prog DeviceAuthzResp :=
  match req with
  | none => .ret (failA .invalidRequest)
  | some req =>
    if req.issuer = [] then .ret (failA .invalidRequest)
    else if req.clientId = [] then .ret (failA .invalidRequest)
    else do
      match ← Prog.call (.clientsGet req.clientId) with
      | .error _ => return failA .invalidRequest
      | .ok none => return failA .invalidClient
      | .ok (some client) =>
        if ¬ contains client.grantTypes grantDeviceCode then return failA .unsupportedGrantType
        else
          match ← Prog.call (.genDev req.issuer) with
          | .error _ => return failA .serverError
          | .ok deviceCode =>
            match ← Prog.call (.genUser req.issuer) with
            | .error _ => return failA .serverError
            | .ok userCode =>
              match ← Prog.call (.dsReg req.issuer userCode (newSession client req deviceCode)) with
              | .error _ => return failA .serverError
              | .ok expiresIn =>
                return { deviceCode := deviceCode, userCode := userCode, expiresIn := expiresIn,
                         interval := 5, issuer := req.issuer }

/-- service.go:140-222 `Validate` (the user approves a user code). The two
assignments of lines 205-206 go through the pointer returned by the store
(`dsAssign`), before the storage calls. -/
def validate (req : Option DeviceValidationReq) : Prog DeviceValidationResp :=
  match req with
  | none => .ret (failV .invalidRequest)
  | some req =>
    if req.issuer = [] then .ret (failV .invalidRequest)
    else if req.userCode = [] then .ret (failV .invalidRequest)
    else if req.subject = [] then .ret (failV .invalidRequest)
    else do
      match ← Prog.call (.dsGetUser req.issuer req.userCode) with
      | .error .other => return failV .serverError
      | .error .notFound => return failV .invalidRequest
      | .ok none => return failV .invalidRequest
      | .ok (some (ref, session)) =>
        if session.request.isNone then return failV .invalidRequest
        else if session.client.isNone then return failV .invalidRequest
        else
          let now ← Prog.call .now
          if session.expiresAt < unix now then return failV .tokenExpired
          else if session.status ≠ .authorizationPending then return failV .invalidRequest
          else
            let session' := { session with subject := some req.subject, status := .validated }
            Prog.call (.dsAssign ref session')
            match ← Prog.call (.dsValidate req.issuer req.userCode ref session') with
            | .error _ => return failV .serverError
            | .ok () =>
              match ← Prog.call (.dsDel req.issuer req.userCode) with
              | .error _ => return failV .serverError
              | .ok () => return {}

end Verif.Device
