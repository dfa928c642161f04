import Verif.Model.Oidc
import Verif.Model.Types

/-!
The strict server profile: what clients may be registered for, by the type of their
application (`server/profile`). Nothing in the repository calls it.
-/
namespace Verif.Profile

/-- server/profile/client.go:22-27 `defaultClientProfile`; its methods (29-43) return the fields. -/
structure ClientProfile where
  grantTypes : List Str := []
  authMethods : List Str := []
  responseTypes : List Str := []
  defaultScopes : List Str := []
deriving DecidableEq, Repr

/-- server/profile/profile_strict.go:22-78 `strictProfile`. -/
def strict : List (Str × ClientProfile) :=
  [(g!"web",
    { grantTypes := [g!"authorization_code"], responseTypes := [g!"code"], authMethods := [g!"private_key_jwt"] }),
   (g!"native",
    { grantTypes := [g!"authorization_code", g!"refresh_token"], responseTypes := [g!"code"],
      authMethods := [g!"private_key_jwt"] }),
   (g!"device",
    { grantTypes := [g!"urn:ietf:params:oauth:grant-type:device_code", g!"refresh_token"], responseTypes := [g!"code"],
      authMethods := [g!"private_key_jwt"] }),
   (g!"service",
    { grantTypes := [g!"client_credentials"], responseTypes := [g!"token"], authMethods := [g!"private_key_jwt"] })]

/-- server/profile/server.go:24-27 `ApplicationType`. -/
def applicationType (name : Str) : Option ClientProfile := strict.lookup name

end Verif.Profile
