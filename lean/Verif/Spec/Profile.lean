import Verif.Model.Profile
import Verif.Spec.HttpSystem

/-! Registrations that keep to the strict profile. -/
namespace Verif.Spec

/-- The client `c` is registered as an application of type `app`, and for nothing that the strict
profile does not provide for such applications. -/
structure WithinProfile (app : Str) (c : Client) : Prop where
  known : (Profile.applicationType app).isSome = true
  grants : ∀ p, Profile.applicationType app = some p → ∀ g ∈ c.grantTypes, g ∈ p.grantTypes
  responses : ∀ p, Profile.applicationType app = some p → ∀ x ∈ c.responseTypes, x ∈ p.responseTypes
  method : ∀ p, Profile.applicationType app = some p → c.tokenEndpointAuthMethod ∈ p.authMethods

/-- All registered clients keep to the profile of the application type `app` gives them, and
are registered under their names. -/
structure Strict (clients : Str → Option Client) (app : Str → Str) : Prop where
  named : ∀ id c, clients id = some c → c.clientId = id
  within : ∀ id c, clients id = some c → WithinProfile (app id) c

end Verif.Spec
