import Verif.Spec.HttpSystem
import Verif.Model.Registry

/-! Vocabulary for the example server with the clients it ships with. -/
namespace Verif.Spec

/-- The client that may send users to the server. -/
def webApp : Str := g!"6779ef20e75817b79602"

/-- The clients that may ask for tokens on their own account. -/
def services : List Str :=
  [g!"t8p9duw4n2klximkv3kagaud796ul67g", g!"5stz52n91hr7aw9q1h5hbuvkt2ovevdw", g!"6779ef20e75817b79602",
   g!"attestation-client"]

/-- The clients that have registered keys. -/
def keyHolders : List Str :=
  [g!"t8p9duw4n2klximkv3kagaud796ul67g", g!"5stz52n91hr7aw9q1h5hbuvkt2ovevdw", g!"6779ef20e75817b79602",
   g!"urn:solid:attestation-server"]

end Verif.Spec
