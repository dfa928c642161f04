import Verif.Model.Types
import Verif.Go.Str

/-! `server/storage/inmemory/resource.go` -/
namespace Verif.Resources

/-- resource.go:31-46 `Resources`: the table of the shipped store. -/
def table : List (Str × Resource) :=
  [(g!"urn:example:cooperation-context", ⟨g!"urn:example:cooperation-context"⟩),
   (g!"urn:example:backend-api", ⟨g!"urn:example:backend-api"⟩)]

/-- resource.go:50-59 `GetByURI`: a lookup by the name, not by the URLs. -/
def shipped (urn : Str) : Option Resource := table.lookup urn

end Verif.Resources
