import Verif.Spec.HttpSystem
import Verif.Model.ResourceServer

/-! Vocabulary for a resource server that asks the authorization server about tokens. -/
namespace Verif.Spec

/-- The client of a resource server calls a token active only if the authorization server,
asked at `/introspect` by one of the requests `At`, called this token active, and the
subject, client and key are those the server named. -/
def Reports (cli : ResourceServer.Cli) (c : Http.Conf) (At : Nat → Prop) : Prop :=
  ∀ a tok t, cli.introspect a tok = .ok t → t.status = .active →
    ∃ i r b, At i ∧ Http.Answered c i .introspect r ⟨200, .introspection (some b)⟩ ∧ r.formValue g!"token" = tok ∧
      (∀ m, t.metadata = some m → m.subject = b.sub ∧ m.clientId = b.clientId) ∧ t.confirmation = b.cnf

/-- The proof `raw` is a DPoP proof signed by a key with this thumbprint. -/
def ProvedBy (E : Env) (raw thumb : Str) : Prop :=
  ∃ p key claims, E.parseProof raw = some p ∧ p.jwk = some key ∧ p.claims key = some claims ∧ E.thumbprint key = some thumb

end Verif.Spec
