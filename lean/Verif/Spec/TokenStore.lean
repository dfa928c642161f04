import Verif.Model.TokenStore

/-!
What is assumed of those who call the token store.
-/
namespace Verif.TokenStore

/-- The tokens that `Create` was called for. -/
def created : List Event → List (Str × Token)
  | [] => []
  | .inv _ (.create iss t) :: τ => (iss, t) :: created τ
  | _ :: τ => created τ

/-- Their identifiers. -/
def ids (τ : List Event) : List Str := (created τ).map (·.2.tokenId)

/-- Their keys. -/
def keys (E : Env) (τ : List Event) : List Str := (created τ).map fun x => (copy E x.1 x.2).value

/-- What is assumed of the calls: different tokens have different identifiers and keys, tokens
are not looked up by identifier, and only found tokens are revoked. -/
structure Orderly (E : Env) (τ : List Event) : Prop where
  ids : (ids τ).Nodup
  keys : (keys E τ).Nodup
  get : ∀ i id, .inv i (.get id) ∉ τ
  revoke : ∀ τ1 i id τ2, τ = τ1 ++ .inv i (.revoke id) :: τ2 → ∃ j t, .ret j (.ok (some t)) ∈ τ1 ∧ t.tokenId = id

end Verif.TokenStore
