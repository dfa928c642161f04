import Verif.Model.Http
import Verif.Spec.Token

/-! Vocabulary of the HTTP endpoint properties. -/
namespace Verif.Spec
open Verif.Http

/-- A call that only reads the clock or the registered clients. -/
def ReadsClients (ev : Ev) : Prop := ev.1 = .now ∨ ∃ id, ev.1 = .clientsGet id

/-- The request (with the answers `tr` to the calls made while serving it) comes from the
registered client `c`: it names a public client, or it carries an assertion signed with a
key registered by `c`, or a client attestation signed with a key registered by its issuer
and a proof, signed with the attested key, that names `c`. -/
inductive FromClient (P : ClientAuth.Parsers) (r : Http.Req) (tr : List Ev) (c : Client) : Prop
  | named (id : Str) (hq : r.query g!"client_id" = some id) (hne : id ≠ [])
      (hreg : ⟨.clientsGet id, .ok (some c)⟩ ∈ tr) (hpub : c.clientType = .pub)
  | key (a : Str) (t : Jose.Jws) (cl : ClientAuth.PrivClaims) (now : Nat) (keys : List Jose.Jwk) (k : Jose.Jwk)
      (hty : r.post g!"client_assertion_type" = some g!"urn:ietf:params:oauth:client-assertion-type:jwt-bearer")
      (ha : r.post g!"client_assertion" = some a) (hp : P.parse a = some t) (hc : P.privClaims t.payload = some cl)
      (hsame : cl.iss = cl.sub) (hnow : ⟨.now, now⟩ ∈ tr) (hexp : seconds now ≤ cl.exp)
      (hreg : ⟨.clientsGet cl.iss, .ok (some c)⟩ ∈ tr) (hks : P.jwks c.jwks = some keys) (hk : k ∈ keys)
      (hu : k.use ≠ g!"enc") (hv : t.verifies k = true)
  | attested (att pop : Str) (t1 t2 : Jose.Jws) (c1 : ClientAuth.AttClaims) (c2 : ClientAuth.PopClaims)
      (attester : Client) (keys : List Jose.Jwk) (k key : Jose.Jwk)
      (hty : r.post g!"client_assertion_type" =
        some g!"urn:ietf:params:oauth:client-assertion-type:jwt-client-attestation")
      (ha : r.post g!"client_assertion" = some (att ++ g!"~" ++ pop))
      (hp1 : P.parse att = some t1) (hc1 : P.attClaims t1.payload = some c1) (hcnf : c1.cnf = some (some key))
      (hatt : ⟨.clientsGet c1.iss, .ok (some attester)⟩ ∈ tr) (hks : P.jwks attester.jwks = some keys) (hk : k ∈ keys)
      (hv1 : t1.verifies k = true) (hp2 : P.parse pop = some t2) (hv2 : t2.verifies key = true)
      (hc2 : P.popClaims t2.payload = some c2) (hreg : ⟨.clientsGet c2.iss, .ok (some c)⟩ ∈ tr)

theorem FromClient.mono {P : ClientAuth.Parsers} {r : Http.Req} {tr tr' : List Ev} {c : Client}
    (h : FromClient P r tr c) (hs : ∀ ev ∈ tr, ev ∈ tr') : FromClient P r tr' c := by
  cases h with
  | named id hq hne hreg hpub => exact .named id hq hne (hs _ hreg) hpub
  | key a t cl now keys k hty ha hp hc hsame hnow hexp hreg hks hk hu hv =>
    exact .key a t cl now keys k hty ha hp hc hsame (hs _ hnow) hexp (hs _ hreg) hks hk hu hv
  | attested att pop t1 t2 c1 c2 attester keys k key hty ha hp1 hc1 hcnf hatt hks hk hv1 hp2 hv2 hc2 hreg =>
    exact .attested att pop t1 t2 c1 c2 attester keys k key hty ha hp1 hc1 hcnf (hs _ hatt) hks hk hv1 hp2 hv2 hc2
      (hs _ hreg)

end Verif.Spec
