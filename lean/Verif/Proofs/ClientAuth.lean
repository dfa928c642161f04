import Verif.Model.ClientAuth
import Verif.Proofs.Jose
import Verif.Proofs.Prog

/-! What the client authentication methods check. -/
set_option linter.unusedSimpArgs false

namespace Verif.ClientAuth
open Verif.Jose Verif.Prog

/-- A successful private_key_jwt check. -/
theorem privateKeyCheck_done (P : Parsers) (t : Jws) (iss : Str) (acc : List Ev) :
    Done (fun tr r => r.goErr = false → ∃ client keys, ⟨.clientsGet iss, .ok (some client)⟩ ∈ tr ∧
      r.resp = some { client := some client } ∧ P.jwks client.jwks = some keys ∧
      validateSignature (some keys) (some t) = true ∧ ∀ e ∈ acc, e ∈ tr) (privateKeyCheck P t iss) acc := by
  simp only [privateKeyCheck, Prog.call, bind_op, bind_ret, pure_eq, Done]
  rintro ((_ | _) | (_ | client))
  · simp [Done, fail]
  · simp [Done, fail]
  · simp [Done]
  · by_cases h1 : client.jwks = []
    · simp [Done, fail, h1]
    · cases h2 : P.jwks client.jwks with
      | none => simp [Done, fail, h1, h2]
      | some keys =>
        cases h3 : validateSignature (some keys) (some t) with
        | false => simp [Done, fail, h1, h2, h3]
        | true =>
          simp only [h1, h2, h3, if_false, if_true, Done]
          intro _
          exact ⟨client, keys, by simp, rfl, h2, h3, fun e he => by simp [he]⟩

/-- The conditions of a successful private_key_jwt authentication. -/
structure PrivOk (P : Parsers) (req : AuthReq) (a : Str) (t : Jws) (c : PrivClaims) : Prop where
  ty : req.assertionType = some typeBearer
  assertion : req.assertion = some a
  nonempty : a ≠ []
  parsed : P.parse a = some t
  claims : P.privClaims t.payload = some c
  complete : c.complete = true
  same : c.iss = c.sub

theorem privateKeyJwt_done (P : Parsers) (req : AuthReq) :
    Done (fun tr r => r.goErr = false → ∃ a t c now client keys, PrivOk P req a t c ∧ ⟨.now, now⟩ ∈ tr ∧
      Device.unix now ≤ c.exp ∧ ⟨.clientsGet c.iss, .ok (some client)⟩ ∈ tr ∧
      r.resp = some { client := some client } ∧ P.jwks client.jwks = some keys ∧
      validateSignature (some keys) (some t) = true) (privateKeyJwt P (some req)) [] := by
  unfold privateKeyJwt
  cases h1 : req.assertionType with
  | none => simp [h1, Done, fail]
  | some ty =>
    by_cases h2 : ty = typeBearer
    · cases h3 : req.assertion with
      | none => simp [h1, h2, h3, Done, fail]
      | some a =>
        by_cases h4 : a = []
        · simp [h1, h2, h3, h4, Done, fail]
        · cases h5 : P.parse a with
          | none => simp [h1, h2, h3, h4, h5, Done, fail]
          | some t =>
            cases h6 : P.privClaims t.payload with
            | none => simp [h1, h2, h3, h4, h5, h6, Done, fail]
            | some c =>
              by_cases h7 : c.complete
              · by_cases h8 : c.iss = c.sub
                · simp only [h1, h2, h3, h4, h5, h6, h7, h8, ne_eq, not_true_eq_false, if_false, Prog.call, bind_op,
                    bind_ret, pure_eq, Done]
                  intro now
                  by_cases h9 : c.exp < Device.unix now
                  · simp [h9, Done, fail]
                  · simp only [h9, if_false]
                    refine done_mono (privateKeyCheck_done P t _ _) ?_
                    intro tr r h hr
                    obtain ⟨client, keys, e1, e2, e3, e4, e5⟩ := h hr
                    exact ⟨a, t, c, now, client, keys, ⟨by rw [h1, h2], h3, h4, h5, h6, h7, h8⟩, e5 _ (by simp),
                      Nat.le_of_not_lt h9, h8 ▸ e1, e2, e3, e4⟩
                · simp [h1, h2, h3, h4, h5, h6, h7, h8, Done, fail]
              · simp [h1, h2, h3, h4, h5, h6, h7, Done, fail]
    · simp [h1, h2, Done, fail]

/-- What an accepted attestation was checked for. -/
structure AttOk (P : Parsers) (tr : List Ev) (att : Str) (t : Jws) (c : AttClaims) (key : Option Jwk)
    (attester : Client) (keys : List Jwk) : Prop where
  parsed : P.parse att = some t
  claims : P.attClaims t.payload = some c
  cnf : c.cnf = some key
  mandatory : c.iss ≠ [] ∧ c.sub ≠ [] ∧ c.exp ≠ 0
  fresh : ∃ now now', ⟨.now, now⟩ ∈ tr ∧ ⟨.now, now'⟩ ∈ tr ∧ Device.unix now ≤ c.exp ∧ c.nbf ≤ Device.unix now'
  asked : ⟨.clientsGet c.iss, .ok (some attester)⟩ ∈ tr
  keySet : P.jwks attester.jwks = some keys
  signed : validateSignature (some keys) (some t) = true

theorem AttOk.mono {P : Parsers} {tr tr' : List Ev} {att : Str} {t : Jws} {c : AttClaims} {key : Option Jwk}
    {attester : Client} {keys : List Jwk} (h : AttOk P tr att t c key attester keys) (hs : ∀ e ∈ tr, e ∈ tr') :
    AttOk P tr' att t c key attester keys := by
  obtain ⟨n, n', h1, h2, h3⟩ := h.fresh
  exact ⟨h.parsed, h.claims, h.cnf, h.mandatory, ⟨n, n', hs _ h1, hs _ h2, h3⟩, hs _ h.asked, h.keySet, h.signed⟩

theorem attestation_done (P : Parsers) (a : Str) :
    Done (fun tr r => ∀ key, r = some key → ∃ t c attester keys, AttOk P tr a t c key attester keys)
      (attestation P a) [] := by
  unfold attestation
  cases h1 : P.parse a with
  | none => simp [h1, Done]
  | some t =>
    cases h2 : P.attClaims t.payload with
    | none => simp [h1, h2, Done]
    | some c =>
      cases h3 : c.cnf with
      | none => simp [h1, h2, h3, Done]
      | some key =>
        by_cases h4 : c.iss = [] ∨ c.sub = [] ∨ c.exp = 0
        · simp [h1, h2, h3, h4, Done]
        · simp only [h1, h2, h3, h4, if_false, Prog.call, bind_op, bind_ret, pure_eq, Done]
          intro now
          by_cases h5 : c.exp < Device.unix now
          · simp [h5, Done]
          · simp only [h5, if_false, Done]
            intro now'
            by_cases h6 : c.nbf > Device.unix now'
            · simp [h6, Done]
            · simp only [h6, if_false, Done]
              rintro ((_ | _) | (_ | client))
              · simp [Done]
              · simp [Done]
              · simp [Done]
              · by_cases h7 : client.jwks = []
                · simp [h7, Done]
                · cases h8 : P.jwks client.jwks with
                  | none => simp [h7, h8, Done]
                  | some keys =>
                    cases h9 : validateSignature (some keys) (some t) with
                    | false => simp [h7, h8, h9, Done]
                    | true =>
                      simp only [h7, h8, h9, if_false, if_true, Done]
                      intro key' hk
                      cases hk
                      simp only [not_or] at h4
                      exact ⟨t, c, client, keys, h1, h2, h3, h4, ⟨now, now', by simp, by simp, Nat.le_of_not_lt h5,
                        Nat.le_of_not_lt h6⟩, by simp, h8, h9⟩

/-- What an accepted proof of possession was checked for. -/
structure PopOk (P : Parsers) (tr : List Ev) (pop : Str) (t : Jws) (c : PopClaims) (key : Jwk)
    (client : Option Client) : Prop where
  parsed : P.parse pop = some t
  signed : t.verifies key = true
  claims : P.popClaims t.payload = some c
  mandatory : c.iss ≠ [] ∧ c.exp ≠ 0 ∧ c.jti ≠ [] ∧ c.aud ≠ []
  fresh : ∃ now now', ⟨.now, now⟩ ∈ tr ∧ ⟨.now, now'⟩ ∈ tr ∧ Device.unix now ≤ c.exp ∧ c.nbf ≤ Device.unix now'
  asked : ⟨.clientsGet c.iss, .ok client⟩ ∈ tr

theorem proofOfPossession_done (P : Parsers) (key : Option Jwk) (pop : Str) (acc : List Ev) :
    Done (fun tr r => r.goErr = false → ∃ k t c client, key = some k ∧ PopOk P tr pop t c k client ∧
      r.resp = some { client := client } ∧ ∀ e ∈ acc, e ∈ tr) (proofOfPossession P key pop) acc := by
  unfold proofOfPossession
  cases h1 : P.parse pop with
  | none => simp [h1, Done, fail]
  | some t =>
    cases key with
    | none => simp [h1, Done]
    | some k =>
      cases h2 : Jose.claims P.popClaims t k with
      | none => simp [h1, h2, Done]
      | some c =>
        by_cases h3 : c.iss = [] ∨ c.exp = 0 ∨ c.jti = [] ∨ c.aud = []
        · simp [h1, h2, h3, Done]
        · simp only [h1, h2, h3, if_false, Prog.call, bind_op, bind_ret, pure_eq, Done]
          intro now
          by_cases h5 : c.exp < Device.unix now
          · simp [h5, Done]
          · simp only [h5, if_false, Done]
            intro now'
            by_cases h6 : c.nbf > Device.unix now'
            · simp [h6, Done]
            · simp only [h6, if_false, Done]
              rintro ((_ | _) | client)
              · simp [Done, fail]
              · simp [Done, fail]
              · simp only [Done]
                intro _
                obtain ⟨v1, v2⟩ := claims_some.1 h2
                simp only [not_or] at h3
                exact ⟨k, t, c, client, rfl, ⟨h1, v1, v2, h3, ⟨now, now', by simp, by simp, Nat.le_of_not_lt h5,
                  Nat.le_of_not_lt h6⟩, by simp⟩, rfl, fun e he => by simp [he]⟩

/-- Splitting at the first separator. -/
theorem cut_some {sep : UInt8} {s x y : Str} (h : cut sep s = (x, some y)) : s = x ++ sep :: y ∧ sep ∉ x := by
  induction s generalizing x with
  | nil => simp [cut] at h
  | cons b r ih =>
    unfold cut at h
    split at h
    · rename_i hb
      simp only [Prod.mk.injEq, Option.some.injEq] at h
      obtain ⟨rfl, rfl⟩ := h
      simp [hb]
    · rename_i hb
      simp only [Prod.mk.injEq] at h
      obtain ⟨rfl, h2⟩ := h
      obtain ⟨e1, e2⟩ := ih (x := (cut sep r).1) (by rw [← h2])
      exact ⟨by simp [← e1], by simp [e2, Ne.symm hb]⟩

theorem cut_append {sep : UInt8} {x y : Str} (h : sep ∉ x) : cut sep (x ++ sep :: y) = (x, some y) := by
  induction x with
  | nil => simp [cut]
  | cons b x ih =>
    simp only [List.mem_cons, not_or] at h
    simp only [List.cons_append, cut]
    rw [if_neg (Ne.symm h.1), ih h.2]

theorem clientAttestation_done (P : Parsers) (req : AuthReq) :
    Done (fun tr r => r.goErr = false → ∃ att pop t1 c1 key attester keys t2 c2 client,
      req.assertionType = some typeAttestation ∧ req.assertion = some (att ++ 126 :: pop) ∧ 126 ∉ att ∧
      AttOk P tr att t1 c1 (some key) attester keys ∧ PopOk P tr pop t2 c2 key client ∧
      r.resp = some { client := client }) (clientAttestation P (some req)) [] := by
  unfold clientAttestation
  cases h1 : req.assertionType with
  | none => simp [h1, Done, fail]
  | some ty =>
    by_cases h2 : ty = typeAttestation
    · cases h3 : req.assertion with
      | none => simp [h1, h2, h3, Done, fail]
      | some a =>
        by_cases h4 : a = []
        · simp [h1, h2, h3, h4, Done, fail]
        · rcases h5 : cut 126 a with ⟨att, _ | pop⟩
          · simp [h1, h2, h3, h4, h5, Done, fail]
          · obtain ⟨e1, e2⟩ := cut_some h5
            simp only [h1, h2, h3, h4, h5, ne_eq, not_true_eq_false, if_false, done_bind]
            refine done_mono (attestation_done P att) ?_
            rintro tr (_ | key) h
            · simp [Done, fail]
            · refine done_mono (proofOfPossession_done P key pop tr) ?_
              intro tr' r h' hr
              obtain ⟨k, t, c, client, rfl, hp, e, hsub⟩ := h' hr
              obtain ⟨t1, c1, attester, keys, ha⟩ := h _ rfl
              exact ⟨att, pop, t1, c1, k, attester, keys, t, c, client, trivial, by rw [e1], e2, ha.mono hsub, hp, e⟩
    · simp [h1, h2, Done, fail]

end Verif.ClientAuth
