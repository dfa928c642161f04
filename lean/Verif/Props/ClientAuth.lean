import Verif.Proofs.ClientAuth
import Verif.Proofs.Demo
import Verif.Proofs.Footprint
import Verif.Spec.Token

/-! Key-set verification and client authentication. -/
namespace Verif.Props
open Verif.Spec Verif.Prog Verif.Jose Verif.ClientAuth

/-! ### Key sets -/

/-- **C53** (`ValidateToken`). A token is accepted against a key set exactly when some
key of the set that is not marked for encryption verifies its signature, and its
payload decodes; the claims handed out are those of the payload. -/
theorem C53_validateToken {C : Type} (dec : Str → Option C) (ks : List Jwk) (t : Jws) (c : C) :
    validateToken dec (some ks) (some t) = .ok c ↔
      (∃ k ∈ ks, k.use ≠ g!"enc" ∧ t.verifies k = true) ∧ dec t.payload = some c := by
  rw [← firstKey_claims]
  cases ks with
  | nil => simp [validateToken, firstKey]
  | cons k ks => exact ofOption_ok

/-- **C53** (`ValidateSignature`). -/
theorem C53_validateSignature (ks : List Jwk) (t : Jws) :
    validateSignature (some ks) (some t) = true ↔ ∃ k ∈ ks, k.use ≠ g!"enc" ∧ t.verifies k = true :=
  validateSignature_iff

/-- **C53** (default verifier). Claims are extracted exactly when the token parses and
some key of the provided set verifies it, which is not marked for encryption and
carries the key id of the token, if the token has one. -/
theorem C53_defaultVerifier {C : Type} (parse : Str → Option Jws) (dec : Str → Option C) (ks : List Jwk) (raw : Str)
    (c : C) : defaultClaims parse dec (some (some ks)) raw = .ok c ↔
      ∃ t, parse raw = some t ∧ dec t.payload = some c ∧
        ∃ k ∈ ks, k.use ≠ g!"enc" ∧ (t.kid = [] ∨ k.kid = t.kid) ∧ t.verifies k = true := by
  unfold defaultClaims
  cases hp : parse raw with
  | none => simp
  | some t =>
    simp only [ofOption_ok, firstKey_claims, Option.some.injEq, exists_eq_left']
    by_cases hk : t.kid = []
    · simp only [hk, ne_eq, not_true_eq_false, if_false, true_or, true_and]
      exact and_comm
    · simp only [hk, ne_eq, not_false_eq_true, if_true, false_or, List.mem_filter, decide_eq_true_eq]
      constructor
      · rintro ⟨⟨k, ⟨h1, h2⟩, h3⟩, h4⟩
        exact ⟨h4, k, h1, h3.1, h2, h3.2⟩
      · rintro ⟨h4, k, h1, h2, h3, h5⟩
        exact ⟨⟨k, ⟨h1, h3⟩, h2, h5⟩, h4⟩

/-- **C53** (embedded key). The claims of a token verified by the key it carries. -/
theorem C53_embeddedVerifier {C : Type} (parse : Str → Option Jws) (dec : Str → Option C) (raw : Str) (c : C) :
    embeddedClaims parse dec raw = .ok c ↔
      ∃ t k, parse raw = some t ∧ t.jwk = some k ∧ t.verifies k = true ∧ dec t.payload = some c := by
  unfold embeddedClaims
  cases hp : parse raw with
  | none => simp
  | some t =>
    cases hk : t.jwk with
    | none => simp [hk]
    | some k =>
      simp only [hk, ofOption_ok, claims_some, Option.some.injEq]
      constructor
      · rintro ⟨h1, h2⟩; exact ⟨t, k, rfl, hk, h1, h2⟩
      · rintro ⟨t', k', rfl, hk', h1, h2⟩
        rw [hk] at hk'; cases hk'
        exact ⟨h1, h2⟩

/-- **C84** (partial). What the two verifiers call verification: the default one looks at the
syntax, the embedded one also at the algorithm that the embedded key is declared for. -/
theorem C84_verify_partial (parse : Str → Option Jws) (raw : Str) :
    (defaultVerify parse raw = true ↔ ∃ t, parse raw = some t) ∧
    (embeddedVerify parse raw = true ↔ ∃ t k, parse raw = some t ∧ t.jwk = some k ∧ k.alg = t.alg) := by
  unfold defaultVerify embeddedVerify
  cases hp : parse raw with
  | none => simp
  | some t =>
    cases hk : t.jwk with
    | none => simp [hk]
    | some k => simp [hk]

/-- **C84 violated.** Neither looks at the signature: a token is verified whatever
its payload, though no key verifies it. -/
theorem C84_violated (alg payload raw : Str) : ∃ t : Jws, t.payload = payload ∧ (∀ k, t.verifies k = false) ∧
    defaultVerify (fun _ => some t) raw = true ∧ embeddedVerify (fun _ => some t) raw = true :=
  ⟨{ alg := alg, payload := payload, jwk := some ⟨[], [], alg, []⟩, verifies := fun _ => false }, rfl, fun _ => rfl, rfl,
    by simp [embeddedVerify]⟩

/-- An encryption key and a signature key; only the latter counts, although both verify. -/
example : validateSignature (some [⟨g!"a", g!"enc", [], g!"k1"⟩, ⟨g!"b", g!"sig", [], g!"k2"⟩])
      (some { payload := [], verifies := fun k => k.key == g!"k1" }) = false ∧
    validateSignature (some [⟨g!"a", g!"enc", [], g!"k1"⟩, ⟨g!"b", g!"sig", [], g!"k2"⟩])
      (some { payload := [], verifies := fun k => k.key == g!"k2" }) = true := by decide

example : defaultClaims (fun _ => some { kid := g!"b", payload := g!"p", verifies := fun k => k.key == g!"k2" }) some
    (some (some [⟨g!"a", [], [], g!"k2"⟩, ⟨g!"b", g!"sig", [], g!"k2"⟩])) g!"raw" = .ok g!"p" := by decide

/-- The key id selects: the same signature under another key id is refused. -/
example : defaultClaims (fun _ => some { kid := g!"c", payload := g!"p", verifies := fun k => k.key == g!"k2" }) some
    (some (some [⟨g!"a", [], [], g!"k2"⟩, ⟨g!"b", g!"sig", [], g!"k2"⟩])) g!"raw" = .err := by decide

/-! ### private_key_jwt -/

/-- **C42.** Whoever is authenticated by a signed assertion is the client stored under
the identifier that the assertion names as issuer and subject; one of the keys
registered for that client, not marked for encryption, verifies the signature; and the
assertion had not expired. -/
theorem C42_private_key_jwt (P : Parsers) (req : AuthReq) (tr : List Ev) (r : AuthResult)
    (h : Exec (privateKeyJwt P (some req)) tr (.done r)) (hok : r.goErr = false) :
    ∃ a t c now client keys k,
      req.assertionType = some g!"urn:ietf:params:oauth:client-assertion-type:jwt-bearer" ∧ req.assertion = some a ∧
      P.parse a = some t ∧ P.privClaims t.payload = some c ∧ c.iss = c.sub ∧ c.iss ≠ [] ∧ c.jti ≠ [] ∧
      ⟨.now, now⟩ ∈ tr ∧ seconds now ≤ c.exp ∧ ⟨.clientsGet c.iss, .ok (some client)⟩ ∈ tr ∧
      r.resp = some { client := some client } ∧ P.jwks client.jwks = some keys ∧ k ∈ keys ∧ k.use ≠ g!"enc" ∧
      t.verifies k = true := by
  have := done_sound (privateKeyJwt_done P req) h
  simp only [List.nil_append] at this
  obtain ⟨a, t, c, now, client, keys, o, h1, h2, h3, h4, h5, h6⟩ := this hok
  obtain ⟨k, hk, hu, hv⟩ := validateSignature_iff.1 h6
  have hc := o.complete
  simp only [PrivClaims.complete, Bool.not_eq_true', Bool.or_eq_false_iff, decide_eq_false_iff_not] at hc
  exact ⟨a, t, c, now, client, keys, k, o.ty, o.assertion, o.parsed, o.claims, o.same, hc.1.1.1.1, hc.1.2, h1, h2, h3, h4,
    h5, hk, hu, hv⟩

/-- **C42** (refusals). An authentication that reports an error hands out no client. -/
theorem C42_refused_no_client (P : Parsers) (req : Option AuthReq) (tr : List Ev) (r : AuthResult)
    (h : Exec (privateKeyJwt P req) tr (.done r)) (hbad : r.goErr = true) :
    ∃ e, r.resp = some { error := some e, client := none } := by
  have hf : ∀ c, ∃ e, (fail c).resp = some { error := some e, client := none } := fun c => ⟨_, rfl⟩
  cases req with
  | none => cases h; exact hf _
  | some req =>
    have key : Done (fun _ r => r.goErr = true → ∃ e, r.resp = some { error := some e, client := none })
        (privateKeyJwt P (some req)) [] := by
      unfold privateKeyJwt
      repeat' first
        | exact fun _ => hf _
        | split
      simp only [Prog.call, bind_op, bind_ret, Done]
      intro now
      split
      · exact fun _ => hf _
      · simp only [privateKeyCheck, Prog.call, bind_op, bind_ret, pure_eq, Done]
        rintro ((_ | _) | (_ | client))
        · exact fun _ => hf _
        · exact fun _ => hf _
        · trivial
        · dsimp only
          repeat' first
            | exact fun _ => hf _
            | split
          intro h; cases h
    exact done_sound key h hbad

/-- **C42** (converse). A complete, unexpired assertion of a registered client, signed
with one of its signature keys, authenticates it if the client store answers. -/
theorem C42_holder_accepted (P : Parsers) (req : AuthReq) (tr : List Ev) (r : AuthResult) (a : Str) (t : Jws)
    (c : PrivClaims) (client : Client) (keys : List Jwk) (k : Jwk)
    (h : Exec (privateKeyJwt P (some req)) tr (.done r))
    (hty : req.assertionType = some g!"urn:ietf:params:oauth:client-assertion-type:jwt-bearer")
    (ha : req.assertion = some a) (hne : a ≠ []) (hp : P.parse a = some t) (hc : P.privClaims t.payload = some c)
    (hfull : c.iss ≠ [] ∧ c.aud ≠ [] ∧ c.jti ≠ [] ∧ c.exp ≠ 0) (hsame : c.iss = c.sub)
    (htime : ∀ now, ⟨.now, now⟩ ∈ tr → seconds now ≤ c.exp)
    (hget : ∀ x, ⟨.clientsGet c.iss, x⟩ ∈ tr → x = .ok (some client)) (hj : client.jwks ≠ [])
    (hks : P.jwks client.jwks = some keys) (hk : k ∈ keys) (hu : k.use ≠ g!"enc") (hv : t.verifies k = true) :
    r = ⟨some { client := some client }, false⟩ := by
  have hfull' : c.complete = true := by
    simp only [PrivClaims.complete, Bool.not_eq_true', Bool.or_eq_false_iff, decide_eq_false_iff_not]
    exact ⟨⟨⟨⟨hfull.1, hsame ▸ hfull.1⟩, hfull.2.1⟩, hfull.2.2.1⟩, hfull.2.2.2⟩
  have hsig : validateSignature (some keys) (some t) = true := validateSignature_iff.2 ⟨k, hk, hu, hv⟩
  have hty' : req.assertionType = some typeBearer := hty
  unfold privateKeyJwt at h
  simp only [hty', ha, hne, hp, hc, hfull', ne_eq, not_true_eq_false, if_false, Prog.call, bind_op,
    bind_ret, pure_eq] at h
  rw [if_neg (fun h => h hsame)] at h
  cases h with
  | step _ _ now tr' _ h' =>
    have h1 : ¬ c.exp < Device.unix now := Nat.not_lt.2 (htime now (by simp))
    simp only [h1, if_false] at h'
    simp only [privateKeyCheck, Prog.call, bind_op, bind_ret, pure_eq] at h'
    cases h' with
    | step _ _ x tr'' _ h'' =>
      have hx := hget x (by simp)
      subst hx
      simp only [hj, hks, hsig, if_false, if_true] at h''
      cases h''
      rfl

/-- A demonstration world: clients `good` and `evil` with one key each; assertions are
named by literals. -/
def demoP : Parsers where
  parse s :=
    if s = g!"assertion" then some { payload := s, verifies := fun k => k.key == g!"gk" }
    else if s = g!"att" then some { payload := s, verifies := fun k => k.key == g!"ek" }
    else if s = g!"pop" then some { payload := s, verifies := fun k => k.key == g!"instance" }
    else none
  privClaims s := if s = g!"assertion" then
    some { jti := g!"1", sub := g!"good", iss := g!"good", aud := g!"https://elsewhere", exp := 1000 } else none
  attClaims s := if s = g!"att" then
    some { iss := g!"evil", sub := g!"whoever", exp := 1000, cnf := some (some { key := g!"instance" }) } else none
  popClaims s := if s = g!"pop" then
    some { iss := g!"good", aud := g!"https://elsewhere", exp := 1000, jti := g!"1" } else none
  jwks s := if s = g!"goodkeys" then some [{ key := g!"gk" }] else if s = g!"evilkeys" then some [{ key := g!"ek" }]
    else none

/-- The client store of the demonstration world. -/
def demoClient (id : Str) : SRes (Option Client) :=
  if id = g!"good" then .ok (some { clientId := g!"good", jwks := g!"goodkeys" })
  else if id = g!"evil" then .ok (some { clientId := g!"evil", jwks := g!"evilkeys" })
  else .error .notFound

/-- Its answers: the time is 900 seconds after the epoch. -/
def demoAns : (c : Cmd) → c.Res
  | .now => 900 * 1000000000
  | .clientsGet id => demoClient id
  | c => Demo.answers c

/-- A request with the assertion of `good`. -/
def demoReq : AuthReq :=
  ⟨some g!"urn:ietf:params:oauth:client-assertion-type:jwt-bearer", some g!"assertion"⟩

example : ∃ tr r, Exec (privateKeyJwt demoP (some demoReq)) tr (.done r) ∧ r.goErr = false := by
  exact oracle_ex demoAns _ (fun r : AuthResult => r.goErr = false) (by decide +kernel)

/-- **C59_violated** (audience). Signed assertions are accepted whatever server they are
addressed to: the authenticator does not look at the audience beyond its presence. -/
theorem C59_audience_violated (aud : Str) (haud : aud ≠ []) :
    ∃ (P : Parsers) (req : AuthReq) (tr : List Ev) (r : AuthResult) (a : Str) (t : Jws) (c : PrivClaims),
      Exec (privateKeyJwt P (some req)) tr (.done r) ∧ r.goErr = false ∧ req.assertion = some a ∧
      P.parse a = some t ∧ P.privClaims t.payload = some c ∧ c.aud = aud := by
  let c : PrivClaims := { jti := g!"1", sub := g!"good", iss := g!"good", aud := aud, exp := 1000 }
  let P : Parsers := { demoP with privClaims := fun _ => some c }
  let req : AuthReq := { assertionType := some typeBearer, assertion := some g!"assertion" }
  have hx : Exec (privateKeyJwt P (some req)) [⟨.now, 0⟩, ⟨.clientsGet g!"good", demoClient g!"good"⟩]
      (.done ⟨some { client := some { clientId := g!"good", jwks := g!"goodkeys" } }, false⟩) := by
    have hc : c.complete = true := by simp [PrivClaims.complete, c, haud]
    have e : privateKeyJwt P (some req) = (do
        let now ← Prog.call .now
        if c.exp < Device.unix now then return fail .invalidRequest
        else privateKeyCheck P { payload := g!"assertion", verifies := fun k => k.key == g!"gk" } c.iss) := by
      have hparse : P.parse g!"assertion" = some { payload := g!"assertion", verifies := fun k => k.key == g!"gk" } := by
        simp [P, demoP]
      simp only [privateKeyJwt, req, hparse]
      simp [hc, P, c]
    rw [e]
    refine .step .now _ (0 : Nat) _ _ ?_
    exact .step (.clientsGet g!"good") _ (demoClient g!"good") _ _ (.ret _)
  exact ⟨P, req, _, _, g!"assertion", _, c, hx, rfl, rfl, by simp [P, demoP]; rfl, rfl, rfl⟩

/-- Reads of the clock and of the client store. -/
def isReadOnly : Cmd → Bool
  | .now | .clientsGet _ => true
  | _ => false

/-- **C59_violated** (single use). Neither authentication method records anything: all
they do is read the clock and the client store, so whatever was accepted once is
accepted again while the clock and the clients say the same. -/
theorem C59_replay_violated (P : Parsers) (req : Option AuthReq) :
    Only isReadOnly (privateKeyJwt P req) ∧ Only isReadOnly (clientAttestation P req) ∧
      ∀ E c ch s, isReadOnly c = true → (Store.exec E c ch s).2 = s := by
  have h1 : ∀ t iss, Only isReadOnly (privateKeyCheck P t iss) := by
    intro t iss
    unfold privateKeyCheck
    simp only [Prog.call, bind_op, bind_ret, pure_eq]
    walk
  have h2 : ∀ a, Only isReadOnly (attestation P a) := by
    intro a
    unfold attestation
    simp only [Prog.call, bind_op, bind_ret, pure_eq]
    walk
  have h3 : ∀ k a, Only isReadOnly (proofOfPossession P k a) := by
    intro k a
    unfold proofOfPossession
    simp only [Prog.call, bind_op, bind_ret, pure_eq]
    walk
  refine ⟨?_, ?_, ?_⟩
  · unfold privateKeyJwt
    simp only [Prog.call, bind_op, bind_ret, pure_eq]
    repeat' (first | exact h1 _ _ | exact True.intro | split | (refine ⟨rfl, fun _ => ?_⟩; try dsimp only))
  · unfold clientAttestation
    repeat' first
      | trivial
      | split
    refine only_bind (h2 _) ?_
    rintro (_ | k)
    · trivial
    · exact h3 _ _
  · intro E c ch s hc
    cases c <;> simp [isReadOnly] at hc
    · rfl
    · obtain ⟨f, str⟩ := ch
      cases f <;> rfl

/-! ### Client attestation -/

/-- **C43_partial.** What attestation-based authentication does establish: the
attestation is signed with a registered key of the client it names as its issuer, had
not expired and names an instance key; the proof of possession verifies under that
instance key, had not expired, and the client handed out is the one stored under the
issuer of the proof. Missing: nothing relates that client to the attested subject or
to the attester (see C43_violated). -/
theorem C43_attestation_partial (P : Parsers) (req : AuthReq) (tr : List Ev) (r : AuthResult)
    (h : Exec (clientAttestation P (some req)) tr (.done r)) (hok : r.goErr = false) :
    ∃ att pop t1 c1 key attester keys k t2 c2 client now1 now2 now3 now4,
      req.assertionType = some g!"urn:ietf:params:oauth:client-assertion-type:jwt-client-attestation" ∧
      req.assertion = some (att ++ g!"~" ++ pop) ∧
      P.parse att = some t1 ∧ P.attClaims t1.payload = some c1 ∧ c1.cnf = some (some key) ∧ c1.sub ≠ [] ∧
      ⟨.clientsGet c1.iss, .ok (some attester)⟩ ∈ tr ∧ P.jwks attester.jwks = some keys ∧
      k ∈ keys ∧ k.use ≠ g!"enc" ∧ t1.verifies k = true ∧
      ⟨.now, now1⟩ ∈ tr ∧ ⟨.now, now2⟩ ∈ tr ∧ seconds now1 ≤ c1.exp ∧ c1.nbf ≤ seconds now2 ∧
      P.parse pop = some t2 ∧ t2.verifies key = true ∧ P.popClaims t2.payload = some c2 ∧
      ⟨.now, now3⟩ ∈ tr ∧ ⟨.now, now4⟩ ∈ tr ∧ seconds now3 ≤ c2.exp ∧ c2.nbf ≤ seconds now4 ∧
      ⟨.clientsGet c2.iss, .ok client⟩ ∈ tr ∧ r.resp = some { client := client } := by
  have := done_sound (clientAttestation_done P req) h
  simp only [List.nil_append] at this
  obtain ⟨att, pop, t1, c1, key, attester, keys, t2, c2, client, e1, e2, -, ha, hp, hr⟩ := this hok
  obtain ⟨n1, n2, f1, f2, f3, f4⟩ := ha.fresh
  obtain ⟨n3, n4, g1, g2, g3, g4⟩ := hp.fresh
  obtain ⟨k, hk, hu, hv⟩ := validateSignature_iff.1 ha.signed
  exact ⟨att, pop, t1, c1, key, attester, keys, k, t2, c2, client, n1, n2, n3, n4, e1, by simp [e2], ha.parsed, ha.claims,
    ha.cnf, ha.mandatory.2.1, ha.asked, ha.keySet, hk, hu, hv, f1, f2, f3, f4, hp.parsed, hp.signed, hp.claims, g1, g2, g3,
    g4, hp.asked, hr⟩

/-- **C43_violated.** Any registered client that has a signature key can authenticate as
any other client: it signs an attestation in its own name for a key of its choice and
an arbitrary subject, and a proof of possession naming its victim. (For all attackers,
victims, times and subjects.) -/
theorem C43_violated (P : Parsers) (att pop : Str) (t1 t2 : Jws) (attacker victim : Client) (keys : List Jwk)
    (k inst : Jwk) (sub victimId : Str) (now : Nat) (hsep : 126 ∉ att)
    (hp1 : P.parse att = some t1)
    (hc1 : P.attClaims t1.payload =
      some { iss := attacker.clientId, sub := sub, exp := seconds now, cnf := some (some inst) })
    (hreg : attacker.clientId ≠ [] ∧ attacker.jwks ≠ [] ∧ P.jwks attacker.jwks = some keys) (hk : k ∈ keys)
    (hu : k.use ≠ g!"enc") (hs1 : t1.verifies k = true) (hsub : sub ≠ [])
    (hp2 : P.parse pop = some t2) (hs2 : t2.verifies inst = true)
    (hc2 : P.popClaims t2.payload = some { iss := victimId, aud := g!"any", exp := seconds now, jti := g!"1" })
    (hv : victimId ≠ []) (hnow : seconds now ≠ 0) :
    Exec (clientAttestation P (some { assertionType := some typeAttestation, assertion := some (att ++ g!"~" ++ pop) }))
      [⟨.now, now⟩, ⟨.now, now⟩, ⟨.clientsGet attacker.clientId, .ok (some attacker)⟩, ⟨.now, now⟩, ⟨.now, now⟩,
        ⟨.clientsGet victimId, .ok (some victim)⟩] (.done ⟨some { client := some victim }, false⟩) := by
  have hcut : cut 126 (att ++ g!"~" ++ pop) = (att, some pop) := by
    have := cut_append (y := pop) hsep
    simpa using this
  have hne : att ++ g!"~" ++ pop ≠ [] := by simp
  have hsig : validateSignature (some keys) (some t1) = true := validateSignature_iff.2 ⟨k, hk, hu, hs1⟩
  have hcl : Jose.claims P.popClaims t2 inst = some { iss := victimId, aud := g!"any", exp := seconds now, jti := g!"1" } :=
    claims_some.2 ⟨hs2, hc2⟩
  have hlt : ¬ seconds now < Device.unix now := Nat.lt_irrefl _
  have hnb : ¬ (0 : Nat) > Device.unix now := Nat.not_lt_zero _
  have e : clientAttestation P (some { assertionType := some typeAttestation, assertion := some (att ++ g!"~" ++ pop) }) =
      (attestation P att >>= fun x => match x with
        | none => pure (fail .unauthorizedClient)
        | some key => proofOfPossession P key pop) := by
    simp only [clientAttestation, hne, hcut, ne_eq, not_true_eq_false, if_false]
    rfl
  rw [e]
  simp only [attestation, hp1, hc1, hreg.1, hsub, hnow, or_self, if_false, Prog.call, bind_op, bind_ret, pure_eq]
  refine .step .now _ now _ _ ?_
  simp only [hlt, if_false]
  refine .step .now _ now _ _ ?_
  simp only [hnb, if_false]
  refine .step (.clientsGet attacker.clientId) _ (.ok (some attacker)) _ _ ?_
  simp only [hreg.2.1, hreg.2.2, hsig, if_false, if_true]
  show Exec (proofOfPossession P (some inst) pop) _ _
  have haud : (g!"any" : Str) ≠ [] := by simp
  have hj : (g!"1" : Str) ≠ [] := by simp
  simp only [proofOfPossession, hp2, hcl, hv, hnow, haud, hj, or_self, if_false, Prog.call, bind_op, bind_ret, pure_eq]
  refine .step .now _ now _ _ ?_
  simp only [hlt, if_false]
  refine .step .now _ now _ _ ?_
  simp only [hnb, if_false]
  exact .step (.clientsGet victimId) _ (.ok (some victim)) _ _ (.ret _)

/-- The attack in the demonstration world: `evil` becomes `good`. -/
example : ∃ tr r, Exec (clientAttestation demoP (some ⟨some typeAttestation, some g!"att~pop"⟩)) tr (.done r) ∧
    (r.goErr = false ∧ r.resp = some { client := some { clientId := g!"good", jwks := g!"goodkeys" } }) := by
  exact oracle_ex demoAns _ (fun r : AuthResult => r.goErr = false ∧
    r.resp = some { client := some { clientId := g!"good", jwks := g!"goodkeys" } }) (by decide +kernel)

/-! ### Crashes -/

/-- **C60** (private_key_jwt). No request and no answer of the stores crashes it, as
long as the client store does not answer a nil client without an error. -/
theorem C60_private_key_jwt (P : Parsers) (req : Option AuthReq) (tr : List Ev)
    (hnil : ∀ id, ⟨.clientsGet id, .ok none⟩ ∉ tr) : ¬ Exec (privateKeyJwt P req) tr .panicked := by
  have hc : ∀ t iss, NoPanic (fun ev => ∀ id, ev ≠ ⟨.clientsGet id, .ok none⟩) (privateKeyCheck P t iss) := by
    intro t iss
    simp only [privateKeyCheck, Prog.call, bind_op, bind_ret, pure_eq, NoPanic]
    rintro ((_ | _) | (_ | client)) hw
    · trivial
    · trivial
    · exact hw _ rfl
    · dsimp only
      repeat' first
        | exact True.intro
        | split
  refine noPanic_sound (W := fun ev => ∀ id, ev ≠ ⟨.clientsGet id, .ok none⟩) ?_ (fun e he id h => hnil id (h ▸ he))
  unfold privateKeyJwt
  repeat' first
    | exact True.intro
    | split
  simp only [Prog.call, bind_op, bind_ret, pure_eq, NoPanic]
  intro now _
  split
  · exact True.intro
  · exact hc _ _

/-- **C60_partial** (client attestation). The only other way to crash it is an attestation
whose confirmation has no key. -/
theorem C60_attestation_partial (P : Parsers) (req : AuthReq) (tr : List Ev)
    (hcnf : ∀ p c, P.attClaims p = some c → c.cnf ≠ some none)
    (hnil : ∀ id, ⟨.clientsGet id, .ok none⟩ ∉ tr) : ¬ Exec (clientAttestation P (some req)) tr .panicked := by
  let W : Ev → Prop := fun ev => ∀ id, ev ≠ ⟨.clientsGet id, .ok none⟩
  have h1 : ∀ a, NoPanic W (attestation P a) := by
    intro a
    unfold attestation
    simp only [Prog.call, bind_op, bind_ret, pure_eq]
    repeat' first
      | exact True.intro
      | split
    intro now _
    dsimp only
    split
    · exact True.intro
    intro now' _
    dsimp only
    split
    · exact True.intro
    rintro ((_ | _) | (_ | client)) hw
    · trivial
    · trivial
    · exact hw _ rfl
    · dsimp only
      repeat' first
        | exact True.intro
        | split
  have h2 : ∀ a, Done (fun _ k => k ≠ some none) (attestation P a) [] := by
    intro a
    have := attestation_done P a
    refine done_mono this ?_
    intro acc k h
    rcases k with _ | (_ | key)
    · simp
    · obtain ⟨t, c, attester, keys, ho⟩ := h none rfl
      exact absurd ho.cnf (hcnf _ _ ho.claims)
    · simp
  refine noPanic_sound (W := W) ?_ (fun e he id h => hnil id (h ▸ he))
  unfold clientAttestation
  repeat' first
    | exact True.intro
    | contradiction
    | split
  refine noPanic_bind_done (h1 _) (h2 _) ?_
  rintro (_ | (_ | key)) hk
  · trivial
  · exact absurd rfl hk
  · show NoPanic W (proofOfPossession P (some key) _)
    simp only [proofOfPossession, Prog.call, bind_op, bind_ret, pure_eq]
    repeat' first
      | exact True.intro
      | split
    intro now _
    dsimp only
    split
    · exact True.intro
    intro now' _
    dsimp only
    split
    · exact True.intro
    rintro ((_ | _) | client) _ <;> trivial

example : ∀ p c, demoP.attClaims p = some c → c.cnf ≠ some none := by
  intro p c h
  simp only [demoP] at h
  split at h
  · simp only [Option.some.injEq] at h
    subst h
    simp
  · simp at h

/-- **C60_violated** (client attestation). An attestation signed by a registered client
whose confirmation names no key crashes the server, with any parsable proof. -/
theorem C60_violated : ∃ (P : Parsers) (req : AuthReq) (tr : List Ev),
    (∀ id, ⟨.clientsGet id, .ok none⟩ ∉ tr) ∧ Exec (clientAttestation P (some req)) tr .panicked := by
  let P : Parsers := { demoP with attClaims := fun _ => some { iss := g!"evil", sub := g!"x", exp := 1, cnf := some none } }
  refine ⟨P, ⟨some typeAttestation, some g!"att~pop"⟩, [⟨.now, 0⟩, ⟨.now, 0⟩, ⟨.clientsGet g!"evil", demoClient g!"evil"⟩],
    by intro id; simp [demoClient], ?_⟩
  refine .step .now _ (0 : Nat) _ _ (.step .now _ (0 : Nat) _ _ (.step (.clientsGet g!"evil") _ (demoClient g!"evil") _ _ ?_))
  exact .panic

end Verif.Props
