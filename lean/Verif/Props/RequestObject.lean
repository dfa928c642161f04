import Verif.Proofs.RequestObject
import Verif.Props.Http
import Verif.Props.Sign

/-! Request objects (RFC 9101): what they say and who signed them. -/
namespace Verif.Props
open Verif.Spec Verif.Jose Verif.Sign Verif.RequestObject

theorem ofOption_ok {α : Type} {o : Option α} {a : α} : Out.ofOption o = .ok a ↔ o = some a := by
  cases o <;> simp [Out.ofOption]

/-- The key `k` checks the signature of `t` for the verifier of `ks`: it is not an
encryption key and has the key identifier of the token, if that has one. -/
def SignedBy (t : Jws) (ks : List Jwk) (k : Jwk) : Prop :=
  k ∈ ks ∧ (t.kid ≠ [] → k.kid = t.kid) ∧ k.use ≠ g!"enc" ∧ t.verifies k = true

theorem defaultClaims_iff {C : Type} {parse : Str → Option Jws} {dec : Str → Option C} {ks : List Jwk} {raw : Str}
    {c : C} : defaultClaims parse dec (some (some ks)) raw = .ok c ↔
      ∃ t k, parse raw = some t ∧ SignedBy t ks k ∧ dec t.payload = some c := by
  unfold defaultClaims
  cases hp : parse raw with
  | none => simp
  | some t =>
    simp only [ofOption_ok, Option.some.injEq, exists_and_left, exists_eq_left']
    constructor
    · intro h
      obtain ⟨k, h1, h2, h3⟩ := firstKey_some h
      obtain ⟨h4, h5⟩ := claims_some.1 h3
      refine ⟨k, ?_, h5⟩
      split at h1
      · simp only [List.mem_filter, decide_eq_true_eq] at h1
        exact ⟨h1.1, fun _ => h1.2, h2, h4⟩
      · exact ⟨h1, fun h => absurd h ‹_›, h2, h4⟩
    · rintro ⟨k, ⟨h1, h2, h3, h4⟩, h5⟩
      have hmem : k ∈ (if t.kid ≠ [] then ks.filter (fun k => k.kid = t.kid) else ks) := by
        split
        · rename_i hk; simp [h1, h2 hk]
        · exact h1
      obtain ⟨c', hc'⟩ := firstKey_exists (accept := Jose.claims dec t) hmem h3 (claims_some.2 ⟨h4, h5⟩)
      rw [hc']
      obtain ⟨_, _, _, h⟩ := firstKey_some hc'
      exact ((claims_some.1 h).2.symm.trans h5)

section
variable {parse : Str → Option Jws} {json : Str → Option (List (Str × JVal))} {exotic : Str → Option Nat}
  {ks : List Jwk} {raw : Str} {r : AuthzRequest}

/-- **C72** A request object is accepted as the request `r` exactly if a signature key of
the client checks its signature and its payload is a JSON object that says `r`: only the
names of parameters, none of them twice, and every value of `r` as given. -/
theorem C72_exact : decodeToken parse json exotic (some (some ks)) raw = .ok r ↔
    raw ≠ [] ∧ ∃ t k m, parse raw = some t ∧ SignedBy t ks k ∧ json t.payload = some m ∧ Says exotic m r := by
  unfold decodeToken
  by_cases h0 : raw = []
  · simp [h0]
  simp only [h0, if_false, ne_eq, not_false_eq_true, true_and, ← decode_iff]
  constructor
  · intro h
    cases hd : defaultClaims parse json (some (some ks)) raw with
    | ok m =>
      rw [hd] at h
      obtain ⟨t, k, h1, h2, h3⟩ := defaultClaims_iff.1 hd
      exact ⟨t, k, m, h1, h2, h3, ofOption_ok.1 h⟩
    | err => simp [hd] at h
    | panic => simp [hd] at h
  · rintro ⟨t, k, m, h1, h2, h3, h4⟩
    rw [defaultClaims_iff.2 ⟨t, k, h1, h2, h3⟩]
    exact ofOption_ok.2 h4

/-- **C72** A request object with a claim that is no request parameter is refused. The
registered claims that would limit its use are among them: RFC 9101 section 4 allows
`exp`, `nbf`, `iat`, `jti` and `aud`, so an object that is to expire cannot be used and one
that can be used never expires. -/
theorem C72_unknown_refused {t : Jws} {m : List (Str × JVal)} {name : Str} {v : JVal} (h1 : parse raw = some t)
    (h2 : json t.payload = some m) (h3 : (name, v) ∈ m) (h4 : ∀ p, ¬ Names name p) :
    decodeToken parse json exotic (some (some ks)) raw = .err := by
  have hd : decode exotic m = none := by
    cases hm : decode exotic m with
    | none => rfl
    | some r' =>
      obtain ⟨p, hp⟩ := (decode_iff.1 hm).known name v h3
      exact absurd hp (h4 p)
  unfold decodeToken
  split
  · rfl
  · cases hc : defaultClaims parse json (some (some ks)) raw with
    | ok m' =>
      obtain ⟨t', k, g1, _, g3⟩ := defaultClaims_iff.1 hc
      rw [h1] at g1; cases g1
      rw [h2] at g3; cases g3
      simp only [hd]; rfl
    | err => rfl
    | panic =>
      exfalso
      unfold defaultClaims at hc
      rw [h1] at hc
      simp only at hc
      generalize firstKey _ _ = o at hc
      cases o <;> simp [Out.ofOption] at hc

theorem limits_unknown {name : Str} (h : name ∈ [g!"exp", g!"nbf", g!"iat", g!"jti", g!"aud", g!"sub"]) (p : Param) :
    ¬ Names name p := by
  rw [← paramOf_iff]
  have : ∀ name ∈ [g!"exp", g!"nbf", g!"iat", g!"jti", g!"aud", g!"sub"], paramOf name = none := by decide
  rw [this name h]
  simp

/-- **C72** What an object says is one request, whatever the order of its members. -/
theorem C72_unambiguous {m m' : List (Str × JVal)} {r' : AuthzRequest} (hp : m.Perm m') (h : Says exotic m r)
    (h' : Says exotic m' r') : r = r' := by
  refine value_ext fun p => ?_
  by_cases hn : ∃ k v, (k, v) ∈ m ∧ Names k p ∧ v ≠ .null
  · obtain ⟨k, v, h1, h2, h3⟩ := hn
    have g := h.given k v p h1 h2 h3
    have g' := h'.given k v p (hp.mem_iff.1 h1) h2 h3
    cases p
    case maxAge =>
      obtain ⟨n, e1, e2⟩ := g
      obtain ⟨n', e1', e2'⟩ := g'
      rw [← uint_iff] at e1 e1'
      rw [e1] at e1'; cases e1'
      rw [e2, e2']
    all_goals
      obtain ⟨_, _, e⟩ := g
      obtain ⟨_, _, e'⟩ := g'
      rw [e, e']
  · have hm : ∀ k v, (k, v) ∈ m → Names k p → v = .null := fun k v h1 h2 =>
      Classical.byContradiction fun h3 => hn ⟨k, v, h1, h2, h3⟩
    rw [h.unset p hm, h'.unset p fun k v h1 => hm k v (hp.mem_iff.2 h1)]

/-- **C72** The request object the library encodes for a request is decoded to the same
request by a server that knows the public half of the key. JSON writes the members in
the order `sort`. -/
theorem C72_roundtrip {L : Lib (List (Str × JVal))} {ok : List (Str × JVal) → Prop} (hL : L.Lawful ok) (s : Signer)
    (key : Jwk) (sort : List (Str × JVal) → List (Str × JVal)) (hsort : ∀ m, (sort m).Perm m)
    (hok : ok (sort (RequestObject.claims r))) (hn : ∀ n, r.maxAge = some n → n < 2 ^ 64)
    (he : encode (fun c => serialize L s (some key) (sort c)) (some r) = some raw)
    (hk : L.pub key ∈ ks) (hkid : (L.pub key).kid = key.kid) (hu : (L.pub key).use ≠ g!"enc") :
    decodeToken L.parse L.dec exotic (some (some ks)) raw = .ok r := by
  simp only [encode, serialize] at he
  split at he
  · simp at he
  · have h := defaultClaims_signed hL hok he hk hkid hu
    unfold decodeToken
    rw [if_neg (hL.nonempty he), h]
    exact ofOption_ok.2 (decode_iff.2 (says_claims hn (hsort _)))

end

/-- **C72** The example server decodes request objects by these rules. -/
theorem C72_server (S : Http.Server) (json : Str → Option (List (Str × JVal))) (exotic : Str → Option Nat)
    (hS : S.requestDec = fun p => (json p).bind (decode exotic)) (client : Client) (raw : Str) (r : AuthzRequest) :
    Http.decodeRequest S client raw = some r ↔ ∃ ks, S.P.jwks client.jwks = some ks ∧
      decodeToken S.requestParse json exotic (some (some ks)) raw = .ok r := by
  cases hj : S.P.jwks client.jwks with
  | none =>
    simp only [reduceCtorEq, false_and, exists_false, iff_false]
    unfold Http.decodeRequest
    rw [hj]
    split
    · simp
    · unfold defaultClaims
      cases S.requestParse raw <;> simp
  | some ks =>
    simp only [Option.some.injEq, exists_eq_left', C72_exact]
    unfold Http.decodeRequest
    rw [hj]
    by_cases h0 : raw = []
    · simp [h0]
    simp only [h0, if_false, ne_eq, not_false_eq_true, true_and, Option.map_some]
    constructor
    · intro h
      cases hd : defaultClaims S.requestParse S.requestDec (some (some ks)) raw with
      | ok r' =>
        rw [hd] at h
        cases h
        obtain ⟨t, k, h1, h2, h3⟩ := defaultClaims_iff.1 hd
        rw [hS] at h3
        obtain ⟨m, h3, h4⟩ := Option.bind_eq_some_iff.1 h3
        exact ⟨t, k, m, h1, h2, h3, decode_iff.1 h4⟩
      | err => simp [hd] at h
      | panic => simp [hd] at h
    · rintro ⟨t, k, m, h1, h2, h3, h4⟩
      rw [defaultClaims_iff.2 ⟨t, k, h1, h2, by rw [hS]; exact Option.bind_eq_some_iff.2 ⟨m, h3, decode_iff.2 h4⟩⟩]

/-! ### Instances -/

def roRequest : AuthzRequest :=
  { scope := g!"openid", responseType := g!"code", clientId := g!"c", redirectUri := g!"https://c/cb",
    state := g!"s", nonce := g!"n", maxAge := some 3600, resource := [g!"r1", g!"r2"], prompt := some [],
    codeChallenge := g!"cc", codeChallengeMethod := g!"S256", audience := g!"a" }

/-- The claims of a request, read back. -/
example : decode (fun _ => none) (RequestObject.claims roRequest) = some roRequest := by decide

/-- Both spellings of a name at once are refused, as is `null` for a member given twice. -/
example : decode (fun _ => none) [(g!"client_id", .str g!"c"), (g!"clientId", .null)] = none ∧
    decode (fun _ => none) [(g!"clientId", .str g!"c"), (g!"max_age", .num 30)] =
      some { clientId := g!"c", maxAge := some 30 } ∧
    decode (fun _ => none) [(g!"client_id", .str g!"c"), (g!"exp", .num 30)] = none := by decide

def roLib : Lib (List (Str × JVal)) where
  sign typ kid e _ c := if typ = g!"oauth-authz-req+jwt" ∧ e = false ∧ kid = g!"k1" ∧ decode (fun _ => none) c = some roRequest then some g!"ro" else none
  parse raw := some { kid := g!"k1", typ := some g!"oauth-authz-req+jwt", payload := raw,
                      verifies := fun k => k.key == g!"pub" }
  dec _ := some (RequestObject.claims roRequest)
  pub k := { k with key := g!"pub" }

theorem roLib_lawful : roLib.Lawful (· = RequestObject.claims roRequest) where
  nonempty := by
    intro typ kid e k c raw h
    simp only [roLib] at h
    split at h <;> simp at h
    subst h; decide
  signed := by
    intro typ kid e k c raw hc h
    subst hc
    simp only [roLib] at h
    split at h <;> simp at h
    rename_i hc
    obtain ⟨rfl, rfl, rfl, _⟩ := hc
    exact ⟨_, rfl, rfl, rfl, by simp [roLib], rfl, by simp⟩

/-- An instance of the round trip. -/
example : decodeToken roLib.parse roLib.dec (fun _ => none)
    (some (some [{ kid := g!"k1", key := g!"pub" }])) g!"ro" = .ok roRequest :=
  C72_roundtrip roLib_lawful ⟨g!"oauth-authz-req+jwt", false⟩ { kid := g!"k1", key := g!"priv" } id
    (fun _ => .refl _) rfl (by decide) (by decide) (by decide) rfl (by decide)

/-- An object with an expiration, signed by the client, is refused. -/
example : decodeToken roLib.parse
    (fun _ => some ((g!"exp", .num 2000) :: RequestObject.claims roRequest)) (fun _ => none)
    (some (some [{ kid := g!"k1", key := g!"pub" }])) g!"ro" = .err :=
  C72_unknown_refused (t := { kid := g!"k1", typ := some g!"oauth-authz-req+jwt", payload := g!"ro",
                              verifies := fun k => k.key == g!"pub" }) rfl rfl (List.mem_cons_self ..)
    (limits_unknown (by decide))

end Verif.Props
