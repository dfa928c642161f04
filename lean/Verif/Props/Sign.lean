import Verif.Model.Sign
import Verif.Proofs.Jose
import Verif.Proofs.Tokens
import Verif.Props.DPoP

/-! C41 (authorization response JWT) and C62 (DPoP prover against verifier). -/
set_option linter.unusedSimpArgs false
namespace Verif.Props
open Verif.Prog Verif.Spec Verif.Sign Verif.Jose

section
variable {C : Type} {L : Lib C} {ok : C → Prop}

/-- A token signed by a key whose public half is in the key set decodes to its claims. -/
theorem defaultClaims_signed (hL : L.Lawful ok) {typ kid : Str} {e : Bool} {k : Jwk} {c : C} {raw : Str} (hc : ok c)
    (hs : L.sign typ kid e k c = some raw) {ks : List Jwk} (hk : L.pub k ∈ ks) (hkid : (L.pub k).kid = kid)
    (hu : (L.pub k).use ≠ g!"enc") : defaultClaims L.parse L.dec (some (some ks)) raw = .ok c := by
  obtain ⟨t, h1, _, h3, h4, h5, _⟩ := hL.signed hc hs
  have hmem : L.pub k ∈ (if t.kid ≠ [] then ks.filter (fun k => k.kid = t.kid) else ks) := by
    split
    · simp [hk, hkid, h3]
    · exact hk
  obtain ⟨c', hc'⟩ := firstKey_exists (accept := Jose.claims L.dec t) hmem hu (claims_some.2 ⟨h4, h5⟩)
  have : c' = c := by
    obtain ⟨k', _, _, h⟩ := firstKey_some hc'
    have := (claims_some.1 h).2
    rw [h5] at this
    exact (Option.some.inj this).symm
  unfold defaultClaims
  rw [h1]
  simp only
  rw [hc', this]
  rfl

end

private theorem exec_ret_iff {α : Type} {x a : α} {tr : List Ev} : Exec (.ret x) tr (.done a) ↔ tr = [] ∧ a = x := by
  constructor
  · intro h; cases h; exact ⟨rfl, rfl⟩
  · rintro ⟨rfl, rfl⟩; exact .ret _

private theorem exec_now_iff {α : Type} {k : Nat → Prog α} {tr : List Ev} {a : α} :
    Exec (.op .now k) tr (.done a) ↔ ∃ (now : Nat) (tr' : List Ev), tr = ⟨.now, now⟩ :: tr' ∧ Exec (k now) tr' (.done a) := by
  constructor
  · intro h
    cases h with
    | step _ _ now tr' _ h' => exact ⟨now, tr', rfl, h'⟩
  · rintro ⟨now, tr', rfl, h⟩; exact .step _ _ _ _ _ h

/-! ### C41: authorization responses as JWT -/

/-- What the encoder signs for a successful response. -/
theorem jarmEncode_exec {ser : JarmClaims → Option Str} {issuer : Str} {r : JarmResp} {tr : List Ev} {raw : Str}
    (h : Exec (jarmEncode ser issuer (some r)) tr (.done (some raw))) (he : r.error = none) :
    ∃ now : Nat, tr = [⟨.now, now⟩] ∧
      ser { state := r.state, iss := r.issuer, aud := r.clientId, code := r.code, exp := seconds now + r.expiresIn } =
        some raw := by
  unfold jarmEncode at h
  simp only [he, Prog.call, bind_op, bind_ret, pure_eq, ← seconds_add] at h ⊢
  repeat' split at h
  all_goals first
    | (simp only [exec_ret_iff] at h; simp at h)
    | skip
  obtain ⟨now, tr', rfl, h'⟩ := exec_now_iff.1 h
  obtain ⟨rfl, h2⟩ := exec_ret_iff.1 h'
  exact ⟨now, rfl, h2.symm⟩

/-- The answers of the decoder to a token with the expected header and known claims. -/
theorem jarmDecode_exec {L : Lib JarmClaims} {p : Option (Option (List Jwk))} {issuer audience raw : Str} {tr : List Ev}
    {out : JarmOut} {t : Jws} {c : JarmClaims} (h : Exec (jarmDecode L p issuer audience raw) tr (.done out))
    (ha : audience ≠ []) (hr : raw ≠ []) (ht : L.parse raw = some t) (htyp : t.typ = some g!"jarm+jwt")
    (hc : defaultClaims L.parse L.dec p raw = .ok c) (he : c.error = []) :
    (out = .resp { code := c.code, state := c.state, issuer := c.iss } ∧ issuer = c.iss ∧ audience = c.aud ∧
      ∃ later : Nat, tr = [⟨.now, later⟩] ∧ seconds later ≤ c.exp) ∨
    (out = .refused ∧ (issuer ≠ c.iss ∨ audience ≠ c.aud ∨ ∃ later : Nat, tr = [⟨.now, later⟩] ∧ c.exp < seconds later)) := by
  unfold jarmDecode at h
  rw [if_neg ha, if_neg hr, ht] at h
  simp only [htyp, jarmHeaderType, ne_eq, not_true_eq_false, if_false, hc, he, Prog.call, bind_op, bind_ret, pure_eq] at h
  split at h
  · rename_i hi
    exact Or.inr ⟨(exec_ret_iff.1 h).2, Or.inl (fun e => hi e.symm)⟩
  · rename_i hi
    split at h
    · rename_i hau
      exact Or.inr ⟨(exec_ret_iff.1 h).2, Or.inr (Or.inl (fun e => hau e.symm))⟩
    · rename_i hau
      obtain ⟨later, tr', rfl, h'⟩ := exec_now_iff.1 h
      split at h'
      · rename_i hx
        obtain ⟨rfl, h2⟩ := exec_ret_iff.1 h'
        exact Or.inr ⟨h2, Or.inr (Or.inr ⟨later, rfl, hx⟩)⟩
      · rename_i hx
        obtain ⟨rfl, h2⟩ := exec_ret_iff.1 h'
        simp only [Decidable.not_not] at hi hau
        exact Or.inl ⟨h2, hi.symm, hau.symm, later, rfl, Nat.le_of_not_lt hx⟩

/-- **C41** (round trip, for a signer with the header type the decoder wants). A successful
response encoded by the server decodes, for the key set holding the signing key, to the
same code, state and issuer exactly when the reader expects that issuer and that client
and reads it no later than the announced lifetime; otherwise it is refused. Missing: the
signer the SDK ships for these tokens uses another header type (`C41_violated`). -/
theorem C41_roundtrip_partial (L : Lib JarmClaims) (ok : JarmClaims → Prop) (hL : L.Lawful ok) (k : Jwk) (ks : List Jwk)
    (embed : Bool) (hk : L.pub k ∈ ks) (hkid : (L.pub k).kid = k.kid) (hu : (L.pub k).use ≠ g!"enc")
    (issuer : Str) (r : JarmResp) (he : r.error = none)
    (hok : ∀ exp, ok { state := r.state, iss := r.issuer, aud := r.clientId, code := r.code, exp := exp })
    (tr : List Ev) (raw : Str)
    (h : Exec (jarmEncode (serialize L ⟨g!"jarm+jwt", embed⟩ (some k)) issuer (some r)) tr (.done (some raw))) :
    ∃ now : Nat, tr = [⟨.now, now⟩] ∧
      ∀ iss aud tr' out, aud ≠ [] → Exec (jarmDecode L (some (some ks)) iss aud raw) tr' (.done out) →
        (out = .resp { code := r.code, state := r.state, issuer := r.issuer } ∧ iss = r.issuer ∧ aud = r.clientId ∧
          ∃ later : Nat, tr' = [⟨.now, later⟩] ∧ seconds later ≤ seconds now + r.expiresIn) ∨
        (out = .refused ∧ (iss ≠ r.issuer ∨ aud ≠ r.clientId ∨
          ∃ later : Nat, tr' = [⟨.now, later⟩] ∧ seconds now + r.expiresIn < seconds later)) := by
  obtain ⟨now, rfl, hs⟩ := jarmEncode_exec h he
  refine ⟨now, rfl, ?_⟩
  intro iss aud tr' out ha hd
  unfold serialize at hs
  simp only at hs
  split at hs
  · cases hs
  · obtain ⟨t, h1, h2, _⟩ := hL.signed (hok _) hs
    exact jarmDecode_exec hd ha (hL.nonempty hs) h1 h2 (defaultClaims_signed hL (hok _) hs hk hkid hu) rfl

/-- **C41 is violated** by the shipped signer and decoder: `JARMSigner` writes the header
type `jarm`, the decoder wants `jarm+jwt`. Every response the server encodes is refused,
whoever reads it, whenever, with whichever keys. -/
theorem C41_violated (L : Lib JarmClaims) (ok : JarmClaims → Prop) (hL : L.Lawful ok) (provider : Option Jwk)
    (issuer : Str) (r : JarmResp) (he : r.error = none)
    (hok : ∀ exp, ok { state := r.state, iss := r.issuer, aud := r.clientId, code := r.code, exp := exp })
    (tr : List Ev) (raw : Str)
    (h : Exec (jarmEncode (serialize L jarmSigner provider) issuer (some r)) tr (.done (some raw)))
    (keys : Option (Option (List Jwk))) (iss aud : Str) (tr' : List Ev) (out : JarmOut)
    (hd : Exec (jarmDecode L keys iss aud raw) tr' (.done out)) : out = .refused := by
  obtain ⟨now, rfl, hs⟩ := jarmEncode_exec h he
  unfold serialize at hs
  split at hs
  · cases hs
  · split at hs
    · cases hs
    · obtain ⟨t, h1, h2, _⟩ := hL.signed (hok _) hs
      unfold jarmDecode at hd
      rw [h1] at hd
      simp only [h2, jarmSigner, jarmHeaderType] at hd
      rw [if_pos (by decide : some (g!"jarm") ≠ some (g!"jarm+jwt"))] at hd
      repeat' split at hd
      all_goals exact (exec_ret_iff.1 hd).2

/-- **C41** (authenticity). Whatever the decoder answers as a success was signed by a key of
the reader's key set, for the reader and from the expected issuer, and is not expired. -/
theorem C41_authentic (L : Lib JarmClaims) (ks : List Jwk) (iss aud raw : Str) (tr : List Ev) (a : JarmResp)
    (h : Exec (jarmDecode L (some (some ks)) iss aud raw) tr (.done (.resp a))) (he : a.error = none) :
    ∃ t k c later, L.parse raw = some t ∧ t.typ = some g!"jarm+jwt" ∧ k ∈ ks ∧ k.use ≠ g!"enc" ∧
      (t.kid ≠ [] → k.kid = t.kid) ∧ t.verifies k = true ∧ L.dec t.payload = some c ∧
      c.iss = iss ∧ c.aud = aud ∧ tr = [⟨.now, later⟩] ∧ seconds later ≤ c.exp ∧
      a = { code := c.code, state := c.state, issuer := iss } := by
  have hr : raw ≠ [] ∧ aud ≠ [] := by
    constructor <;> (rintro rfl; unfold jarmDecode at h; simp [exec_ret_iff] at h)
  cases ht : L.parse raw with
  | none => unfold jarmDecode at h; simp [hr, ht, exec_ret_iff] at h
  | some t =>
    by_cases htyp : t.typ = some g!"jarm+jwt"
    · cases hc : defaultClaims L.parse L.dec (some (some ks)) raw with
      | err => unfold jarmDecode at h; simp [hr, ht, htyp, hc, jarmHeaderType, exec_ret_iff] at h
      | panic => unfold jarmDecode at h; simp [hr, ht, htyp, hc, jarmHeaderType, exec_ret_iff] at h
      | ok c =>
        by_cases hce : c.error = []
        · rcases jarmDecode_exec h hr.2 hr.1 ht htyp hc hce with ⟨h1, h2, h3, later, h4, h5⟩ | ⟨h1, _⟩
          · unfold defaultClaims at hc
            rw [ht] at hc
            simp only at hc
            obtain ⟨⟨k, hk, hku, hv⟩, hd⟩ := firstKey_claims.1 (ofOption_ok.1 hc)
            have hk' : k ∈ ks ∧ (t.kid ≠ [] → k.kid = t.kid) := by
              split at hk
              · simpa [And.comm, imp_and] using ⟨(List.mem_filter.1 hk).1, fun _ => by simpa using (List.mem_filter.1 hk).2⟩
              · rename_i hn; exact ⟨hk, fun h => absurd h hn⟩
            injection h1 with h1
            exact ⟨t, k, c, later, rfl, htyp, hk'.1, hku, hk'.2, hv, hd, h2.symm, h3.symm, h4, h5, h2 ▸ h1⟩
          · cases h1
        · unfold jarmDecode at h
          simp [hr, ht, htyp, hc, hce, jarmHeaderType, exec_ret_iff] at h
          rw [h.2] at he; cases he
    · unfold jarmDecode at h; simp [hr, ht, htyp, jarmHeaderType, exec_ret_iff] at h

/-- **C41 is violated** for error responses even with the right header type: they are
accepted from any issuer, for any audience, at any time (the encoder writes none of these
claims and the decoder checks none), and the state the client sent is not given back. -/
theorem C41_error_unbound_violated (L : Lib JarmClaims) (ok : JarmClaims → Prop) (hL : L.Lawful ok) (k : Jwk)
    (ks : List Jwk) (embed : Bool) (hk : L.pub k ∈ ks) (hkid : (L.pub k).kid = k.kid) (hu : (L.pub k).use ≠ g!"enc")
    (issuer : Str) (r : JarmResp) (e d : Str) (he : r.error = some (e, d)) (hne : e ≠ [])
    (hok : ok { state := r.state, error := e, errorDescription := d }) (tr : List Ev) (raw : Str)
    (h : Exec (jarmEncode (serialize L ⟨g!"jarm+jwt", embed⟩ (some k)) issuer (some r)) tr (.done (some raw)))
    (iss aud : Str) (ha : aud ≠ []) :
    Exec (jarmDecode L (some (some ks)) iss aud raw) [] (.done (.resp { error := some (e, d), state := [] })) := by
  have hs : serialize L ⟨g!"jarm+jwt", embed⟩ (some k) { state := r.state, error := e, errorDescription := d } = some raw := by
    unfold jarmEncode at h
    simp only [he] at h
    split at h
    · simp [exec_ret_iff] at h
    · exact (exec_ret_iff.1 h).2.symm
  unfold serialize at hs
  simp only at hs
  split at hs
  · cases hs
  · obtain ⟨t, h1, h2, _⟩ := hL.signed hok hs
    unfold jarmDecode
    rw [if_neg ha, if_neg (hL.nonempty hs), h1]
    simp only [h2, jarmHeaderType, ne_eq, not_true_eq_false, if_false, defaultClaims_signed hL hok hs hk hkid hu, hne,
      not_false_eq_true, if_true]
    exact .ret _

/-- A library for one kind of claims, as an instance of the assumptions. -/
def demoJarm (typ : Str) (c0 : JarmClaims) : Lib JarmClaims where
  sign ty kid e _ c := if ty = typ ∧ kid = g!"k1" ∧ e = false ∧ c = { c0 with exp := c.exp } then
    some (1 :: List.replicate c.exp 0) else none
  parse raw := some { kid := g!"k1", typ := some typ, payload := raw, verifies := fun k => k.key == g!"pub" }
  dec raw := some { c0 with exp := raw.length - 1 }
  pub k := { k with key := g!"pub" }

theorem demoJarm_lawful (typ : Str) (c0 : JarmClaims) : (demoJarm typ c0).Lawful (fun _ => True) where
  nonempty := by
    intro ty kid e k c raw h
    simp only [demoJarm] at h
    split at h
    · cases h; simp
    · cases h
  signed := by
    intro ty kid e k c raw _ h
    simp only [demoJarm] at h
    split at h
    · rename_i hc
      obtain ⟨rfl, rfl, rfl, hc⟩ := hc
      cases h
      refine ⟨_, rfl, rfl, rfl, rfl, ?_, by simp⟩
      simp only [demoJarm, List.length_cons, List.length_replicate, Nat.add_sub_cancel]
      exact congrArg some hc.symm
    · cases h

def demoResp : JarmResp := { code := g!"c", state := g!"s", clientId := g!"app", issuer := g!"https://as", expiresIn := 60 }
def demoJarmClaims : JarmClaims := { code := g!"c", state := g!"s", aud := g!"app", iss := g!"https://as" }
def demoKey : Jwk := { kid := g!"k1", key := g!"priv" }
def demoClock (n : Nat) : (c : Cmd) → c.Res := fun c => match c with
  | .now => n * 1000000000
  | c => Demo.answers c

-- hypotheses of `C41_roundtrip_partial`, and an accepted answer
example : ∃ tr raw, Exec (jarmEncode (serialize (demoJarm g!"jarm+jwt" demoJarmClaims) ⟨g!"jarm+jwt", false⟩ (some demoKey))
    g!"https://as" (some demoResp)) tr (.done (some raw)) ∧
    ∃ tr', Exec (jarmDecode (demoJarm g!"jarm+jwt" demoJarmClaims) (some (some [{ kid := g!"k1", key := g!"pub" }]))
      g!"https://as" g!"app" raw) tr' (.done (.resp { code := g!"c", state := g!"s", issuer := g!"https://as" })) := by
  obtain ⟨tr, a, h, h2⟩ := oracle_ex (demoClock 10) (jarmEncode (serialize (demoJarm g!"jarm+jwt" demoJarmClaims)
    ⟨g!"jarm+jwt", false⟩ (some demoKey)) g!"https://as" (some demoResp))
    (fun r : Option Str => r = some (1 :: List.replicate 70 0)) (by decide +kernel)
  subst h2
  refine ⟨tr, _, h, ?_⟩
  obtain ⟨tr', a', h', h2'⟩ := oracle_ex (demoClock 69) (jarmDecode (demoJarm g!"jarm+jwt" demoJarmClaims)
    (some (some [{ kid := g!"k1", key := g!"pub" }])) g!"https://as" g!"app" (1 :: List.replicate 70 0))
    (fun r : JarmOut => r = .resp { code := g!"c", state := g!"s", issuer := g!"https://as" }) (by decide +kernel)
  subst h2'
  exact ⟨tr', h'⟩

-- hypotheses of `C41_violated`
example : ∃ tr raw, Exec (jarmEncode (serialize (demoJarm g!"jarm" demoJarmClaims) jarmSigner (some demoKey))
    g!"https://as" (some demoResp)) tr (.done (some raw)) := by
  obtain ⟨tr, a, h, h2⟩ := oracle_ex (demoClock 10) (jarmEncode (serialize (demoJarm g!"jarm" demoJarmClaims)
    jarmSigner (some demoKey)) g!"https://as" (some demoResp))
    (fun r : Option Str => r = some (1 :: List.replicate 70 0)) (by decide +kernel)
  subst h2
  exact ⟨tr, _, h⟩

-- hypotheses of `C41_error_unbound_violated`
example : ∃ tr raw, Exec (jarmEncode (serialize (demoJarm g!"jarm+jwt" { state := g!"s", error := g!"access_denied" })
    ⟨g!"jarm+jwt", false⟩ (some demoKey)) g!"https://as" (some { state := g!"s", error := some (g!"access_denied", []) })) tr
    (.done (some raw)) := by
  obtain ⟨tr, a, h, h2⟩ := oracle_ex (demoClock 10) (jarmEncode (serialize
    (demoJarm g!"jarm+jwt" { state := g!"s", error := g!"access_denied" }) ⟨g!"jarm+jwt", false⟩ (some demoKey))
    g!"https://as" (some { state := g!"s", error := some (g!"access_denied", []) }))
    (fun r : Option Str => r = some [1]) (by decide +kernel)
  subst h2
  exact ⟨tr, _, h⟩

/-! ### C62: DPoP proofs of the SDK's prover -/

/-- What the prover signs. -/
theorem prove_exec {E : Env} {pu : ParseUrl} {ser : ProofClaims → Option Str} {htm htu jti : Str} {tv : Option Str}
    {tr : List Ev} {raw : Str} (h : Exec (prove E pu (some ser) htm htu jti tv) tr (.done (some raw))) :
    ∃ (now : Nat) (u : Url), tr = [⟨.now, now⟩] ∧ pu htu = some u ∧ htm ≠ [] ∧ htu ≠ [] ∧
      ser { jti := jti, htm := htm, htu := u.scheme ++ g!"://" ++ u.host ++ u.path, iat := seconds now,
            ath := tv.map fun v => Go.b64 (E.sha256 v) } = some raw := by
  unfold prove at h
  simp only [Prog.call, bind_op, bind_ret, pure_eq] at h
  split at h
  · simp [exec_ret_iff] at h
  · rename_i h1
    split at h
    · simp [exec_ret_iff] at h
    · rename_i h2
      split at h
      · simp [exec_ret_iff] at h
      · rename_i u hu
        split at h
        · simp [exec_ret_iff] at h
        · obtain ⟨now, tr', rfl, h'⟩ := exec_now_iff.1 h
          obtain ⟨rfl, h3⟩ := exec_ret_iff.1 h'
          exact ⟨now, u, rfl, hu, h1, h2, h3.symm⟩

/-- **C62 is violated** by the shipped signer: `DPoPSigner` writes the header type `dpop`, the
verifier wants `dpop+jwt`. No proof of the SDK's prover is accepted by the SDK's verifier,
for any request. -/
theorem C62_violated (L : Lib ProofClaims) (ok : ProofClaims → Prop) (hL : L.Lawful ok) (pu : ParseUrl) (htm htu jti : Str) 
    (hok : ∀ u c, pu htu = some u → c.jti = jti → c.htm = htm → c.htu = u.scheme ++ g!"://" ++ u.host ++ u.path → ok c) (E : Env)
    (hE : E.parseProof = fun raw => (L.parse raw).map (toProof L)) (provider : Option Jwk)
    (tv : Option Str) (tr : List Ev) (raw : Str)
    (h : Exec (prove E pu (some (serialize L dpopSigner provider)) htm htu jti tv) tr (.done (some raw)))
    (req : DPoP.VerifyReq) (hreq : req.proof = raw) (tr' : List Ev) (a : Option Str)
    (hv : Exec (DPoP.verify E req) tr' (.done a)) : a = none := by
  obtain ⟨now, u, rfl, hu, _, _, hs⟩ := prove_exec h
  unfold serialize at hs
  split at hs
  · cases hs
  · split at hs
    · cases hs
    · obtain ⟨t, h1, h2, _⟩ := hL.signed (hok u _ hu rfl rfl rfl) hs
      cases a with
      | none => rfl
      | some thumb =>
        obtain ⟨p, key, claims, now1, now2, h3, h4, _⟩ := C38_accepted_proof E req tr' thumb hv
        rw [hreq, hE] at h3
        simp only [h1, Option.map_some, Option.some.injEq] at h3
        subst h3
        simp only [toProof, h2, dpopSigner, Option.some.injEq] at h4
        exact absurd h4 (by decide)

/-- **C62** (embedded key). Proofs of the shipped signer carry the public half of the key that signs them (RFC 9449 section
4.2), its identifier and what the prover was asked for. -/
theorem C62_embedded (L : Lib ProofClaims) (ok : ProofClaims → Prop) (hL : L.Lawful ok) (pu : ParseUrl) (htm htu jti : Str)
    (hok : ∀ u c, pu htu = some u → c.jti = jti → c.htm = htm → c.htu = u.scheme ++ g!"://" ++ u.host ++ u.path → ok c) (E : Env)
    (k : Jwk) (tv : Option Str) (tr : List Ev) (raw : Str)
    (h : Exec (prove E pu (some (serialize L dpopSigner (some k))) htm htu jti tv) tr (.done (some raw))) :
    ∃ t c, L.parse raw = some t ∧ t.jwk = some (L.pub k) ∧ t.kid = k.kid ∧ t.verifies (L.pub k) = true ∧
      L.dec t.payload = some c ∧ c.jti = jti ∧ c.htm = htm := by
  obtain ⟨now, u, rfl, hu, _, _, hs⟩ := prove_exec h
  unfold serialize at hs
  dsimp only at hs
  split at hs
  · cases hs
  · obtain ⟨t, h1, -, h3, h4, h5, h6⟩ := hL.signed (hok u _ hu rfl rfl rfl) hs
    exact ⟨t, _, h1, h6 rfl, h3, h4, h5, rfl, rfl⟩

/-- **C62** (round trip, for a signer with the header type the verifier wants). A proof made
for a method, a URL and a token is accepted for that method, that token and every URL whose
canonical string is the one the prover wrote, within 15 seconds, if the cache does not know
it. Missing: the shipped signer has another header type (`C62_violated`), and the prover
writes the decoded path where the verifier compares with the escaped URL
(`C62_other_url_refused`). -/
theorem C62_roundtrip_partial (L : Lib ProofClaims) (ok : ProofClaims → Prop) (hL : L.Lawful ok) (pu : ParseUrl) (htm htu jti : Str) 
    (hok : ∀ u c, pu htu = some u → c.jti = jti → c.htm = htm → c.htu = u.scheme ++ g!"://" ++ u.host ++ u.path → ok c)
    (E : Env) (hE : E.parseProof = fun raw => (L.parse raw).map (toProof L)) (k : Jwk)
    (tv : Option Str) (tr : List Ev) (raw : Str) (u : Url) (hu : pu htu = some u)
    (hm : htm ∈ [g!"CONNECT", g!"DELETE", g!"GET", g!"HEAD", g!"OPTIONS", g!"PATCH", g!"POST", g!"PUT", g!"TRACE"])
    (h : Exec (prove E pu (some (serialize L ⟨g!"dpop+jwt", true⟩ (some k))) htm htu jti tv) tr (.done (some raw)))
    (thumb : Str) (hthumb : E.thumbprint (L.pub k).key = some thumb)
    (req : DPoP.VerifyReq) (hproof : req.proof = raw) (hmeth : req.htm = htm) (hne : req.htu ≠ [])
    (hurl : E.urlString req.htu = some (u.scheme ++ g!"://" ++ u.host ++ u.path))
    (htok : req.tokenValue = tv) (hcnf : ∀ jkt, req.tokenConfirmation = some jkt → jkt = thumb) :
    ∃ made : Nat, tr = [⟨.now, made⟩] ∧ ∀ tr' a, Exec (DPoP.verify E req) tr' (.done a) →
      (∀ now, ⟨.now, now⟩ ∈ tr' → 15 * second ≤ now ∧ seconds now ≤ seconds made + 15 ∧ seconds made ≤ seconds now + 15) →
      (∀ id r, ⟨.dpopExists id, r⟩ ∈ tr' → r = .ok false) → (∀ id r, ⟨.dpopRegister id, r⟩ ∈ tr' → r = .ok ()) →
      a = some thumb := by
  obtain ⟨made, u', rfl, hu', hm1, hm2, hs⟩ := prove_exec h
  rw [hu] at hu'
  obtain rfl := Option.some.inj hu'
  refine ⟨made, rfl, ?_⟩
  intro tr' a hv htime hcache hreg
  unfold serialize at hs
  simp only at hs
  split at hs
  · cases hs
  · obtain ⟨t, h1, h2, _, h4, h5, h6⟩ := hL.signed (hok u _ hu rfl rfl rfl) hs
    refine C38_valid_proof_accepted E req tr' a (toProof L t) (L.pub k).key thumb _ hv ⟨hmeth ▸ hm1, hne, hproof ▸ hL.nonempty hs, ?_⟩
      (hmeth ▸ hm) (by rw [hE, hproof]; simp [h1]) (by simpa [toProof] using h2) (by simp [toProof, h6 rfl])
      (by simp only [toProof, h6 rfl, if_true]; exact claims_some.2 ⟨h4, h5⟩) hthumb hmeth.symm hurl htime hcache hreg ?_
    · intro hc
      have := congrArg List.length hc
      simp only [List.length_append] at this
      have h3 : (g!"://").length = 3 := rfl
      rw [h3] at this
      simp at this
    · intro t' ht'
      rw [htok] at ht'
      exact ⟨by simp [ht'], hcnf⟩

/-- **C62** (what is missing for URLs). A proof made for a URL is refused at every URL whose
canonical string is not scheme, host and *decoded* path of the first: a path that needs
escaping never matches itself. -/
theorem C62_other_url_refused (L : Lib ProofClaims) (ok : ProofClaims → Prop) (hL : L.Lawful ok) (pu : ParseUrl) (htm htu jti : Str) 
    (hok : ∀ u c, pu htu = some u → c.jti = jti → c.htm = htm → c.htu = u.scheme ++ g!"://" ++ u.host ++ u.path → ok c)
    (E : Env) (hE : E.parseProof = fun raw => (L.parse raw).map (toProof L)) (k : Jwk) (typ : Str)
    (tv : Option Str) (tr : List Ev) (raw : Str) (u : Url) (hu : pu htu = some u)
    (h : Exec (prove E pu (some (serialize L ⟨typ, true⟩ (some k))) htm htu jti tv) tr (.done (some raw)))
    (req : DPoP.VerifyReq) (hproof : req.proof = raw)
    (hurl : E.urlString req.htu ≠ some (u.scheme ++ g!"://" ++ u.host ++ u.path)) (tr' : List Ev) (a : Option Str)
    (hv : Exec (DPoP.verify E req) tr' (.done a)) : a = none := by
  obtain ⟨now, u', rfl, hu', _, _, hs⟩ := prove_exec h
  rw [hu] at hu'
  obtain rfl := Option.some.inj hu'
  unfold serialize at hs
  simp only at hs
  split at hs
  · cases hs
  · obtain ⟨t, h1, h2, _, h4, h5, h6⟩ := hL.signed (hok u _ hu rfl rfl rfl) hs
    cases a with
    | none => rfl
    | some thumb =>
      obtain ⟨p, key, claims, now1, now2, h7, _, h8, h9, _, _, h10, _⟩ := C38_accepted_proof E req tr' thumb hv
      rw [hproof, hE] at h7
      simp only [h1, Option.map_some, Option.some.injEq] at h7
      subst h7
      simp only [toProof, h6 rfl, Option.map_some, Option.some.injEq] at h8
      simp only [toProof, h6 rfl, h8, if_true] at h9
      have h11 := (claims_some.1 h9).2
      rw [h5] at h11
      rw [← Option.some.inj h11] at h10
      exact absurd h10 hurl

/-- A library for one kind of proofs, as an instance of the assumptions. -/
def demoDpop (typ : Str) (c0 : ProofClaims) : Lib ProofClaims where
  sign ty kid _ k c := if ty = typ ∧ kid = g!"k1" ∧ k = demoKey ∧ c = { c0 with iat := c.iat } then
    some (1 :: List.replicate c.iat 0) else none
  parse raw := some { kid := g!"k1", typ := some typ, payload := raw, verifies := fun k => k.key == g!"pub",
                      jwk := some { kid := g!"k1", key := g!"pub" } }
  dec raw := some { c0 with iat := raw.length - 1 }
  pub k := { k with key := g!"pub" }

theorem demoDpop_lawful (typ : Str) (c0 : ProofClaims) : (demoDpop typ c0).Lawful (fun _ => True) where
  nonempty := by
    intro ty kid e k c raw h
    simp only [demoDpop] at h
    split at h
    · cases h; simp
    · cases h
  signed := by
    intro ty kid e k c raw _ h
    simp only [demoDpop] at h
    split at h
    · rename_i hc
      obtain ⟨rfl, rfl, rfl, hc⟩ := hc
      cases h
      refine ⟨_, rfl, rfl, rfl, rfl, ?_, fun _ => rfl⟩
      simp only [demoDpop, List.length_cons, List.length_replicate, Nat.add_sub_cancel]
      exact congrArg some hc.symm
    · cases h

def demoProofClaims : ProofClaims := { jti := g!"j", htm := g!"POST", htu := g!"https://as/token", iat := 0, ath := none }
def demoUrl : ParseUrl := fun s => some { scheme := g!"https", host := g!"as", path := g!"/token", str := s }

-- hypotheses of `C62_violated` (first) and `C62_roundtrip_partial` (second)
example : ∃ tr raw, Exec (prove Demo.env demoUrl (some (serialize (demoDpop g!"dpop" demoProofClaims) dpopSigner
    (some demoKey))) g!"POST" g!"https://as/token" g!"j" none) tr (.done (some raw)) := by
  obtain ⟨tr, a, h, h2⟩ := oracle_ex (demoClock 20) (prove Demo.env demoUrl (some (serialize
    (demoDpop g!"dpop" demoProofClaims) dpopSigner (some demoKey))) g!"POST" g!"https://as/token" g!"j" none)
    (fun r : Option Str => r = some (1 :: List.replicate 20 0)) (by decide +kernel)
  subst h2
  exact ⟨tr, _, h⟩

/-- `Demo.env` with proofs parsed by the demonstration library. -/
def demoDpopEnv : Env := { Demo.env with
  parseProof := fun raw => ((demoDpop g!"dpop+jwt" demoProofClaims).parse raw).map
    (toProof (demoDpop g!"dpop+jwt" demoProofClaims)) }

example : ∃ tr raw, Exec (prove demoDpopEnv demoUrl (some (serialize (demoDpop g!"dpop+jwt" demoProofClaims)
    ⟨g!"dpop+jwt", true⟩ (some demoKey))) g!"POST" g!"https://as/token" g!"j" none) tr (.done (some raw)) ∧
    ∃ tr' thumb, Exec (DPoP.verify demoDpopEnv ⟨g!"POST", g!"https://as/token", raw, none, none⟩) tr' (.done (some thumb)) := by
  obtain ⟨tr, a, h, h2⟩ := oracle_ex (demoClock 20) (prove demoDpopEnv demoUrl (some (serialize
    (demoDpop g!"dpop+jwt" demoProofClaims) ⟨g!"dpop+jwt", true⟩ (some demoKey))) g!"POST" g!"https://as/token" g!"j" none)
    (fun r : Option Str => r = some (1 :: List.replicate 20 0)) (by decide +kernel)
  subst h2
  refine ⟨tr, _, h, ?_⟩
  obtain ⟨tr', a', h', h2'⟩ := oracle_ex (demoClock 30) (DPoP.verify demoDpopEnv
    ⟨g!"POST", g!"https://as/token", 1 :: List.replicate 20 0, none, none⟩)
    (fun r : Option Str => r.isSome = true) (by decide +kernel)
  obtain ⟨t, rfl⟩ := Option.isSome_iff_exists.1 h2'
  exact ⟨tr', t, h'⟩

end Verif.Props
