import Verif.Spec.ProofUri
import Verif.Props.Url
import Verif.Props.Sign
import Verif.Props.ProofUrl

/-!
C95: the URL in a DPoP proof is the URL that is called, with `net/url` as it is.
-/
namespace Verif.Props
open Verif.Spec Verif.Url Verif.Prog Verif.DPoP

/-- `url.ParseRequestURI` as the prover uses it. -/
def proofUrl : Sign.ParseUrl := fun s =>
  (parseRequestURI s).map fun u => { scheme := u.scheme, host := u.host, path := u.path, str := u.str }

/-- A direct request, read as a URI. -/
theorem clean_uri {t : Target} (hd : t.forwardedScheme = []) (hh : PlainHost t.host)
    (hp : ∀ b ∈ t.path, b ∉ g!"%?#") (hr : t.path = [] ∨ t.path.head? = some 47) :
    IsUri t.clean ⟨if t.tls then g!"https" else g!"http", t.host, t.path, none⟩ := by
  have key : ∀ b : UInt8, (letterOrDigit b = true ∨ b ∈ g!"-._~!$&'()*+,;=:[]") → b ∉ g!"/?#" := by
    apply bytes
    decide +kernel
  refine ⟨?_, ?_, ?_, fun b hb => key b (hh.2 b hb), fun b hb hm => hp b hb ?_, hr, fun q h => by cases h⟩
  · rw [clean_called hd, calledUrl]
    simp [queryTail]
  · show (if t.tls = true then g!"https" else g!"http") ≠ []
    cases t.tls <;> decide
  · show ∀ b ∈ (if t.tls = true then g!"https" else g!"http"), b ∉ g!":/?#"
    cases t.tls <;> decide
  · revert hm
    simp
    rintro (rfl | rfl) <;> simp

theorem plain_host : ∀ b : UInt8, (letterOrDigit b = true ∨ b ∈ g!"-._~!$&'()*+,;=:[]") →
    shouldEscape .host b = false ∧ b ≠ 37 ∧ b ≠ 64 := by
  apply bytes
  decide +kernel

/-- The URL that the server compares with the one of the proof. -/
theorem checked_text {t : Target} {x : Str} (hd : t.forwardedScheme = []) (hh : PlainHost t.host)
    (hp : ∀ b ∈ t.path, b ∉ g!"%?#") (hr : t.path = [] ∨ t.path.head? = some 47) (hx : urlString t.clean = some x) :
    ∃ p, x = (if t.tls then g!"https" else g!"http") ++ g!"://" ++ t.host ++ p ∧ pct p = t.path ∧
      (∀ b ∈ p, b ∉ g!"?#") ∧ (p = [] ∨ p.head? = some 47) ∧ (p = t.path ↔ ∀ b ∈ t.path, pathChar b = true) := by
  have hu := clean_uri hd hh hp hr
  rw [urlString, parseRequestURI] at hx
  cases hu' : parse true t.clean with
  | none => rw [hu'] at hx; cases hx
  | some u =>
    rw [hu'] at hx
    simp only [Option.map_some, Option.some.injEq] at hx
    obtain ⟨user, host, p, h1, h2, h3, h4, h5, h6⟩ := print_fragment hu hu' (Or.inl hh.1) []
    obtain ⟨-, -, -, _, _, _, -, -, hue⟩ := (parse_uri hu rfl u).mp hu'
    have hf : ({ u with fragment := [] } : URL) = u := by rw [hue]
    have h64 : (64 : UInt8) ∉ t.host := fun e => (plain_host _ (hh.2 _ e)).2.2 rfl
    have h37 : (37 : UInt8) ∉ t.host := fun e => (plain_host _ (hh.2 _ e)).2.1 rfl
    simp only at h1 h2 h5 h6
    rw [parseAuthority, cutLast_none.mpr h64] at h1
    cases hq : parseHost t.host with
    | none => simp [hq] at h1
    | some y =>
      simp only [hq, Option.map_some, Option.some.injEq, Prod.mk.injEq] at h1
      obtain ⟨rfl, rfl⟩ := h1
      have := parseHost_plain hq h37
      subst this
      have hpp : ∀ s : Str, 37 ∉ s → pct s = s := by
        intro s
        induction s with
        | nil => exact fun _ => rfl
        | cons b s ih =>
          intro hb
          rw [pct_byte _ _ (fun e => hb (by simp [e])), ih fun e => hb (by simp [e])]
      refine ⟨p, ?_, ?_, fun b hb hm => (h3 b hb).1 ?_, h4, h6.symm.trans ?_⟩
      · rw [← hx, ← hf, h2]
        have : authText none t.host = t.host := by
          simp [authText, escape_plain (m := .host) (by decide) fun b hb => (plain_host b (hh.2 b hb)).1]
        rw [this]
        cases t.tls <;> simp [queryTail] <;> decide
      · rw [h5, hpp _ fun e => hp _ e (by decide)]
      · revert hm
        simp
        rintro (rfl | rfl) <;> simp
      · rw [validEncodedPath, List.all_eq_true]
        have key : ∀ b : UInt8, b ∉ g!"%?#" → ((decide (b ∈ g!"!$&'()*+,;=:@[]%") || !shouldEscape .path b) = true ↔ pathChar b = true) := by
          apply bytes
          decide +kernel
        exact ⟨fun h b hb => (key b (hp b hb)).mp (h b hb), fun h b hb => (key b (hp b hb)).mpr (h b hb)⟩

theorem pct_plain : ∀ {s : Str}, 37 ∉ s → pct s = s
  | [], _ => rfl
  | b :: s, h => by
    rw [pct_byte _ _ (fun e => h (by simp [e])), pct_plain fun e => h (by simp [e])]

/-- What the prover reads from the URI that is called. -/
theorem proved_text {htu : Str} {c : UriParts} {t : Target} {u : Sign.Url} (h : IsUri htu c) (hc : Calls c t)
    (hh : PlainHost t.host) (hu : proofUrl htu = some u) :
    u.scheme = (if t.tls then g!"https" else g!"http") ∧ u.host = t.host ∧ u.path = pct c.path ∧
      parseHost t.host = some t.host := by
  have h37 : (37 : UInt8) ∉ t.host := fun e => (plain_host _ (hh.2 _ e)).2.1 rfl
  rw [proofUrl, parseRequestURI] at hu
  cases hp : parse true htu with
  | none => rw [hp] at hu; cases hu
  | some v =>
    rw [hp] at hu
    simp only [Option.map_some, Option.some.injEq] at hu
    obtain ⟨-, hsb, -, user, host, path, h1, h2, h3⟩ := (parse_uri h rfl v).mp hp
    have hlow : c.scheme.map lowerByte = c.scheme.map asciiLower :=
      List.map_congr_left fun b hb => (lower_printable b (hsb b hb)).2.2.2.2
    have hhost : parseHost t.host = some host := by
      rw [parseAuthority] at h1
      cases hcut : cutLast 64 c.authority with
      | none =>
        rw [hcut] at h1
        have hno := cutLast_none.mp hcut
        have := C94_host_reading _ _ _ hc.host ⟨Or.inl rfl, hno⟩
        rw [this]
        cases hq : parseHost c.authority with
        | none => simp [hq] at h1
        | some y => simp [hq] at h1; rw [h1.2]
      | some x =>
        obtain ⟨ui, x⟩ := x
        rw [hcut] at h1
        obtain ⟨e1, e2⟩ := cutLast_some hcut
        have := C94_host_reading _ _ _ hc.host ⟨Or.inr ⟨ui, e1⟩, e2⟩
        rw [this]
        cases hq : parseHost x with
        | none => simp [hq] at h1
        | some y =>
          simp only [hq] at h1
          split at h1
          · cases h1
          · split at h1
            · split at h1
              · cases h1; rfl
              · cases h1
            · cases hun : unescape .userPassword ui with
              | none => simp [hun] at h1
              | some z => simp [hun] at h1; rw [h1.2]
    have he := parseHost_plain hhost h37
    subst he
    rw [← hu, h3]
    exact ⟨by rw [hlow]; exact hc.scheme, rfl, (pct_unescape (by decide) h2).symm, hhost⟩

/-- The URL that is checked, read as a URI, is called by the request. -/
theorem checked_calls {t : Target} {x : Str} (hd : t.forwardedScheme = []) (hh : PlainHost t.host)
    (hp : ∀ b ∈ t.path, b ∉ g!"%?#") (hr : t.path.head? = some 47) (hx : urlString t.clean = some x) :
    ∃ c, IsUri x c ∧ Calls c t ∧ c.query = none := by
  obtain ⟨q, h5, h6, h7, h8, -⟩ := checked_text hd hh hp (Or.inr hr) hx
  have hq : q ≠ [] := by
    rintro rfl
    rw [← h6] at hr
    cases hr
  have h64 : (64 : UInt8) ∉ t.host := fun e => (plain_host _ (hh.2 _ e)).2.2 rfl
  have hu := clean_uri hd hh hp (Or.inr hr)
  refine ⟨⟨if t.tls then g!"https" else g!"http", t.host, q, none⟩,
    ⟨by rw [h5]; simp [queryTail], hu.some_scheme, hu.scheme, hu.authority, h7, h8, fun _ h => by cases h⟩,
    ⟨?_, ⟨Or.inl rfl, h64⟩, ?_, hd⟩, rfl⟩
  · show (if t.tls = true then g!"https" else g!"http").map asciiLower = _
    cases t.tls <;> decide
  · rw [if_neg hq, h6]

/-- **C95** (soundness, partial: host without percent signs, path without `%`, `?` and `#`). A proof that is accepted for
a direct request names a URI, without query, whose call this request is. Missing: with these characters it may
name another one (`C95_double_violated`), and with a forwarded scheme any (`C83_violated_exact`). -/
theorem C95_sound_partial (E : Env) (hE : E.urlString = Url.urlString) (t : Target) (req : VerifyReq) (tr : List Ev)
    (thumb : Str) (h : Exec (verify E req) tr (.done (some thumb))) (hreq : req.htu = t.clean)
    (hd : t.forwardedScheme = []) (hh : PlainHost t.host) (hp : ∀ b ∈ t.path, b ∉ g!"%?#") (hr : t.path.head? = some 47) :
    ∃ p key claims c, E.parseProof req.proof = some p ∧ p.jwk = some key ∧ p.claims key = some claims ∧
      IsUri claims.htu c ∧ Calls c t ∧ c.query = none := by
  obtain ⟨p, key, claims, -, -, h1, -, h2, h3, -, -, h4, -⟩ := C38_accepted_proof E req tr thumb h
  rw [hreq, hE] at h4
  obtain ⟨c, hc⟩ := checked_calls hd hh hp hr h4
  exact ⟨p, key, claims, c, h1, h2, h3, hc⟩

/-- **C95** (soundness at the resource server, partial as above). -/
theorem C95_resource_partial (E : Env) (hE : E.urlString = Url.urlString) (cli : ResourceServer.Cli) (intent : Str)
    (acr : List Str) (max : Nat) (r : ResourceServer.Req) (tr : List Ev)
    (h : Exec (ResourceServer.authorizer E cli intent acr max r) tr (.done .passed)) (tok : Str)
    (hp : Presents r.authorization g!"dpop" tok) (hd : r.target.forwardedScheme = []) (hh : PlainHost r.target.host)
    (hpa : ∀ b ∈ r.target.path, b ∉ g!"%?#") (hr : r.target.path.head? = some 47) :
    ∃ p key claims c, E.parseProof r.dpop = some p ∧ p.jwk = some key ∧ p.claims key = some claims ∧
      IsUri claims.htu c ∧ Calls c r.target ∧ c.query = none := by
  obtain ⟨p, key, claims, h1, h2, h3, h4, -⟩ := C83_resource_partial E cli intent acr max r tr h tok hp
  have h5 := h4 hd
  rw [hE, ← clean_called hd] at h5
  obtain ⟨c, hc⟩ := checked_calls hd hh hpa hr h5
  exact ⟨p, key, claims, c, h1, h2, h3, hc⟩

/-- **C95** (soundness at the token endpoint, partial as above). -/
theorem C95_token_partial (S : Http.Server) (hE : S.E.urlString = Url.urlString) (r : Http.Req) (tr : List Ev) (st : Nat)
    (b : Http.TokenBody) (hnil : ∀ id, ⟨.clientsGet id, .ok none⟩ ∉ tr)
    (h : Exec (Http.serve S .token r) tr (.done ⟨st, .tokens b⟩))
    (hg : r.formValue g!"grant_type" ≠ g!"refresh_token") (hdp : r.dpop ≠ []) (hd : r.target.forwardedScheme = [])
    (hh : PlainHost r.target.host) (hpa : ∀ b ∈ r.target.path, b ∉ g!"%?#") (hr : r.target.path.head? = some 47) :
    ∃ p key claims c, S.E.parseProof r.dpop = some p ∧ p.jwk = some key ∧ p.claims key = some claims ∧
      IsUri claims.htu c ∧ Calls c r.target ∧ c.query = none := by
  obtain ⟨p, key, claims, h1, h2, h3, h4⟩ := C83_token_partial S r tr st b hnil h hg hdp hd
  rw [hE, ← clean_called hd] at h4
  obtain ⟨c, hc⟩ := checked_calls hd hh hpa hr h4
  exact ⟨p, key, claims, c, h1, h2, h3, hc⟩

/-- The URL that the prover writes is the one that is checked, if the path needs no escapes. -/
theorem C95_url_partial (htu : Str) (c : UriParts) (t : Target) (u : Sign.Url) (h : IsUri htu c) (hc : Calls c t)
    (hh : PlainHost t.host) (hu : proofUrl htu = some u) (hne : c.path ≠ []) (hp : ∀ b ∈ c.path, pathChar b = true) :
    urlString t.clean = some (u.scheme ++ g!"://" ++ u.host ++ u.path) := by
  obtain ⟨e1, e2, e3, e4⟩ := proved_text h hc hh hu
  have kp : ∀ b : UInt8, pathChar b = true → b ∉ g!"%?#" ∧ ¬ (b < 32 || b = 127) = true ∧ b ≠ 43 ∨ b = 43 := by
    apply bytes
    decide +kernel
  have kh : ∀ b : UInt8, (letterOrDigit b = true ∨ b ∈ g!"-._~!$&'()*+,;=:[]") → ¬ (b < 32 || b = 127) = true := by
    apply bytes
    decide +kernel
  have h37 : (37 : UInt8) ∉ c.path := fun e => absurd (hp _ e) (by decide)
  have ht : t.path = c.path := by rw [hc.path, if_neg hne, pct_plain h37]
  have hpp : ∀ b ∈ t.path, b ∉ g!"%?#" := by
    intro b hb
    rw [ht] at hb
    rcases kp b (hp b hb) with h | rfl
    · exact h.1
    · decide
  have hr : t.path = [] ∨ t.path.head? = some 47 := by rw [ht]; exact h.rooted
  have hclean := clean_uri hc.direct hh hpp hr
  have hsome : ∃ x, urlString t.clean = some x := by
    have h64 : (64 : UInt8) ∉ t.host := fun e => (plain_host _ (hh.2 _ e)).2.2 rfl
    have hun : unescape .path t.path = some t.path := by
      rw [ht]
      have : ∀ s : Str, 37 ∉ s → unescape .path s = some s := by
        intro s
        induction s with
        | nil => exact fun _ => rfl
        | cons b s ih =>
          intro hb
          have ih := ih fun e => hb (by simp [e])
          have hb37 : b ≠ 37 := fun e => hb (by simp [e])
          by_cases h43 : b = 43
          · subst h43
            rw [unescape_plus, ih]
            simp
          · rw [unescape_byte _ _ _ hb37 h43, ih]
            simp [badByte]
      exact this _ h37
    have hctl : hasCTL t.clean = false := by
      rw [hasCTL, clean_called hc.direct, calledUrl]
      simp only [List.any_append, Bool.or_eq_false_iff]
      refine ⟨⟨⟨by cases t.tls <;> decide, by decide⟩, ?_⟩, ?_⟩
      · rw [List.any_eq_false]
        exact fun b hb => kh b (hh.2 b hb)
      · rw [List.any_eq_false]
        intro b hb
        rw [ht] at hb
        rcases kp b (hp b hb) with h | rfl
        · exact h.2.1
        · decide
    have hparse := (parse_uri hclean rfl _).mpr ⟨hctl, by
      show ∀ b ∈ (if t.tls = true then g!"https" else g!"http"), isSchemeByte b = true
      cases t.tls <;> decide, by
      show ∃ a p, (if t.tls = true then g!"https" else g!"http") = a :: p ∧ isAlpha a = true
      cases t.tls
      · exact ⟨_, _, rfl, by decide⟩
      · exact ⟨_, _, rfl, by decide⟩, none, t.host, t.path,
      by simp [parseAuthority, cutLast_none.mpr h64, e4], hun, rfl⟩
    exact ⟨_, by rw [urlString, parseRequestURI, hparse]; rfl⟩
  obtain ⟨x, hx⟩ := hsome
  obtain ⟨p, h1, -, -, -, h2⟩ := checked_text hc.direct hh hpp hr hx
  rw [hx, h1, h2.mpr (by rw [ht]; exact hp), e1, e2, e3, ht, pct_plain h37]

/-- **C95** (completeness, partial: path without percent signs). A proof of the SDK's prover, made with a signer of
the right type for the URI that is called, is accepted for this call within 15 seconds. Missing: empty paths
and paths with escapes (`C95_prover_violated`). -/
theorem C95_roundtrip_partial (L : Sign.Lib ProofClaims) (ok : ProofClaims → Prop) (hL : L.Lawful ok) (htm htu jti : Str)
    (hok : ∀ c : ProofClaims, c.jti = jti → c.htm = htm → ok c) (E : Env) (hE : E.urlString = Url.urlString)
    (hparse : E.parseProof = fun raw => (L.parse raw).map (Sign.toProof L)) (k : Jose.Jwk)
    (tv : Option Str) (tr : List Ev) (raw : Str)
    (hm : htm ∈ [g!"CONNECT", g!"DELETE", g!"GET", g!"HEAD", g!"OPTIONS", g!"PATCH", g!"POST", g!"PUT", g!"TRACE"])
    (h : Exec (Sign.prove E proofUrl (some (Sign.serialize L ⟨g!"dpop+jwt", true⟩ (some k))) htm htu jti tv) tr (.done (some raw)))
    (thumb : Str) (hthumb : E.thumbprint (L.pub k).key = some thumb)
    (c : UriParts) (t : Target) (hu : IsUri htu c) (hc : Calls c t) (hh : PlainHost t.host) (hne : c.path ≠ [])
    (hp : ∀ b ∈ c.path, pathChar b = true)
    (req : VerifyReq) (hproof : req.proof = raw) (hmeth : req.htm = htm) (hhtu : req.htu = t.clean)
    (htok : req.tokenValue = tv) (hcnf : ∀ jkt, req.tokenConfirmation = some jkt → jkt = thumb) :
    ∃ made : Nat, tr = [⟨.now, made⟩] ∧ ∀ tr' a, Exec (verify E req) tr' (.done a) →
      (∀ now, ⟨.now, now⟩ ∈ tr' → 15 * second ≤ now ∧ seconds now ≤ seconds made + 15 ∧ seconds made ≤ seconds now + 15) →
      (∀ id r, ⟨.dpopExists id, r⟩ ∈ tr' → r = .ok false) → (∀ id r, ⟨.dpopRegister id, r⟩ ∈ tr' → r = .ok ()) →
      a = some thumb := by
  obtain ⟨now, u, -, hu', -⟩ := prove_exec h
  exact C62_roundtrip_partial L ok hL proofUrl htm htu jti (fun u c _ h1 h2 _ => hok c h1 h2) E hparse k tv tr raw u hu' hm h
    thumb hthumb req hproof hmeth (by rw [hhtu, clean_called hc.direct, calledUrl]; simp)
    (by rw [hhtu, hE]; exact C95_url_partial htu c t u hu hc hh hu' hne hp) htok hcnf

/-- **C95 violated** (for every URI without path or with an escaped character in its path). The prover writes the path
decoded, the server compares with the path escaped, and calls without path have the path `/`: whatever the
signer, the SDK's proof for such a URI is refused at this URI. -/
theorem C95_prover_violated (L : Sign.Lib ProofClaims) (ok : ProofClaims → Prop) (hL : L.Lawful ok) (htm htu jti : Str)
    (hok : ∀ c : ProofClaims, c.jti = jti → c.htm = htm → ok c) (E : Env) (hE : E.urlString = Url.urlString)
    (hparse : E.parseProof = fun raw => (L.parse raw).map (Sign.toProof L)) (k : Jose.Jwk) (typ : Str)
    (tv : Option Str) (tr : List Ev) (raw : Str)
    (h : Exec (Sign.prove E proofUrl (some (Sign.serialize L ⟨typ, true⟩ (some k))) htm htu jti tv) tr (.done (some raw)))
    (c : UriParts) (t : Target) (hu : IsUri htu c) (hc : Calls c t) (hh : PlainHost t.host)
    (hp : ∀ b ∈ pct c.path, b ∉ g!"%?#") (hr : t.path.head? = some 47)
    (hbad : c.path = [] ∨ ∃ b ∈ pct c.path, pathChar b = false)
    (req : VerifyReq) (hproof : req.proof = raw) (hhtu : req.htu = t.clean) (tr' : List Ev) (a : Option Str)
    (hv : Exec (verify E req) tr' (.done a)) : a = none := by
  obtain ⟨now, u, -, hu', -⟩ := prove_exec h
  obtain ⟨e1, e2, e3, -⟩ := proved_text hu hc hh hu'
  refine C62_other_url_refused L ok hL proofUrl htm htu jti (fun u c _ h1 h2 _ => hok c h1 h2) E hparse k typ tv tr raw u hu' h
    req hproof ?_ tr' a hv
  rw [hhtu, hE, e1, e2, e3]
  intro hx
  by_cases hne : c.path = []
  · have ht : t.path = g!"/" := by rw [hc.path, if_pos hne]; rfl
    obtain ⟨p, h1, h2, -⟩ := checked_text hc.direct hh (by rw [ht]; decide) (Or.inr hr) hx
    have h3 := List.append_cancel_left h1
    rw [hne] at h3
    rw [← h3, ht] at h2
    cases h2
  · have ht : t.path = pct c.path := by rw [hc.path, if_neg hne]
    obtain ⟨p, h1, -, -, -, h2⟩ := checked_text hc.direct hh (by rw [ht]; exact hp) (Or.inr hr) hx
    have h3 := List.append_cancel_left h1
    have h4 := h2.mp (by rw [← h3, ht])
    rcases hbad with hb | ⟨b, hb, hb'⟩
    · exact hne hb
    · rw [ht] at h4
      rw [h4 b hb] at hb'
      cases hb'

/-- Proofs for one URL, with `net/url` as it is. -/
def exactProof (htu : Str) : Env :=
  { Demo.env with
    parseRequestURI := fun s => (Url.parseRequestURI s).isSome
    urlString := Url.urlString
    parseProof := fun s => some ⟨some g!"dpop+jwt", some g!"k", fun _ => some
      { jti := s, htm := g!"GET", htu := htu, iat := 100, ath := some (Go.b64 (Demo.env.sha256 g!"tok")) }⟩ }

/-- The same for POST requests. -/
def exactPost (htu : Str) : Env :=
  { exactProof htu with
    parseProof := fun s => some ⟨some g!"dpop+jwt", some g!"k", fun _ => some { jti := s, htm := g!"POST", htu := htu, iat := 100, ath := none }⟩ }

/-- **C95 violated** (soundness). The path that the server got decoded is decoded again: a proof made for
`https://rs/a%20b` is accepted for a call of `https://rs/a%2520b`, which is another resource. -/
theorem C95_double_violated : ∃ (E : Env) (t : Target) (htu : Str) (c c' : UriParts) (tr : List Ev) (thumb : Str),
    E.urlString = Url.urlString ∧ Exec (verify E ⟨g!"GET", t.clean, g!"p", none, none⟩) tr (.done (some thumb)) ∧
    (∃ p key claims, E.parseProof g!"p" = some p ∧ p.jwk = some key ∧ p.claims key = some claims ∧ claims.htu = htu) ∧
    IsUri htu c ∧ ¬ Calls c t ∧ IsUri g!"https://rs/a%2520b" c' ∧ Calls c' t ∧ c.path = g!"/a%20b" := by
  obtain ⟨tr, a, h, h2⟩ := oracle_ex Demo.answers (verify (exactProof g!"https://rs/a%20b")
    ⟨g!"GET", ({ host := g!"rs", path := g!"/a%20b" } : Target).clean, g!"p", none, none⟩) (fun a => a = some g!"k") (by decide +kernel)
  subst h2
  refine ⟨exactProof g!"https://rs/a%20b", { host := g!"rs", path := g!"/a%20b" }, g!"https://rs/a%20b",
    ⟨g!"https", g!"rs", g!"/a%20b", none⟩, ⟨g!"https", g!"rs", g!"/a%2520b", none⟩, tr, _, rfl, h, ⟨_, _, _, rfl, rfl, rfl, rfl⟩,
    ⟨by decide, by decide, by decide, by decide, by decide, by decide, fun _ h => by cases h⟩, fun hc => ?_,
    ⟨by decide, by decide, by decide, by decide, by decide, by decide, fun _ h => by cases h⟩,
    ⟨by decide, ⟨Or.inl rfl, by decide⟩, by decide +kernel, rfl⟩, rfl⟩
  have := hc.path
  revert this
  decide +kernel

/-- **C83 violated** with `net/url` as it is: the proof and the token that `evil` got at
`https://evil/x://rs/time` open `https://rs/time`. -/
theorem C83_violated_exact : ∃ (E : Env) (cli : ResourceServer.Cli) (r : ResourceServer.Req) (p : Proof) (key : Str)
    (claims : ProofClaims) (tr : List Ev), E.urlString = Url.urlString ∧
    Exec (ResourceServer.authorizer E cli g!"timestamp:read" [] 30 r) tr (.done .passed) ∧ Presents r.authorization g!"dpop" g!"tok" ∧
    E.parseProof r.dpop = some p ∧ p.jwk = some key ∧ p.claims key = some claims ∧
    calledUrl r.target = g!"https://rs/time" ∧ claims.htu = g!"https://evil/x://rs/time" := by
  obtain ⟨tr, a, h, h2⟩ := oracle_ex Demo.answers (ResourceServer.authorizer (exactProof g!"https://evil/x://rs/time")
    (demoCli { demoToken with confirmation := some ⟨g!"k"⟩ }) g!"timestamp:read" [] 30 evilRequest) (fun a => a = .passed) (by decide +kernel)
  exact ⟨exactProof g!"https://evil/x://rs/time", demoCli { demoToken with confirmation := some ⟨g!"k"⟩ }, evilRequest, _, _, _, tr, rfl,
    h2 ▸ h, ⟨g!"DPoP", by decide, by decide, by decide⟩, rfl, rfl, rfl, by decide, rfl⟩

/-- A proof that is accepted for a direct request at an IPv6 host with an escaped path (`C95_sound_partial`). -/
example : ∃ tr a, Exec (verify (exactProof g!"https://[::1]:8443/a%20b/%C3%A9")
      ⟨g!"GET", ({ host := g!"[::1]:8443", path := g!"/a b/é" } : Target).clean, g!"p", none, none⟩) tr (.done a) ∧ a = some g!"k" :=
  oracle_ex Demo.answers _ (fun a => a = some g!"k") (by decide +kernel)

/-- The same at the resource server and at the token endpoint (`C95_resource_partial`, `C95_token_partial`). -/
example : (∃ tr, Exec (ResourceServer.authorizer (exactProof g!"https://rs/a%20b") (demoCli { demoToken with confirmation := some ⟨g!"k"⟩ })
      g!"timestamp:read" [] 30 { method := g!"GET", target := { host := g!"rs", path := g!"/a b" }, authorization := g!"DPoP tok", dpop := g!"p" }) tr
      (.done .passed)) ∧
    ∃ tr a, Exec (Http.serve { Demo.server with E := exactPost g!"https://as/token" } .token { Demo.httpCode with dpop := g!"p" }) tr (.done a) ∧
      a.status = 200 ∧ { Demo.httpCode with dpop := g!"p" }.target = { host := g!"as", path := g!"/token" } := by
  refine ⟨?_, oracle_ex Demo.httpAnswers _ (fun (a : Http.Resp) => a.status = 200 ∧ _) (by decide +kernel)⟩
  obtain ⟨tr, a, h, h2⟩ := oracle_ex Demo.answers (ResourceServer.authorizer (exactProof g!"https://rs/a%20b")
    (demoCli { demoToken with confirmation := some ⟨g!"k"⟩ }) g!"timestamp:read" [] 30
    { method := g!"GET", target := { host := g!"rs", path := g!"/a b" }, authorization := g!"DPoP tok", dpop := g!"p" })
    (fun a => a = .passed) (by decide +kernel)
  exact ⟨tr, h2 ▸ h⟩

/-- A call and what prover and server make of it (`C95_url_partial`). -/
example : IsUri g!"HTTPS://u@Rs:80/a/(b);c=1?q" ⟨g!"HTTPS", g!"u@Rs:80", g!"/a/(b);c=1", some g!"q"⟩ ∧
    Calls ⟨g!"HTTPS", g!"u@Rs:80", g!"/a/(b);c=1", some g!"q"⟩ { host := g!"Rs:80", path := g!"/a/(b);c=1" } ∧
    PlainHost g!"Rs:80" ∧ (∀ b ∈ g!"/a/(b);c=1", pathChar b = true) ∧ (proofUrl g!"HTTPS://u@Rs:80/a/(b);c=1?q").isSome = true :=
  ⟨⟨by decide, by decide, by decide, by decide, by decide, by decide, fun q h => by cases h; decide⟩,
    ⟨by decide, ⟨Or.inr ⟨g!"u", rfl⟩, by decide⟩, by decide +kernel, rfl⟩, ⟨by decide, by decide +kernel⟩, by decide +kernel, by decide +kernel⟩

/-- The claims of proofs for the URL above. -/
def exactClaims (htu : Str) : ProofClaims := { jti := g!"j", htm := g!"POST", htu := htu, iat := 0, ath := none }

/-- `net/url` as it is and proofs parsed by the demonstration library. -/
def exactDpop (htu : Str) : Env :=
  { Demo.env with
    urlString := Url.urlString
    parseProof := fun raw => ((demoDpop g!"dpop+jwt" (exactClaims htu)).parse raw).map (Sign.toProof (demoDpop g!"dpop+jwt" (exactClaims htu))) }

/-- The prover makes a proof for a URL with a query (`C95_roundtrip_partial`). -/
example : ∃ tr raw, Exec (Sign.prove (exactDpop g!"https://Rs:80/a") proofUrl (some (Sign.serialize (demoDpop g!"dpop+jwt"
      (exactClaims g!"https://Rs:80/a")) ⟨g!"dpop+jwt", true⟩ (some demoKey))) g!"POST" g!"HTTPS://u@Rs:80/a?q" g!"j" none) tr (.done (some raw)) ∧
    ∃ tr' a, Exec (verify (exactDpop g!"https://Rs:80/a") ⟨g!"POST", ({ host := g!"Rs:80", path := g!"/a" } : Target).clean, raw, none, none⟩)
      tr' (.done a) ∧ a.isSome = true := by
  obtain ⟨tr, a, h, h2⟩ := oracle_ex (demoClock 20) (Sign.prove (exactDpop g!"https://Rs:80/a") proofUrl (some (Sign.serialize
    (demoDpop g!"dpop+jwt" (exactClaims g!"https://Rs:80/a")) ⟨g!"dpop+jwt", true⟩ (some demoKey))) g!"POST" g!"HTTPS://u@Rs:80/a?q" g!"j" none)
    (fun r : Option Str => r = some (1 :: List.replicate 20 0)) (by decide +kernel)
  subst h2
  exact ⟨tr, _, h, oracle_ex (demoClock 20) _ (fun a : Option Str => a.isSome = true) (by decide +kernel)⟩

/-- The prover makes a proof for a path with a space, and for no path; both are refused (`C95_prover_violated`). -/
example : (∃ tr raw, Exec (Sign.prove (exactDpop g!"https://rs/a b") proofUrl (some (Sign.serialize (demoDpop g!"dpop+jwt"
      (exactClaims g!"https://rs/a b")) ⟨g!"dpop+jwt", true⟩ (some demoKey))) g!"POST" g!"https://rs/a%20b" g!"j" none) tr (.done (some raw))) ∧
    (∃ tr raw, Exec (Sign.prove (exactDpop g!"https://rs") proofUrl (some (Sign.serialize (demoDpop g!"dpop+jwt"
      (exactClaims g!"https://rs")) ⟨g!"dpop+jwt", true⟩ (some demoKey))) g!"POST" g!"https://rs" g!"j" none) tr (.done (some raw))) ∧
    Calls ⟨g!"https", g!"rs", g!"/a%20b", none⟩ { host := g!"rs", path := g!"/a b" } ∧
    Calls ⟨g!"https", g!"rs", [], none⟩ { host := g!"rs", path := g!"/" } ∧
    (∃ b ∈ pct g!"/a%20b", pathChar b = false) ∧ ∀ b ∈ pct g!"/a%20b", b ∉ g!"%?#" := by
  refine ⟨?_, ?_, ⟨by decide, ⟨Or.inl rfl, by decide⟩, by decide +kernel, rfl⟩, ⟨by decide, ⟨Or.inl rfl, by decide⟩, by decide +kernel, rfl⟩,
    ⟨32, by decide +kernel, by decide +kernel⟩, by decide +kernel⟩
  · obtain ⟨tr, a, h, h2⟩ := oracle_ex (demoClock 20) (Sign.prove (exactDpop g!"https://rs/a b") proofUrl (some (Sign.serialize
      (demoDpop g!"dpop+jwt" (exactClaims g!"https://rs/a b")) ⟨g!"dpop+jwt", true⟩ (some demoKey))) g!"POST" g!"https://rs/a%20b" g!"j" none)
      (fun r : Option Str => r = some (1 :: List.replicate 20 0)) (by decide +kernel)
    exact ⟨tr, _, h2 ▸ h⟩
  · obtain ⟨tr, a, h, h2⟩ := oracle_ex (demoClock 20) (Sign.prove (exactDpop g!"https://rs") proofUrl (some (Sign.serialize
      (demoDpop g!"dpop+jwt" (exactClaims g!"https://rs")) ⟨g!"dpop+jwt", true⟩ (some demoKey))) g!"POST" g!"https://rs" g!"j" none)
      (fun r : Option Str => r = some (1 :: List.replicate 20 0)) (by decide +kernel)
    exact ⟨tr, _, h2 ▸ h⟩

end Verif.Props
