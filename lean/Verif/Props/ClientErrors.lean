import Verif.Spec.ClientErrors
import Verif.Proofs.ClientAuth
import Verif.Proofs.Http
import Verif.Props.Errors
import Verif.Props.ClientAuth

/-!
Error codes of client authentication, for every behaviour of the store and the clock.
-/
namespace Verif.Props
open Verif.Spec Verif.Prog Verif.ClientAuth

/-- The verdict of a run: refused for the reasons that are there, or none is there. -/
def PrivVerdict (P : Parsers) (req : Option AuthReq) (tr : List Ev) (r : AuthResult) : Prop :=
  (r.goErr = true ∧ (∃ k, PrivReason P req tr k) ∧ ∀ k, PrivReason P req tr k → r = fail k.given) ∨
  (r.goErr = false ∧ ∀ k, ¬ PrivReason P req tr k)

theorem verdict_one {P : Parsers} {req : Option AuthReq} {tr : List Ev} {k : AuthReason} (h : PrivReason P req tr k)
    (hu : ∀ k', PrivReason P req tr k' → k'.given = k.given) : PrivVerdict P req tr (fail k.given) :=
  Or.inl ⟨rfl, ⟨k, h⟩, fun k' hk' => by rw [hu k' hk']⟩

theorem privateKeyJwt_verdict (P : Parsers) (req : Option AuthReq) :
    Done (PrivVerdict P req) (privateKeyJwt P req) [] := by
  have early : ∀ tr, tr = [] → (∀ a, ¬ Asserts req g!"urn:ietf:params:oauth:client-assertion-type:jwt-bearer" a) →
      PrivVerdict P req tr (fail .invalidRequest) := by
    rintro tr rfl h
    refine verdict_one (k := .missing) (.missing h) ?_
    intro k' hk'
    cases hk' with
    | missing => rfl
    | malformed a ha => exact absurd ha (h a)
    | incomplete t c hc => obtain ⟨a, ha, -⟩ := hc; exact absurd ha (h a)
    | expired t c n hc => obtain ⟨a, ha, -⟩ := hc; exact absurd ha (h a)
    | unknown id h => cases h
    | keys id cl h => cases h
    | signature t c id cl ks _ h => cases h
    | broken id h => cases h
  unfold privateKeyJwt
  cases req with
  | none => exact early _ rfl (by rintro a ⟨q, h, -⟩; cases h)
  | some req =>
    cases h1 : req.assertionType with
    | none => simp only [h1, Done]; exact early _ rfl (by rintro a ⟨q, h, h', -⟩; cases h; rw [h1] at h'; cases h')
    | some ty =>
      by_cases h2 : ty = typeBearer
      rotate_left
      · simp only [h1, h2, Done, ne_eq, not_false_eq_true, if_true]
        exact early _ rfl (by rintro a ⟨q, h, h', -⟩; cases h; rw [h1] at h'; exact h2 (Option.some.inj h'))
      subst h2
      cases h3 : req.assertion with
      | none =>
        simp only [h1, h3, Done, ne_eq, not_true_eq_false, if_false]
        exact early _ rfl (by rintro a ⟨q, h, -, h', -⟩; cases h; rw [h3] at h'; cases h')
      | some a =>
        by_cases h4 : a = []
        · simp only [h1, h3, h4, Done, ne_eq, not_true_eq_false, if_false, if_true]
          exact early _ rfl (by rintro b ⟨q, h, -, h', h''⟩; cases h; rw [h3] at h'; exact h'' ((Option.some.inj h').symm.trans h4))
        have hA : Asserts (some req) g!"urn:ietf:params:oauth:client-assertion-type:jwt-bearer" a := ⟨req, rfl, h1, h3, h4⟩
        have hAu : ∀ b, Asserts (some req) g!"urn:ietf:params:oauth:client-assertion-type:jwt-bearer" b → b = a := by
          rintro b ⟨q, h, -, h', -⟩
          cases h
          rw [h3] at h'
          exact (Option.some.inj h').symm
        have hbad : (∀ t c, ¬ Claims P (some req) t c) → PrivVerdict P (some req) [] (fail .invalidRequest) := by
          intro hno
          refine verdict_one (k := .malformed) (.malformed a hA hno) ?_
          intro k' hk'
          cases hk' with
          | missing h => exact absurd hA (h a)
          | malformed => rfl
          | incomplete t c hc => exact absurd hc (hno t c)
          | expired t c n hc => exact absurd hc (hno t c)
          | unknown id h => cases h
          | keys id cl h => cases h
          | signature t c id cl ks _ h => cases h
          | broken id h => cases h
        cases h5 : P.parse a with
        | none =>
          simp only [h1, h3, h4, h5, Done, ne_eq, not_true_eq_false, if_false]
          exact hbad (by rintro t c ⟨b, hb, h, -⟩; rw [hAu b hb, h5] at h; cases h)
        | some t =>
          cases h6 : P.privClaims t.payload with
          | none =>
            simp only [h1, h3, h4, h5, h6, Done, ne_eq, not_true_eq_false, if_false]
            refine hbad ?_
            rintro t' c ⟨b, hb, h, h'⟩
            rw [hAu b hb, h5] at h
            cases h
            rw [h6] at h'; cases h'
          | some c =>
            have hC : Claims P (some req) t c := ⟨a, hA, h5, h6⟩
            have hCu : ∀ t' c', Claims P (some req) t' c' → t' = t ∧ c' = c := by
              rintro t' c' ⟨b, hb, h, h'⟩
              rw [hAu b hb, h5] at h
              cases h
              rw [h6] at h'
              exact ⟨rfl, (Option.some.inj h').symm⟩
            have hclaims : ∀ tr, (∀ x ∈ tr, ∃ n, x = (⟨.now, n⟩ : Ev)) → PrivReason P (some req) tr .claims →
                PrivVerdict P (some req) tr (fail .invalidRequest) := by
              intro tr htr h
              refine verdict_one (k := .claims) h ?_
              intro k' hk'
              cases hk' with
              | missing h => exact absurd hA (h a)
              | malformed b _ h => exact absurd hC (h t c)
              | incomplete => rfl
              | expired => rfl
              | unknown id h => obtain ⟨n, e⟩ := htr _ h; cases e
              | keys id cl h => obtain ⟨n, e⟩ := htr _ h; cases e
              | signature t c id cl ks _ h => obtain ⟨n, e⟩ := htr _ h; cases e
              | broken id h => obtain ⟨n, e⟩ := htr _ h; cases e
            by_cases h7 : c.complete
            rotate_left
            · simp only [h1, h3, h4, h5, h6, h7, Done, ne_eq, not_true_eq_false, if_false, not_false_eq_true, if_true,
                Bool.false_eq_true]
              refine hclaims [] (by simp) (.incomplete t c hC ?_)
              simp only [PrivClaims.complete, Bool.not_eq_true', Bool.not_eq_false, Bool.or_eq_true, decide_eq_true_eq] at h7
              grind
            by_cases h8 : c.iss = c.sub
            rotate_left
            · simp only [h1, h3, h4, h5, h6, h7, h8, Done, ne_eq, not_true_eq_false, if_false, not_false_eq_true, if_true]
              exact hclaims [] (by simp) (.incomplete t c hC (by simp [h8]))
            have hcomplete : ¬ (c.iss = [] ∨ c.sub = [] ∨ c.aud = [] ∨ c.jti = [] ∨ c.exp = 0 ∨ c.iss ≠ c.sub) := by
              simp only [PrivClaims.complete, Bool.not_eq_true', Bool.or_eq_false_iff, decide_eq_false_iff_not] at h7
              grind
            simp only [h1, h3, h4, h5, h6, h7, ne_eq, not_true_eq_false, if_false, Prog.call, bind_op, bind_ret, pure_eq,
              Done]
            rw [if_neg (not_not.2 h8)]
            simp only [Done]
            intro now
            by_cases h9 : c.exp < Device.unix now
            · rw [if_pos h9]
              exact hclaims _ (by simp) (.expired t c now hC (by simp) h9)
            rw [if_neg h9]
            simp only [privateKeyCheck, Prog.call, bind_op, bind_ret, pure_eq, Done]
            have noclaims : ∀ ev : Ev, (∀ n, ev ≠ ⟨.now, n⟩) → ¬ PrivReason P (some req) [⟨.now, now⟩, ev] .claims := by
              intro ev hev hk
              cases hk with
              | incomplete t' c' hc hh => obtain ⟨rfl, rfl⟩ := hCu _ _ hc; exact hcomplete hh
              | expired t' c' n hc hn hh =>
                obtain ⟨rfl, rfl⟩ := hCu _ _ hc
                rcases List.mem_cons.1 hn with hn | hn
                · cases hn; exact h9 hh
                · exact hev n (List.mem_singleton.1 hn).symm
            have get : ∀ (x : SRes (Option Client)) (id : Str) (r : SRes (Option Client)),
                (⟨.clientsGet id, r⟩ : Ev) ∈ [(⟨.now, now⟩ : Ev), ⟨.clientsGet c.iss, x⟩] → r = x := by
              intro x id r h
              rcases List.mem_cons.1 h with h | h
              · cases h
              · cases List.mem_singleton.1 h; rfl
            have here : ∀ x : SRes (Option Client), (⟨.clientsGet c.iss, x⟩ : Ev) ∈ [(⟨.now, now⟩ : Ev), ⟨.clientsGet c.iss, x⟩] := by simp
            have look : ∀ (x : SRes (Option Client)) k, PrivReason P (some req) [⟨.now, now⟩, ⟨.clientsGet c.iss, x⟩] k →
                (k = .unknown ∧ x = .error .notFound) ∨ (k = .broken ∧ x = .error .other) ∨
                ∃ cl, x = .ok (some cl) ∧ ((k = .keys ∧ (cl.jwks = [] ∨ P.jwks cl.jwks = none)) ∨
                  (k = .signature ∧ cl.jwks ≠ [] ∧ ∃ ks, P.jwks cl.jwks = some ks ∧ ∀ k ∈ ks, k.use ≠ g!"enc" → t.verifies k = false)) := by
              intro x k hk
              cases hk with
              | missing h => exact absurd hA (h a)
              | malformed b _ h => exact absurd hC (h t c)
              | incomplete t' c' hc hh => exact absurd (.incomplete t' c' hc hh) (noclaims ⟨.clientsGet c.iss, x⟩ nofun)
              | expired t' c' n hc hn hh => exact absurd (.expired t' c' n hc hn hh) (noclaims ⟨.clientsGet c.iss, x⟩ nofun)
              | unknown id h => exact .inl ⟨rfl, (get x id _ h).symm⟩
              | broken id h => exact .inr (.inl ⟨rfl, (get x id _ h).symm⟩)
              | keys id cl h hh => exact .inr (.inr ⟨cl, (get x id _ h).symm, .inl ⟨rfl, hh⟩⟩)
              | signature t' c' id cl ks hc h h' h'' hh =>
                obtain ⟨rfl, rfl⟩ := hCu _ _ hc
                exact .inr (.inr ⟨cl, (get x id _ h).symm, .inr ⟨rfl, h', ks, h'', hh⟩⟩)
            rintro ((_ | _) | (_ | cl))
            · refine verdict_one (k := .unknown) (.unknown c.iss (here _)) ?_
              intro k hk
              rcases look _ _ hk with ⟨rfl, h⟩ | ⟨rfl, h⟩ | ⟨cl, h, -⟩
              · rfl
              · cases h
              · cases h
            · refine verdict_one (k := .broken) (.broken c.iss (here _)) ?_
              intro k hk
              rcases look _ _ hk with ⟨rfl, h⟩ | ⟨rfl, h⟩ | ⟨cl, h, -⟩
              · cases h
              · rfl
              · cases h
            · trivial
            · have only : ∀ k, PrivReason P (some req) [⟨.now, now⟩, ⟨.clientsGet c.iss, .ok (some cl)⟩] k →
                  (k = .keys ∧ (cl.jwks = [] ∨ P.jwks cl.jwks = none)) ∨
                  (k = .signature ∧ cl.jwks ≠ [] ∧ ∃ ks, P.jwks cl.jwks = some ks ∧ ∀ k ∈ ks, k.use ≠ g!"enc" → t.verifies k = false) := by
                intro k hk
                rcases look _ _ hk with ⟨rfl, h⟩ | ⟨rfl, h⟩ | ⟨cl', h, hh⟩
                · cases h
                · cases h
                · cases h; exact hh
              have code : ∀ k, PrivReason P (some req) [⟨.now, now⟩, ⟨.clientsGet c.iss, .ok (some cl)⟩] k → k.given = .invalidClient := by
                intro k hk
                rcases only k hk with ⟨rfl, -⟩ | ⟨rfl, -⟩ <;> rfl
              by_cases g1 : cl.jwks = []
              · simp only [g1, if_true, Done]
                exact verdict_one (k := .keys) (.keys c.iss cl (here _) (.inl g1)) code
              · cases g2 : P.jwks cl.jwks with
                | none =>
                  simp only [g1, g2, if_false, Done]
                  exact verdict_one (k := .keys) (.keys c.iss cl (here _) (.inr g2)) code
                | some ks =>
                  simp only [g1, g2, if_false]
                  by_cases g3 : Jose.validateSignature (some ks) (some t) = true
                  · simp only [g3, if_true, Done]
                    refine .inr ⟨rfl, fun k hk => ?_⟩
                    rcases only k hk with ⟨rfl, h | h⟩ | ⟨rfl, -, ks', h, hh⟩
                    · exact g1 h
                    · rw [g2] at h; cases h
                    · rw [g2] at h
                      cases h
                      obtain ⟨k, k1, k2, k3⟩ := Jose.validateSignature_iff.1 g3
                      rw [hh k k1 k2] at k3
                      cases k3
                  · simp only [g3, Done, Bool.false_eq_true, if_false]
                    refine verdict_one (k := .signature) (.signature t c c.iss cl ks hC (here _) g1 g2 ?_) code
                    intro k k1 k2
                    cases hv : t.verifies k with
                    | false => rfl
                    | true => exact absurd (Jose.validateSignature_iff.2 ⟨k, k1, k2, hv⟩) g3

/-- **C99** (private_key_jwt). A client is refused exactly when one of the reasons is there, and it is told the code of
every reason that is there. -/
theorem C99_private_key (P : Parsers) (req : Option AuthReq) (tr : List Ev) (r : AuthResult)
    (h : Exec (privateKeyJwt P req) tr (.done r)) :
    (r.goErr = true ↔ ∃ k, PrivReason P req tr k) ∧
    ∀ k, PrivReason P req tr k → r = toldCode k.given := by
  rcases done_sound (privateKeyJwt_verdict P req) h with ⟨h1, h2, h3⟩ | ⟨h1, h2⟩
  · exact ⟨⟨fun _ => h2, fun _ => h1⟩, h3⟩
  · refine ⟨⟨fun h' => ?_, fun ⟨k, hk⟩ => absurd hk (h2 k)⟩, fun k hk => absurd hk (h2 k)⟩
    rw [h1] at h'
    cases h'

/-- **C99 (partial).** The full claim is that every refusal carries the prescribed code. It does, unless the assertion is
unreadable or its claims are not acceptable. -/
theorem C99_prescribed_partial (P : Parsers) (req : Option AuthReq) (tr : List Ev) (r : AuthResult)
    (h : Exec (privateKeyJwt P req) tr (.done r)) (k : AuthReason) (hk : PrivReason P req tr k)
    (hc : k ∈ [AuthReason.missing, .unknown, .keys, .signature, .broken]) :
    r.goErr = true ∧ ∃ a e, r.resp = some a ∧ a.error = some e ∧ e.code = k.prescribed ∧ a.client = none := by
  obtain rfl := (C99_private_key P req tr r h).2 k hk
  refine ⟨rfl, _, _, rfl, rfl, ?_, rfl⟩
  revert hc
  cases k <;> decide

/-- **C99 is violated** for assertions that are unreadable, incomplete or expired: `invalid_request` is told instead of
`invalid_client` (RFC 7521 section 4.2.1). -/
theorem C99_violated (P : Parsers) (req : Option AuthReq) (tr : List Ev) (r : AuthResult)
    (h : Exec (privateKeyJwt P req) tr (.done r)) (k : AuthReason) (hk : PrivReason P req tr k)
    (hc : k ∈ [AuthReason.malformed, .claims]) :
    ∃ a e, r.resp = some a ∧ a.error = some e ∧ e.code = .invalidRequest ∧ e.code ≠ k.prescribed := by
  obtain rfl := (C99_private_key P req tr r h).2 k hk
  refine ⟨_, _, rfl, rfl, ?_⟩
  revert hc
  cases k <;> decide

theorem attestation_verdict (P : Parsers) (a : Str) :
    Done (fun tr r => (∀ key, r = some key → ∃ t c, Attests P tr a t c key) ∧ (r = none → ∀ t c key, ¬ Attests P tr a t c key))
      (attestation P a) [] := by
  unfold attestation
  cases h1 : P.parse a with
  | none => simp only [Done]; exact ⟨nofun, fun _ t c key h => by have := h.parsed; rw [h1] at this; cases this⟩
  | some t =>
    have ht : ∀ {tr t' c key}, Attests P tr a t' c key → t' = t := by
      intro tr t' c key h
      have := h.parsed
      rw [h1] at this
      exact (Option.some.inj this).symm
    cases h2 : P.attClaims t.payload with
    | none =>
      simp only [h2, Done]
      refine ⟨nofun, fun _ t' c key h => ?_⟩
      obtain rfl := ht h
      have := h.claims
      rw [h2] at this; cases this
    | some c =>
      have hc : ∀ {tr t' c' key}, Attests P tr a t' c' key → c' = c := by
        intro tr t' c' key h
        obtain rfl := ht h
        have := h.claims
        rw [h2] at this
        exact (Option.some.inj this).symm
      cases h3 : c.cnf with
      | none =>
        simp only [h2, h3, Done]
        refine ⟨nofun, fun _ t' c' key h => ?_⟩
        obtain rfl := hc h
        have := h.key
        rw [h3] at this; cases this
      | some key =>
        by_cases h4 : c.iss = [] ∨ c.sub = [] ∨ c.exp = 0
        · simp only [h2, h3, h4, if_true, Done]
          refine ⟨nofun, fun _ t' c' key h => ?_⟩
          obtain rfl := hc h
          obtain ⟨g1, g2, g3⟩ := h.mandatory
          rcases h4 with h4 | h4 | h4
          · exact g1 h4
          · exact g2 h4
          · exact g3 h4
        · have unasked : ∀ tr, (∀ x ∈ tr, ∀ id cl, x ≠ (⟨.clientsGet id, .ok (some cl)⟩ : Ev)) →
              (∀ key, (none : Option (Option Jose.Jwk)) = some key → ∃ t c, Attests P tr a t c key) ∧
              ((none : Option (Option Jose.Jwk)) = none → ∀ t c key, ¬ Attests P tr a t c key) := by
            intro tr htr
            refine ⟨nofun, fun _ t c key h => ?_⟩
            obtain ⟨cl, ks, h, -⟩ := h.signed
            exact htr _ h _ _ rfl
          simp only [h2, h3, h4, if_false, Prog.call, bind_op, bind_ret, pure_eq, Done]
          intro now
          by_cases h5 : c.exp < Device.unix now
          · rw [if_pos h5]
            refine unasked _ ?_
            simp
          · simp only [h5, if_false, Done]
            intro now'
            by_cases h6 : c.nbf > Device.unix now'
            · rw [if_pos h6]
              refine unasked _ ?_
              simp
            · simp only [h6, if_false, Done]
              rintro ((_ | _) | (_ | cl))
              · refine unasked _ ?_
                simp
              · refine unasked _ ?_
                simp
              · trivial
              · have hcl : ∀ {id cl'}, (⟨.clientsGet id, .ok (some cl')⟩ : Ev) ∈
                    [(⟨.now, now⟩ : Ev), ⟨.now, now'⟩, ⟨.clientsGet c.iss, .ok (some cl)⟩] → cl' = cl := by
                  intro id cl' h
                  rcases List.mem_cons.1 h with h | h
                  · cases h
                  rcases List.mem_cons.1 h with h | h
                  · cases h
                  · cases List.mem_singleton.1 h; rfl
                by_cases h7 : cl.jwks = []
                · simp only [h7, if_true, Done]
                  refine ⟨nofun, fun _ t' c' key h => ?_⟩
                  obtain ⟨cl', ks, g1, g2, -⟩ := h.signed
                  exact g2 (hcl g1 ▸ h7)
                · cases h8 : P.jwks cl.jwks with
                  | none =>
                    simp only [h7, h8, if_false, Done]
                    refine ⟨nofun, fun _ t' c' key h => ?_⟩
                    obtain ⟨cl', ks, g1, g2, g3, -⟩ := h.signed
                    rw [hcl g1, h8] at g3; cases g3
                  | some keys =>
                    simp only [h7, h8, if_false]
                    by_cases h9 : Jose.validateSignature (some keys) (some t) = true
                    · simp only [h9, if_true, Done]
                      refine ⟨?_, nofun⟩
                      intro key' hk
                      cases hk
                      simp only [not_or] at h4
                      refine ⟨t, c, h1, h2, h3, h4, ⟨_, .head _, _, .tail _ (.head _), now, now', rfl, rfl,
                        Nat.le_of_not_lt h5, Nat.le_of_not_lt h6⟩, cl, keys, by simp, h7, h8,
                        Jose.validateSignature_iff.1 h9⟩
                    · simp only [h9, Done, Bool.false_eq_true, if_false]
                      refine ⟨nofun, fun _ t' c' key h => ?_⟩
                      obtain rfl := ht h
                      obtain ⟨cl', ks, g1, g2, g3, g4⟩ := h.signed
                      rw [hcl g1, h8] at g3
                      cases g3
                      exact h9 (Jose.validateSignature_iff.2 g4)

theorem _root_.Verif.Spec.Attests.mono {P : Parsers} {tr tr' : List Ev} {att : Str} {t : Jose.Jws} {c : AttClaims} {key : Option Jose.Jwk}
    (h : Attests P tr att t c key) (hs : ∀ e ∈ tr, e ∈ tr') : Attests P tr' att t c key := by
  obtain ⟨x, hx, y, hy, h'⟩ := h.current
  obtain ⟨cl, ks, g, g'⟩ := h.signed
  exact ⟨h.parsed, h.claims, h.key, h.mandatory, ⟨x, hs _ hx, y, hs _ hy, h'⟩, cl, ks, hs _ g, g'⟩

/-- What a refused proof of possession is told. -/
theorem proofOfPossession_verdict (P : Parsers) (key : Option Jose.Jwk) (pop : Str) (acc : List Ev) :
    Done (fun tr r => (∀ e ∈ acc, e ∈ tr) ∧ (r.goErr = true →
      (r = fail .invalidRequest ∧ P.parse pop = none) ∨ ∃ k, key = some k ∧
      ((r = ⟨none, true⟩ ∧ P.parse pop ≠ none ∧ ((∀ c, ¬ Possesses P pop k c) ∨
          ∃ c now, Possesses P pop k c ∧ ⟨.now, now⟩ ∈ tr ∧ (c.exp < seconds now ∨ seconds now < c.nbf))) ∨
        (∃ c, r = fail .invalidClient ∧ Possesses P pop k c ∧ ⟨.clientsGet c.iss, .error .notFound⟩ ∈ tr) ∨
        (∃ c, r = fail .serverError ∧ Possesses P pop k c ∧ ⟨.clientsGet c.iss, .error .other⟩ ∈ tr))))
      (proofOfPossession P key pop) acc := by
  unfold proofOfPossession
  cases h1 : P.parse pop with
  | none => exact ⟨fun _ h => h, fun _ => .inl ⟨rfl, rfl⟩⟩
  | some t =>
    cases key with
    | none => trivial
    | some k =>
      have uniq : ∀ c, Possesses P pop k c → Jose.claims P.popClaims t k = some c := by
        intro c h
        obtain ⟨t', g1, g2, g3⟩ := h.signed
        rw [h1] at g1
        cases g1
        exact Jose.claims_some.2 ⟨g2, g3⟩
      cases h2 : Jose.claims P.popClaims t k with
      | none =>
        simp only [h2, Done]
        refine ⟨fun _ h => h, fun _ => .inr ⟨k, rfl, .inl ⟨by first | rfl | trivial, by simp, .inl fun c h => ?_⟩⟩⟩
        have := uniq c h
        rw [h2] at this; cases this
      | some c =>
        by_cases h3 : c.iss = [] ∨ c.exp = 0 ∨ c.jti = [] ∨ c.aud = []
        · simp only [h2, h3, if_true, Done]
          refine ⟨fun _ h => h, fun _ => .inr ⟨k, rfl, .inl ⟨by first | rfl | trivial, by simp, .inl fun c' h => ?_⟩⟩⟩
          have := uniq c' h
          rw [h2] at this
          cases this
          obtain ⟨g1, g2, g3, g4⟩ := h.mandatory
          rcases h3 with h3 | h3 | h3 | h3
          · exact g1 h3
          · exact g2 h3
          · exact g3 h3
          · exact g4 h3
        · simp only [h2, h3, if_false, Prog.call, bind_op, bind_ret, pure_eq, Done]
          have hp : Possesses P pop k c := by
            obtain ⟨v1, v2⟩ := Jose.claims_some.1 h2
            exact ⟨⟨t, h1, v1, v2⟩, by simpa only [not_or] using h3⟩
          intro now
          by_cases h5 : c.exp < Device.unix now
          · simp only [h5, if_true, Done]
            exact ⟨fun e h => by simp [h], fun _ => .inr ⟨k, rfl, .inl ⟨by first | rfl | trivial, by simp, .inr ⟨c, now, hp, by simp, .inl h5⟩⟩⟩⟩
          · simp only [h5, if_false, Done]
            intro now'
            by_cases h6 : c.nbf > Device.unix now'
            · simp only [h6, if_true, Done]
              exact ⟨fun e h => by simp [h], fun _ => .inr ⟨k, rfl, .inl ⟨by first | rfl | trivial, by simp, .inr ⟨c, now', hp, by simp, .inr h6⟩⟩⟩⟩
            · simp only [h6, if_false, Done]
              rintro ((_ | _) | client)
              · exact ⟨fun e h => by simp [h], fun _ => .inr ⟨k, rfl, .inr (.inl ⟨c, rfl, hp, by simp⟩)⟩⟩
              · exact ⟨fun e h => by simp [h], fun _ => .inr ⟨k, rfl, .inr (.inr ⟨c, rfl, hp, by simp⟩)⟩⟩
              · exact ⟨fun e h => by simp [h], fun h => by cases h⟩

/-- The assertion consists of an attestation and a proof of possession. -/
def Joined (req : Option AuthReq) (att pop : Str) : Prop :=
  Asserts req g!"urn:ietf:params:oauth:client-assertion-type:jwt-client-attestation" (att ++ g!"~" ++ pop) ∧ 126 ∉ att

/-- **C99** (attestations). What a client that presents an attestation is told when it is refused: `invalid_request` when a
part is missing or the proof of possession is no signed object, `unauthorized_client` when the attestation is not acceptable,
nothing when the proof of possession is not, `invalid_client` when nobody knows the client, `server_error` when the store
of clients fails. -/
theorem C99_attestation (P : Parsers) (req : Option AuthReq) (tr : List Ev) (r : AuthResult)
    (h : Exec (clientAttestation P req) tr (.done r)) (hr : r.goErr = true) :
    (r = toldCode .invalidRequest ∧ ∀ att pop, ¬ Joined req att pop) ∨ ∃ att pop, Joined req att pop ∧
    ((r = toldCode .unauthorizedClient ∧ ∀ t c key, ¬ Attests P tr att t c key) ∨
     (r = toldCode .invalidRequest ∧ P.parse pop = none ∧ ∃ t c key, Attests P tr att t c key) ∨
     ∃ t c key, Attests P tr att t c (some key) ∧
      ((r = ⟨none, true⟩ ∧ P.parse pop ≠ none ∧ ((∀ c', ¬ Possesses P pop key c') ∨
          ∃ c' now, Possesses P pop key c' ∧ ⟨.now, now⟩ ∈ tr ∧ (c'.exp < seconds now ∨ seconds now < c'.nbf))) ∨
        (∃ c', r = toldCode .invalidClient ∧ Possesses P pop key c' ∧ ⟨.clientsGet c'.iss, .error .notFound⟩ ∈ tr) ∨
        (∃ c', r = toldCode .serverError ∧ Possesses P pop key c' ∧ ⟨.clientsGet c'.iss, .error .other⟩ ∈ tr))) := by
  unfold clientAttestation at h
  cases req with
  | none => cases h
  | some req =>
    have miss : ∀ {tr}, Exec (.ret (fail .invalidRequest)) tr (.done r) → (∀ att pop, ¬ Joined (some req) att pop) →
        (r = fail .invalidRequest ∧ ∀ att pop, ¬ Joined (some req) att pop) := by
      intro tr h h'
      cases h
      exact ⟨rfl, h'⟩
    cases h1 : req.assertionType with
    | none =>
      simp only [h1] at h
      exact .inl (miss h (by rintro a b ⟨⟨q, g1, g2, -⟩, -⟩; cases g1; rw [h1] at g2; cases g2))
    | some ty =>
      by_cases h2 : ty = typeAttestation
      rotate_left
      · simp only [h1, h2, ne_eq, not_false_eq_true, if_true] at h
        exact .inl (miss h (by rintro a b ⟨⟨q, g1, g2, -⟩, -⟩; cases g1; rw [h1] at g2; exact h2 (Option.some.inj g2)))
      subst h2
      cases h3 : req.assertion with
      | none =>
        simp only [h1, h3, ne_eq, not_true_eq_false, if_false] at h
        exact .inl (miss h (by rintro a b ⟨⟨q, g1, -, g2, -⟩, -⟩; cases g1; rw [h3] at g2; cases g2))
      | some a =>
        by_cases h4 : a = []
        · simp only [h1, h3, h4, ne_eq, not_true_eq_false, if_false, if_true] at h
          exact .inl (miss h (by rintro a b ⟨⟨q, g1, -, g2, g3⟩, -⟩; cases g1; rw [h3] at g2; exact g3 ((Option.some.inj g2).symm.trans h4)))
        simp only [h1, h3, h4, ne_eq, not_true_eq_false, if_false] at h
        rcases h5 : cut 126 a with ⟨att, _ | pop⟩
        · simp only [h5] at h
          refine .inl (miss h ?_)
          rintro x y ⟨⟨q, g1, -, g2, -⟩, g3⟩
          cases g1
          rw [h3] at g2
          have : a = x ++ 126 :: y := by rw [Option.some.inj g2]; simp
          rw [this, cut_append g3] at h5
          cases h5
        · simp only [h5] at h
          obtain ⟨e1, e2⟩ := cut_some h5
          refine .inr ⟨att, pop, ⟨⟨req, rfl, h1, by rw [h3, e1]; simp, by simp⟩, e2⟩, ?_⟩
          rcases Http.exec_bind h with ⟨t1, t2, x, rfl, k1, k2⟩ | ⟨k, -⟩ | ⟨k, -⟩
          · obtain ⟨v1, v2⟩ := done_sound (attestation_verdict P att) k1
            cases x with
            | none =>
              cases k2
              exact .inl ⟨rfl, by simpa using v2 rfl⟩
            | some key =>
              have k2 : Exec (proofOfPossession P key pop) t2 (.done r) := k2
              obtain ⟨t, c, hat⟩ := v1 key rfl
              obtain ⟨-, hv⟩ := done_sound (proofOfPossession_verdict P key pop []) k2
              have hat := hat.mono (tr' := t1 ++ t2) (fun e he => List.mem_append_left _ he)
              rcases hv hr with ⟨rfl, hp⟩ | ⟨k, rfl, hv'⟩
              · exact .inr (.inl ⟨rfl, hp, t, c, key, hat⟩)
              · refine .inr (.inr ⟨t, c, k, hat, ?_⟩)
                rcases hv' with ⟨rfl, g1, g2⟩ | ⟨c', rfl, g1, g2⟩ | ⟨c', rfl, g1, g2⟩
                · refine .inl ⟨rfl, g1, ?_⟩
                  rcases g2 with g2 | ⟨c', now, g2, g3, g4⟩
                  · exact .inl g2
                  · exact .inr ⟨c', now, g2, List.mem_append_right _ g3, g4⟩
                · exact .inr (.inl ⟨c', rfl, g1, List.mem_append_right _ g2⟩)
                · exact .inr (.inr ⟨c', rfl, g1, List.mem_append_right _ g2⟩)
          · cases k
          · cases k

/-- **C99** (over HTTP). Whatever the reason, a refused client gets status 401 with `invalid_client`; a request with neither a
client identifier nor an assertion of a known type gets `invalid_request`. -/
theorem C99_http (S : Http.Server) (r : Http.Req) (h : Option Client → Prog Http.Resp) (tr : List Ev) (a : Http.Resp)
    (he : Exec (Http.clientAuth S r h) tr (.done a)) :
    (∃ c t1 t2, tr = t1 ++ t2 ∧ Exec (h c) t2 (.done a)) ∨
    (a = ⟨401, .error .invalidClient⟩ ∧ (r.get g!"client_id" ≠ [] ∨ r.postValue g!"client_assertion_type" ∈
      [g!"urn:ietf:params:oauth:client-assertion-type:jwt-bearer", g!"urn:ietf:params:oauth:client-assertion-type:jwt-client-attestation"])) ∨
    (a = ⟨401, .error .invalidRequest⟩ ∧ r.get g!"client_id" = [] ∧ r.postValue g!"client_assertion_type" ∉
      [g!"urn:ietf:params:oauth:client-assertion-type:jwt-bearer", g!"urn:ietf:params:oauth:client-assertion-type:jwt-client-attestation"]) := by
  have after : ∀ {x : AuthResult} {t1 t2 : List Ev}, Exec (Http.afterAuth h x) t2 (.done a) →
      (∃ c u1 u2, t1 ++ t2 = u1 ++ u2 ∧ Exec (h c) u2 (.done a)) ∨ a = ⟨401, .error .invalidClient⟩ := by
    intro x t1 t2 hx
    unfold Http.afterAuth at hx
    split at hx
    · cases hx; exact .inr rfl
    · split at hx
      · cases hx
      · exact .inl ⟨_, t1, t2, rfl, hx⟩
  have both : ∀ {p : Prog AuthResult}, Exec (p >>= Http.afterAuth h) tr (.done a) →
      (∃ c t1 t2, tr = t1 ++ t2 ∧ Exec (h c) t2 (.done a)) ∨ a = ⟨401, .error .invalidClient⟩ := by
    intro p hp
    rcases Http.exec_bind hp with ⟨t1, t2, x, rfl, -, k⟩ | ⟨k, -⟩ | ⟨k, -⟩
    · exact after k
    · cases k
    · cases k
  unfold Http.clientAuth at he
  by_cases h0 : r.get g!"client_id" ≠ []
  · rw [if_pos h0] at he
    simp only [Prog.call, bind_op, bind_ret] at he
    cases he with
    | step _ _ x tr' _ he =>
      rcases x with _ | (_ | client)
      · cases he; exact .inr (.inl ⟨rfl, .inl h0⟩)
      · cases he
      · dsimp only at he
        split at he
        · exact .inl ⟨some client, [_], tr', rfl, he⟩
        · cases he; exact .inr (.inl ⟨rfl, .inl h0⟩)
  · rw [if_neg h0] at he
    dsimp only at he
    split at he
    · rename_i h1
      rcases both he with k | k
      · exact .inl k
      · exact .inr (.inl ⟨k, .inr (by rw [h1]; exact .head _)⟩)
    · rename_i h1
      split at he
      · rename_i h2
        rcases both he with k | k
        · exact .inl k
        · exact .inr (.inl ⟨k, .inr (by rw [h2]; exact .tail _ (.head _))⟩)
      · rename_i h2
        cases he
        refine .inr (.inr ⟨rfl, not_not.1 h0, ?_⟩)
        intro hm
        rcases List.mem_cons.1 hm with hm | hm
        · exact h1 hm
        · exact h2 (List.mem_singleton.1 hm)

/-- **C99 is violated** for attestations: a fault of the store is told as `unauthorized_client`, and a proof of possession
that is not acceptable is refused without any code. -/
theorem C99_attestation_violated :
    (∃ P req tr r, Exec (clientAttestation P (some req)) tr (.done r) ∧ ⟨.clientsGet g!"evil", .error .other⟩ ∈ tr ∧
      r = toldCode .unauthorizedClient) ∧
    (∃ P req tr r, Exec (clientAttestation P (some req)) tr (.done r) ∧ r = ⟨none, true⟩) := by
  refine ⟨⟨demoP, ⟨some typeAttestation, some g!"att~pop"⟩, _, _,
    oracle_done (fun | .clientsGet _ => .error .other | c => demoAns c) _ (fail .unauthorizedClient) (by decide +kernel), ?_, rfl⟩, ?_⟩
  · refine List.mem_of_getElem? (i := 2) ?_
    rfl
  · exact ⟨{ demoP with popClaims := fun _ => none }, ⟨some typeAttestation, some g!"att~pop"⟩, _, _,
      oracle_done demoAns _ ⟨none, true⟩ (by decide +kernel), rfl⟩

/-- **C99 is violated** over HTTP: without any credentials the answer is `invalid_request` (RFC 6749 section 5.2 prescribes
`invalid_client` when no client authentication is included), and a fault of the store is the client's fault. -/
theorem C99_http_violated (S : Http.Server) (r : Http.Req) (h : Option Client → Prog Http.Resp) (tr : List Ev) (a : Http.Resp)
    (he : Exec (Http.clientAuth S r h) tr (.done a)) :
    (r.get g!"client_id" = [] → r.postValue g!"client_assertion_type" = [] → a = ⟨401, .error .invalidRequest⟩) ∧
    (∀ tr', r.get g!"client_id" ≠ [] → tr = ⟨.clientsGet (r.get g!"client_id"), .error .other⟩ :: tr' →
      a = ⟨401, .error .invalidClient⟩) := by
  unfold Http.clientAuth at he
  constructor
  · intro h1 h2
    rw [if_neg (not_not.2 h1)] at he
    dsimp only at he
    rw [h2, if_neg (by decide), if_neg (by decide)] at he
    cases he
    rfl
  · rintro tr' h1 rfl
    rw [if_pos h1] at he
    simp only [Prog.call, bind_op, bind_ret] at he
    cases he with
    | step _ _ x tr' _ he => cases he; rfl

/-- Each reason occurs. -/
example : PrivReason demoP (some { demoReq with assertion := some [] }) [] .missing :=
  .missing (by rintro a ⟨q, h, -, h', h''⟩; cases h; cases h'; exact h'' rfl)
example : PrivReason { demoP with parse := fun _ => none } (some demoReq) [] .malformed :=
  .malformed g!"assertion" ⟨demoReq, rfl, rfl, rfl, by decide⟩ (by rintro t c ⟨a, -, h, -⟩; cases h)
example : ∃ tr r, Exec (privateKeyJwt demoP (some demoReq)) tr (.done r) ∧ r = fail .invalidRequest :=
  oracle_ex (fun | .now => (2000000000000000 : Nat) | c => demoAns c) _ (fun r : AuthResult => r = fail .invalidRequest) (by decide +kernel)
example : ∃ tr r, Exec (privateKeyJwt demoP (some demoReq)) tr (.done r) ∧ r = fail .invalidClient :=
  oracle_ex (fun | .clientsGet _ => .error .notFound | c => demoAns c) _ (fun r : AuthResult => r = fail .invalidClient) (by decide +kernel)
example : ∃ tr r, Exec (privateKeyJwt demoP (some demoReq)) tr (.done r) ∧ r = fail .serverError :=
  oracle_ex (fun | .clientsGet _ => .error .other | c => demoAns c) _ (fun r : AuthResult => r = fail .serverError) (by decide +kernel)
example : ∃ tr r, Exec (clientAttestation { demoP with parse := fun s => if s = g!"pop" then none else demoP.parse s }
    (some ⟨some typeAttestation, some g!"att~pop"⟩)) tr (.done r) ∧ r = fail .invalidRequest :=
  oracle_ex demoAns _ (fun r : AuthResult => r = fail .invalidRequest) (by decide +kernel)

end Verif.Props
