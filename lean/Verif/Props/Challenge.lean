import Verif.Model.Challenge
import Verif.Proofs.Challenge
import Verif.Proofs.RequestObject
import Verif.Proofs.Layers
import Verif.Props.ResourceServer
import Verif.Props.Headers

/-! What the resource server tells whom it refuses (C100). -/
namespace Verif.Props
open Verif.Spec Verif.Prog Verif.ResourceServer Verif.Headers
open Verif.ClientAuth (cut cut_some cut_append)

/-- The request shows a token that introspection reports as active with the metadata `m`: an unbound
one as a bearer token, or one bound to the key of a proof that is accepted with the calls `tr`. -/
def Shows (E : Env) (cli : Cli) (r : ResourceServer.Req) (tr : List Ev) (m : TokenMeta) : Prop :=
  ∃ a tok t, cli.assertion = some a ∧ cli.introspect a tok = .ok t ∧ t.status = .active ∧ t.metadata = some m ∧
    ((Presents r.authorization g!"bearer" tok ∧ t.confirmation = none ∧ tr = []) ∨
     (Presents r.authorization g!"dpop" tok ∧ ∃ c, t.confirmation = some c ∧
        Exec (DPoP.verify E ⟨r.method, r.url, r.dpop, some tok, none⟩) tr (.done (some c.jkt))))

/-- The header challenges for a bearer token, names the error and the resource, and says what else
is wanted. -/
def Challenges (h : Header) (code : Str) (wanted : List (Str × Str)) : Prop :=
  ∃ text d, Headers.get h g!"WWW-Authenticate" = some text ∧
    Challenge text g!"Bearer" ([(g!"error", code), (g!"error_description", d), (g!"resource", g!"http://127.0.0.1:8085")] ++ wanted)

/-- Complete runs with the same answers end alike. -/
theorem exec_same {α : Type} {p : Prog α} {tr : List Ev} {a b : α} (h : Exec p tr (.done a)) (h' : Exec p tr (.done b)) : a = b := by
  induction p generalizing tr with
  | ret => cases h; cases h'; rfl
  | panic => cases h
  | op c k ih =>
    cases h with
    | step _ _ r _ _ h =>
      cases h' with
      | step _ _ _ _ _ h' => exact ih _ h h'

/-- The request is authenticated with the calls `tr`. -/
theorem shows_exec {E : Env} {cli : Cli} {r : ResourceServer.Req} {tr : List Ev} {m : TokenMeta} (h : Shows E cli r tr m) :
    (∃ tok, Presents r.authorization g!"bearer" tok ∧ Exec (authenticateWithBearer cli r) tr (.done (some (idOf m)))) ∨
    (∃ tok, Presents r.authorization g!"dpop" tok ∧ Exec (authenticateWithDPoP E cli r) tr (.done (some (idOf m)))) := by
  obtain ⟨a, tok, t, ha, hi, hs, hm, ⟨hp, hc, rfl⟩ | ⟨hp, c, hc, hv⟩⟩ := h
  · refine Or.inl ⟨tok, hp, ?_⟩
    obtain ⟨hcut, heq⟩ := cut_of_presents hp
    have : authenticateWithBearer cli r = .ret (some (idOf m)) := by
      unfold authenticateWithBearer
      rw [heq, hcut]
      simp [ha, bearerToken, hi, hs, hc, identity, hm, lift, idOf]
    rw [this]
    exact .ret _
  · refine Or.inr ⟨tok, hp, ?_⟩
    obtain ⟨hcut, heq⟩ := cut_of_presents hp
    unfold authenticateWithDPoP
    rw [if_neg (by simp [heq]), hcut]
    dsimp only
    have hl : dpopToken cli a tok c.jkt = .ok (idOf m) := by
      simp [dpopToken, hi, hs, hc, (C45_secureCompare _ _).2, identity, hm, idOf]
    rw [← List.append_nil tr]
    refine Http.exec_seq hv ?_
    simp only [ha, hl, lift]
    exact .ret _

theorem prefix_of_presents {hdr scheme tok : Str} (hl : Go.toLower scheme = scheme) (ha : Go.Ascii scheme)
    (hk : ∀ b ∈ scheme, b ≠ 115 ∧ b ≠ 83 ∧ b ≠ 107 ∧ b ≠ 75) (h : Presents hdr scheme tok) :
    hasPrefix (Go.toLower hdr) scheme = true := by
  obtain ⟨s, rfl, -, hs⟩ := h
  unfold hasPrefix
  rw [List.isPrefixOf_iff_prefix]
  refine ⟨Go.toLower (32 :: tok), ?_⟩
  rw [Go.toLower_append (by decide), (scheme_lower hs ha hk).2, hl]

theorem bearer_prefix {hdr tok : Str} (h : Presents hdr g!"bearer" tok) : hasPrefix (Go.toLower hdr) g!"bearer" = true :=
  prefix_of_presents (by decide) (by decide) (by decide) h

theorem dpop_prefix {hdr tok : Str} (h : Presents hdr g!"dpop" tok) : hasPrefix (Go.toLower hdr) g!"dpop" = true :=
  prefix_of_presents (by decide) (by decide) (by decide) h

theorem not_both {s : Str} (h : hasPrefix s g!"bearer" = true) : ¬ hasPrefix s g!"dpop" = true := by
  unfold hasPrefix at *
  rw [List.isPrefixOf_iff_prefix] at *
  rintro ⟨t, ht⟩
  obtain ⟨t', ht'⟩ := h
  rw [← ht'] at ht
  cases ht

theorem get_challenge (text : Str) {n : Nat} {h : Header} (e : challenge text = .refused n h) :
    n = 401 ∧ Headers.get h g!"WWW-Authenticate" = some text := by
  cases e
  refine ⟨rfl, ?_⟩
  rw [get_set_other _ _ (by decide), get_set_other _ _ (by decide)]
  exact get_set_same _ _ rfl

theorem get_plain {n m : Nat} {h : Header} (e : httpError m [] = .refused n h) :
    n = m ∧ Headers.get h g!"WWW-Authenticate" = none := by
  cases e
  exact ⟨rfl, by decide +kernel⟩

theorem authParam_text {n v : Str} (hn : IsToken n) (h : ∀ b ∈ v, QuotedByte b) : AuthParam (n ++ 61 :: 34 :: v ++ [34]) (n, v) :=
  .quoted hn (quotedText_plain h)

/-- The beginning of all challenges. -/
theorem challenge_with {text code d t : Str} {l : List (Str × Str)} (hc : ∀ b ∈ code, QuotedByte b) (hd : ∀ b ∈ d, QuotedByte b)
    (e : text = g!"Bearer " ++ ((g!"error" ++ 61 :: 34 :: code ++ [34]) ++ g!", " ++ ((g!"error_description" ++ 61 :: 34 :: d ++ [34]) ++ g!", " ++
      ((g!"resource" ++ 61 :: 34 :: g!"http://127.0.0.1:8085" ++ [34]) ++ g!", " ++ t)))) (ht : AuthParams t l) :
    Challenge text g!"Bearer" ([(g!"error", code), (g!"error_description", d), (g!"resource", g!"http://127.0.0.1:8085")] ++ l) := by
  have := Challenge.mk (scheme := g!"Bearer") (by decide) (authParams_more (authParam_text (n := g!"error") (by decide) hc)
    (authParams_more (authParam_text (n := g!"error_description") (by decide) hd)
      (authParams_more (authParam_text (n := g!"resource") (v := g!"http://127.0.0.1:8085") (by decide) (by decide +kernel)) ht)))
  rw [e]
  exact this

theorem challenge_alone {text code d : Str} (hc : ∀ b ∈ code, QuotedByte b) (hd : ∀ b ∈ d, QuotedByte b)
    (e : text = g!"Bearer " ++ ((g!"error" ++ 61 :: 34 :: code ++ [34]) ++ g!", " ++ ((g!"error_description" ++ 61 :: 34 :: d ++ [34]) ++ g!", " ++
      (g!"resource" ++ 61 :: 34 :: g!"http://127.0.0.1:8085" ++ [34])))) :
    Challenge text g!"Bearer" ([(g!"error", code), (g!"error_description", d), (g!"resource", g!"http://127.0.0.1:8085")] ++ []) := by
  have := Challenge.mk (scheme := g!"Bearer") (by decide) (authParams_more (authParam_text (n := g!"error") (by decide) hc)
    (authParams_more (authParam_text (n := g!"error_description") (by decide) hd)
      (.one (authParam_text (n := g!"resource") (v := g!"http://127.0.0.1:8085") (by decide) (by decide +kernel)))))
  rw [e]
  exact this

theorem isToken_decimal {n : Nat} : IsToken (RequestObject.decimal n) := by
  refine ⟨RequestObject.digits_ne, fun b hb => ?_⟩
  have := RequestObject.digits_all b hb
  revert this
  revert b
  have k : ∀ b : UInt8, RequestObject.isDigit b = true → TokenByte b := by
    apply Go.bytes_all
    decide +kernel
  intro b _ h
  exact k b h


theorem decimal_of {n : Nat} (h : n < 2 ^ 64) : Decimal (RequestObject.decimal n) n := by
  have hlt : n < 10 ^ 20 := Nat.lt_of_lt_of_le h (by decide)
  refine ⟨RequestObject.digits_ne, fun b hb => ?_, RequestObject.digits_head hlt, (RequestObject.numOf_digits hlt).symm⟩
  have := RequestObject.digits_all b hb
  simpa [RequestObject.isDigit] using this

/-- What follows the authentication of `id`. -/
theorem authorizeH_some {intent : Str} {acr : List Str} {max : Nat} {m : TokenMeta} {tr : List Ev} {n : Nat} {hd : Header}
    (hacr : Line (Go.join g!" " acr)) (hmax : max < 2 ^ 64)
    (h : Exec (authorizeH intent acr max (some (idOf m))) tr (.done (.refused n hd))) :
    (∃ x now text, m.authTime = some x ∧ 0 < max ∧ tr = [⟨.now, now⟩] ∧
      (seconds now < 2 ^ 64 → x + max < 2 ^ 64 → ¬ (x ≤ seconds now ∧ seconds now ≤ x + max)) ∧ n = 401 ∧ Decimal text max ∧
      Challenges hd g!"insufficient_user_authentication" [(g!"max_age", text)]) ∨
    (∃ x, m.acr = some x ∧ acr ≠ [] ∧ ¬ MemFold x acr ∧ n = 401 ∧
      Challenges hd g!"insufficient_user_authentication" [(g!"acr_values", Go.join g!" " acr)]) ∨
    (¬ Permitted intent m ∧ n = 403 ∧ Headers.get hd g!"WWW-Authenticate" = none) := by
  unfold authorizeH at h
  obtain ⟨t1, t2, b, rfl, h1, h2⟩ := exec_bind_done h
  cases b with
  | false =>
    left
    simp only [Bool.false_eq_true, if_false] at h2
    unfold ageOk at h1
    cases hx : m.authTime with
    | none =>
      have : (idOf m).authTime = none := hx
      rw [this] at h1
      cases h1
    | some x =>
      have : (idOf m).authTime = some x := hx
      rw [this] at h1
      by_cases hm : max > 0
      · simp only [hm, if_true] at h1
        cases h1 with
        | step _ _ now _ _ h1 =>
          have e : ∀ {b : Bool} {tr : List Ev}, Exec (Prog.ret b) tr (.done false) → b = false ∧ tr = [] := by
            intro b tr h
            cases h
            exact ⟨rfl, rfl⟩
          obtain ⟨e1, rfl⟩ := e h1
          have e1 : tooLongAgo now x max = true := by simpa using e1
          generalize hc : challenge _ = c at h2
          cases h2
          obtain ⟨hn, hg⟩ := get_challenge _ hc
          refine ⟨x, now, RequestObject.decimal max, rfl, hm, by simp, fun k1 k2 k3 => ?_, hn, ?_, _, g!"More recent authentication is required", hg, ?_⟩
          · rw [(tooLongAgo_iff k1 k2).2 k3] at e1
            cases e1
          · exact decimal_of hmax
          · refine challenge_with (by decide +kernel) (by decide +kernel) ?_ (.one (.token (n := g!"max_age") (by decide +kernel) isToken_decimal))
            rfl
      · simp only [hm, if_false] at h1
        cases h1
  | true =>
    right
    simp only [if_true] at h2
    by_cases ha : acrOk acr (idOf m) = true
    · right
      simp only [ha, Bool.not_true, Bool.false_eq_true, if_false] at h2
      by_cases hc : can (idOf m) intent = true
      · simp only [hc, Bool.not_true, Bool.false_eq_true, if_false] at h2
        cases h2
      · rw [if_pos (by simpa using hc)] at h2
        generalize he : httpError _ _ = c at h2
        cases h2
        obtain ⟨hn, hg⟩ := get_plain he
        exact ⟨fun hp => hc ((can_iff _ _ m rfl rfl).2 hp), hn, hg⟩
    · left
      rw [if_pos (by simpa using ha)] at h2
      generalize hc : challenge _ = c at h2
      cases h2
      obtain ⟨hn, hg⟩ := get_challenge _ hc
      unfold acrOk at ha
      cases hx : m.acr with
      | none =>
        have : (idOf m).acr = none := hx
        rw [this] at ha
        exact absurd rfl ha
      | some x =>
        have : (idOf m).acr = some x := hx
        rw [this] at ha
        simp only at ha
        split at ha
        · rename_i hl
          refine ⟨x, rfl, List.length_pos_iff.1 hl, fun hm => ha ((contains_iff _ _).2 hm), hn, _,
            g!"A different authentication level is required", hg, ?_⟩
          refine challenge_with (by decide +kernel) (by decide +kernel) ?_
            (.one (authParam_quote (n := g!"acr_values") (by decide +kernel) hacr))
          rfl
        · exact absurd rfl ha

theorem authorizeH_none {intent : Str} {acr : List Str} {max : Nat} {tr : List Ev} {n : Nat} {hd : Header}
    (h : Exec (authorizeH intent acr max none) tr (.done (.refused n hd))) :
    tr = [] ∧ n = 401 ∧ Challenges hd g!"invalid_token" [] := by
  unfold authorizeH at h
  generalize hc : challenge _ = c at h
  cases h
  obtain ⟨hn, hg⟩ := get_challenge _ hc
  exact ⟨rfl, hn, _, g!"The access token provided is expired, revoked, malformed, or invalid for other reasons", hg,
    challenge_alone (by decide +kernel) (by decide +kernel) rfl⟩

/-- **C100.** Whom the resource server refuses is told why, and how to do better: without credentials and
without an acceptable token 401 with the error, after an authentication that is too old or of the
wrong level 401 with the age or the levels that are wanted (RFC 9470 section 3), of an unknown scheme
400 and without permission 403. The challenges are well-formed (RFC 9110 section 11.3). -/
theorem C100_told (E : Env) (cli : Cli) (intent : Str) (acr : List Str) (max : Nat) (r : ResourceServer.Req) (tr : List Ev)
    (n : Nat) (hd : Header) (hacr : Line (Go.join g!" " acr)) (hmax : max < 2 ^ 64)
    (h : Exec (authorizerH E cli intent acr max r) tr (.done (.refused n hd))) :
    (r.authorization = [] ∧ n = 401 ∧ Challenges hd g!"invalid_request" []) ∨
    (r.authorization ≠ [] ∧ (∀ tok, ¬ Presents r.authorization g!"bearer" tok ∧ ¬ Presents r.authorization g!"dpop" tok) ∧
      n = 400 ∧ Headers.get hd g!"WWW-Authenticate" = none) ∨
    (r.authorization ≠ [] ∧ (∀ m, ¬ Shows E cli r tr m) ∧ n = 401 ∧ Challenges hd g!"invalid_token" []) ∨
    ∃ t1 t2 m, tr = t1 ++ t2 ∧ Shows E cli r t1 m ∧
      ((∃ x now text, m.authTime = some x ∧ 0 < max ∧ t2 = [⟨.now, now⟩] ∧
        (seconds now < 2 ^ 64 → x + max < 2 ^ 64 → ¬ (x ≤ seconds now ∧ seconds now ≤ x + max)) ∧ n = 401 ∧ Decimal text max ∧
        Challenges hd g!"insufficient_user_authentication" [(g!"max_age", text)]) ∨
      (∃ x, m.acr = some x ∧ acr ≠ [] ∧ ¬ MemFold x acr ∧ n = 401 ∧
        Challenges hd g!"insufficient_user_authentication" [(g!"acr_values", Go.join g!" " acr)]) ∨
      (¬ Permitted intent m ∧ n = 403 ∧ Headers.get hd g!"WWW-Authenticate" = none)) := by
  unfold authorizerH at h
  by_cases h0 : r.authorization = []
  · rw [if_pos h0] at h
    generalize hc : challenge _ = c at h
    cases h
    obtain ⟨hn, hg⟩ := get_challenge _ hc
    exact Or.inl ⟨h0, hn, _, g!"No access token provided in this request", hg,
      challenge_alone (by decide +kernel) (by decide +kernel) rfl⟩
  right
  rw [if_neg h0] at h
  by_cases hb : hasPrefix (Go.toLower r.authorization) g!"bearer" = true
  · right
    rw [if_pos hb] at h
    obtain ⟨t1, t2, o, rfl, h1, h2⟩ := exec_bind_done h
    cases o with
    | none =>
      left
      obtain ⟨rfl, hn, hc⟩ := authorizeH_none h2
      refine ⟨h0, fun m hs => ?_, hn, hc⟩
      rw [List.append_nil] at hs
      rcases shows_exec hs with ⟨tok, hp, he⟩ | ⟨tok, hp, he⟩
      · cases exec_same h1 he
      · exact not_both hb (dpop_prefix hp)
    | some id =>
      right
      obtain ⟨a, tok, t, m, hp, ha, hi, hs, hc, hm, rfl⟩ := bearer_some h1
      have ht : t1 = [] := by
        obtain ⟨hcut, heq⟩ := cut_of_presents hp
        have : authenticateWithBearer cli r = .ret (some (idOf m)) := by
          unfold authenticateWithBearer
          rw [heq, hcut]
          simp [ha, bearerToken, hi, hs, hc, identity, hm, lift, idOf]
        rw [this] at h1
        cases h1
        rfl
      exact ⟨t1, t2, m, rfl, ⟨a, tok, t, ha, hi, hs, hm, Or.inl ⟨hp, hc, ht⟩⟩, authorizeH_some hacr hmax h2⟩
  rw [if_neg hb] at h
  by_cases hd' : hasPrefix (Go.toLower r.authorization) g!"dpop" = true
  · right
    rw [if_pos hd'] at h
    obtain ⟨t1, t2, o, rfl, h1, h2⟩ := exec_bind_done h
    cases o with
    | none =>
      left
      obtain ⟨rfl, hn, hc⟩ := authorizeH_none h2
      refine ⟨h0, fun m hs => ?_, hn, hc⟩
      rw [List.append_nil] at hs
      rcases shows_exec hs with ⟨tok, hp, he⟩ | ⟨tok, hp, he⟩
      · exact hb (bearer_prefix hp)
      · cases exec_same h1 he
    | some id =>
      right
      obtain ⟨a, tok, t, m, c, hp, ha, hi, hs, hc, hm, rfl, hv⟩ := dpop_some h1
      exact ⟨t1, t2, m, rfl, ⟨a, tok, t, ha, hi, hs, hm, Or.inr ⟨hp, c, hc, hv⟩⟩, authorizeH_some hacr hmax h2⟩
  · rw [if_neg hd'] at h
    left
    generalize hc : httpError _ _ = c at h
    cases h
    obtain ⟨hn, hg⟩ := get_plain hc
    exact ⟨h0, fun tok => ⟨fun hp => hb (bearer_prefix hp), fun hp => hd' (dpop_prefix hp)⟩, hn, hg⟩

/-- **C100** (refinement). Without the headers these are the answers of `authorizer`. -/
theorem C100_refines (E : Env) (cli : Cli) (intent : Str) (acr : List Str) (max : Nat) (r : ResourceServer.Req) :
    (authorizerH E cli intent acr max r >>= fun a => .ret a.plain) = authorizer E cli intent acr max r := by
  have k : ∀ o, (authorizeH intent acr max o >>= fun a => .ret a.plain) = authorize intent acr max o := by
    intro o
    cases o with
    | none => rfl
    | some id =>
      unfold authorizeH authorize
      rw [Prog.bind_assoc']
      congr 1
      funext b
      cases b
      · rfl
      · simp only [if_true]
        split
        · rfl
        · split <;> rfl
  unfold authorizerH authorizer
  split
  · rfl
  split
  · rw [Prog.bind_assoc']
    simp only [k]
  split
  · rw [Prog.bind_assoc']
    simp only [k]
  · rfl

/-- **C100** (negation). No challenge of the resource server is one for DPoP, also when a DPoP request is
refused (RFC 9449 section 7.1). -/
theorem C100_dpop_violated (E : Env) (cli : Cli) (intent : Str) (acr : List Str) (max : Nat) (r : ResourceServer.Req) (tr : List Ev)
    (n : Nat) (hd : Header) (hacr : Line (Go.join g!" " acr)) (hmax : max < 2 ^ 64)
    (h : Exec (authorizerH E cli intent acr max r) tr (.done (.refused n hd))) (text scheme : Str) (l : List (Str × Str))
    (ht : Headers.get hd g!"WWW-Authenticate" = some text) (hc : Challenge text scheme l) : scheme = g!"Bearer" := by
  have k : ∀ {code ps}, Challenges hd code ps → scheme = g!"Bearer" := by
    rintro code ps ⟨text', d, h1, h2⟩
    rw [ht] at h1
    cases h1
    exact (challenge_unique hc h2).1
  rcases C100_told E cli intent acr max r tr n hd hacr hmax h with ⟨-, -, h⟩ | ⟨-, -, -, h⟩ | ⟨-, -, -, h⟩ |
    ⟨_, _, _, -, -, ⟨_, _, _, -, -, -, -, -, -, h⟩ | ⟨_, -, -, -, -, h⟩ | ⟨-, -, h⟩⟩
  · exact k h
  · rw [ht] at h; cases h
  · exact k h
  · exact k h
  · exact k h
  · rw [ht] at h; cases h

/-- **C100** (negation). A request without credentials is told an error code (RFC 6750 section 3.1: it should
not be). -/
theorem C100_no_credentials_violated (E : Env) (cli : Cli) (intent : Str) (acr : List Str) (max : Nat) (r : ResourceServer.Req)
    (h : r.authorization = []) : ∃ hd text l, Exec (authorizerH E cli intent acr max r) [] (.done (.refused 401 hd)) ∧
      Headers.get hd g!"WWW-Authenticate" = some text ∧ Challenge text g!"Bearer" l ∧ (g!"error", g!"invalid_request") ∈ l := by
  refine ⟨_, _, _, ?_, (get_challenge _ rfl).2, challenge_alone (code := g!"invalid_request")
    (d := g!"No access token provided in this request") (by decide +kernel) (by decide +kernel) rfl, by simp⟩
  unfold authorizerH
  rw [if_pos h]
  exact .ret _

/-- **C100** (negation). Whom a token does not permit what it asks for is not challenged (RFC 6750 section 3:
every request whose token does not enable access is). -/
theorem C100_forbidden_violated : ∃ (E : Env) (cli : Cli) (m : TokenMeta) (r : ResourceServer.Req) (hd : Header),
    Shows E cli r [] m ∧ ¬ Permitted g!"timestamp:read" m ∧
    Exec (authorizerH E cli g!"timestamp:read" [g!"urn:solid:loa:1fa:any"] 30 r) [] (.done (.refused 403 hd)) ∧
    Headers.get hd g!"WWW-Authenticate" = none :=
  ⟨Demo.env, demoCli { status := .active, metadata := some { clientId := g!"other" } }, { clientId := g!"other" },
    { method := g!"GET", target := { host := g!"rs", path := g!"/" }, authorization := g!"Bearer tok" }, _,
    ⟨g!"assertion", g!"tok", _, rfl, rfl, rfl, rfl, Or.inl ⟨⟨g!"Bearer", by decide, by decide, by decide⟩, rfl, rfl⟩⟩,
    by unfold Permitted; decide, .ret _, by decide +kernel⟩

/-- **C96** (grammar). The challenges of the authorization server are well-formed as well: the login asks for
a password for "Restricted", everything else names the realm, the error and its description. -/
theorem C96_grammar (S : Http.Server) (host nonce : Str) (route : Http.Route) (r : Http.Req) (tr : List Ev) (y : Headers.Reply)
    (hnil : ∀ id, ⟨.clientsGet id, .ok none⟩ ∉ tr) (hh : Line host) (h : Exec (serveH S host nonce route r) tr (.done y))
    (hs : y.resp.status = 401) : ∃ text scheme l, Headers.get y.header g!"WWW-Authenticate" = some text ∧ Challenge text scheme l ∧
      ((scheme = g!"Basic" ∧ l = [(g!"realm", g!"Restricted")]) ∨
       (scheme = g!"Bearer" ∧ ∃ c d, y.resp.body = .error c ∧
          l = [(g!"realm", host), (g!"error", Discovery.codeText c), (g!"error_description", d)])) := by
  have hq : ∀ c, quote (Discovery.codeText c) = g!"\"" ++ Discovery.codeText c ++ g!"\"" := by
    intro c
    cases c <;> decide +kernel
  rcases reply_cases hnil h with rfl | ⟨k, k'⟩
  · exact ⟨_, g!"Basic", _, get_set_same _ _ rfl, .mk (scheme := g!"Basic") (t := g!"realm=Restricted") (by decide)
      (.one (.token (n := g!"realm") (v := g!"Restricted") (by decide) (by decide))), Or.inl ⟨rfl, rfl⟩⟩
  obtain ⟨hd, a⟩ := y
  dsimp only at hs k k' ⊢
  have hx : ∃ h0, hd = written (ctx host nonce r) a h0 := k'.elim (fun k => ⟨_, k.2⟩) fun k => ⟨_, k.2⟩
  obtain ⟨h0, rfl⟩ := hx
  rcases k with k | ⟨n, c, rfl, hn⟩ | ⟨_, rfl⟩
  · cases route <;> simp only [Accepted] at k
    · obtain ⟨_, _, _, rfl⟩ := k; simp at hs
    · obtain ⟨_, _, rfl⟩ := k; simp at hs
    · obtain ⟨_, rfl⟩ := k; simp at hs
    · obtain ⟨_, rfl⟩ := k; simp at hs
    · subst k; simp at hs
    · obtain ⟨_, _, _, _, _, rfl⟩ := k; simp at hs
    · rcases k with rfl | rfl <;> simp at hs
  · have hl : ∀ c, Line (Discovery.codeText c) ∧ Line (Discovery.description c) := by
      intro c
      cases c <;> decide +kernel
    refine ⟨_, g!"Bearer", _, (error_fields (ctx host nonce r) n c h0 hn).2, ?_, Or.inr ⟨rfl, c, Discovery.description c, rfl, rfl⟩⟩
    have := Challenge.mk (scheme := g!"Bearer") (by decide) (authParams_more (authParam_quote (n := g!"realm") (by decide) hh)
      (authParams_more (authParam_quote (n := g!"error") (by decide) (hl c).1)
        (.one (authParam_quote (n := g!"error_description") (by decide) (hl c).2))))
    simpa [ctx] using this
  · simp at hs

/-! ### Examples -/

/-- A user who authenticated too long ago, one at a level that is not asked for, and one without a proof (C100_told). -/
example : (∃ tr hd, Exec (authorizerH Demo.env (demoCli demoStep) g!"timestamp:read" [g!"loa1"] 5
      { method := g!"GET", target := { host := g!"rs", path := g!"/" }, authorization := g!"Bearer tok" }) tr (.done (.refused 401 hd))) ∧
    (∃ tr hd, Exec (authorizerH Demo.env (demoCli demoStep) g!"timestamp:read" [g!"loa2"] 30
      { method := g!"GET", target := { host := g!"rs", path := g!"/" }, authorization := g!"Bearer tok" }) tr (.done (.refused 401 hd))) ∧
    (∃ tr hd, Exec (authorizerH Demo.env (demoCli demoStep) g!"timestamp:read" [g!"loa2"] 30
      { method := g!"GET", target := { host := g!"rs", path := g!"/" }, authorization := g!"DPoP tok" }) tr (.done (.refused 401 hd))) ∧
    Line (Go.join g!" " [g!"loa1", g!"loa2"]) ∧ (30 : Nat) < 2 ^ 64 := by
  have k : ∀ (acr : List Str) (max : Nat) (hdr : Str),
      ((authorizerH Demo.env (demoCli demoStep) g!"timestamp:read" acr max
        { method := g!"GET", target := { host := g!"rs", path := g!"/" }, authorization := hdr }).oracle Demo.answers).2.get?.any
        (fun a => decide (a.plain = .status 401)) = true →
      ∃ tr hd, Exec (authorizerH Demo.env (demoCli demoStep) g!"timestamp:read" acr max
        { method := g!"GET", target := { host := g!"rs", path := g!"/" }, authorization := hdr }) tr (.done (.refused 401 hd)) := by
    intro acr max hdr h
    obtain ⟨tr, a, h1, h2⟩ := oracle_ex Demo.answers _ (fun a : Told => a.plain = Ans.status 401) h
    cases a with
    | passed => cases h2
    | refused n hd => cases h2; exact ⟨tr, hd, h1⟩
  exact ⟨k _ _ _ (by decide +kernel), k _ _ _ (by decide +kernel), k _ _ _ (by decide +kernel), by decide +kernel, by decide⟩

/-- What the users who authenticated long ago read (C100_told). -/
example : Challenge g!"Bearer error=\"insufficient_user_authentication\", error_description=\"More recent authentication is required\", resource=\"http://127.0.0.1:8085\", max_age=30"
    g!"Bearer" [(g!"error", g!"insufficient_user_authentication"), (g!"error_description", g!"More recent authentication is required"),
      (g!"resource", g!"http://127.0.0.1:8085"), (g!"max_age", g!"30")] :=
  challenge_with (by decide +kernel) (by decide +kernel) rfl (.one (.token (n := g!"max_age") (by decide +kernel) (by decide +kernel)))

end Verif.Props
