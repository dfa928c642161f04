import Verif.Proofs.Lib
import Verif.Proofs.Blank
import Verif.Proofs.PushUri
import Verif.Props.Codes

/-!
The SDK's small libraries: generators (C17, C56), string lists (C44), constant-time
comparison (C45), PKCE helper (C48) and pairwise subjects (C49).
-/
namespace Verif.Props
open Verif.Spec Verif.Prog Verif.Lib Verif.Store

/-! ### Helpers -/

theorem stdChars_alnum : ∀ b ∈ stdChars, isAlnum b = true ∧ (b < 0x80 ∧ Go.isSpace [b] = false) ∧ b ≠ 58 := by decide

theorem genCode32_mem {rnd : Nat → Nat} {b : UInt8} (h : b ∈ genCode32 rnd) : b ∈ stdChars :=
  newLenChars_mem (by decide) h

theorem uriMatch_colon : ∀ {s : Str}, uriMatch s = true → (58 : UInt8) ∈ s
  | [], h => by simp [uriMatch, uriMatchHere] at h
  | b :: r, h => by
    simp only [uriMatch, Bool.or_eq_true] at h
    rcases h with h | h
    · simp only [uriMatchHere, Bool.and_eq_true, List.isPrefixOf_iff_prefix] at h
      exact h.1.1.subset (by decide)
    · exact List.mem_cons_of_mem _ (uriMatch_colon h)

/-! ### C17 -/

/-- **C17 violated.** No request URI the shipped generator can produce passes the
shipped syntax check. -/
theorem C17_violated (rnd : Nat → Nat) : validateUri (genCode32 rnd) = false := by
  rw [Bool.eq_false_iff]
  intro h
  unfold validateUri at h
  rw [Go.trimSpace_ascii (fun b hb => (stdChars_alnum b (genCode32_mem hb)).2.1)] at h
  exact (stdChars_alnum 58 (genCode32_mem (uriMatch_colon h))).2.2 rfl

/-- **C17 violated** (consequence). With the shipped generator, whose strings are the
only ones the push endpoint hands out, and the shipped syntax check, no
authorization request referring to a pushed request is ever answered with a code:
the pushed request flow cannot complete. -/
theorem C17_push_flow_dead (E : Env) (s : St) (ls : List Label) (hE : Empty s) (hK : NoKeyClash E (run E s ls))
    (hval : ∀ i u, E.requestUriOk i u = validateUri u)
    (hgen : ∀ e ∈ (run E s ls).log, ∀ i u, e.ev E = ⟨.genUri i, .ok u⟩ → ∃ rnd, u = genCode32 rnd)
    (j : Nat) (iss uri : Str) (q : AuthorizeReq) (a : AuthorizeResp) :
    ¬ CodeFromPush (run E s ls) j iss uri q a := by
  intro h
  obtain ⟨m, n, d, e0, e, ed, p, sub, r, eff, h1, h2, h3, h4, h5, h6, h7, h8, h9, h10, h11, _⟩ :=
    C15_pushed_verbatim E s ls hE hK j iss uri q a h
  -- the URI was produced by the generator
  have hu := entry_calls h3 h4 (calls_map (Authorization.register_uri E (some p)))
  obtain ⟨n', e', a1, a2, a3⟩ := mem_callsOf_iff.1 (hu _ _ _ h7)
  obtain ⟨rnd, rfl⟩ := hgen e' (List.mem_of_mem_take (List.mem_of_getElem? a1)) _ _ a3
  -- and it passed the check
  obtain ⟨r0, ha, -⟩ := h
  obtain ⟨th, t1, t2, -⟩ := ha
  have hask : Asked (run E s ls) e.tid (.authorize (some q)) := by
    rw [h10]; exact ⟨th, t1, t2⟩
  have hok := entry_calls h9 hask (calls_map (Authorization.authorize_uriOk E (some q)))
  have := hok _ _ (Entry.cmd_eq h11)
  rw [hval, C17_violated] at this
  simp at this

/-- **C17** (partial). Behind the prefix the check asks for, every generated string
is accepted. Missing from the full claim: the generator does not produce the prefix. -/
theorem C17_with_prefix_partial (rnd : Nat → Nat) : validateUri (g!"urn:solid:" ++ genCode32 rnd) = true := by
  have hlen : (genCode32 rnd).length = 32 := newLenChars_length ..
  unfold validateUri
  rw [Go.trimSpace_ascii]
  · have : uriMatchHere (g!"urn:solid:" ++ genCode32 rnd) = true := by
      simp only [uriMatchHere, Bool.and_eq_true, List.isPrefixOf_iff_prefix]
      refine ⟨⟨List.prefix_append .., ?_⟩, ?_⟩
      · simp [hlen]
      · rw [List.all_eq_true]
        intro b hb
        refine (stdChars_alnum b (genCode32_mem (rnd := rnd) ?_)).1
        simpa using List.mem_of_mem_take hb
    simp only [List.cons_append, uriMatch, Bool.or_eq_true] at this ⊢
    exact Or.inl this
  · intro b hb
    rcases List.mem_append.1 hb with hb | hb
    · clear * - hb
      revert b; decide
    · exact (stdChars_alnum b (genCode32_mem hb)).2.1

/-- **C17** (what the check asks for). Somewhere the prefix with 32 alphanumeric characters behind it; the check is not
anchored, so anything may stand around them. -/
theorem C17_check (s : Str) : validateUri s = true ↔ ∃ t a code b, Trimmed s t ∧ t = a ++ g!"urn:solid:" ++ code ++ b ∧
    code.length = 32 ∧ ∀ c ∈ code, c ∈ g!"ABCDEFGHIJKLMNOPQRSTUVWXYZabcdefghijklmnopqrstuvwxyz0123456789" := by
  have hal : ∀ c : UInt8, isAlnum c = true ↔ c ∈ g!"ABCDEFGHIJKLMNOPQRSTUVWXYZabcdefghijklmnopqrstuvwxyz0123456789" := by
    apply Go.bytes_all
    decide +kernel
  have here : ∀ t, uriMatchHere t = true ↔ ∃ code b, t = g!"urn:solid:" ++ code ++ b ∧ code.length = 32 ∧
      ∀ c ∈ code, c ∈ g!"ABCDEFGHIJKLMNOPQRSTUVWXYZabcdefghijklmnopqrstuvwxyz0123456789" := by
    intro t
    simp only [uriMatchHere, Bool.and_eq_true, List.isPrefixOf_iff_prefix, beq_iff_eq, List.all_eq_true]
    constructor
    · rintro ⟨⟨⟨u, rfl⟩, h2⟩, h3⟩
      refine ⟨u.take 32, u.drop 32, by simp, by simpa using h2, fun c hc => (hal c).1 (h3 c (by simpa using hc))⟩
    · rintro ⟨code, b, rfl, h2, h3⟩
      refine ⟨⟨⟨code ++ b, by simp⟩, ?_⟩, fun c hc => (hal c).2 (h3 c ?_)⟩
      · simp [h2]
      · have : ((g!"urn:solid:" ++ code ++ b).drop 10).take 32 = code := by
          rw [List.append_assoc, show (10 : Nat) = g!"urn:solid:".length from rfl, List.drop_left, ← h2, List.take_left]
        rwa [this] at hc
  have any : ∀ t, uriMatch t = true ↔ ∃ a r, t = a ++ r ∧ uriMatchHere r = true := by
    intro t
    induction t with
    | nil =>
      refine ⟨fun h => ⟨[], [], rfl, h⟩, ?_⟩
      rintro ⟨a, r, h, h'⟩
      obtain ⟨rfl, rfl⟩ := List.append_eq_nil_iff.1 h.symm
      exact h'
    | cons x t ih =>
      rw [uriMatch, Bool.or_eq_true, ih]
      constructor
      · rintro (h | ⟨a, r, rfl, h⟩)
        · exact ⟨[], _, rfl, h⟩
        · exact ⟨x :: a, r, rfl, h⟩
      · rintro ⟨a, r, h, h'⟩
        cases a with
        | nil => exact .inl (by rw [h]; exact h')
        | cons y a =>
          obtain ⟨rfl, rfl⟩ := List.cons.inj h
          exact .inr ⟨a, r, rfl, h'⟩
  rw [validateUri, any]
  constructor
  · rintro ⟨a, r, ht, h⟩
    obtain ⟨code, b, rfl, h1, h2⟩ := (here r).1 h
    exact ⟨_, a, code, b, Go.trimSpace_trimmed s, by rw [ht]; simp, h1, h2⟩
  · rintro ⟨t, a, code, b, ht, rfl, h1, h2⟩
    exact ⟨a, _, by rw [(Go.trimmed_iff _ _).1 ht, List.append_assoc, List.append_assoc], (here _).2 ⟨code, b, by simp, h1, h2⟩⟩

example : validateUri (genCode32 fun i => i * i) = false := C17_violated _
example : genCode32 (fun i => i) = g!"ABCDEFGHIJKLMNOPQRSTUVWXYZabcdef" := by decide

/-- The example environment with the shipped syntax check. -/
def shippedEnv : Env := { Demo.env with requestUriOk := fun _ u => validateUri u }

/-- A push with the shipped generator, and an authorization referring to it. -/
def shippedPush : List Label :=
  .arrive (.register (some { issuer := Demo.issuer, client := some Demo.client, request := some Demo.request })) ::
    Demo.calls 0 [[], genCode32 (fun i => i), []] ++
  .arrive (.authorize (some { Demo.authorizeReq with
    request := some { requestUri := some (genCode32 fun i => i) } })) :: Demo.calls 1 [[], [], [], [], []]

/-- C17: the push succeeds, the authorization is refused. -/
example : NoKeyClash shippedEnv (run shippedEnv Demo.store shippedPush) ∧
    (∀ e ∈ (run shippedEnv Demo.store shippedPush).log, ∀ i u, e.ev shippedEnv = ⟨.genUri i, .ok u⟩ →
      ∃ rnd, u = genCode32 rnd) ∧
    ((run shippedEnv Demo.store shippedPush).threads.map Thread.answer) =
      [some (.register { requestUri := genCode32 (fun i => i), expiresIn := 60, issuer := Demo.issuer }),
       some (.authorize { error := some ⟨.invalidRequest, none⟩, goErr := true })] := by
  refine ⟨?_, ?_, by decide +kernel⟩
  · have h := Demo.noKeyClash_of (c := run shippedEnv Demo.store shippedPush) (by decide +kernel)
    intro e he e' he' k i n i' n' h1 h2 hk
    exact h e he e' he' k i n i' n' h1 h2 (by cases k <;> exact hk)
  · intro e he i u hev
    refine ⟨fun i => i, ?_⟩
    have h : ((run shippedEnv Demo.store shippedPush).log.all fun e => match e.ev shippedEnv with
      | ⟨.genUri _, .ok u⟩ => decide (u = genCode32 fun i => i)
      | _ => true) = true := by decide +kernel
    have := List.all_eq_true.1 h e he
    rw [hev] at this
    simpa using this

/-- **C58.** Codes and device codes of the shipped generators have 32 alphanumeric characters and pass the shipped syntax checks. -/
theorem C58_codes_accepted (rnd : Nat → Nat) : validateCode32 (genCode32 rnd) = true ∧ (genCode32 rnd).length = 32 ∧
    (∀ b ∈ genCode32 rnd, b ∈ g!"ABCDEFGHIJKLMNOPQRSTUVWXYZabcdefghijklmnopqrstuvwxyz0123456789") := by
  refine ⟨?_, newLenChars_length .., fun b hb => genCode32_mem hb⟩
  unfold validateCode32
  rw [Go.trimSpace_ascii (fun b hb => (stdChars_alnum b (genCode32_mem hb)).2.1)]
  simp [genCode32, newLenChars_length]

/-- **C58** (what the check asks for). 32 bytes between the blanks around them, whatever they are. -/
theorem C58_check (s t : Str) (h : Trimmed s t) : validateCode32 s = true ↔ t.length = 32 := by
  rw [validateCode32, (Go.trimmed_iff s t).1 h, beq_iff_eq]

example : Trimmed g!" abc\u2003" g!"abc" := (Go.trimmed_iff _ _).2 (by decide)

/-! ### C44 -/

/-- **C44** (words). What separates the words of a scope are the 25 white space characters of Unicode. -/
theorem C44_blank (s c : Str) (h : c ∈ Go.chunks s) : Go.isSpace c = true ↔ c ∈ blanks := Go.isSpace_iff h

/-- **C44** (`Contains`). -/
theorem C44_contains (l : List Str) (x : Str) : StringArray.contains l x = true ↔ MemFold x l := contains_iff l x

/-- **C44** (`HasOneOf`). -/
theorem C44_hasOneOf (l items : List Str) : StringArray.hasOneOf l items = true ↔ ∃ x ∈ items, MemFold x l := by
  induction items with
  | nil => simp [StringArray.hasOneOf]
  | cons i is ih =>
    unfold StringArray.hasOneOf
    split
    · rename_i h
      simp [(contains_iff l i).1 h]
    · rename_i h
      rw [ih]
      simp [mt (contains_iff l i).2 h]

theorem hasAllLoop_spec (l : List Str) : ∀ (items : List Str) (f : Bool),
    StringArray.hasAllLoop l f items = true ↔ (items = [] → f = true) ∧ ∀ x ∈ items, MemFold x l
  | [], f => by simp [StringArray.hasAllLoop]
  | i :: is, f => by
    unfold StringArray.hasAllLoop
    split
    · rename_i h
      rw [hasAllLoop_spec l is true]
      simp [(contains_iff l i).1 h]
    · rename_i h
      simp [mt (contains_iff l i).2 h]

/-- **C44** (`HasAll`, partial): for a non-empty list of items. -/
theorem C44_hasAll_partial (l items : List Str) (h : items ≠ []) :
    StringArray.hasAll l items = true ↔ ∀ x ∈ items, MemFold x l := by
  unfold StringArray.hasAll
  rw [hasAllLoop_spec]
  simp [h]

/-- **C44 violated** (`HasAll`): nothing at all is asked for, but the answer is no. -/
theorem C44_hasAll_violated (l : List Str) : StringArray.hasAll l [] = false ∧ ∀ x ∈ ([] : List Str), MemFold x l := by
  simp [StringArray.hasAll, StringArray.hasAllLoop]

/-- **C44** (`AddIfNotContains`): afterwards the item is a member, nothing else is
added or lost, and a member is not added again. -/
theorem C44_addIfNotContains (l : List Str) (x y : Str) :
    (MemFold y (StringArray.addIfNotContains l x) ↔ MemFold y l ∨ SameFold y x) ∧
    (MemFold x l → StringArray.addIfNotContains l x = l) ∧
    (¬ MemFold x l → StringArray.addIfNotContains l x = l ++ [x]) := by
  unfold StringArray.addIfNotContains
  split
  · rename_i h
    have hm := (contains_iff l x).1 h
    refine ⟨⟨Or.inl, ?_⟩, fun _ => rfl, fun h' => absurd hm h'⟩
    rintro (h | h)
    · exact h
    · obtain ⟨z, hz, e⟩ := hm
      exact ⟨z, hz, Eq.trans h e⟩
  · rename_i h
    have hm := mt (contains_iff l x).2 h
    refine ⟨?_, fun h' => absurd h' hm, fun _ => rfl⟩
    constructor
    · rintro ⟨z, hz, e⟩
      rcases List.mem_append.1 hz with hz | hz
      · exact Or.inl ⟨z, hz, e⟩
      · rw [List.mem_singleton] at hz
        exact Or.inr (hz ▸ e)
    · rintro (⟨z, hz, e⟩ | e)
      · exact ⟨z, List.mem_append_left _ hz, e⟩
      · exact ⟨x, by simp, e⟩

/-- **C44** (`Remove`, partial): at most the first occurrence disappears, the order
of the rest is kept; if the item occurs at most once it is no member afterwards.
Missing: further occurrences stay (`C44_remove_violated`). -/
theorem C44_remove_partial (l : List Str) (x : Str) :
    (¬ MemFold x l → StringArray.remove l x = l) ∧
    (MemFold x l → ∃ a y b, l = a ++ y :: b ∧ SameFold x y ∧ ¬ MemFold x a ∧ StringArray.remove l x = a ++ b) ∧
    (∀ y, ¬ SameFold x y → (y ∈ StringArray.remove l x ↔ y ∈ l)) ∧
    (l.countP (fun v => decide (SameFold x v)) ≤ 1 → ¬ MemFold x (StringArray.remove l x)) := by
  rcases remove_spec l x with ⟨h, hn⟩ | ⟨a, y, b, e, hy, ha, h⟩
  · exact ⟨fun _ => h, fun h' => absurd h' hn, fun y _ => by rw [h], fun _ => by rw [h]; exact hn⟩
  · refine ⟨fun h' => absurd ⟨y, by rw [e]; simp, hy⟩ h', fun _ => ⟨a, y, b, e, hy, ?_, h⟩, ?_, ?_⟩
    · rintro ⟨z, hz, hs⟩; exact ha z hz hs
    · intro z hz
      rw [h, e]
      have : z ≠ y := fun he => hz (he ▸ hy)
      simp [this]
    · intro hc
      rw [h]
      rintro ⟨z, hz, hs⟩
      rcases List.mem_append.1 hz with hz | hz
      · exact ha z hz hs
      · rw [e, List.countP_append, List.countP_cons] at hc
        have : 0 < b.countP (fun v => decide (SameFold x v)) := List.countP_pos_iff.2 ⟨z, hz, by simpa using hs⟩
        simp [hy] at hc
        omega

/-- **C44 violated** (`Remove`): a second occurrence survives. -/
theorem C44_remove_violated :
    MemFold g!"a" (StringArray.remove [g!"a", g!"b", g!"A"] g!"a") := by
  rw [← contains_iff]; decide

example : MemFold g!"OpenID" [g!"email", g!"openid"] := ⟨g!"openid", by decide, by decide⟩
example : StringArray.hasAll [g!"email", g!"openid"] [g!"OPENID", g!"email"] = true := by decide

/-! ### C45 -/

/-- **C45.** The comparison decides equality; in particular the truncation of the
lengths to 32 bits does not matter. -/
theorem C45_secureCompare (a b : Str) : secureCompare a b = true ↔ a = b := by
  unfold secureCompare
  rw [constantTimeEq_spec]
  by_cases h : a = b
  · subst h
    simp [constantTimeCompare_spec]
  · simp [constantTimeCompare_spec, h]

example : secureCompare g!"secret" g!"secret" = true := by decide
example : secureCompare g!"secret" g!"secreT" = false := by decide

/-! ### C48 -/

/-- **C48.** The verifier of a generated pair has the length the token endpoint
asks for and the challenge the length the authorization endpoint asks for; the
token endpoint's recomputation of the challenge gives the challenge. -/
theorem C48_pair_accepted (E : Env) (hE : E.WF) (random : Str) (hr : random.length = 96)
    (cl : Client) (g : GrantCode) (ar : AuthzRequest) (hg : g.codeVerifier = (codeVerifier E random).1)
    (hc : ar.codeChallenge = (codeVerifier E random).2) (hm : ar.codeChallengeMethod = g!"S256")
    (hu : ar.redirectUri = g.redirectUri) (hreg : MemFold g.redirectUri cl.redirectUris) :
    43 ≤ g.codeVerifier.length ∧ g.codeVerifier.length ≤ 128 ∧ ar.codeChallenge.length = 43 ∧
      TokenSvc.codeChecks E cl g ar = none := by
  have hl : g.codeVerifier.length = 128 := by rw [hg]; simp [codeVerifier, Go.b64_length, hr]
  refine ⟨by omega, by omega, by rw [hc]; simp [codeVerifier, Go.b64_length, hE.sha256_len], ?_⟩
  unfold TokenSvc.codeChecks
  have hcc : Go.b64 (E.sha256 g.codeVerifier) = ar.codeChallenge := by rw [hg, hc]; rfl
  rw [if_neg (by simp [hu]), if_neg (by simpa using (contains_iff _ _).2 hreg), if_pos (by rw [hm]; rfl), if_neg (by simp [hcc])]

/-- **C48 violated.** The library's own `Validate` refuses every generated pair:
it compares the decoded challenge with the decoded verifier without hashing. -/
theorem C48_validate_violated (E : Env) (hE : E.WF) (random : Str) (hr : random.length = 96) :
    pkceValidate (codeVerifier E random).2 (codeVerifier E random).1 = some false := by
  have hne : ∀ s : Str, s ≠ [] → Go.b64 s ≠ [] := by
    intro s hs h
    have := Go.b64_length s
    rw [h] at this
    have : 0 < s.length := List.length_pos_iff.2 hs
    simp at *; omega
  have h1 : E.sha256 (Go.b64 random) ≠ [] := by
    intro h; have := hE.sha256_len (Go.b64 random); rw [h] at this; simp at this
  have h2 : random ≠ [] := by rintro rfl; simp at hr
  simp only [pkceValidate, codeVerifier, hne _ h1, hne _ h2, if_false, Go.b64Decode_b64]
  congr 1
  rw [Bool.eq_false_iff, Ne, C45_secureCompare]
  intro h
  have := congrArg List.length h
  rw [hE.sha256_len, hr] at this
  simp at this

/-- **C48 violated** (the other direction). `Validate` accepts a challenge that is its
own verifier, the "plain" method the server refuses. -/
theorem C48_validate_plain (s : Str) (h : s ≠ []) : pkceValidate (Go.b64 s) (Go.b64 s) = some true := by
  have hne : Go.b64 s ≠ [] := by
    intro h'
    have := Go.b64_length s
    rw [h'] at this
    have : 0 < s.length := List.length_pos_iff.2 h
    simp at *; omega
  simp only [pkceValidate, hne, if_false, Go.b64Decode_b64, (C45_secureCompare s s).2 rfl]

example : pkceValidate (Go.b64 g!"some verifier") (Go.b64 g!"some verifier") = some true := by decide

/-- **C48** (alphabet). What the helper gives an answer for consists of the base64url alphabet and line breaks. -/
theorem C48_alphabet (challenge verifier : Str) (r : Bool) (h : pkceValidate challenge verifier = some r) :
    ∀ b ∈ challenge ++ verifier, b ∈ g!"ABCDEFGHIJKLMNOPQRSTUVWXYZabcdefghijklmnopqrstuvwxyz0123456789-_\r\n" := by
  have hv : ∀ b : UInt8, (Go.b64Val b).isSome = true → b ∈ g!"ABCDEFGHIJKLMNOPQRSTUVWXYZabcdefghijklmnopqrstuvwxyz0123456789-_\r\n" := by
    apply Go.bytes_all
    decide +kernel
  have key : ∀ s x, Go.b64Decode s = some x → ∀ b ∈ s, b ∈ g!"ABCDEFGHIJKLMNOPQRSTUVWXYZabcdefghijklmnopqrstuvwxyz0123456789-_\r\n" := by
    intro s x hx b hb
    obtain ⟨l, hl, -⟩ := Option.bind_eq_some_iff.1 hx
    by_cases hn : b = 10 ∨ b = 13
    · rcases hn with rfl | rfl <;> decide
    · have hm : b ∈ Go.stripLines s := by simp only [Go.stripLines, List.mem_filter, hb, true_and]; simp_all
      refine hv b ?_
      clear hx hb hn
      generalize Go.stripLines s = m at hl hm
      induction m generalizing l with
      | nil => cases hm
      | cons c m ih =>
        rw [List.mapM_cons] at hl
        obtain ⟨v, hv', hl⟩ := Option.bind_eq_some_iff.1 hl
        obtain ⟨l', hl', -⟩ := Option.bind_eq_some_iff.1 hl
        rcases List.mem_cons.1 hm with rfl | hm
        · rw [hv']; rfl
        · exact ih l' hl' hm
  unfold pkceValidate at h
  split at h
  · cases h
  split at h
  · cases h
  split at h
  · cases h
  rename_i c hc
  split at h
  · cases h
  rename_i v hv'
  intro b hb
  rcases List.mem_append.1 hb with hb | hb
  · exact key _ _ hc b hb
  · exact key _ _ hv' b hb

/-! ### C49 -/

/-- **C49** (partial). For two sectors neither of which is a proper prefix of the
other, and a hash without collision on the two inputs, equal pairwise identifiers
come from the same sector and the same subject (up to surrounding blanks). Missing: sectors that extend one another (`C49_violated`). -/
theorem C49_separates_partial (hash : Str → Str → Str) (salt sec sec' sub sub' id : Str)
    (hpre : ∀ t, sec' = sec ++ t → t = []) (hpre' : ∀ t, sec = sec' ++ t → t = [])
    (hcol : ∀ t t', Trimmed sub t → Trimmed sub' t' → hash salt (sec ++ t) = hash salt (sec' ++ t') → sec ++ t = sec' ++ t')
    (h : pairwise hash salt sec sub = some id) (h' : pairwise hash salt sec' sub' = some id) :
    sec = sec' ∧ ∃ t, Trimmed sub t ∧ Trimmed sub' t := by
  have val : ∀ {s u}, pairwise hash salt s u = some id → Go.b64 (hash salt (s ++ Go.trimSpace u)) = id := by
    intro s u h
    unfold pairwise at h
    split at h
    · simp at h
    · simp only at h
      split at h
      · simp at h
      · split at h <;> simp at h
        exact h
  have e := hcol _ _ (Go.trimSpace_trimmed sub) (Go.trimSpace_trimmed sub') (Go.b64_injective ((val h).trans (val h').symm))
  have hs : sec = sec' ∧ Go.trimSpace sub = Go.trimSpace sub' := by
    rcases List.append_eq_append_iff.1 e with ⟨t, h1, h2⟩ | ⟨t, h1, h2⟩
    · obtain rfl := hpre t h1
      simp at h1 h2; exact ⟨h1.symm, h2⟩
    · obtain rfl := hpre' t h1
      simp at h1 h2; exact ⟨h1, h2.symm⟩
  exact ⟨hs.1, _, Go.trimSpace_trimmed sub, hs.2 ▸ Go.trimSpace_trimmed sub'⟩

/-- **C49.** Within one sector, two subjects get the same identifier only if they
are equal up to surrounding blanks (or the hash collides); a blank subject gets none. -/
theorem C49_subjects (hash : Str → Str → Str) (salt sec sub sub' id : Str)
    (hcol : ∀ t t', Trimmed sub t → Trimmed sub' t' → hash salt (sec ++ t) = hash salt (sec ++ t') → sec ++ t = sec ++ t')
    (h : pairwise hash salt sec sub = some id) (h' : pairwise hash salt sec sub' = some id) :
    ∃ t, t ≠ [] ∧ Trimmed sub t ∧ Trimmed sub' t := by
  obtain ⟨t, h1, h2⟩ := (C49_separates_partial hash salt sec sec sub sub' id (by simp) (by simp) hcol h h').2
  refine ⟨t, ?_, h1, h2⟩
  rintro rfl
  unfold pairwise at h
  rw [(Go.trimmed_iff _ _).1 h1] at h
  simp at h

/-- **C49** (stable). Blanks around a subject do not change its identifier. -/
theorem C49_blanks (hash : Str → Str → Str) (salt sec sub sub' t : Str) (h : Trimmed sub t) (h' : Trimmed sub' t) :
    pairwise hash salt sec sub = pairwise hash salt sec sub' := by
  unfold pairwise
  rw [(Go.trimmed_iff _ _).1 h, (Go.trimmed_iff _ _).1 h']

/-- **C49 violated.** Whatever the hash: two different sectors and two different
subjects with the same identifier. -/
theorem C49_violated (hash : Str → Str → Str) (salt : Str) (h : 16 ≤ salt.length) (h' : salt.length ≤ 64) :
    pairwise hash salt g!"https://a.example" g!"b1" = pairwise hash salt g!"https://a.exampleb" g!"1" ∧
    (pairwise hash salt g!"https://a.example" g!"b1").isSome = true := by
  have e1 : Go.trimSpace g!"b1" = g!"b1" := by decide
  have e2 : Go.trimSpace g!"1" = g!"1" := by decide
  unfold pairwise
  simp only [e1, e2]
  simp [show ¬ salt.length > 64 by omega, show ¬ salt.length < 16 by omega]

example : pairwise (fun k x => k ++ x) g!"0123456789abcdef" g!"sector" g!" user " =
    pairwise (fun k x => k ++ x) g!"0123456789abcdef" g!"sector" g!"user" := by decide

/-! ### C56 -/

/-- **C56** (letters). Two groups of four letters from the alphabet, joined by a dash. -/
theorem C56_alpha (rnd : Nat → Nat) : ∃ a b, userCodeAlpha rnd = a ++ g!"-" ++ b ∧ a.length = 4 ∧ b.length = 4 ∧
    ∀ c ∈ a ++ b, c ∈ g!"BCDFGHJKLMNPQRSTVWXZ" := by
  refine ⟨_, _, rfl, by simp [newLenChars_length], by simp [newLenChars_length], ?_⟩
  intro c hc
  rw [List.take_append_drop] at hc
  exact newLenChars_mem (by decide) hc

/-- **C56** (digits). Three groups of three digits, joined by dashes. -/
theorem C56_num (rnd : Nat → Nat) : ∃ a b c, userCodeNum rnd = a ++ g!"-" ++ b ++ g!"-" ++ c ∧
    a.length = 3 ∧ b.length = 3 ∧ c.length = 3 ∧ ∀ d ∈ a ++ b ++ c, 48 ≤ d ∧ d ≤ 57 := by
  refine ⟨_, _, _, rfl, by simp [newLenChars_length], by simp [newLenChars_length], by simp [newLenChars_length], ?_⟩
  intro d hd
  have : d ∈ newLenChars rnd 9 numChars := by
    rcases List.mem_append.1 hd with hd | hd
    · rcases List.mem_append.1 hd with hd | hd
      · exact List.mem_of_mem_take hd
      · exact List.mem_of_mem_drop (List.mem_of_mem_take hd)
    · exact List.mem_of_mem_drop hd
  have h := newLenChars_mem (by decide) this
  clear * - h
  revert d; decide

/-- **C56** (no loss). The formatting loses nothing: different letters give different codes. -/
theorem C56_injective (rnd rnd' : Nat → Nat) (h : userCodeAlpha rnd = userCodeAlpha rnd') :
    newLenChars rnd 8 alphaChars = newLenChars rnd' 8 alphaChars := by
  simp only [userCodeAlpha] at h
  have h1 := List.append_inj h (by simp [newLenChars_length])
  have h2 := List.append_inj h1.1 (by simp [newLenChars_length])
  rw [← List.take_append_drop 4 (newLenChars rnd 8 alphaChars), h2.1, h1.2, List.take_append_drop]

example : userCodeAlpha (fun i => i) = g!"BCDF-GHJK" := by decide
example : userCodeNum (fun i => i) = g!"012-345-678" := by decide

end Verif.Props
