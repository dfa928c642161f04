import Verif.Proofs.UrlQuery

/-!
C94: where the browser is sent. The redirect URI of an authorization answer is parsed by
`url.ParseRequestURI`, gets a new query, is printed by `String` and handed to `http.Redirect`.
-/
namespace Verif.Props
open Verif.Spec Verif.Url

/-- A text has at most one reading as a URI, and an authority at most one host. -/
theorem C94_reading (s : Str) (c c' : UriParts) (h : IsUri s c) (h' : IsUri s c') : c = c' := by
  obtain ⟨t, -, s1, a1, p1, r1, q1⟩ := h
  obtain ⟨t', -, s2, a2, p2, r2, q2⟩ := h'
  obtain ⟨sch, auth, path, query⟩ := c
  obtain ⟨sch', auth', path', query'⟩ := c'
  simp only at *
  rw [t'] at t
  have e1 := cut_append (c := 58) (s := sch) (r := g!"//" ++ auth ++ path ++ queryTail query)
    (fun h => s1 _ h (by decide))
  have e2 := cut_append (c := 58) (s := sch') (r := g!"//" ++ auth' ++ path' ++ queryTail query')
    (fun h => s2 _ h (by decide))
  have e : cut 58 (sch' ++ 58 :: (g!"//" ++ auth' ++ path' ++ queryTail query')) =
      cut 58 (sch ++ 58 :: (g!"//" ++ auth ++ path ++ queryTail query)) := by
    congr 1
    simpa using t
  rw [e1, e2] at e
  simp only [Prod.mk.injEq, List.cons_append, List.nil_append, List.cons.injEq, true_and] at e
  obtain ⟨rfl, e⟩ := e
  have cutq : ∀ (f : Str) (q : Option Str), 63 ∉ f →
      cut 63 (f ++ queryTail q) = (f, q.getD []) ∧
      ((63 : UInt8) ∈ f ++ queryTail q ↔ q.isSome = true) := by
    intro f q hf
    cases q with
    | none => simp [queryTail, cut_none hf, hf]
    | some q => simp [queryTail, cut_append hf]
  have f1 := cutq (auth ++ path) query (by
    simp only [List.mem_append, not_or]
    exact ⟨fun h => a1 _ h (by decide), fun h => p1 _ h (by decide)⟩)
  have f2 := cutq (auth' ++ path') query' (by
    simp only [List.mem_append, not_or]
    exact ⟨fun h => a2 _ h (by decide), fun h => p2 _ h (by decide)⟩)
  rw [e] at f2
  have g1 := f1.1.symm.trans f2.1
  have g2 := f1.2.symm.trans f2.2
  simp only [Prod.mk.injEq] at g1
  have g3 := takeWhile_ne_append (c := 47) (s := auth) (r := path) (fun h => a1 _ h (by decide)) r1
  have g4 := takeWhile_ne_append (c := 47) (s := auth') (r := path') (fun h => a2 _ h (by decide)) r2
  rw [← g1.1] at g4
  have k1 := g3.1.symm.trans g4.1
  have k2 := g3.2.symm.trans g4.2
  have k3 : query = query' := by
    cases query <;> cases query' <;> simp_all
  rw [k1, k2, k3]

theorem C94_host_reading (a h h' : Str) (x : IsHost a h) (x' : IsHost a h') : h = h' := by
  obtain ⟨h1 | ⟨u, h1⟩, n1⟩ := x <;> obtain ⟨h2 | ⟨u', h2⟩, n2⟩ := x'
  · rw [← h1, h2]
  · rw [h1] at h2
    rw [h2] at n1
    exact absurd (by simp) n1
  · rw [h2] at h1
    rw [h1] at n2
    exact absurd (by simp) n2
  · rw [h1] at h2
    have e : cutLast 64 (u ++ 64 :: h) = cutLast 64 (u' ++ 64 :: h') := by rw [h2]
    have key : ∀ (u h : Str), 64 ∉ h → ∃ x, cutLast 64 (u ++ 64 :: h) = some (x, h) := by
      intro u h hn
      induction u with
      | nil => exact ⟨[], by simp [cutLast, cutLast_none.mpr hn]⟩
      | cons c u ih =>
        obtain ⟨x, hx⟩ := ih
        exact ⟨c :: x, by rw [List.cons_append, cutLast, hx]⟩
    obtain ⟨x, hx⟩ := key u h n1
    obtain ⟨y, hy⟩ := key u' h' n2
    rw [hx, hy] at e
    cases e
    rfl

/-- A text that is put together from the parts that `net/url` reads is a URI with these parts. -/
theorem uri_of_parts {c : UriParts} {user : Option (Str × Option Str)} {host p : Str} {q : Option Str}
    (hs : ∀ b ∈ c.scheme.map asciiLower, isSchemeByte b = true) (hne : c.scheme.map asciiLower ≠ [])
    (h1 : parseAuthority c.authority = some (user, host)) (h3 : ∀ b ∈ p, b ∉ g!"?# " ∧ 32 < b ∧ b < 127)
    (h4 : p = [] ∨ p.head? = some 47) (hq : ∀ x, q = some x → 35 ∉ x) :
    IsUri (c.scheme.map asciiLower ++ 58 :: (g!"//" ++ authText user host ++ p ++ queryTail q))
      ⟨c.scheme.map asciiLower, authText user host, p, q⟩ ∧
    pct (authText user host) = pct c.authority ∧
    ∀ x, IsHost c.authority x → ∃ x', IsHost (authText user host) x' ∧ pct x' = pct x := by
  obtain ⟨hab, hauth⟩ := authority_print h1
  refine ⟨⟨by simp, hne, fun b hb => (isSchemeByte_plain b (hs b hb)).1, fun b hb hm => ?_,
      fun b hb hm => ?_, h4, hq⟩, ?_, fun x hx => ?_⟩
  · refine (hab b hb).1 ?_
    revert hm
    simp
    rintro (rfl | rfl | rfl) <;> simp
  · refine (h3 b hb).1 ?_
    revert hm
    simp
    rintro (rfl | rfl) <;> simp
  · rcases hauth with ⟨-, -, -, e⟩ | ⟨ui, hh, ui', hh', -, e1, e2, -, -, e3, e4⟩
    · exact e
    · rw [e1, e2, pct_at, pct_at, e3, e4]
  · rcases hauth with ⟨-, n1, n2, e⟩ | ⟨ui, hh, ui', hh', -, e1, e2, n1, n2, e3, e4⟩
    · rcases hx.1 with hx' | ⟨ui, hx'⟩
      · exact ⟨authText user host, ⟨Or.inl rfl, n2⟩, by rw [e, hx']⟩
      · rw [hx'] at n1
        exact absurd (by simp) n1
    · have := C94_host_reading _ _ _ hx ⟨Or.inr ⟨ui, e1⟩, n1⟩
      subst this
      exact ⟨hh', ⟨Or.inr ⟨ui', e2⟩, n2⟩, e3⟩

/-- **C94** (partial: absolute redirect URIs with an authority). The browser is sent to the scheme, the user information and
host and the path of the redirect URI, up to percent-encoding and the letter case of the scheme, and the query that it
carries there is exactly the parameters of the response; there is no fragment. Missing: the query of the redirect URI is
not retained (`C94_query_violated`), and for redirect URIs without scheme or authority see
`C94_relative_violated`, `C94_no_authority_violated`. -/
theorem C94_target_partial (dir uri loc : Str) (params : List (Str × Str)) (c : UriParts) (h : IsUri uri c)
    (hne : c.authority ≠ [] ∨ c.path ≠ []) (hp : params ≠ []) (hl : location dir uri params = some loc) :
    ∃ c', IsUri loc c' ∧ c'.scheme = c.scheme.map asciiLower ∧ pct c'.authority = pct c.authority ∧
      (∀ x, IsHost c.authority x → ∃ x', IsHost c'.authority x' ∧ pct x' = pct x) ∧
      pct c'.path = pct c.path ∧ c'.query = some (encode params) := by
  obtain ⟨user, host, p, hsb, hsch, h1, hloc, h3, h4, h5, -⟩ := location_text h hne hp hl
  obtain ⟨k1, k2, k3⟩ := uri_of_parts (q := some (encode params)) hsb hsch h1 h3 h4
    (fun x hx => by cases hx; exact fun hm => (encode_bytes params _ hm).1 (by decide))
  exact ⟨_, by rw [hloc]; exact k1, rfl, k2, k3, h5, rfl⟩

/-- **C94** (fragment mode). With `fragment.jwt` the browser is sent to the same parts of the redirect URI,
its query is retained, and the fragment is `response=` and the token. -/
theorem C94_fragment_mode (dir uri loc tok : Str) (c : UriParts) (h : IsUri uri c)
    (hne : c.authority ≠ [] ∨ c.path ≠ [])
    (htok : ∀ b ∈ tok, isAlpha b = true ∨ isDigit b = true ∨ b ∈ g!"-_.")
    (hl : fragmentLocation dir uri [(g!"response", tok)] = some loc) :
    ∃ base c', loc = base ++ g!"#response=" ++ tok ∧ IsUri base c' ∧ c'.scheme = c.scheme.map asciiLower ∧
      pct c'.authority = pct c.authority ∧
      (∀ x, IsHost c.authority x → ∃ x', IsHost c'.authority x' ∧ pct x' = pct x) ∧
      pct c'.path = pct c.path ∧ c'.query.map pct = c.query.map pct := by
  obtain ⟨user, host, p, hsb, hsch, h1, hloc, h3, h4, h5, -⟩ := fragment_text h hne (by simp) hl
  obtain ⟨k1, k2, k3⟩ := uri_of_parts (q := c.query.map hexEscapeNonASCII) hsb hsch h1 h3 h4 (by
    intro x hx
    cases hq : c.query with
    | none => rw [hq] at hx; cases hx
    | some q =>
      rw [hq] at hx
      cases hx
      intro hm
      rcases hexEscape_no hm with hm | hm | hm
      · exact h.query q hq hm
      · exact absurd hm (by decide)
      · exact absurd hm (by decide))
  have key : ∀ b : UInt8, (isAlpha b = true ∨ isDigit b = true ∨ b ∈ g!"-_.") →
      escapeByte .queryComponent b = [b] ∧ escapeByte .fragment b = [b] := by
    apply bytes
    decide +kernel
  have single : ∀ m, (∀ b ∈ tok, escapeByte m b = [b]) → escape m tok = tok := by
    intro m hm
    clear hl htok hloc
    induction tok with
    | nil => rfl
    | cons b t ih =>
      have := ih fun x hx => hm x (by simp [hx])
      rw [escape] at this ⊢
      rw [List.flatMap_cons, hm b (by simp), this]
      rfl
  have e1 : encode [(g!"response", tok)] = g!"response=" ++ tok := by
    have e : encode [(g!"response", tok)] = escape .queryComponent g!"response" ++ [61] ++ escape .queryComponent tok := by
      simp [encode, sortKeys, insertKey, pair, List.intercalate]
    rw [e, single _ fun b hb => (key b (htok b hb)).1]
    rfl
  have e2 : escape .fragment (g!"response=" ++ tok) = g!"response=" ++ tok := by
    have e : escape .fragment (g!"response=" ++ tok) = escape .fragment g!"response=" ++ escape .fragment tok := by
      rw [escape, List.flatMap_append]
      rfl
    rw [e, single _ fun b hb => (key b (htok b hb)).2]
    rfl
  refine ⟨_, _, ?_, k1, rfl, k2, k3, h5, ?_⟩
  · rw [hloc, e1, e2]
    simp
  · cases c.query with
    | none => rfl
    | some q => simp [pct_hexEscape]

/-- **C94** (form_post mode). The form is sent to the same parts of the redirect URI, and its query is
the one of the redirect URI. -/
theorem C94_form_mode (uri act : Str) (c : UriParts) (h : IsUri uri c) (hne : c.authority ≠ [] ∨ c.path ≠ [])
    (hl : formAction uri = some act) :
    ∃ c', IsUri act c' ∧ c'.scheme = c.scheme.map asciiLower ∧ pct c'.authority = pct c.authority ∧
      (∀ x, IsHost c.authority x → ∃ x', IsHost c'.authority x' ∧ pct x' = pct x) ∧
      pct c'.path = pct c.path ∧ c'.query = c.query := by
  rw [formAction, parseRequestURI] at hl
  cases hu : parse true uri with
  | none => rw [hu] at hl; cases hl
  | some u =>
    rw [hu] at hl
    simp only [Option.map_some, Option.some.injEq] at hl
    obtain ⟨user, host, p, h1, h2, h3, h4, h5, -⟩ := print_fragment h hu hne []
    obtain ⟨-, hsb, ⟨a, t, hsch, ha⟩, _, _, _, -, -, hue⟩ := (parse_uri h rfl u).mp hu
    have hf : ({ u with fragment := [] } : URL) = u := by rw [hue]
    have hlow : c.scheme.map lowerByte = c.scheme.map asciiLower :=
      List.map_congr_left fun b hb => (lower_printable b (hsb b hb)).2.2.2.2
    obtain ⟨k1, k2, k3⟩ := uri_of_parts (q := c.query) (by
      intro b hb
      rw [← hlow] at hb
      obtain ⟨x, hx, rfl⟩ := List.mem_map.mp hb
      exact (lower_printable x (hsb x hx)).2.1) (by rw [hsch]; simp) h1 h3 h4 h.query
    refine ⟨⟨_, _, p, c.query⟩, ?_, rfl, k2, k3, h5, rfl⟩
    have : act = c.scheme.map asciiLower ++ 58 :: (g!"//" ++ authText user host ++ p ++ queryTail c.query) := by
      rw [← hl, ← hf, h2, hlow]
      simp
    rw [this]
    exact k1

/-- **C94** (exact text). For a redirect URI whose authority is a host and port of unreserved characters and sub-delimiters and
whose path needs no escape, the location is the redirect URI itself, its query replaced by the
parameters. -/
theorem C94_exact (dir uri loc : Str) (params : List (Str × Str)) (c : UriParts) (h : IsUri uri c)
    (hne : c.authority ≠ [] ∨ c.path ≠ []) (hp : params ≠ []) (hl : location dir uri params = some loc)
    (ha : ∀ b ∈ c.authority, isAlpha b = true ∨ isDigit b = true ∨ b ∈ g!"-._~!$&'()*+,;=:[]")
    (hpath : ∀ b ∈ c.path, isAlpha b = true ∨ isDigit b = true ∨ b ∈ g!"-._~!$&'()*+,;=:@%/") :
    loc = c.scheme.map asciiLower ++ g!"://" ++ c.authority ++ c.path ++ 63 :: encode params := by
  obtain ⟨user, host, p, -, -, h1, hloc, -, -, -, h6⟩ := location_text h hne hp hl
  have ka : ∀ b : UInt8, (isAlpha b = true ∨ isDigit b = true ∨ b ∈ g!"-._~!$&'()*+,;=:[]") →
      shouldEscape .host b = false ∧ b ≠ 37 ∧ b ≠ 64 := by
    apply bytes
    decide +kernel
  have kp : ∀ b : UInt8, (isAlpha b = true ∨ isDigit b = true ∨ b ∈ g!"-._~!$&'()*+,;=:@%/") →
      (decide (b ∈ g!"!$&'()*+,;=:@[]%") || !shouldEscape .path b) = true := by
    apply bytes
    decide +kernel
  have hval : validEncodedPath c.path = true := by
    rw [validEncodedPath, List.all_eq_true]
    exact fun b hb => kp b (hpath b hb)
  have h64 : (64 : UInt8) ∉ c.authority := fun e => (ka _ (ha _ e)).2.2 rfl
  have h37 : (37 : UInt8) ∉ c.authority := fun e => (ka _ (ha _ e)).2.1 rfl
  rw [parseAuthority, cutLast_none.mpr h64] at h1
  cases hh : parseHost c.authority with
  | none => simp [hh] at h1
  | some x =>
    simp only [hh, Option.map_some, Option.some.injEq, Prod.mk.injEq] at h1
    obtain ⟨rfl, rfl⟩ := h1
    have := parseHost_plain hh h37
    subst this
    rw [hloc, h6.mp hval]
    simp [authText, escape_plain (m := .host) (by decide) fun b hb => (ka b (ha b hb)).1]

/-- **C94** (what the client reads). The client that parses the query of the URL it is called at
finds the parameters of the response, each with its value. -/
theorem C94_received (dir uri loc : Str) (params : List (Str × Str)) (c : UriParts) (h : IsUri uri c)
    (hne : c.authority ≠ [] ∨ c.path ≠ []) (hp : params ≠ []) (hl : location dir uri params = some loc) :
    ∃ c' q, IsUri loc c' ∧ c'.query = some q ∧ ∀ k, first (parseQuery q) k = first params k := by
  obtain ⟨c', h1, -, -, -, -, h2⟩ := C94_target_partial dir uri loc params c h hne hp hl
  exact ⟨c', _, h1, h2, first_parse_encode params⟩

/-- **C94** (header injection). Whatever the redirect URI and the parameters, the location has only
printable ASCII characters; in particular it ends no header line. -/
theorem C94_one_line (dir uri loc : Str) (params : List (Str × Str)) (hd : ∀ b ∈ dir, 32 ≤ b ∧ b ≠ 127)
    (hl : location dir uri params = some loc) : ∀ b ∈ loc, 32 ≤ b ∧ b < 127 := by
  rw [location, parseRequestURI] at hl
  cases hu : parse true uri with
  | none => rw [hu] at hl; cases hl
  | some u =>
    rw [hu] at hl
    simp only [Option.map_some, Option.some.injEq] at hl
    obtain ⟨h0, h1, h2, h3⟩ := parse_fields hu
    have hstr : ∀ b ∈ ({ u with rawQuery := encode params } : URL).str, printable b :=
      str_printable h1 (fun b hb => h0 b (h2 b hb)) h3 fun b hb => printable_of_range (encode_bytes params b hb).2
    rw [← hl, redirect]
    refine hexEscape_printable ?_
    split
    · split
      · intro b hb
        rcases mem_relative hb with rfl | hb | hb
        · exact ⟨by decide, by decide⟩
        · exact hd b hb
        · exact hstr b hb
      · exact hstr
    · exact hstr

/-- **C94** (private-use schemes). A redirect URI of the form `scheme:text` without slash is
redirected to with the parameters appended as its query. -/
theorem C94_private_scheme (dir sch op loc : Str) (params : List (Str × Str)) (hs : sch ≠ []) (ho : op ≠ [])
    (hop : ∀ b ∈ op, b ∉ g!"?#" ∧ b < 128) (h47 : op.head? ≠ some 47) (hsc : ∀ b ∈ sch, b ∉ g!":/?#") (hp : params ≠ [])
    (hl : location dir (sch ++ 58 :: op) params = some loc) :
    loc = sch.map asciiLower ++ 58 :: (op ++ 63 :: encode params) := by
  rw [location, parseRequestURI] at hl
  cases hu : parse true (sch ++ 58 :: op) with
  | none => rw [hu] at hl; cases hl
  | some u =>
    rw [hu] at hl
    simp only [Option.map_some, Option.some.injEq] at hl
    obtain ⟨a, t, rfl⟩ : ∃ a t, sch = a :: t := by
      cases sch with
      | nil => exact absurd rfl hs
      | cons a t => exact ⟨a, t, rfl⟩
    rw [parse] at hu
    split at hu
    · cases hu
    · rw [if_neg (by simp), if_neg (by
        intro e
        have := congrArg List.length e
        simp at this)] at hu
      cases hg : getScheme (a :: t ++ 58 :: op) with
      | none => rw [hg] at hu; cases hu
      | some x =>
        obtain ⟨s', rest⟩ := x
        rw [hg] at hu
        by_cases hs' : s' = []
        · subst hs'
          exfalso
          have := getScheme_nil hg
          subst this
          have hhead : ∀ r : Str, r.head? = some a → ∀ w : URL, w.scheme = [] → parseRest true w r = none := by
            intro r hr w hw
            have : a ≠ 47 := fun e => hsc a (by simp) (by rw [e]; decide)
            rw [parseRest]
            simp [hw, hr, this]
          have h63 : a ≠ 63 := fun e => hsc a (by simp) (by rw [e]; decide)
          simp only at hu
          split at hu
          · have hlast : ∀ t : Str, t ≠ [] → (a :: t).dropLast.head? = some a := by
              intro t ht
              cases t with
              | nil => exact absurd rfl ht
              | cons x t => rfl
            exact absurd (hu.symm.trans (hhead (a :: (t ++ 58 :: op)).dropLast (hlast (t ++ 58 :: op) (by simp)) _ rfl)) (by simp)
          · rw [hhead _ (by simp [cut, h63]) _ rfl] at hu
            cases hu
        · obtain ⟨e1, e2, c', p', e3, e4⟩ := getScheme_some hg hs'
          have h58 : (58 : UInt8) ∉ s' := fun hm => (isSchemeByte_plain _ (e2 _ hm)).1 (by decide)
          have h58' : (58 : UInt8) ∉ a :: t := fun hm => hsc _ hm (by decide)
          have c1 := cut_append (r := rest) h58
          have c2 := cut_append (r := op) h58'
          rw [← e1] at c1
          rw [c1] at c2
          simp only [Prod.mk.injEq] at c2
          obtain ⟨rfl, rfl⟩ := c2
          cases e3
          have h63 : (63 : UInt8) ∉ rest := fun hm => (hop _ hm).1 (by decide)
          have hlast : ¬ (rest.getLast? = some 63 ∧ rest.count 63 = 1) := by
            rintro ⟨-, h⟩
            rw [List.count_eq_zero.mpr h63] at h
            cases h
          simp only [hlast, if_false, cut_none h63] at hu
          rw [parseRest, if_pos ⟨h47, by simp⟩] at hu
          cases hu
          have hlow : (a :: t).map lowerByte = (a :: t).map asciiLower :=
            List.map_congr_left fun b hb => (lower_printable b (e2 b hb)).2.2.2.2
          have hsb : ∀ b ∈ (a :: t).map asciiLower, isSchemeByte b = true := by
            intro b hb
            rw [← hlow] at hb
            obtain ⟨x, hx, rfl⟩ := List.mem_map.mp hb
            exact (lower_printable x (e2 x hx)).2.1
          have htext : ({ scheme := (a :: t).map lowerByte, opq := rest, rawQuery := encode params } : URL).str =
              (a :: t).map asciiLower ++ 58 :: (rest ++ 63 :: encode params) := by
            rw [hlow, URL.str, URL.front]
            simp [ho, encode_ne_nil hp]
          rw [← hl]
          refine (congrArg (redirect dir) htext).trans ?_
          have ha := (lower_printable a (e2 a (by simp))).2.2
          rw [redirect_scheme (sch := (a :: t).map asciiLower) (a := asciiLower a) (p := t.map asciiLower) rfl (by rw [← ha.2.2]; exact ha.2.1 e4) hsb]
          refine hexEscape_ascii fun b hb => ?_
          simp only [List.mem_append, List.mem_cons] at hb
          rcases hb with hb | rfl | hb | rfl | hb
          · exact (isSchemeByte_plain b (hsb b hb)).2.2.1
          · decide
          · exact (hop b hb).2
          · decide
          · exact UInt8.lt_trans (encode_bytes params b hb).2.2 (by decide)

/-- **C94 violated** (for every redirect URI with a query). RFC 6749 §3.1.2 lets a redirect URI have a query, which
must be retained; a parameter of that query never arrives unless the response has one of that name. -/
theorem C94_query_violated (dir uri loc q k v : Str) (params : List (Str × Str)) (c : UriParts) (h : IsUri uri c)
    (hne : c.authority ≠ [] ∨ c.path ≠ []) (hp : params ≠ []) (hl : location dir uri params = some loc)
    (_ : c.query = some q) (_ : first (parseQuery q) k = some v) (hk : first params k = none) :
    ∃ c' q', IsUri loc c' ∧ c'.query = some q' ∧ first (parseQuery q') k = none := by
  obtain ⟨c', q', h1, h2, h3⟩ := C94_received dir uri loc params c h hne hp hl
  exact ⟨c', q', h1, h2, by rw [h3, hk]⟩

theorem C94_query_violated_example :
    IsUri g!"https://rp/cb?tenant=1" ⟨g!"https", g!"rp", g!"/cb", some g!"tenant=1"⟩ ∧
    first (parseQuery g!"tenant=1") g!"tenant" = some g!"1" ∧
    location g!"/" g!"https://rp/cb?tenant=1" [(g!"response", g!"a.b.c")] = some g!"https://rp/cb?response=a.b.c" :=
  ⟨⟨by decide +kernel, by decide +kernel, by decide +kernel, by decide +kernel, by decide +kernel, by decide +kernel, fun q h => by cases h; decide +kernel⟩, by decide +kernel, by decide +kernel⟩

/-- **C94 violated** (RFC 6749 §3.1.2: redirect URIs are absolute). A redirect URI without scheme is
accepted; the browser stays at the authorization server, or goes to a host that the scheme of the
authorization server decide +kernels about. -/
theorem C94_relative_violated :
    location g!"/" g!"/cb/../x" [(g!"response", g!"a.b.c")] = some g!"/x?response=a.b.c" ∧
    location g!"/" g!"//rp/cb" [(g!"response", g!"a.b.c")] = some g!"//rp/cb?response=a.b.c" ∧
    location g!"/" g!"*" [(g!"response", g!"a.b.c")] = some g!"/*?response=a.b.c" := by decide +kernel

/-- **C94 violated** (RFC 6749 §3.1.2: no fragment). A redirect URI with a fragment is accepted; the
fragment becomes part of the path, or, with a private-use scheme, takes the response. -/
theorem C94_fragment_violated :
    location g!"/" g!"https://rp/cb#f" [(g!"response", g!"a.b.c")] = some g!"https://rp/cb%23f?response=a.b.c" ∧
    location g!"/" g!"app:cb#f" [(g!"response", g!"a.b.c")] = some g!"app:cb#f?response=a.b.c" := by decide +kernel

/-- **C94 violated** (redirect URIs without authority). The URI has no authority at all, yet the
browser is sent to the host that its escaped path names. -/
theorem C94_no_authority_violated :
    (¬ ∃ c, IsUri g!"https:/%2Fevil/\"" c) ∧
    ∃ loc c', location g!"/" g!"https:/%2Fevil/\"" [(g!"response", g!"a.b.c")] = some loc ∧ IsUri loc c' ∧
      c'.authority = g!"evil" := by
  refine ⟨?_, g!"https://evil/%22?response=a.b.c", ⟨g!"https", g!"evil", g!"/%22", some g!"response=a.b.c"⟩, by decide +kernel,
    ⟨by decide +kernel, by decide +kernel, by decide +kernel, by decide +kernel, by decide +kernel, by decide +kernel, fun q h => by cases h; decide +kernel⟩, rfl⟩
  rintro ⟨c, h⟩
  have ht := h.text
  have e1 := cut_append (c := 58) (s := c.scheme) (r := g!"//" ++ c.authority ++ c.path ++ queryTail c.query)
    (fun hm => h.scheme _ hm (by decide +kernel))
  have e2 : c.scheme ++ 58 :: (g!"//" ++ c.authority ++ c.path ++ queryTail c.query) = g!"https:/%2Fevil/\"" := by
    rw [ht]
    simp
  rw [e2] at e1
  have e3 : cut 58 g!"https:/%2Fevil/\"" = (g!"https", g!"/%2Fevil/\"") := by decide +kernel
  rw [e3] at e1
  simp at e1

/-- The hypotheses of the theorems above on a redirect URI with user information, port, escapes and capitals. -/
example : IsUri g!"HTTPS://u@Rp:80/a%41 b" ⟨g!"HTTPS", g!"u@Rp:80", g!"/a%41 b", none⟩ ∧
    location g!"/" g!"HTTPS://u@Rp:80/a%41 b" [(g!"state", g!"a b&c"), (g!"code", g!"x")] =
      some g!"https://u@Rp:80/aA%20b?code=x&state=a+b%26c" :=
  ⟨⟨by decide +kernel, by decide +kernel, by decide +kernel, by decide +kernel, by decide +kernel, by decide +kernel, fun q h => by cases h⟩, by decide +kernel⟩

example : location g!"/" g!"com.example.App:cb" [(g!"response", g!"a.b.c")] = some g!"com.example.app:cb?response=a.b.c" := by
  decide +kernel

example : IsUri g!"https://[::1]:8443/cb/%7Eu" ⟨g!"https", g!"[::1]:8443", g!"/cb/%7Eu", none⟩ ∧
    location g!"/" g!"https://[::1]:8443/cb/%7Eu" [(g!"response", g!"a.b.c")] =
      some g!"https://[::1]:8443/cb/%7Eu?response=a.b.c" :=
  ⟨⟨by decide +kernel, by decide +kernel, by decide +kernel, by decide +kernel, by decide +kernel, by decide +kernel, fun q h => by cases h⟩, by decide +kernel⟩

example : fragmentLocation g!"/" g!"HTTPS://Rp/a b?tenant=1" [(g!"response", g!"eyJ.e30.s-_")] =
      some g!"https://Rp/a%20b?tenant=1#response=eyJ.e30.s-_" ∧
    formAction g!"HTTPS://Rp/a b?tenant=1" = some g!"https://Rp/a%20b?tenant=1" ∧
    IsUri g!"HTTPS://Rp/a b?tenant=1" ⟨g!"HTTPS", g!"Rp", g!"/a b", some g!"tenant=1"⟩ :=
  ⟨by decide +kernel, by decide +kernel, by decide +kernel, by decide +kernel, by decide +kernel, by decide +kernel,
    by decide +kernel, by decide +kernel, fun q h => by cases h; decide +kernel⟩

/-- Texts that are refused: control bytes, bad escapes, bad ports, hosts with a space. -/
example : parseRequestURI g!"https://rp/\n" = none ∧ parseRequestURI g!"https://rp/%zz" = none ∧
    parseRequestURI g!"https://rp:x/" = none ∧ parseRequestURI g!"https://r p/" = none ∧ parseRequestURI g!"cb" = none := by
  decide +kernel

end Verif.Props
