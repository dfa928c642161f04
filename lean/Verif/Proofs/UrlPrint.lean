import Verif.Proofs.UrlParse

/-! Printing a URL that was parsed, and redirections to it. -/
namespace Verif.Url
open Verif.Spec

/-! ### Authorities -/

/-- The bytes of a printed host. -/
theorem host_bytes {h : Str} : ∀ b ∈ escape .host h, b ∉ g!"/?#@ " ∧ 32 < b ∧ b < 127 := by
  intro b hb
  have key : ∀ b : UInt8, (b = 37 ∨ ishex b = true ∨ b = 43 ∨ shouldEscape .host b = false) → b ∉ g!"/?#@ " ∧ 32 < b ∧ b < 127 := by
    apply bytes
    decide +kernel
  refine key b ?_
  rcases mem_escape hb with h | h | h | ⟨-, h⟩ <;> simp [h]

theorem user_bytes {h : Str} : ∀ b ∈ escape .userPassword h, b ∉ g!"/?#@: " ∧ 32 < b ∧ b < 127 := by
  intro b hb
  have key : ∀ b : UInt8, (b = 37 ∨ ishex b = true ∨ b = 43 ∨ shouldEscape .userPassword b = false) →
      b ∉ g!"/?#@: " ∧ 32 < b ∧ b < 127 := by
    apply bytes
    decide +kernel
  refine key b ?_
  rcases mem_escape hb with h | h | h | ⟨-, h⟩ <;> simp [h]

theorem path_bytes {h : Str} : ∀ b ∈ escape .path h, b ∉ g!"?# " ∧ 32 < b ∧ b < 127 := by
  intro b hb
  have key : ∀ b : UInt8, (b = 37 ∨ ishex b = true ∨ b = 43 ∨ shouldEscape .path b = false) →
      b ∉ g!"?# " ∧ 32 < b ∧ b < 127 := by
    apply bytes
    decide +kernel
  refine key b ?_
  rcases mem_escape hb with h | h | h | ⟨-, h⟩ <;> simp [h]

theorem valid_bytes {p : Str} (h : validEncodedPath p = true) : ∀ b ∈ p, b ∉ g!"?# " ∧ 32 < b ∧ b < 127 := by
  intro b hb
  have key : ∀ b : UInt8, (decide (b ∈ g!"!$&'()*+,;=:@[]%") || !shouldEscape .path b) = true →
      b ∉ g!"?# " ∧ 32 < b ∧ b < 127 := by
    apply bytes
    decide +kernel
  rw [validEncodedPath, List.all_eq_true] at h
  exact key b (h b hb)

/-- What a host that is accepted stands for. -/
theorem parseHost_pct {raw h : Str} (hp : parseHost raw = some h) : pct raw = h := by
  have simple : ∀ {x : Str}, unescape .host raw = some x → pct raw = x := fun hx => pct_unescape (by decide) hx
  rw [parseHost] at hp
  split at hp
  · split at hp
    · cases hp
    · rename_i pre port hc
      split at hp
      · cases hp
      · split at hp
        · rename_i a b hz
          split at hp
          · rename_i x y z hx hy hz'
            cases hp
            have hpre : pre = a ++ b := by
              clear hc hx hy hz'
              induction pre generalizing a with
              | nil => simp [cutZone] at hz
              | cons c s ih =>
                rw [cutZone] at hz
                split at hz
                · cases hz; rfl
                · cases hs : cutZone s with
                  | none => rw [hs] at hz; cases hz
                  | some p =>
                    obtain ⟨p1, p2⟩ := p
                    rw [hs] at hz
                    simp only [Option.some.injEq, Prod.mk.injEq] at hz
                    obtain ⟨rfl, rfl⟩ := hz
                    rw [ih _ hs]
                    rfl
            rw [(cutLast_some hc).1, hpre, List.append_assoc, pct_unescape_append .host (by decide) _ _ _ hx,
              pct_unescape_append .zone (by decide) _ _ _ hy, pct_unescape (by decide) hz', List.append_assoc]
          · cases hp
        · exact simple hp
  · split at hp
    · split at hp
      · cases hp
      · exact simple hp
    · exact simple hp

/-- The text that is printed for an authority. -/
def authText (user : Option (Str × Option Str)) (host : Str) : Str :=
  (match user with
    | some ui => userString ui ++ [64]
    | none => []) ++ escape .host host

/-- What an accepted authority and its printed form stand for: the same user information
and the same host. -/
theorem authority_print {auth : Str} {user : Option (Str × Option Str)} {host : Str}
    (h : parseAuthority auth = some (user, host)) :
    (∀ b ∈ authText user host, b ∉ g!"/?# " ∧ 32 < b ∧ b < 127) ∧
    ((user = none ∧ (64 ∉ auth) ∧ 64 ∉ authText user host ∧ pct (authText user host) = pct auth) ∨
      ∃ ui h ui' h', user ≠ none ∧ auth = ui ++ 64 :: h ∧ authText user host = ui' ++ 64 :: h' ∧ 64 ∉ h ∧ 64 ∉ h' ∧
        pct h' = pct h ∧ pct ui' = pct ui) := by
  have hno : ∀ h, (64 : UInt8) ∉ escape .host h := fun h hm => (host_bytes _ hm).1 (by decide)
  rw [parseAuthority] at h
  split at h
  · rename_i hc
    cases hp : parseHost auth with
    | none => rw [hp] at h; cases h
    | some x =>
      rw [hp] at h
      cases h
      refine ⟨fun b hb => ?_, Or.inl ⟨rfl, cutLast_none.mp hc, ?_, ?_⟩⟩
      · have := host_bytes b (by simpa [authText] using hb)
        refine ⟨fun hm => this.1 ?_, this.2⟩
        revert hm
        simp
        rintro (rfl | rfl | rfl | rfl) <;> simp
      · simpa [authText] using hno host
      · simp only [authText, List.nil_append]
        rw [pct_escape (by decide), parseHost_pct hp]
  · rename_i ui hh hc
    obtain ⟨e1, e2⟩ := cutLast_some hc
    cases hp : parseHost hh with
    | none => rw [hp] at h; cases h
    | some x =>
      rw [hp] at h
      simp only at h
      have hbytes : ∀ n p, ∀ b ∈ userString (n, p) ++ 64 :: escape .host x, b ∉ g!"/?# " ∧ 32 < b ∧ b < 127 := by
        intro n p b hb
        simp only [List.mem_append, List.mem_cons] at hb
        rcases hb with hb | rfl | hb
        · cases p with
          | none =>
            have := user_bytes b hb
            refine ⟨fun hm => this.1 ?_, this.2⟩
            revert hm
            simp
            rintro (rfl | rfl | rfl | rfl) <;> simp
          | some p =>
            simp only [userString, List.mem_append, List.mem_singleton] at hb
            rcases hb with (hb | rfl) | hb
            · have := user_bytes b hb
              refine ⟨fun hm => this.1 ?_, this.2⟩
              revert hm
              simp
              rintro (rfl | rfl | rfl | rfl) <;> simp
            · decide
            · have := user_bytes b hb
              refine ⟨fun hm => this.1 ?_, this.2⟩
              revert hm
              simp
              rintro (rfl | rfl | rfl | rfl) <;> simp
        · decide
        · have := host_bytes b hb
          refine ⟨fun hm => this.1 ?_, this.2⟩
          revert hm
          simp
          rintro (rfl | rfl | rfl | rfl) <;> simp
      split at h
      · cases h
      · split at h
        · rename_i h58
          split at h
          · rename_i x1 y1 hx hy
            cases h
            have hui : ui = (cut 58 ui).1 ++ 58 :: (cut 58 ui).2 := by
              have := List.takeWhile_append_dropWhile (p := fun b => decide (b ≠ (58 : UInt8))) (l := ui)
              have hd : ∀ l : Str, 58 ∈ l → ∃ r, l.dropWhile (fun b => decide (b ≠ (58 : UInt8))) = 58 :: r := by
                intro l hl
                induction l with
                | nil => cases hl
                | cons b l ih =>
                  by_cases hb : b = 58
                  · subst hb; exact ⟨l, by simp⟩
                  · have hl' : 58 ∈ l := by
                      simp only [List.mem_cons] at hl
                      rcases hl with e | hl
                      · exact absurd e.symm hb
                      · exact hl
                    obtain ⟨r, hr⟩ := ih hl'
                    refine ⟨r, ?_⟩
                    simp only [List.dropWhile_cons, hb, ne_eq, not_false_eq_true, decide_true, if_true]
                    exact hr
              obtain ⟨r, hr⟩ := hd ui h58
              simp only [cut]
              rw [hr] at this ⊢
              exact this.symm
            refine ⟨by simpa [authText] using hbytes x1 (some y1),
              Or.inr ⟨ui, hh, userString (x1, some y1), escape .host host, by simp, e1, by simp [authText], e2, hno host, ?_, ?_⟩⟩
            · rw [pct_escape (by decide), parseHost_pct hp]
            · conv_rhs => rw [hui]
              simp only [userString]
              rw [List.append_assoc, pct_escape_append _ (by decide), pct_unescape_append _ (by decide) _ _ _ hx]
              simp only [List.singleton_append]
              rw [pct_byte _ _ (by decide), pct_byte _ _ (by decide), pct_escape (by decide), pct_unescape (by decide) hy]
          · cases h
        · cases hx : unescape .userPassword ui with
          | none => rw [hx] at h; cases h
          | some x1 =>
            rw [hx] at h
            cases h
            refine ⟨by simpa [authText] using hbytes x1 none,
              Or.inr ⟨ui, hh, userString (x1, none), escape .host host, by simp, e1, by simp [authText], e2, hno host, ?_, ?_⟩⟩
            · rw [pct_escape (by decide), parseHost_pct hp]
            · simp only [userString]
              rw [pct_escape (by decide), pct_unescape (by decide) hx]

theorem unescape_ne_nil {m : Mode} {s t : Str} (h : unescape m s = some t) (hs : s ≠ []) : t ≠ [] := by
  match s, hs with
  | c :: s, _ =>
    by_cases h37 : c = 37
    · subst h37
      match s, h with
      | [], h => simp [unescape] at h
      | [_], h => simp [unescape] at h
      | a :: b :: s, h =>
        rw [unescape_hex] at h
        split at h
        · cases h
        · cases hs : unescape m s with
          | none => simp [hs] at h
          | some x => rw [hs] at h; cases h; simp
    · by_cases h43 : c = 43
      · subst h43
        rw [unescape_plus] at h
        cases hs : unescape m s with
        | none => simp [hs] at h
        | some x => rw [hs] at h; cases h; simp
      · rw [unescape_byte m c s h37 h43] at h
        split at h
        · cases h
        · cases hs : unescape m s with
          | none => simp [hs] at h
          | some x => rw [hs] at h; cases h; simp

theorem parseHost_ne_nil {raw h : Str} (hp : parseHost raw = some h) (hr : raw ≠ []) : h ≠ [] := by
  have simple : ∀ {x : Str}, unescape .host raw = some x → x ≠ [] := fun hx => unescape_ne_nil hx hr
  rw [parseHost] at hp
  split at hp
  · split at hp
    · cases hp
    · split at hp
      · cases hp
      · split at hp
        · split at hp
          · rename_i x y z hx hy hz
            cases hp
            have := unescape_ne_nil hz (by simp)
            simp [this]
          · cases hp
        · exact simple hp
  · split at hp
    · split at hp
      · cases hp
      · exact simple hp
    · exact simple hp

theorem parseAuthority_ne_nil {auth : Str} {user : Option (Str × Option Str)} {host : Str}
    (h : parseAuthority auth = some (user, host)) (ha : auth ≠ []) : user ≠ none ∨ host ≠ [] := by
  rw [parseAuthority] at h
  split at h
  · cases hp : parseHost auth with
    | none => rw [hp] at h; cases h
    | some x => rw [hp] at h; cases h; exact Or.inr (parseHost_ne_nil hp ha)
  · left
    split at h
    · cases h
    · split at h
      · cases h
      · split at h
        · split at h
          · cases h; simp
          · cases h
        · rename_i ui _ _ _ _ _ _ _
          cases hx : unescape .userPassword ui with
          | none => rw [hx] at h; cases h
          | some x1 => rw [hx] at h; cases h; simp

/-! ### Paths -/

theorem escapedPath_valid (u : URL) : validEncodedPath u.escapedPath = true := by
  have key : ∀ b : UInt8, (b = 37 ∨ ishex b = true ∨ b = 43 ∨ shouldEscape .path b = false) →
      (decide (b ∈ g!"!$&'()*+,;=:@[]%") || !shouldEscape .path b) = true := by
    apply bytes
    decide +kernel
  rw [URL.escapedPath]
  split
  · rename_i h
    exact h.2.1
  · split
    · decide
    · rw [validEncodedPath, List.all_eq_true]
      intro b hb
      refine key b ?_
      rcases mem_escape hb with h | h | h | h
      · exact Or.inl h
      · exact Or.inr (Or.inl h)
      · exact Or.inr (Or.inr (Or.inl h))
      · exact Or.inr (Or.inr (Or.inr h.2))

/-- The path that is printed for an accepted path stands for the same text, and is the path
itself if that has only bytes that need no escape. -/
theorem path_print {p path : Str} (h : unescape .path p = some path) (hr : p = [] ∨ p.head? = some 47) (w : URL)
    (hw : w.path = path) (hraw : w.rawPath = if p = escape .path path then [] else p) :
    (∀ b ∈ w.escapedPath, b ∉ g!"?# " ∧ 32 < b ∧ b < 127) ∧ (w.escapedPath = [] ∨ w.escapedPath.head? = some 47) ∧
    pct w.escapedPath = pct p ∧ (validEncodedPath p = true ↔ w.escapedPath = p) := by
  have hstar : path ≠ g!"*" := by
    rintro rfl
    rcases hr with rfl | hr
    · cases h
    · cases p with
      | nil => cases hr
      | cons b p =>
        simp only [List.head?_cons, Option.some.injEq] at hr
        subst hr
        rw [unescape_byte _ _ _ (by decide) (by decide)] at h
        cases hp : unescape .path p with
        | none => simp [hp] at h
        | some x => simp [hp, badByte] at h
  have hesc : escape .path path = [] ∨ (escape .path path).head? = some 47 := by
    rcases hr with rfl | hr
    · cases h; exact Or.inl rfl
    · cases p with
      | nil => cases hr
      | cons b p =>
        simp only [List.head?_cons, Option.some.injEq] at hr
        subst hr
        rw [unescape_byte _ _ _ (by decide) (by decide)] at h
        cases hp : unescape .path p with
        | none => simp [hp] at h
        | some x =>
          rw [hp] at h
          simp only [badByte] at h
          cases h
          exact Or.inr rfl
  by_cases hv : w.rawPath ≠ [] ∧ validEncodedPath w.rawPath = true ∧ unescape .path w.rawPath = some w.path
  · have he : w.escapedPath = w.rawPath := by rw [URL.escapedPath, if_pos hv]
    have hp : w.rawPath = p := by
      rw [hraw] at hv ⊢
      split
      · rename_i hc
        exact absurd (if_pos hc) hv.1
      · rfl
    rw [he, hp]
    refine ⟨valid_bytes (by rw [← hp]; exact hv.2.1), hr, rfl, fun _ => rfl, fun _ => by rw [← hp]; exact hv.2.1⟩
  · have he : w.escapedPath = escape .path path := by
      rw [URL.escapedPath, if_neg hv, hw, if_neg hstar]
    rw [he]
    refine ⟨path_bytes, hesc, ?_, fun hval => ?_, fun e => by rw [← e, ← he]; exact escapedPath_valid w⟩
    · rw [pct_escape (by decide), pct_unescape (by decide) h]
    · rw [hraw] at hv
      split at hv
      · rename_i hc
        exact hc.symm
      · by_cases hp : p = []
        · subst hp; cases h; rfl
        · exact absurd ⟨hp, hval, by rw [h, hw]⟩ hv

/-! ### Printing -/

/-- What is printed before the query for an accepted URI, whatever its query and fragment are replaced by. -/
theorem print_front {s : Str} {c : UriParts} {u : URL} (h : IsUri s c) (hu : parse true s = some u)
    (hne : c.authority ≠ [] ∨ c.path ≠ []) (force : Bool) (q f : Str) :
    ∃ user host p, parseAuthority c.authority = some (user, host) ∧
      ({ u with forceQuery := force, rawQuery := q, fragment := f } : URL).front =
        c.scheme.map lowerByte ++ g!"://" ++ authText user host ++ p ∧
      (∀ b ∈ p, b ∉ g!"?# " ∧ 32 < b ∧ b < 127) ∧ (p = [] ∨ p.head? = some 47) ∧ pct p = pct c.path ∧
      (validEncodedPath c.path = true ↔ p = c.path) := by
  obtain ⟨-, -, ⟨a, t, hsch, -⟩, user, host, path, h1, h2, h3⟩ := (parse_uri h rfl u).mp hu
  have hp := path_print h2 h.rooted { u with forceQuery := force, rawQuery := q, fragment := f } (by rw [h3]) (by rw [h3])
  refine ⟨user, host, ({ u with forceQuery := force, rawQuery := q, fragment := f } : URL).escapedPath, h1, ?_, hp⟩
  have hpath := hp.2.1
  have hs : (c.scheme.map lowerByte) ≠ [] := by rw [hsch]; simp
  have hslash : host ≠ [] ∨ path ≠ [] ∨ user ≠ none := by
    rcases hne with ha | hpa
    · rcases parseAuthority_ne_nil h1 ha with h | h
      · exact Or.inr (Or.inr h)
      · exact Or.inl h
    · exact Or.inr (Or.inl (unescape_ne_nil h2 hpa))
  rw [URL.front]
  generalize ({ u with forceQuery := force, rawQuery := q, fragment := f } : URL).escapedPath = ep at hpath
  subst h3
  have hauth : ({ scheme := c.scheme.map lowerByte, user, host, path,
                  rawPath := if c.path = escape .path path then [] else c.path,
                  forceQuery := force, rawQuery := q, fragment := f } : URL).authorityPart = g!"//" ++ authText user host := by
    rw [URL.authorityPart, if_neg (by simp [hs]), if_neg (by simp), if_pos hslash]
    cases user <;> simp [authText]
  simp only [hauth, hs, if_false, ne_eq, not_true_eq_false]
  have : ¬ (ep ≠ [] ∧ ep.head? ≠ some 47 ∧ host ≠ []) := by
    rintro ⟨a1, a2, -⟩
    rcases hpath with h | h
    · exact a1 h
    · exact a2 h
  simp only [ne_eq] at this
  rw [if_neg this, if_neg (by simp)]
  simp

/-- The URL that is printed for an accepted URI when its query is replaced by `q`. -/
theorem print_uri {s : Str} {c : UriParts} {u : URL} (h : IsUri s c) (hu : parse true s = some u)
    (hne : c.authority ≠ [] ∨ c.path ≠ []) (q : Str) (hq : q ≠ []) :
    ∃ user host p, parseAuthority c.authority = some (user, host) ∧
      ({ u with rawQuery := q } : URL).str = c.scheme.map lowerByte ++ g!"://" ++ authText user host ++ p ++ 63 :: q ∧
      (∀ b ∈ p, b ∉ g!"?# " ∧ 32 < b ∧ b < 127) ∧ (p = [] ∨ p.head? = some 47) ∧ pct p = pct c.path ∧
      (validEncodedPath c.path = true ↔ p = c.path) := by
  obtain ⟨user, host, p, h1, h2, h3⟩ := print_front h hu hne u.forceQuery q []
  have hf : u.fragment = [] := by
    obtain ⟨-, -, -, _, _, _, -, -, e⟩ := (parse_uri h rfl u).mp hu
    rw [e]
  have he : ({ u with rawQuery := q } : URL) = { u with forceQuery := u.forceQuery, rawQuery := q, fragment := [] } := by
    rw [← hf]
  refine ⟨user, host, p, h1, ?_, h3⟩
  rw [URL.str, he, h2]
  simp [hq]

/-- The URL that is printed for an accepted URI when it gets a fragment; its query is kept. -/
theorem print_fragment {s : Str} {c : UriParts} {u : URL} (h : IsUri s c) (hu : parse true s = some u)
    (hne : c.authority ≠ [] ∨ c.path ≠ []) (f : Str) :
    ∃ user host p, parseAuthority c.authority = some (user, host) ∧
      ({ u with fragment := f } : URL).str = c.scheme.map lowerByte ++ g!"://" ++ authText user host ++ p ++ queryTail c.query ++
        (if f ≠ [] then 35 :: escape .fragment f else []) ∧
      (∀ b ∈ p, b ∉ g!"?# " ∧ 32 < b ∧ b < 127) ∧ (p = [] ∨ p.head? = some 47) ∧ pct p = pct c.path ∧
      (validEncodedPath c.path = true ↔ p = c.path) := by
  obtain ⟨user, host, p, h1, h2, h3⟩ := print_front h hu hne u.forceQuery u.rawQuery f
  refine ⟨user, host, p, h1, ?_, h3⟩
  have hq : (if u.forceQuery = true ∨ u.rawQuery ≠ [] then 63 :: u.rawQuery else []) = queryTail c.query := by
    obtain ⟨-, -, -, _, _, _, -, -, e⟩ := (parse_uri h rfl u).mp hu
    rw [e]
    cases hc : c.query with
    | none => simp [queryTail]
    | some x => by_cases hx : x = [] <;> simp [queryTail, hx]
  rw [URL.str, h2]
  simp only [hq]

end Verif.Url
