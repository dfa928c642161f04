import Verif.Proofs.UrlPrint

/-! Parameters written by `url.Values.Encode` and read by `url.ParseQuery`; redirections. -/
namespace Verif.Url
open Verif.Spec

theorem strLe_refl (s : Str) : strLe s s = true := by
  induction s with
  | nil => rfl
  | cons c s ih => simp [strLe, ih]

theorem first_insertKey (x : Str × Str) (l : List (Str × Str)) (k : Str) :
    first (insertKey x l) k = if k = x.1 then some x.2 else first l k := by
  induction l with
  | nil =>
    by_cases h : k = x.1
    · simp [first, insertKey, List.lookup, h]
    · have : (k == x.1) = false := by simpa using h
      simp [first, insertKey, List.lookup, h, this]
  | cons y l ih =>
    rw [insertKey]
    split
    · by_cases h : k = x.1
      · simp [first, List.lookup, h]
      · simp only [first, List.lookup, h, if_false]
        have : (k == x.1) = false := by simpa using h
        rw [this]
    · rename_i hle
      have hne : y.1 ≠ x.1 := by
        intro e
        rw [e, strLe_refl] at hle
        exact hle rfl
      by_cases hy : k = y.1
      · subst hy
        simp [first, List.lookup, hne]
      · have hb : (k == y.1) = false := by simpa using hy
        have e1 : first (y :: insertKey x l) k = first (insertKey x l) k := by
          simp only [first, List.lookup, hb]
        have e2 : first (y :: l) k = first l k := by
          simp only [first, List.lookup, hb]
        rw [e1, e2, ih]

theorem first_sortKeys (l : List (Str × Str)) (k : Str) : first (sortKeys l) k = first l k := by
  induction l with
  | nil => rfl
  | cons x l ih =>
    have : sortKeys (x :: l) = insertKey x (sortKeys l) := rfl
    rw [this, first_insertKey, ih]
    by_cases h : k = x.1
    · simp [first, List.lookup, h]
    · have hb : (k == x.1) = false := by simpa using h
      rw [if_neg h]
      simp only [first, List.lookup, hb]

theorem splitOn_append {c : UInt8} {a : Str} (b : Str) (h : c ∉ a) : splitOn c (a ++ c :: b) = a :: splitOn c b := by
  induction a with
  | nil => simp [splitOn]
  | cons x a ih =>
    have hx : x ≠ c := fun e => h (by simp [e])
    rw [List.cons_append, splitOn, if_neg hx, ih (fun e => h (by simp [e]))]

theorem splitOn_none {c : UInt8} {a : Str} (h : c ∉ a) : splitOn c a = [a] := by
  induction a with
  | nil => rfl
  | cons x a ih =>
    have hx : x ≠ c := fun e => h (by simp [e])
    rw [splitOn, if_neg hx, ih (fun e => h (by simp [e]))]

/-- The bytes of a printed parameter. -/
theorem query_bytes {h : Str} : ∀ b ∈ escape .queryComponent h, b ∉ g!"#&;= ?/:" ∧ 32 < b ∧ b < 127 := by
  intro b hb
  have key : ∀ b : UInt8, (b = 37 ∨ ishex b = true ∨ b = 43 ∨ shouldEscape .queryComponent b = false) →
      b ∉ g!"#&;= ?/:" ∧ 32 < b ∧ b < 127 := by
    apply bytes
    decide +kernel
  refine key b ?_
  rcases mem_escape hb with h | h | h | ⟨-, h⟩ <;> simp [h]

theorem parsePair_pair (x : Str × Str) : parsePair (pair x) = some x := by
  have h59 : (59 : UInt8) ∉ pair x := by
    simp only [pair, List.mem_append, List.mem_singleton, not_or]
    exact ⟨⟨fun h => (query_bytes _ h).1 (by decide), by decide⟩, fun h => (query_bytes _ h).1 (by decide)⟩
  have hne : pair x ≠ [] := by simp [pair]
  have h61 : (61 : UInt8) ∉ escape .queryComponent x.1 := fun h => (query_bytes _ h).1 (by decide)
  have hc : cut 61 (pair x) = (escape .queryComponent x.1, escape .queryComponent x.2) := by
    rw [pair, List.append_assoc]
    exact cut_append h61
  rw [parsePair, if_neg h59, if_neg hne, hc]
  simp only
  rw [unescape_escape _ (by decide), unescape_escape _ (by decide)]

theorem amp_pair (x : Str × Str) : (38 : UInt8) ∉ pair x := by
  simp only [pair, List.mem_append, List.mem_singleton, not_or]
  exact ⟨⟨fun h => (query_bytes _ h).1 (by decide), by decide⟩, fun h => (query_bytes _ h).1 (by decide)⟩

theorem splitOn_intercalate : ∀ (l : List (Str × Str)), l ≠ [] →
    splitOn 38 ((g!"&").intercalate (l.map pair)) = l.map pair
  | [], h => absurd rfl h
  | [x], _ => by simp [List.intercalate, splitOn_none (amp_pair x)]
  | x :: y :: l, _ => by
    have ih := splitOn_intercalate (y :: l) (by simp)
    have : (g!"&").intercalate ((x :: y :: l).map pair) = pair x ++ 38 :: (g!"&").intercalate ((y :: l).map pair) := by
      simp [List.intercalate]
    rw [this, splitOn_append _ (amp_pair x), ih]
    rfl

/-- **Round trip.** `url.ParseQuery` reads what `Encode` wrote. -/
theorem parseQuery_encode (l : List (Str × Str)) : parseQuery (encode l) = sortKeys l := by
  have hmap : ∀ l : List (Str × Str), (l.map pair).filterMap parsePair = l := by
    intro l
    induction l with
    | nil => rfl
    | cons x l ih => rw [List.map_cons, List.filterMap_cons, parsePair_pair]; simp [ih]
  rw [parseQuery, encode]
  by_cases h : sortKeys l = []
  · rw [h]
    rfl
  · rw [splitOn_intercalate _ h, hmap]

theorem first_parse_encode (l : List (Str × Str)) (k : Str) : first (parseQuery (encode l)) k = first l k := by
  rw [parseQuery_encode, first_sortKeys]

theorem encode_bytes (l : List (Str × Str)) : ∀ b ∈ encode l, b ∉ g!"#; ?/:" ∧ 32 < b ∧ b < 127 := by
  have hpair : ∀ x, ∀ b ∈ pair x, b ∉ g!"#; ?/:" ∧ 32 < b ∧ b < 127 := by
    intro x b hb
    simp only [pair, List.mem_append, List.mem_singleton] at hb
    have hsub : b ∉ g!"#&;= ?/:" ∧ 32 < b ∧ b < 127 → b ∉ g!"#; ?/:" ∧ 32 < b ∧ b < 127 := by
      rintro ⟨h1, h2⟩
      exact ⟨fun hm => h1 (by revert hm; simp; rintro (rfl | rfl | rfl | rfl | rfl | rfl) <;> simp), h2⟩
    rcases hb with (hb | rfl) | hb
    · exact hsub (query_bytes b hb)
    · decide
    · exact hsub (query_bytes b hb)
  intro b hb
  rw [encode] at hb
  generalize sortKeys l = m at hb
  induction m with
  | nil => simp [List.intercalate] at hb
  | cons x m ih =>
    cases m with
    | nil => exact hpair x b (by simpa [List.intercalate] using hb)
    | cons y m =>
      have : (g!"&").intercalate ((x :: y :: m).map pair) = pair x ++ 38 :: (g!"&").intercalate ((y :: m).map pair) := by
        simp [List.intercalate]
      rw [this] at hb
      simp only [List.mem_append, List.mem_cons] at hb
      rcases hb with hb | rfl | hb
      · exact hpair x b hb
      · decide
      · exact ih hb

theorem encode_ne_nil {l : List (Str × Str)} (h : l ≠ []) : encode l ≠ [] := by
  intro e
  have := parseQuery_encode l
  rw [e] at this
  have hs : sortKeys l = [] := this.symm
  cases l with
  | nil => exact h rfl
  | cons x l =>
    have h1 : sortKeys (x :: l) = insertKey x (sortKeys l) := rfl
    rw [h1] at hs
    revert hs
    cases sortKeys l with
    | nil => simp [insertKey]
    | cons y m =>
      rw [insertKey]
      split <;> simp

/-! ### Redirections -/

theorem hexEscape_ascii {s : Str} (h : ∀ b ∈ s, b < 128) : hexEscapeNonASCII s = s := by
  induction s with
  | nil => rfl
  | cons c s ih =>
    have hc : ¬ (128 ≤ c) := UInt8.not_le.mpr (h c (by simp))
    have : hexEscapeNonASCII (c :: s) = [c] ++ hexEscapeNonASCII s := by
      rw [hexEscapeNonASCII, List.flatMap_cons, if_neg hc]
      rfl
    rw [this, ih (fun b hb => h b (by simp [hb]))]
    rfl

theorem setPath_scheme {u v : URL} {p : Str} (h : setPath u p = some v) : v.scheme = u.scheme := by
  rw [setPath] at h
  cases hu : unescape .path p with
  | none => rw [hu] at h; cases h
  | some x => rw [hu] at h; cases h; rfl

theorem parseRest_scheme {via : Bool} {u v : URL} {r : Str} (h : parseRest via u r = some v) : v.scheme = u.scheme := by
  rw [parseRest] at h
  repeat' split at h
  all_goals first
    | (cases h; done)
    | (cases h; rfl)
    | skip
  · dsimp only at h
    split at h
    · cases h
    · exact (setPath_scheme h).trans rfl
  · exact (setPath_scheme h).trans rfl

/-- A URL with a scheme is redirected to as it is. -/
theorem redirect_scheme {dir sch rest : Str} {a : UInt8} {p : Str} (he : sch = a :: p) (ha : isAlpha a = true)
    (hs : ∀ b ∈ sch, isSchemeByte b = true) :
    redirect dir (sch ++ 58 :: rest) = hexEscapeNonASCII (sch ++ 58 :: rest) := by
  have h35 : ∀ b ∈ sch, decide (b ≠ (35 : UInt8)) = true := by
    intro b hb
    have := (isSchemeByte_plain _ (hs _ hb)).1
    exact decide_eq_true fun e => this (by rw [e]; decide)
  have hcut : (cut 35 (sch ++ 58 :: rest)).1 = sch ++ 58 :: (cut 35 rest).1 := by
    simp only [cut]
    rw [List.takeWhile_append_of_pos h35, List.takeWhile_cons_of_pos (by decide)]
  have key : ∀ r u, parse false (sch ++ 58 :: r) = some u → u.scheme ≠ [] := by
    intro r u hu
    have hstar : sch ++ 58 :: r ≠ g!"*" := by
      rw [he]
      intro e
      have := congrArg List.length e
      simp at this
    rw [parse] at hu
    split at hu
    · cases hu
    · split at hu
      · cases hu
      · rw [getScheme_colon he ha hs] at hu
        simp only at hu
        split at hu <;> · rw [parseRest_scheme hu, he]; simp
  rw [redirect, parseURL, hcut]
  congr 1
  cases hp : parse false (sch ++ 58 :: (cut 35 rest).1) with
  | none => rfl
  | some u =>
    have := key _ u hp
    cases unescape .fragment (cut 35 (sch ++ 58 :: rest)).2 with
    | none => rfl
    | some f =>
      simp only [Option.map_some]
      rw [if_neg (by simp [this])]

/-! ### Bytes of a location -/

/-- A byte that is neither a control byte nor DEL. -/
def printable (b : UInt8) : Prop := 32 ≤ b ∧ b ≠ 127

theorem printable_of_range {b : UInt8} (h : 32 < b ∧ b < 127) : printable b := by
  obtain ⟨h1, h2⟩ := h
  refine ⟨UInt8.le_of_lt h1, ?_⟩
  rintro rfl
  exact absurd h2 (by decide)

theorem cut_subset {c : UInt8} {s : Str} : (∀ b ∈ (cut c s).1, b ∈ s) ∧ ∀ b ∈ (cut c s).2, b ∈ s :=
  ⟨fun _ hb => (List.takeWhile_sublist _).subset hb, fun _ hb => (List.dropWhile_sublist _).subset (List.mem_of_mem_drop hb)⟩

theorem setPath_keeps {u v : URL} {p : Str} (h : setPath u p = some v) : v.opq = u.opq ∧ v.fragment = u.fragment := by
  rw [setPath] at h
  cases hu : unescape .path p with
  | none => rw [hu] at h; cases h
  | some x => rw [hu] at h; cases h; exact ⟨rfl, rfl⟩

theorem parseRest_fields {via : Bool} {u v : URL} {r : Str} (h : parseRest via u r = some v) (ho : u.opq = [])
    (hf : u.fragment = []) : (v.opq = [] ∨ v.opq = r) ∧ v.fragment = [] := by
  rw [parseRest] at h
  repeat' split at h
  all_goals first
    | (cases h; done)
    | (cases h; exact ⟨Or.inr rfl, hf⟩)
    | skip
  · dsimp only at h
    split at h
    · cases h
    · have := setPath_keeps h
      exact ⟨Or.inl (this.1.trans ho), this.2.trans hf⟩
  · have := setPath_keeps h
    exact ⟨Or.inl (this.1.trans ho), this.2.trans hf⟩

theorem lower_printable : ∀ b : UInt8, isSchemeByte b = true → printable (lowerByte b) ∧ isSchemeByte (lowerByte b) = true ∧
    lowerByte b < 128 ∧ (isAlpha b = true → isAlpha (lowerByte b) = true) ∧ lowerByte b = asciiLower b := by
  unfold printable
  apply bytes
  decide +kernel

/-- The fields that `parse` takes over from its argument. -/
theorem parse_fields {via : Bool} {s : Str} {u : URL} (h : parse via s = some u) :
    (∀ b ∈ s, printable b) ∧ (∀ b ∈ u.scheme, printable b) ∧ (∀ b ∈ u.opq, b ∈ s) ∧ u.fragment = [] := by
  rw [parse] at h
  split at h
  · cases h
  · rename_i hctl
    have hprint : ∀ b ∈ s, printable b := by
      intro b hb
      have : ¬ (decide (b < 32) || decide (b = 127)) = true := by
        intro e
        exact hctl (by rw [hasCTL, List.any_eq_true]; exact ⟨b, hb, e⟩)
      simp only [Bool.or_eq_true, decide_eq_true_eq, not_or] at this
      exact ⟨UInt8.not_lt.mp this.1, this.2⟩
    refine ⟨hprint, ?_⟩
    split at h
    · cases h
    · split at h
      · cases h
        exact ⟨fun b hb => (List.not_mem_nil hb).elim, fun b hb => (List.not_mem_nil hb).elim, rfl⟩
      · cases hg : getScheme s with
        | none => rw [hg] at h; cases h
        | some x =>
          obtain ⟨sch, rest⟩ := x
          rw [hg] at h
          dsimp only at h
          have hsch : ∀ b ∈ sch.map lowerByte, printable b := by
            intro b hb
            obtain ⟨c, hc, rfl⟩ := List.mem_map.mp hb
            have hne : sch ≠ [] := by rintro rfl; cases hc
            exact (lower_printable c ((getScheme_some hg hne).2.1 c hc)).1
          have hsub : ∀ b ∈ rest, b ∈ s := by
            intro b hb
            by_cases hs : sch = []
            · subst hs
              rw [← getScheme_nil hg]
              exact hb
            · rw [(getScheme_some hg hs).1]
              simp [hb]
          split at h
          · refine ⟨by rw [parseRest_scheme h]; exact hsch, ?_, (parseRest_fields h rfl rfl).2⟩
            rcases (parseRest_fields h rfl rfl).1 with e | e
            · rw [e]; exact fun b hb => (List.not_mem_nil hb).elim
            · rw [e]; exact fun b hb => hsub b ((List.dropLast_sublist _).subset hb)
          · refine ⟨by rw [parseRest_scheme h]; exact hsch, ?_, (parseRest_fields h rfl rfl).2⟩
            rcases (parseRest_fields h rfl rfl).1 with e | e
            · rw [e]; exact fun b hb => (List.not_mem_nil hb).elim
            · rw [e]; exact fun b hb => hsub b (cut_subset.1 b hb)

theorem escapedPath_printable (u : URL) : ∀ b ∈ u.escapedPath, printable b := by
  intro b hb
  rw [URL.escapedPath] at hb
  split at hb
  · rename_i h
    exact printable_of_range (valid_bytes h.2.1 b hb).2
  · split at hb
    · simp only [List.mem_singleton] at hb
      subst hb
      exact ⟨by decide, by decide⟩
    · exact printable_of_range (path_bytes b hb).2

theorem authorityPart_printable (u : URL) : ∀ b ∈ u.authorityPart, printable b := by
  intro b hb
  have h47 : printable 47 := ⟨by decide, by decide⟩
  have h64 : printable 64 := ⟨by decide, by decide⟩
  have h58 : printable 58 := ⟨by decide, by decide⟩
  rw [URL.authorityPart] at hb
  split at hb
  · cases hb
  · split at hb
    · cases hb
    · simp only [List.mem_append] at hb
      rcases hb with (hb | hb) | hb
      · split at hb
        · simp only [List.mem_cons, List.not_mem_nil, or_false, or_self] at hb
          rw [hb]; exact h47
        · cases hb
      · cases hu : u.user with
        | none => rw [hu] at hb; cases hb
        | some ui =>
          obtain ⟨n, p⟩ := ui
          rw [hu] at hb
          simp only [List.mem_append, List.mem_singleton] at hb
          rcases hb with hb | rfl
          · cases p with
            | none => exact printable_of_range (user_bytes b hb).2
            | some p =>
              simp only [userString, List.mem_append, List.mem_singleton] at hb
              rcases hb with (hb | rfl) | hb
              · exact printable_of_range (user_bytes b hb).2
              · exact h58
              · exact printable_of_range (user_bytes b hb).2
          · exact h64
      · exact printable_of_range (host_bytes b hb).2

theorem str_printable {u : URL} (hs : ∀ b ∈ u.scheme, printable b) (ho : ∀ b ∈ u.opq, printable b)
    (hf : u.fragment = []) (hq : ∀ b ∈ u.rawQuery, printable b) : ∀ b ∈ u.str, printable b := by
  intro b hb
  have h47 : printable 47 := ⟨by decide, by decide⟩
  have h46 : printable 46 := ⟨by decide, by decide⟩
  have h58 : printable 58 := ⟨by decide, by decide⟩
  have h63 : printable 63 := ⟨by decide, by decide⟩
  have hsch : ∀ b ∈ (if u.scheme = [] then [] else u.scheme ++ [58]), printable b := by
    intro b hb
    split at hb
    · cases hb
    · simp only [List.mem_append, List.mem_singleton] at hb
      rcases hb with hb | rfl
      · exact hs b hb
      · exact h58
  rw [URL.str, hf] at hb
  simp only [ne_eq, not_true_eq_false, if_false, List.append_nil, List.mem_append] at hb
  rcases hb with hb | hb
  · rw [URL.front] at hb
    dsimp only at hb
    split at hb
    · simp only [List.mem_append] at hb
      rcases hb with hb | hb
      · exact hsch b hb
      · exact ho b hb
    · have hbuf : ∀ b ∈ (if u.scheme = [] then [] else u.scheme ++ [58]) ++ u.authorityPart, printable b := by
        intro b hb
        simp only [List.mem_append] at hb
        rcases hb with hb | hb
        · exact hsch b hb
        · exact authorityPart_printable u b hb
      simp only [List.mem_append] at hb
      rcases hb with hb | hb
      · have hbuf' : ∀ b ∈ (if u.escapedPath ≠ [] ∧ u.escapedPath.head? ≠ some 47 ∧ u.host ≠ [] then
            (if u.scheme = [] then [] else u.scheme ++ [58]) ++ u.authorityPart ++ [47]
            else (if u.scheme = [] then [] else u.scheme ++ [58]) ++ u.authorityPart), printable b := by
          intro b hb
          split at hb
          · rw [List.mem_append, List.mem_singleton] at hb
            rcases hb with hb | rfl
            · exact hbuf b hb
            · exact h47
          · exact hbuf b hb
        generalize (if u.escapedPath ≠ [] ∧ u.escapedPath.head? ≠ some 47 ∧ u.host ≠ [] then
            (if u.scheme = [] then [] else u.scheme ++ [58]) ++ u.authorityPart ++ [47]
            else (if u.scheme = [] then [] else u.scheme ++ [58]) ++ u.authorityPart) = buf at hb hbuf'
        split at hb
        · simp only [List.mem_cons, List.not_mem_nil, or_false] at hb
          rcases hb with rfl | rfl
          · exact h46
          · exact h47
        · exact hbuf' b hb
      · exact escapedPath_printable u b hb
  · split at hb
    · simp only [List.mem_cons] at hb
      rcases hb with rfl | hb
      · exact h63
      · exact hq b hb
    · cases hb

theorem mem_splitOn {c : UInt8} {s x : Str} (h : x ∈ splitOn c s) : ∀ b ∈ x, b ∈ s := by
  induction s generalizing x with
  | nil =>
    simp only [splitOn, List.mem_singleton] at h
    subst h
    exact fun b hb => hb
  | cons a s ih =>
    rw [splitOn] at h
    split at h
    · simp only [List.mem_cons] at h
      rcases h with rfl | h
      · exact fun b hb => (List.not_mem_nil hb).elim
      · exact fun b hb => by simp [ih h b hb]
    · cases hs : splitOn c s with
      | nil =>
        rw [hs] at h
        simp only [List.mem_singleton] at h
        subst h
        intro b hb
        simp only [List.mem_singleton] at hb
        simp [hb]
      | cons y l =>
        rw [hs] at h
        simp only [List.mem_cons] at h
        rcases h with rfl | h
        · intro b hb
          simp only [List.mem_cons] at hb
          rcases hb with rfl | hb
          · simp
          · have := ih (x := y) (by rw [hs]; simp) b hb
            simp [this]
        · exact fun b hb => by
            have := ih (x := x) (by rw [hs]; simp [h]) b hb
            simp [this]

theorem mem_cleanSegs {acc l : List Str} {x : Str} (h : x ∈ cleanSegs acc l) : x ∈ acc ∨ x ∈ l := by
  induction l generalizing acc with
  | nil => exact Or.inl h
  | cons s l ih =>
    rw [cleanSegs] at h
    split at h
    · rcases ih h with h | h
      · exact Or.inl h
      · exact Or.inr (by simp [h])
    · split at h
      · rcases ih h with h | h
        · exact Or.inl (List.mem_of_mem_drop h)
        · exact Or.inr (by simp [h])
      · rcases ih h with h | h
        · simp only [List.mem_cons] at h
          rcases h with rfl | h
          · exact Or.inr (by simp)
          · exact Or.inl h
        · exact Or.inr (by simp [h])

theorem mem_intercalate {sep : Str} {l : List Str} {b : UInt8} (h : b ∈ sep.intercalate l) : b ∈ sep ∨ ∃ x ∈ l, b ∈ x := by
  induction l with
  | nil => simp [List.intercalate] at h
  | cons x l ih =>
    cases l with
    | nil => exact Or.inr ⟨x, by simp, by simpa [List.intercalate] using h⟩
    | cons y l =>
      have : sep.intercalate (x :: y :: l) = x ++ (sep ++ sep.intercalate (y :: l)) := by simp [List.intercalate]
      rw [this] at h
      simp only [List.mem_append] at h
      rcases h with h | h | h
      · exact Or.inr ⟨x, by simp, h⟩
      · exact Or.inl h
      · rcases ih h with h | ⟨z, hz, hb⟩
        · exact Or.inl h
        · exact Or.inr ⟨z, by simp [hz], hb⟩

theorem mem_cleanPath {p : Str} {b : UInt8} (h : b ∈ cleanPath p) : b = 47 ∨ b ∈ p := by
  rw [cleanPath, List.mem_cons] at h
  rcases h with h | h
  · exact Or.inl h
  · rcases mem_intercalate h with h | ⟨x, hx, hb⟩
    · exact Or.inl (by simpa using h)
    · rw [List.mem_reverse] at hx
      rcases mem_cleanSegs hx with h | h
      · cases h
      · exact Or.inr (List.mem_of_mem_drop (mem_splitOn h b hb))

theorem mem_relative {dir url : Str} {b : UInt8} (h : b ∈ relative dir url) : b = 47 ∨ b ∈ dir ∨ b ∈ url := by
  unfold relative at h
  dsimp only at h
  generalize hu : (if url.head? ≠ some 47 then dir ++ url else url) = full at h
  have hfull : ∀ b ∈ full, b ∈ dir ∨ b ∈ url := by
    intro b hb
    rw [← hu] at hb
    split at hb
    · simpa using hb
    · exact Or.inr hb
  have hcl : ∀ b ∈ cleanPath (cut 63 full).1, b = 47 ∨ b ∈ dir ∨ b ∈ url := by
    intro b hb
    rcases mem_cleanPath hb with h | h
    · exact Or.inl h
    · exact Or.inr (hfull b (cut_subset.1 b h))
  simp only [List.mem_append] at h
  rcases h with h | h
  · split at h
    · rw [List.mem_append, List.mem_singleton] at h
      rcases h with h | h
      · exact hcl b h
      · exact Or.inl h
    · exact hcl b h
  · exact Or.inr (hfull b (List.mem_of_mem_drop h))

theorem hexEscape_printable {s : Str} (h : ∀ b ∈ s, printable b) : ∀ b ∈ hexEscapeNonASCII s, 32 ≤ b ∧ b < 127 := by
  intro b hb
  have key : ∀ c : UInt8, printable c → ∀ b ∈ (if 128 ≤ c then [37, hexEscapeNonASCII.lowerhex (c / 16), hexEscapeNonASCII.lowerhex (c % 16)]
      else [c]), 32 ≤ b ∧ b < 127 := by
    unfold printable
    apply bytes
    decide +kernel
  obtain ⟨c, hc, hb⟩ := List.mem_flatMap.mp hb
  exact key c (h c hc) b hb

/-- The text of the location for a redirect URI with an authority. -/
theorem pct_percent (s : Str) (h : ∀ a b t, s = a :: b :: t → hexDigit a = none ∨ hexDigit b = none) :
    pct (37 :: s) = 37 :: pct s := by
  match s, h with
  | [], _ => rfl
  | [_], _ => rfl
  | a :: b :: t, h =>
    rw [pct]
    simp only [if_true]
    rcases h a b t rfl with e | e
    · rw [e]
    · rw [e]
      cases hexDigit a <;> rfl

/-- `hexEscapeNonASCII` changes no meaning. -/
theorem pct_hexEscape (s : Str) : pct (hexEscapeNonASCII s) = pct s := by
  have cons : ∀ (c : UInt8) (s : Str), hexEscapeNonASCII (c :: s) =
      (if 128 ≤ c then [37, hexEscapeNonASCII.lowerhex (c / 16), hexEscapeNonASCII.lowerhex (c % 16)] else [c]) ++
        hexEscapeNonASCII s := fun c s => by rw [hexEscapeNonASCII, List.flatMap_cons]; rfl
  have digits : ∀ c : UInt8, 128 ≤ c → ishex (hexEscapeNonASCII.lowerhex (c / 16)) = true ∧
      ishex (hexEscapeNonASCII.lowerhex (c % 16)) = true ∧
      unhex (hexEscapeNonASCII.lowerhex (c / 16)) * 16 + unhex (hexEscapeNonASCII.lowerhex (c % 16)) = c := by
    apply bytes
    decide +kernel
  have low : ∀ c : UInt8, hexDigit c ≠ none → ¬ 128 ≤ c ∧ ishex c = true := by
    apply bytes
    decide +kernel
  induction hn : s.length using Nat.strongRecOn generalizing s with
  | _ n ih =>
    cases s with
    | nil => rfl
    | cons c s =>
      have ihs : pct (hexEscapeNonASCII s) = pct s := ih s.length (by rw [← hn]; simp) s rfl
      rw [cons]
      by_cases h128 : 128 ≤ c
      · obtain ⟨d1, d2, d3⟩ := digits c h128
        have h37 : c ≠ 37 := by rintro rfl; exact absurd h128 (by decide)
        rw [if_pos h128]
        simp only [List.cons_append, List.nil_append]
        rw [pct_hex _ _ _ d1 d2, d3, ihs, pct_byte _ _ h37]
      · rw [if_neg h128, List.singleton_append]
        by_cases h37 : c = 37
        · subst h37
          by_cases hx : ∃ a b t, s = a :: b :: t ∧ hexDigit a ≠ none ∧ hexDigit b ≠ none
          · obtain ⟨a, b, t, rfl, ha, hb⟩ := hx
            rw [cons, if_neg (low a ha).1, cons, if_neg (low b hb).1]
            simp only [List.singleton_append]
            rw [pct_hex _ _ _ (low a ha).2 (low b hb).2, pct_hex _ _ _ (low a ha).2 (low b hb).2,
              ih t.length (by rw [← hn]; simp; omega) t rfl]
          · rw [pct_percent, pct_percent, ihs]
            · intro a b t e
              by_contra hc
              simp only [not_or] at hc
              exact hx ⟨a, b, t, e, hc⟩
            · intro a' b' t' e
              by_contra hc
              simp only [not_or] at hc
              have h37' : hexDigit 37 = none := by decide
              match s with
              | [] => simp [hexEscapeNonASCII] at e
              | [a] =>
                rw [cons] at e
                split at e
                · cases e
                  exact hc.1 h37'
                · simp [hexEscapeNonASCII] at e
              | a :: b :: t =>
                rw [cons] at e
                split at e
                · cases e
                  exact hc.1 h37'
                · rw [cons] at e
                  split at e
                  · cases e
                    exact hc.2 h37'
                  · cases e
                    exact hx ⟨_, _, _, rfl, hc⟩
        · rw [pct_byte _ _ h37, pct_byte _ _ h37, ihs]

theorem hexEscape_append (s t : Str) : hexEscapeNonASCII (s ++ t) = hexEscapeNonASCII s ++ hexEscapeNonASCII t := by
  rw [hexEscapeNonASCII, List.flatMap_append]
  rfl

theorem hexEscape_no {s : Str} {b : UInt8} (h : b ∈ hexEscapeNonASCII s) : b ∈ s ∨ b = 37 ∨ ishex b = true := by
  have key : ∀ c : UInt8, ∀ b ∈ (if 128 ≤ c then [37, hexEscapeNonASCII.lowerhex (c / 16), hexEscapeNonASCII.lowerhex (c % 16)]
      else [c]), b = c ∨ b = 37 ∨ ishex b = true := by
    apply bytes
    decide +kernel
  rw [hexEscapeNonASCII] at h
  obtain ⟨c, hc, hb⟩ := List.mem_flatMap.mp h
  rcases key c b hb with rfl | h
  · exact Or.inl hc
  · exact Or.inr h

/-- The redirection with parameters in the fragment. -/
theorem fragment_text {dir uri loc : Str} {params : List (Str × Str)} {c : UriParts} (h : IsUri uri c)
    (hne : c.authority ≠ [] ∨ c.path ≠ []) (hp : params ≠ []) (hl : fragmentLocation dir uri params = some loc) :
    ∃ user host p, (∀ b ∈ c.scheme.map asciiLower, isSchemeByte b = true) ∧ c.scheme.map asciiLower ≠ [] ∧
      parseAuthority c.authority = some (user, host) ∧
      loc = c.scheme.map asciiLower ++ 58 :: (g!"//" ++ authText user host ++ p ++ queryTail (c.query.map hexEscapeNonASCII) ++
        35 :: escape .fragment (encode params)) ∧
      (∀ b ∈ p, b ∉ g!"?# " ∧ 32 < b ∧ b < 127) ∧ (p = [] ∨ p.head? = some 47) ∧ pct p = pct c.path ∧
      (validEncodedPath c.path = true ↔ p = c.path) := by
  rw [fragmentLocation, parseRequestURI] at hl
  cases hu : parse true uri with
  | none => rw [hu] at hl; cases hl
  | some u =>
    rw [hu] at hl
    simp only [Option.map_some, Option.some.injEq] at hl
    obtain ⟨user, host, p, h1, h2, h3, h4, h5, h6⟩ := print_fragment h hu hne (encode params)
    obtain ⟨-, hsb, ⟨a, t, hsch, ha⟩, -⟩ := (parse_uri h rfl u).mp hu
    obtain ⟨hab, -⟩ := authority_print h1
    have hlow : c.scheme.map lowerByte = c.scheme.map asciiLower :=
      List.map_congr_left fun b hb => (lower_printable b (hsb b hb)).2.2.2.2
    have hsb' : ∀ b ∈ c.scheme.map asciiLower, isSchemeByte b = true := by
      intro b hb
      rw [← hlow] at hb
      obtain ⟨x, hx, rfl⟩ := List.mem_map.mp hb
      exact (lower_printable x (hsb x hx)).2.1
    rw [hlow, if_pos (encode_ne_nil hp)] at h2
    have htext : ({ u with fragment := encode params } : URL).str =
        c.scheme.map asciiLower ++ 58 :: (g!"//" ++ authText user host ++ p ++ queryTail c.query ++
          35 :: escape .fragment (encode params)) := by
      rw [h2]
      simp
    refine ⟨user, host, p, hsb', by rw [hsch]; simp, h1, ?_, h3, h4, h5, h6⟩
    rw [← hl, htext, redirect_scheme (a := asciiLower a) (p := t.map asciiLower) (by rw [hsch]; rfl)
      (by have := (lower_printable a (hsb a (by rw [hsch]; simp))).2.2
          rw [← this.2.2]; exact this.2.1 ha) hsb']
    have hlt : ∀ b : UInt8, b < 127 → b < 128 := fun b hb => UInt8.lt_trans hb (by decide)
    have hfrag : ∀ b ∈ escape .fragment (encode params), b < 128 := by
      have key : ∀ b : UInt8, ∀ x ∈ escapeByte .fragment b, x < 128 := by
        apply bytes
        decide +kernel
      intro b hb
      obtain ⟨x, -, hx⟩ := List.mem_flatMap.mp hb
      exact key x b hx
    have hcolon : ∀ x : Str, (58 : UInt8) :: x = g!":" ++ x := fun x => rfl
    have hhash : ∀ x : Str, (35 : UInt8) :: x = g!"#" ++ x := fun x => rfl
    rw [hcolon, hhash]
    simp only [hexEscape_append]
    rw [hexEscape_ascii (s := c.scheme.map asciiLower) (fun b hb => (isSchemeByte_plain b (hsb' b hb)).2.2.1),
      hexEscape_ascii (s := authText user host) (fun b hb => hlt b (hab b hb).2.2),
      hexEscape_ascii (s := p) (fun b hb => hlt b (h3 b hb).2.2), hexEscape_ascii hfrag]
    cases c.query with
    | none => rfl
    | some q => rfl

theorem location_text {dir uri loc : Str} {params : List (Str × Str)} {c : UriParts} (h : IsUri uri c)
    (hne : c.authority ≠ [] ∨ c.path ≠ []) (hp : params ≠ []) (hl : location dir uri params = some loc) :
    ∃ user host p, (∀ b ∈ c.scheme.map asciiLower, isSchemeByte b = true) ∧ c.scheme.map asciiLower ≠ [] ∧
      parseAuthority c.authority = some (user, host) ∧
      loc = c.scheme.map asciiLower ++ 58 :: (g!"//" ++ authText user host ++ p ++ 63 :: encode params) ∧
      (∀ b ∈ p, b ∉ g!"?# " ∧ 32 < b ∧ b < 127) ∧ (p = [] ∨ p.head? = some 47) ∧ pct p = pct c.path ∧
      (validEncodedPath c.path = true ↔ p = c.path) := by
  rw [location, parseRequestURI] at hl
  cases hu : parse true uri with
  | none => rw [hu] at hl; cases hl
  | some u =>
    rw [hu] at hl
    simp only [Option.map_some, Option.some.injEq] at hl
    obtain ⟨user, host, p, h1, h2, h3, h4, h5, h6⟩ := print_uri h hu hne (encode params) (encode_ne_nil hp)
    obtain ⟨-, hsb, ⟨a, t, hsch, ha⟩, -⟩ := (parse_uri h rfl u).mp hu
    obtain ⟨hab, -⟩ := authority_print h1
    have hlow : c.scheme.map lowerByte = c.scheme.map asciiLower :=
      List.map_congr_left fun b hb => (lower_printable b (hsb b hb)).2.2.2.2
    have hsb' : ∀ b ∈ c.scheme.map asciiLower, isSchemeByte b = true := by
      intro b hb
      rw [← hlow] at hb
      obtain ⟨x, hx, rfl⟩ := List.mem_map.mp hb
      exact (lower_printable x (hsb x hx)).2.1
    have htext : ({ u with rawQuery := encode params } : URL).str =
        c.scheme.map asciiLower ++ 58 :: (g!"//" ++ authText user host ++ p ++ 63 :: encode params) := by
      rw [h2, hlow]
      simp
    have hloc : loc = c.scheme.map asciiLower ++ 58 :: (g!"//" ++ authText user host ++ p ++ 63 :: encode params) := by
      rw [← hl, htext, redirect_scheme (a := asciiLower a) (p := t.map asciiLower) (by rw [hsch]; rfl)
        (by have := (lower_printable a (hsb a (by rw [hsch]; simp))).2.2
            rw [← this.2.2]; exact this.2.1 ha) hsb']
      refine hexEscape_ascii fun b hb => ?_
      have hlt : ∀ b : UInt8, b < 127 → b < 128 := fun b hb => UInt8.lt_trans hb (by decide)
      simp only [List.mem_append, List.mem_cons, List.not_mem_nil, or_false, or_self] at hb
      rcases hb with hb | rfl | ((rfl | hb) | hb) | rfl | hb
      · exact (isSchemeByte_plain b (hsb' b hb)).2.2.1
      · decide
      · decide
      · exact hlt b (hab b hb).2.2
      · exact hlt b (h3 b hb).2.2
      · decide
      · exact hlt b (encode_bytes params b hb).2.2
    exact ⟨user, host, p, hsb', by rw [hsch]; simp, h1, hloc, h3, h4, h5, h6⟩

/-- Nothing is unescaped in a text without `%`. -/
theorem unescape_plain {m : Mode} (hm : m ≠ .queryComponent) : ∀ {s t : Str}, 37 ∉ s → unescape m s = some t → t = s
  | [], t, _, h => by cases h; rfl
  | c :: s, t, hp, h => by
    have h37 : c ≠ 37 := fun e => hp (by simp [e])
    have hp' : 37 ∉ s := fun e => hp (by simp [e])
    by_cases h43 : c = 43
    · subst h43
      rw [unescape_plus] at h
      cases hs : unescape m s with
      | none => simp [hs] at h
      | some x =>
        rw [hs] at h
        simp only [hm, if_false, Option.map_some, Option.some.injEq] at h
        rw [← h, unescape_plain hm hp' hs]
    · rw [unescape_byte m c s h37 h43] at h
      split at h
      · cases h
      · cases hs : unescape m s with
        | none => simp [hs] at h
        | some x => rw [hs] at h; cases h; rw [unescape_plain hm hp' hs]

theorem escape_plain {m : Mode} (hm : m ≠ .queryComponent) {s : Str} (h : ∀ b ∈ s, shouldEscape m b = false) : escape m s = s := by
  induction s with
  | nil => rfl
  | cons c s ih =>
    have : escape m (c :: s) = escapeByte m c ++ escape m s := rfl
    rw [this, ih (fun b hb => h b (by simp [hb]))]
    simp [escapeByte, hm, h c (by simp)]

theorem cutZone_none {s : Str} (h : 37 ∉ s) : cutZone s = none := by
  induction s with
  | nil => rfl
  | cons c s ih =>
    have hc : c ≠ 37 := fun e => h (by simp [e])
    rw [cutZone, ih (fun e => h (by simp [e])), if_neg (by intro e; simp only [List.take_succ_cons, List.cons.injEq] at e; exact hc e.1)]

/-- A host of plain bytes is taken and printed as it is. -/
theorem parseHost_plain {s h : Str} (hp : parseHost s = some h) (h37 : 37 ∉ s) : h = s := by
  rw [parseHost] at hp
  split at hp
  · split at hp
    · cases hp
    · rename_i pre port hc
      split at hp
      · cases hp
      · have : 37 ∉ pre := fun e => h37 (by rw [(cutLast_some hc).1]; simp [e])
        rw [cutZone_none this] at hp
        exact unescape_plain (by decide) h37 hp
  · split at hp
    · split at hp
      · cases hp
      · exact unescape_plain (by decide) h37 hp
    · exact unescape_plain (by decide) h37 hp

end Verif.Url
