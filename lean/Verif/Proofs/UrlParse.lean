import Verif.Proofs.Url
import Mathlib.Data.List.TakeWhile

/-! Parsing and printing of URLs with an authority. -/
namespace Verif.Url
open Verif.Spec

/-! ### Cutting -/

theorem takeWhile_ne_append {c : UInt8} {s r : Str} (h : c ∉ s) (hr : r = [] ∨ r.head? = some c) :
    (s ++ r).takeWhile (· ≠ c) = s ∧ (s ++ r).dropWhile (· ≠ c) = r := by
  induction s with
  | nil =>
    rcases hr with rfl | hr
    · simp
    · cases r with
      | nil => simp
      | cons b r => simp only [List.head?_cons, Option.some.injEq] at hr; subst hr; simp
  | cons a s ih =>
    have ha : a ≠ c := fun e => h (by simp [e])
    have := ih (fun e => h (by simp [e]))
    simp only [List.cons_append, List.takeWhile_cons, List.dropWhile_cons, ha, ne_eq, not_false_eq_true, decide_true,
      if_true]
    exact ⟨by rw [this.1], this.2⟩

theorem cut_append {c : UInt8} {s r : Str} (h : c ∉ s) : cut c (s ++ c :: r) = (s, r) := by
  have := takeWhile_ne_append (r := c :: r) h (Or.inr rfl)
  rw [cut, this.1, this.2]
  rfl

theorem cut_none {c : UInt8} {s : Str} (h : c ∉ s) : cut c s = (s, []) := by
  have := takeWhile_ne_append (r := []) h (Or.inl rfl)
  rw [List.append_nil] at this
  rw [cut, this.1, this.2]
  rfl

theorem cutLast_none {c : UInt8} {s : Str} : cutLast c s = none ↔ c ∉ s := by
  induction s with
  | nil => simp [cutLast]
  | cons b s ih =>
    rw [cutLast]
    cases h : cutLast c s with
    | some x => 
      have : c ∈ s := by
        by_contra hc
        rw [ih.mpr hc] at h
        cases h
      simp [this]
    | none =>
      have := ih.mp h
      by_cases hb : b = c
      · simp [hb]
      · simp [hb, this, Ne.symm hb]

theorem cutLast_some {c : UInt8} {s x y : Str} (h : cutLast c s = some (x, y)) : s = x ++ c :: y ∧ c ∉ y := by
  induction s generalizing x y with
  | nil => simp [cutLast] at h
  | cons b s ih =>
    rw [cutLast] at h
    cases h' : cutLast c s with
    | some p =>
      obtain ⟨p1, p2⟩ := p
      rw [h'] at h
      cases h
      obtain ⟨h1, h2⟩ := ih h'
      exact ⟨by rw [h1]; rfl, h2⟩
    | none =>
      rw [h'] at h
      simp only at h
      split at h
      · cases h
        rename_i hb
        exact ⟨by rw [hb]; rfl, cutLast_none.mp h'⟩
      · cases h

/-! ### Schemes -/

theorem getScheme_colon {sch rest : Str} {c : UInt8} {p : Str} (he : sch = c :: p) (hc : isAlpha c = true)
    (hs : ∀ b ∈ sch, isSchemeByte b = true) : getScheme (sch ++ 58 :: rest) = some (sch, rest) := by
  have h58 : isSchemeByte 58 = false := by decide
  have h1 : (sch ++ 58 :: rest).takeWhile isSchemeByte = sch := by
    rw [List.takeWhile_append_of_pos hs]
    simp [h58]
  have h2 : (sch ++ 58 :: rest).dropWhile isSchemeByte = 58 :: rest := by
    rw [List.dropWhile_append_of_pos hs]
    simp [h58]
  rw [getScheme, h1, h2, he]
  simp [hc]

/-- A scheme that is accepted is letters, digits, `+`, `-` and `.`, and begins with a letter. -/
theorem getScheme_some {raw sch rest : Str} (h : getScheme raw = some (sch, rest)) (hs : sch ≠ []) :
    raw = sch ++ 58 :: rest ∧ (∀ b ∈ sch, isSchemeByte b = true) ∧ ∃ c p, sch = c :: p ∧ isAlpha c = true := by
  rw [getScheme] at h
  have hcat := List.takeWhile_append_dropWhile (p := isSchemeByte) (l := raw)
  split at h
  · rename_i rest' hd
    split at h
    · cases h
    · rename_i c p hp
      split at h
      · rename_i hc
        cases h
        refine ⟨?_, ?_, c, p, rfl, hc⟩
        · rw [← hp, ← hd]
          exact hcat.symm
        · intro b hb
          rw [← hp] at hb
          exact List.mem_takeWhile_imp hb
      · cases h
        exact absurd rfl hs
  · cases h
    exact absurd rfl hs

theorem getScheme_nil {raw rest : Str} (h : getScheme raw = some ([], rest)) : rest = raw := by
  rw [getScheme] at h
  split at h
  · split at h
    · cases h
    · split at h
      · cases h
      · cases h; rfl
  · cases h; rfl

/-! ### URLs with an authority -/

/-- What `parse` cuts off behind the path. -/
theorem parse_behind {via : Bool} {u : URL} {front q : Str} {hasq : Bool} (hf : 63 ∉ front)
    {rest : Str} (hr : rest = front ++ if hasq then 63 :: q else []) (hq : hasq = false → q = []) :
    (if rest.getLast? = some 63 ∧ rest.count 63 = 1 then parseRest via { u with forceQuery := true } rest.dropLast
      else parseRest via { u with rawQuery := (cut 63 rest).2 } (cut 63 rest).1) =
    parseRest via (if hasq = true ∧ q = [] then { u with forceQuery := true } else { u with rawQuery := q }) front := by
  have hc : front.count 63 = 0 := List.count_eq_zero.mpr hf
  cases hasq with
  | false =>
    simp only [Bool.false_eq_true, if_false, List.append_nil] at hr
    subst hr
    rw [hq rfl, hc]
    simp [cut_none hf]
  | true =>
    simp only [if_true] at hr
    subst hr
    by_cases hq0 : q = []
    · subst hq0
      simp [hc]
    · rw [cut_append hf]
      have : ¬ ((front ++ 63 :: q).getLast? = some 63 ∧ (front ++ 63 :: q).count 63 = 1) := by
        rintro ⟨h1, h2⟩
        simp only [List.count_append, hc, List.count_cons_self, Nat.zero_add, Nat.add_eq_right] at h2
        have hq63 : 63 ∉ q := List.count_eq_zero.mp h2
        obtain ⟨l, b, rfl⟩ : ∃ l b, q = l ++ [b] := ⟨_, _, (List.dropLast_concat_getLast hq0).symm⟩
        have : (front ++ 63 :: (l ++ [b])) = (front ++ 63 :: l) ++ [b] := by simp
        rw [this, List.getLast?_concat] at h1
        cases h1
        exact hq63 (by simp)
      rw [if_neg this]
      simp [hq0]

theorem isSchemeByte_plain : ∀ b : UInt8, isSchemeByte b = true → b ∉ g!":/?#" ∧ b ≠ 42 ∧ b < 128 ∧ (32 ≤ b ∧ b ≠ 127) := by
  apply bytes
  decide +kernel

/-- **Acceptance.** A URI with an authority is accepted by `url.ParseRequestURI` exactly when it has no
control byte, its scheme is well formed, its authority is accepted and its path is well escaped; the
fields of the result are these components. -/
theorem parse_uri {via : Bool} {s : Str} {c : UriParts} (h : IsUri s c) (hvia : via = true) (u : URL) :
    parse via s = some u ↔
      hasCTL s = false ∧ (∀ b ∈ c.scheme, isSchemeByte b = true) ∧ (∃ a p, c.scheme = a :: p ∧ isAlpha a = true) ∧
      ∃ user host path, parseAuthority c.authority = some (user, host) ∧ unescape .path c.path = some path ∧
        u = { scheme := c.scheme.map lowerByte, user, host, path,
              rawPath := if c.path = escape .path path then [] else c.path,
              forceQuery := c.query = some [], rawQuery := c.query.getD [] } := by
  subst hvia
  obtain ⟨ht, h0, h1, h2, h3, h4, h5⟩ := h
  obtain ⟨sch, auth, path, query⟩ := c
  simp only at *
  obtain ⟨a, p, rfl⟩ : ∃ a p, sch = a :: p := by
    cases sch with
    | nil => exact absurd rfl h0
    | cons a p => exact ⟨a, p, rfl⟩
  have ha := h1 a (by simp)
  have hraw : s = (a :: p) ++ 58 :: (g!"//" ++ auth ++ path ++ (if query.isSome then 63 :: query.getD [] else [])) := by
    rw [ht]
    cases query <;> simp [queryTail]
  have hne : s ≠ [] := by rw [hraw]; simp
  have hstar : s ≠ g!"*" := by
    rw [hraw]
    intro e
    have := congrArg List.length e
    simp at this
  rw [parse]
  by_cases hctl : hasCTL s = true
  · simp [hctl]
  · simp only [Bool.not_eq_true] at hctl
    rw [if_neg (by simp [hctl]), if_neg (by simp [hne]), if_neg hstar]
    simp only [hctl, true_and]
    by_cases hok : (∀ b ∈ a :: p, isSchemeByte b = true) ∧ isAlpha a = true
    · rw [hraw, getScheme_colon rfl hok.2 hok.1]
      simp only
      have hfront : (63 : UInt8) ∉ g!"//" ++ auth ++ path := by
        simp only [List.mem_append, not_or]
        refine ⟨⟨by decide, fun hm => h2 _ hm (by decide)⟩, fun hm => h3 _ hm (by decide)⟩
      have key := parse_behind (via := true) (u := { scheme := (a :: p).map lowerByte }) (hasq := query.isSome)
        (q := query.getD []) hfront rfl (by cases query <;> simp)
      refine (iff_of_eq (congrArg (· = some u) key)).trans ?_
      have hps : ∀ w : URL, w.scheme = (a :: p).map lowerByte →
          parseRest true w (g!"//" ++ auth ++ path) =
            match parseAuthority auth with
            | none => none
            | some (user, host) => setPath { w with user, host } path := by
        intro w hw
        have hsch : w.scheme ≠ [] := by rw [hw]; simp
        have h47 : (47 : UInt8) ∉ auth := fun hm => h2 _ hm (by decide)
        obtain ⟨t1, t2⟩ := takeWhile_ne_append (r := path) h47 h4
        have hd : (g!"//" ++ auth ++ path).drop 2 = auth ++ path := rfl
        have hh : (g!"//" ++ auth ++ path).head? = some 47 := rfl
        have hk : (g!"//" ++ auth ++ path).take 2 = g!"//" := rfl
        rw [parseRest, hd, hh, hk, t1, t2]
        rw [if_neg (by simp), if_neg (by simp), if_neg (by simp), if_pos ⟨Or.inl hsch, rfl⟩]
        dsimp only
        cases parseAuthority auth <;> rfl
      rw [hps _ (by split <;> rfl)]
      constructor
      · intro h
        refine ⟨hok.1, ⟨a, p, rfl, hok.2⟩, ?_⟩
        cases hpa : parseAuthority auth with
        | none => rw [hpa] at h; cases h
        | some x =>
          obtain ⟨user, host⟩ := x
          rw [hpa] at h
          simp only [setPath] at h
          cases hup : unescape .path path with
          | none => rw [hup] at h; cases h
          | some q =>
            rw [hup] at h
            simp only [Option.map_some, Option.some.injEq] at h
            refine ⟨user, host, q, rfl, rfl, ?_⟩
            rw [← h]
            cases query with
            | none => simp
            | some q =>
              by_cases hq : q = []
              · simp [hq]
              · simp [hq]
      · rintro ⟨-, -, user, host, q, h6, h7, h8⟩
        rw [h6]
        simp only [setPath, h7, Option.map_some, Option.some.injEq]
        rw [h8]
        cases query with
        | none => simp
        | some q =>
          by_cases hq : q = []
          · simp [hq]
          · simp [hq]
    · constructor
      · intro h
        exfalso
        cases hg : getScheme s with
        | none => rw [hg] at h; cases h
        | some x =>
          obtain ⟨sch', rest⟩ := x
          rw [hg] at h
          by_cases hs' : sch' = []
          · subst hs'
            have := getScheme_nil hg
            subst this
            have hhead : ∀ r, r.head? = some a → ∀ w : URL, w.scheme = [] → parseRest true w r = none := by
              intro r hr w hw
              have : a ≠ 47 := fun e => ha (by rw [e]; decide)
              rw [parseRest]
              simp [hw, hr, this]
            have h63 : a ≠ 63 := fun e => ha (by rw [e]; decide)
            simp only at h
            split at h
            · have hl : ∀ t : Str, t ≠ [] → (a :: t).dropLast.head? = some a := by
                intro t ht
                cases t with
                | nil => exact absurd rfl ht
                | cons x t => rfl
              rw [hhead _ (by rw [hraw]; exact hl _ (by simp)) _ rfl] at h
              cases h
            · rw [hhead _ (by rw [hraw]; simp [cut, h63]) _ rfl] at h
              cases h
          · obtain ⟨e1, e2, c', p', e3, e4⟩ := getScheme_some hg hs'
            have h58 : (58 : UInt8) ∉ sch' := fun hm => (isSchemeByte_plain _ (e2 _ hm)).1 (by decide)
            have h58' : (58 : UInt8) ∉ a :: p := fun hm => h1 _ hm (by decide)
            have c1 := cut_append (r := rest) h58
            have c2 := cut_append (r := g!"//" ++ auth ++ path ++ (if query.isSome then 63 :: query.getD [] else [])) h58'
            rw [← e1] at c1
            rw [← hraw, c1] at c2
            simp only [Prod.mk.injEq] at c2
            obtain ⟨rfl, -⟩ := c2
            cases e3
            exact hok ⟨e2, e4⟩
      · rintro ⟨b1, ⟨a', p', b2, b3⟩, -⟩
        cases b2
        exact absurd ⟨b1, b3⟩ hok

end Verif.Url
