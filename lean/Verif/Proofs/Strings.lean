import Verif.Spec.Strings
import Verif.Model.StringArray
import Verif.Proofs.Utf8

namespace Verif
open Spec

theorem equalFold_iff (a b : Str) : Go.equalFold a b = true ↔ SameFold a b := by
  simp [Go.equalFold, Go.foldRunes, SameFold]

theorem contains_iff (l : List Str) (x : Str) : StringArray.contains l x = true ↔ MemFold x l := by
  induction l with
  | nil => simp [StringArray.contains, MemFold]
  | cons v vs ih =>
    unfold StringArray.contains
    by_cases h : Go.equalFold x v = true
    · simp [h]; exact ⟨v, by simp, (equalFold_iff _ _).1 h⟩
    · simp [h, ih, MemFold]
      intro hs
      exact absurd ((equalFold_iff _ _).2 hs) h

/-- Characterisation of the worker of `strings.Fields`. -/
theorem mem_splitAux {α : Type} (sep : α → Bool) {w : List α} : ∀ (s cur : List α), (∀ b ∈ cur, sep b = false) →
    (w ∈ Go.splitAux sep cur s ↔
      (w ≠ [] ∧ (∀ b ∈ w, sep b = false) ∧
        ((∃ r s', w = cur ++ r ∧ s = r ++ s' ∧ (s' = [] ∨ ∃ b s'', s' = b :: s'' ∧ sep b = true)) ∨
         (∃ l b r, s = l ++ [b] ++ w ++ r ∧ sep b = true ∧
            (r = [] ∨ ∃ b r', r = b :: r' ∧ sep b = true))))) := by
  intro s
  induction s with
  | nil =>
    intro cur hc
    unfold Go.splitAux
    cases cur with
    | nil =>
      simp
      intro h _ e; exact absurd e h
    | cons c cs =>
      simp only [List.isEmpty_cons, Bool.false_eq_true, if_false, List.mem_singleton]
      constructor
      · rintro rfl; exact ⟨by simp, hc, Or.inl ⟨[], [], by simp, rfl, Or.inl rfl⟩⟩
      · rintro ⟨_, _, ⟨r, s', h1, h2, _⟩ | ⟨l, b, r, h, _⟩⟩
        · have : r = [] := by
            cases r with
            | nil => rfl
            | cons x r => simp at h2
          subst this; simpa using h1
        · simp at h
  | cons a s ih =>
    intro cur hc
    unfold Go.splitAux
    by_cases ha : sep a = true
    · rw [if_pos ha]
      have key : (w ∈ Go.splitAux sep [] s ↔ (w ≠ [] ∧ (∀ b ∈ w, sep b = false) ∧
          (∃ l b r, a :: s = l ++ [b] ++ w ++ r ∧ sep b = true ∧
            (r = [] ∨ ∃ b r', r = b :: r' ∧ sep b = true)))) := by
        rw [ih [] (by simp)]
        constructor
        · rintro ⟨h1, h2, ⟨r, s', e1, e2, e3⟩ | ⟨l, b, r, e1, e2, e3⟩⟩
          · refine ⟨h1, h2, [], a, s', ?_, ha, e3⟩
            simp at e1; subst e1; simp [e2]
          · exact ⟨h1, h2, a :: l, b, r, by simp [e1], e2, e3⟩
        · rintro ⟨h1, h2, l, b, r, e1, e2, e3⟩
          refine ⟨h1, h2, ?_⟩
          cases l with
          | nil => simp at e1; exact Or.inl ⟨w, r, by simp, e1.2, e3⟩
          | cons x l => simp at e1; exact Or.inr ⟨l, b, r, by simp [e1.2], e2, e3⟩
      cases cur with
      | nil =>
        simp only [List.isEmpty_nil, if_true]
        rw [key]
        constructor
        · rintro ⟨h1, h2, h3⟩; exact ⟨h1, h2, Or.inr h3⟩
        · rintro ⟨h1, h2, ⟨r, s', e1, e2, e3⟩ | h3⟩
          · simp at e1; subst e1
            cases w with
            | nil => exact absurd rfl h1
            | cons x w => simp at e2; have := h2 x (by simp); rw [← e2.1] at this; simp [ha] at this
          · exact ⟨h1, h2, h3⟩
      | cons c cs =>
        simp only [List.isEmpty_cons, Bool.false_eq_true, if_false, List.mem_cons]
        rw [key]
        constructor
        · rintro (h | ⟨h1, h2, h3⟩)
          · subst h
            exact ⟨by simp, hc, Or.inl ⟨[], a :: s, by simp, rfl, Or.inr ⟨a, s, rfl, ha⟩⟩⟩
          · exact ⟨h1, h2, Or.inr h3⟩
        · rintro ⟨h1, h2, ⟨r, s', e1, e2, e3⟩ | h3⟩
          · left
            cases r with
            | nil => simpa using e1
            | cons x r =>
              simp at e2
              have := h2 x (by simp [e1])
              rw [← e2.1] at this; simp [ha] at this
          · exact Or.inr ⟨h1, h2, h3⟩
    · have ha' : sep a = false := by simpa using ha
      rw [if_neg ha, ih (cur ++ [a]) (by intro b hb; simp at hb; rcases hb with hb | rfl; exact hc b hb; exact ha')]
      constructor
      · rintro ⟨h1, h2, ⟨r, s', e1, e2, e3⟩ | ⟨l, b, r, e1, e2, e3⟩⟩
        · exact ⟨h1, h2, Or.inl ⟨a :: r, s', by simp [e1], by simp [e2], e3⟩⟩
        · exact ⟨h1, h2, Or.inr ⟨a :: l, b, r, by simp [e1], e2, e3⟩⟩
      · rintro ⟨h1, h2, ⟨r, s', e1, e2, e3⟩ | ⟨l, b, r, e1, e2, e3⟩⟩
        · refine ⟨h1, h2, Or.inl ?_⟩
          cases r with
          | nil =>
            simp at e2; subst e2
            rcases e3 with e3 | ⟨b, s'', e3, hb⟩
            · simp at e3
            · simp at e3; rw [← e3.1] at hb; simp [ha'] at hb
          | cons x r =>
            simp at e2; obtain ⟨rfl, e2⟩ := e2
            exact ⟨r, s', by simp [e1], e2, e3⟩
        · refine ⟨h1, h2, Or.inr ?_⟩
          cases l with
          | nil => simp at e1; obtain ⟨rfl, _⟩ := e1; simp [ha'] at e2
          | cons x l => simp at e1; exact ⟨l, b, r, by simp [e1.2], e2, e3⟩

/-- `strings.Fields` returns exactly the words of its argument. -/
theorem mem_fields (w s : Str) : w ∈ Go.fields s ↔ IsWord w s := by
  have key : w ∈ Go.fields s ↔ Go.chunks w ∈ Go.splitAux Go.isSpace [] (Go.chunks s) := by
    unfold Go.fields
    constructor
    · intro h
      obtain ⟨m, hm, rfl⟩ := List.mem_map.1 h
      suffices Go.chunks m.flatten = m by rw [this]; exact hm
      rcases ((mem_splitAux Go.isSpace _ [] (by simp)).1 hm).2.2 with ⟨r, s', e1, e2, _⟩ | ⟨l, b, r, e, _⟩
      · simp at e1; subst e1
        exact Go.chunks_segment (l := []) (r := s') (by simpa using e2)
      · exact Go.chunks_segment (l := l ++ [b]) (r := r) e
    · intro h
      exact List.mem_map.2 ⟨_, h, Go.flatten_chunks w⟩
  rw [key, mem_splitAux _ _ [] (by simp)]
  unfold IsWord
  rw [ne_eq, Go.chunks_eq_nil]
  constructor
  · rintro ⟨h1, h2, ⟨r, s', e1, e2, e3⟩ | ⟨l, b, r, e1, e2, e3⟩⟩
    · exact ⟨h1, h2, [], s', by simp at e1; rw [e1]; simp [e2], Or.inl rfl, e3⟩
    · exact ⟨h1, h2, l ++ [b], r, e1, Or.inr ⟨l, b, rfl, e2⟩, e3⟩
  · rintro ⟨h1, h2, l, r, e1, e2 | ⟨l', b, e2, hb⟩, e3⟩
    · subst e2; exact ⟨h1, h2, Or.inl ⟨Go.chunks w, r, by simp, by simpa using e1, e3⟩⟩
    · subst e2; exact ⟨h1, h2, Or.inr ⟨l', b, r, e1, hb, e3⟩⟩

theorem splitAux_word {α : Type} (sep : α → Bool) (w : List α) : ∀ (cur rest : List α), (∀ b ∈ w, sep b = false) →
    Go.splitAux sep cur (w ++ rest) = Go.splitAux sep (cur ++ w) rest := by
  induction w with
  | nil => intro cur rest _; simp
  | cons b w ih =>
    intro cur rest h
    have hb : sep b = false := h b (by simp)
    rw [List.cons_append, Go.splitAux, if_neg (by simp [hb]), ih _ _ (fun x hx => h x (by simp [hx]))]
    simp

/-- Joining words with a blank and splitting again gives the words back. -/
theorem fields_join (l : List Str) (h : ∀ w ∈ l, w ≠ [] ∧ ∀ c ∈ Go.chunks w, Go.isSpace c = false) :
    Go.fields (Go.join g!" " l) = l := by
  unfold Go.fields
  induction l with
  | nil => rfl
  | cons w l ih =>
    obtain ⟨hw, hs⟩ := h w (by simp)
    have hw' : Go.chunks w ≠ [] := fun e => hw (Go.chunks_eq_nil.1 e)
    cases l with
    | nil =>
      have : Go.chunks (Go.join g!" " [w]) = Go.chunks w ++ [] := by simp [Go.join]
      rw [this, splitAux_word _ _ _ _ hs]
      simp [Go.splitAux, hw', Go.flatten_chunks]
    | cons v l =>
      have : Go.join g!" " (w :: v :: l) = w ++ ((32 : UInt8) :: Go.join g!" " (v :: l)) := by simp [Go.join]
      rw [this, Go.chunks_append (by decide), splitAux_word _ _ _ _ hs]
      have h32 : Go.isSpace [32] = true := by decide
      simp only [List.nil_append, Go.splitAux, h32, if_true]
      rw [if_neg (by simp [hw']), List.map_cons, ih (fun x hx => h x (by simp at hx ⊢; right; exact hx)), Go.flatten_chunks]

theorem fields_ok (s : Str) : ∀ w ∈ Go.fields s, w ≠ [] ∧ ∀ c ∈ Go.chunks w, Go.isSpace c = false :=
  fun w hw => ⟨((mem_fields w s).1 hw).1, ((mem_fields w s).1 hw).2.1⟩

/-! `Remove` -/

theorem indexFold_spec (x : Str) (l : List Str) (i : Nat) :
    (StringArray.indexFold x i l = none ∧ ∀ y ∈ l, ¬ SameFold x y) ∨
    (∃ a y b, l = a ++ y :: b ∧ SameFold x y ∧ (∀ z ∈ a, ¬ SameFold x z) ∧
      StringArray.indexFold x i l = some (i + a.length)) := by
  induction l generalizing i with
  | nil => left; simp [StringArray.indexFold]
  | cons v vs ih =>
    unfold StringArray.indexFold
    by_cases h : Go.equalFold x v = true
    · right; exact ⟨[], v, vs, rfl, (equalFold_iff _ _).1 h, by simp, by simp [h]⟩
    · have h' : ¬ SameFold x v := fun hs => h ((equalFold_iff _ _).2 hs)
      rcases ih (i + 1) with ⟨h1, h2⟩ | ⟨a, y, b, e, h1, h2, h3⟩
      · left; simp only [h]; exact ⟨by simpa using h1, by intro y hy; simp at hy; rcases hy with rfl | hy; exact h'; exact h2 y hy⟩
      · right
        refine ⟨v :: a, y, b, by simp [e], h1, ?_, ?_⟩
        · intro z hz; simp at hz; rcases hz with rfl | hz; exact h'; exact h2 z hz
        · simp only [h]; simp [h3]; omega

/-- `Remove` drops the first element equal to `x` up to case, and nothing else. -/
theorem remove_spec (l : List Str) (x : Str) :
    (StringArray.remove l x = l ∧ ¬ MemFold x l) ∨
    (∃ a y b, l = a ++ y :: b ∧ SameFold x y ∧ (∀ z ∈ a, ¬ SameFold x z) ∧
      StringArray.remove l x = a ++ b) := by
  unfold StringArray.remove
  rcases indexFold_spec x l 0 with ⟨h1, h2⟩ | ⟨a, y, b, e, h1, h2, h3⟩
  · left; rw [h1]; exact ⟨rfl, fun ⟨y, hy, hs⟩ => h2 y hy hs⟩
  · right
    refine ⟨a, y, b, e, h1, h2, ?_⟩
    rw [h3]
    subst e
    simp [List.drop_append]

theorem remove_subset (l : List Str) (x : Str) : ∀ y ∈ StringArray.remove l x, y ∈ l := by
  rcases remove_spec l x with ⟨h, _⟩ | ⟨a, y, b, e, _, _, h⟩
  · rw [h]; exact fun _ h => h
  · rw [h, e]; intro z hz; simp at hz ⊢; rcases hz with hz | hz <;> simp [hz]

theorem contains_fields (s w : Str) :
    StringArray.contains (Go.fields s) w = true ↔ HasWord w s := by
  rw [contains_iff]
  constructor
  · rintro ⟨y, hy, h⟩; exact ⟨y, (mem_fields _ _).1 hy, h⟩
  · rintro ⟨y, hy, h⟩; exact ⟨y, (mem_fields _ _).2 hy, h⟩

end Verif
