import Verif.Model.Headers
import Verif.Proofs.Http
import Verif.Proofs.Url

/-! Facts on the headers of answers. -/
namespace Verif.Headers
open Verif.Http Verif.Prog

/-! ### Field names -/

theorem get_set_same (h : Header) {k k' : Str} (v : Str) (hk : canon k = canon k') : get (set h k v) k' = some v := by
  simp [get, set, hk]

theorem lookup_filter_ne (h : Header) {a b : Str} (hk : a ≠ b) : (h.filter fun x => x.1 ≠ a).lookup b = h.lookup b := by
  induction h with
  | nil => rfl
  | cons x h ih =>
    obtain ⟨k, v⟩ := x
    by_cases hka : k = a
    · subst hka
      rw [List.filter_cons_of_neg (by simp), ih, List.lookup]
      have : (b == k) = false := by simp [Ne.symm hk]
      rw [this]
    · rw [List.filter_cons_of_pos (by simpa using hka), List.lookup, List.lookup, ih]

theorem get_set_other (h : Header) {k k' : Str} (v : Str) (hk : canon k ≠ canon k') : get (set h k v) k' = get h k' := by
  have : (canon k' == canon k) = false := by simp [Ne.symm hk]
  rw [get, set, List.lookup, this]
  exact lookup_filter_ne h hk

/-- The keys of a header are in canonical form, each once. -/
def Proper (h : Header) : Prop := (∀ x ∈ h, ∃ k, x.1 = canon k) ∧ (h.map Prod.fst).Nodup

theorem proper_nil : Proper [] := ⟨by simp, by simp⟩

theorem proper_set {h : Header} (hp : Proper h) (k v : Str) : Proper (set h k v) := by
  refine ⟨fun x hx => ?_, ?_⟩
  · rcases List.mem_cons.1 hx with rfl | hx
    · exact ⟨k, rfl⟩
    · exact hp.1 x (List.mem_filter.1 hx).1
  · rw [set, List.map_cons, List.nodup_cons]
    refine ⟨fun hm => ?_, (List.filter_sublist.map _).nodup hp.2⟩
    obtain ⟨x, hx, e⟩ := List.mem_map.1 hm
    simpa [e] using (List.mem_filter.1 hx).2

/-- Text that ends no header line. -/
def Line (s : Str) : Prop := ∀ b ∈ s, 32 ≤ b ∧ b < 127

instance (s : Str) : Decidable (Line s) := inferInstanceAs (Decidable (∀ b ∈ s, 32 ≤ b ∧ b < 127))

/-- All names and values are text in one line. -/
def Lines (h : Header) : Prop := ∀ x ∈ h, Line x.1 ∧ Line x.2

theorem lines_set {h : Header} (hl : Lines h) {k v : Str} (hk : Line (canon k)) (hv : Line v) : Lines (set h k v) := by
  intro x hx
  rcases List.mem_cons.1 hx with rfl | hx
  · exact ⟨hk, hv⟩
  · exact hl x (List.mem_filter.1 hx).1

theorem line_append {s t : Str} (hs : Line s) (ht : Line t) : Line (s ++ t) := by
  intro b hb
  rcases List.mem_append.1 hb with hb | hb
  · exact hs b hb
  · exact ht b hb

theorem line_quote (s : Str) : Line (quote s) := by
  have k : ∀ b : UInt8, ∀ x ∈ quote.byte b, 32 ≤ x ∧ x < 127 := by
    apply Url.bytes
    decide +kernel
  intro b hb
  rw [quote] at hb
  rcases List.mem_append.1 hb with hb | hb
  · rcases List.mem_cons.1 hb with rfl | hb
    · decide
    · obtain ⟨c, _, hb⟩ := List.mem_flatMap.1 hb
      exact k c b hb
  · cases List.mem_singleton.1 hb
    decide

/-! ### Serving -/

theorem write_done {x : Ctx} {h : Header} {p : Prog Http.Resp} {tr : List Ev} {y : Reply} :
    Exec (write x h p) tr (.done y) ↔ Exec p tr (.done y.resp) ∧ y.header = written x y.resp h := by
  constructor
  · intro he
    obtain ⟨t1, t2, a, rfl, h1, h2⟩ := exec_bind_done he
    cases h2
    rw [List.append_nil]
    exact ⟨h1, rfl⟩
  · rintro ⟨h1, h2⟩
    obtain ⟨hd, a⟩ := y
    dsimp only at h1 h2
    subst h2
    rw [write]
    generalize ho : Outcome.done a = o at h1
    induction h1 with
    | ret b => cases ho; exact .ret _
    | panic => cases ho
    | stop => cases ho
    | step c k v tr o _ ih => exact .step _ _ _ _ _ (ih ho)

end Verif.Headers
