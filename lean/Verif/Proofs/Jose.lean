import Verif.Model.Jose

/-! Facts about key-set verification. -/
namespace Verif.Jose

@[simp] theorem ofOption_ok {α : Type} {o : Option α} {a : α} : Out.ofOption o = .ok a ↔ o = some a := by
  cases o <;> simp [Out.ofOption]

/-- The loop answers what `accept` says of some key that is not for encryption. -/
theorem firstKey_some {α : Type} {accept : Jwk → Option α} {ks : List Jwk} {a : α}
    (h : firstKey accept ks = some a) : ∃ k ∈ ks, k.use ≠ g!"enc" ∧ accept k = some a := by
  induction ks with
  | nil => simp [firstKey] at h
  | cons k ks ih =>
    unfold firstKey at h
    split at h
    · obtain ⟨k', hk', h'⟩ := ih h
      exact ⟨k', List.mem_cons_of_mem _ hk', h'⟩
    · rename_i hu
      cases ha : accept k with
      | none =>
        rw [ha] at h
        obtain ⟨k', hk', h'⟩ := ih h
        exact ⟨k', List.mem_cons_of_mem _ hk', h'⟩
      | some b =>
        rw [ha] at h
        exact ⟨k, List.mem_cons_self .., hu, ha.trans h⟩

/-- The loop finds an acceptable key if there is one. -/
theorem firstKey_exists {α : Type} {accept : Jwk → Option α} {ks : List Jwk} {k : Jwk} {a : α}
    (hk : k ∈ ks) (hu : k.use ≠ g!"enc") (ha : accept k = some a) : ∃ b, firstKey accept ks = some b := by
  induction ks with
  | nil => simp at hk
  | cons k' ks ih =>
    unfold firstKey
    split
    · rename_i hu'
      rcases List.mem_cons.1 hk with rfl | hk
      · exact absurd hu' hu
      · exact ih hk
    · cases ha' : accept k' with
      | some b => exact ⟨b, rfl⟩
      | none =>
        rcases List.mem_cons.1 hk with rfl | hk
        · rw [ha] at ha'; cases ha'
        · exact ih hk

theorem claims_some {C : Type} {dec : Str → Option C} {t : Jws} {k : Jwk} {c : C} :
    claims dec t k = some c ↔ t.verifies k = true ∧ dec t.payload = some c := by
  unfold claims; split <;> simp_all

/-- The answer of the loop with `Claims`. -/
theorem firstKey_claims {C : Type} {dec : Str → Option C} {t : Jws} {ks : List Jwk} {c : C} :
    firstKey (claims dec t) ks = some c ↔
      (∃ k ∈ ks, k.use ≠ g!"enc" ∧ t.verifies k = true) ∧ dec t.payload = some c := by
  constructor
  · intro h
    obtain ⟨k, hk, hu, ha⟩ := firstKey_some h
    obtain ⟨h1, h2⟩ := claims_some.1 ha
    exact ⟨⟨k, hk, hu, h1⟩, h2⟩
  · rintro ⟨⟨k, hk, hu, hv⟩, hd⟩
    obtain ⟨b, hb⟩ := firstKey_exists hk hu (claims_some.2 ⟨hv, hd⟩)
    obtain ⟨k', _, _, ha⟩ := firstKey_some hb
    have := (claims_some.1 ha).2
    rw [hd] at this
    rw [hb, this]

theorem validateSignature_iff {ks : List Jwk} {t : Jws} :
    validateSignature (some ks) (some t) = true ↔ ∃ k ∈ ks, k.use ≠ g!"enc" ∧ t.verifies k = true := by
  have key : ∀ ks : List Jwk, (firstKey (fun k => if t.verifies k then some () else none) ks).isSome = true ↔
      ∃ k ∈ ks, k.use ≠ g!"enc" ∧ t.verifies k = true := by
    intro ks
    constructor
    · intro h
      obtain ⟨u, hu⟩ := Option.isSome_iff_exists.1 h
      obtain ⟨k, hk, hu, ha⟩ := firstKey_some hu
      refine ⟨k, hk, hu, ?_⟩
      cases hv : t.verifies k with
      | true => rfl
      | false => simp [hv] at ha
    · rintro ⟨k, hk, hu, hv⟩
      obtain ⟨b, hb⟩ := firstKey_exists (accept := fun k => if t.verifies k then some () else none) (a := ())
        hk hu (by simp [hv])
      rw [hb]; rfl
  cases ks with
  | nil => simp [validateSignature]
  | cons k ks => exact key (k :: ks)

end Verif.Jose
