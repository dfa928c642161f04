import Verif.Model.Client

/-! C74: the key sets handed out by the client library. -/
namespace Verif.Props
open Verif.Jose Verif.Client

/-- One call of `PublicKeys`: the two times it reads, in seconds, and what the server would
answer. -/
structure KeyCall where
  now : Nat
  now' : Nat
  fetch : Fetch

/-- The outcomes of successive calls. -/
def keyCalls (c : Cache) : List KeyCall → List (Out (List Jwk × Nat))
  | [] => []
  | k :: ks => (publicKeys c k.now k.now' k.fetch).1 :: keyCalls (publicKeys c k.now k.now' k.fetch).2 ks

/-- The answer of the server gives the keys `ks` with the expiration `e`. -/
def Serves (f : Fetch) (ks : List Jwk) (e : Nat) : Prop := f = .answer 200 (some { keys := some ks, exp := e })

/-- What one call does. -/
theorem publicKeys_cases (c : Cache) (now now' : Nat) (f : Fetch) :
    (∃ ks, c.jwks = some ks ∧ now < c.exp ∧ publicKeys c now now' f = (.ok (ks, c.exp), c)) ∨
    ((c.jwks = none ∨ c.exp ≤ now) ∧
      ((∃ ks e, Serves f ks e ∧ ks ≠ [] ∧ (e = 0 ∨ now' ≤ e) ∧ publicKeys c now now' f = (.ok (ks, e), ⟨some ks, e⟩)) ∨
       (publicKeys c now now' f = (.panic, c) ∧ ∃ e, f = .answer 200 (some { keys := none, exp := e })) ∨
       (publicKeys c now now' f = (.err, c) ∧
         ∀ ks e, Serves f ks e → ks = [] ∨ (0 < e ∧ e < now')))) := by
  unfold publicKeys
  split
  · rename_i ks h1 h2
    exact .inl ⟨ks, h1, by simpa using h2, rfl⟩
  · rename_i hno
    refine .inr ⟨?_, ?_⟩
    · cases hj : c.jwks with
      | none => exact .inl rfl
      | some ks =>
        refine .inr ?_
        by_cases h : c.exp > now
        · exact (hno ks hj (by simpa using h)).elim
        · omega
    · unfold Serves
      split
      · exact .inr (.inr ⟨rfl, by simp⟩)
      · rename_i st body
        split
        · rename_i hs
          refine .inr (.inr ⟨rfl, fun ks e h => ?_⟩)
          cases h
          exact absurd rfl hs
        · rename_i hs
          obtain rfl : st = 200 := by simpa using hs
          split
          · exact .inr (.inr ⟨rfl, by simp⟩)
          · rename_i b
            obtain ⟨keys, e⟩ := b
            dsimp only
            split
            · exact .inr (.inl ⟨rfl, e, rfl⟩)
            · exact .inr (.inr ⟨rfl, fun ks e' h => by cases h; exact .inl rfl⟩)
            · rename_i _ ks hne
              split
              · rename_i h
                exact .inr (.inr ⟨rfl, fun ks e' h' => by cases h'; exact .inr h⟩)
              · rename_i h
                refine .inl ⟨ks, e, rfl, ?_, by omega, rfl⟩
                rintro rfl
                exact hne rfl

/-- **C74** Whatever the server answers and however the clock runs, the keys handed out by
any call of a new client were served, together with this expiration, by the server in
response to this call or an earlier one. They are not empty. Keys served earlier are
handed out only before they expire; keys that had expired when they were served never. -/
theorem C74_history (calls : List KeyCall) (i : Nat) (ks : List Jwk) (e : Nat)
    (h : (keyCalls {} calls)[i]? = some (.ok (ks, e))) :
    ks ≠ [] ∧ ∃ j, j ≤ i ∧ ∃ at_ src, calls[i]? = some at_ ∧ calls[j]? = some src ∧ Serves src.fetch ks e ∧
      (e = 0 ∨ src.now' ≤ e) ∧ (j = i ∨ at_.now < e) := by
  have main : ∀ (calls : List KeyCall) (c : Cache) (i : Nat), (keyCalls c calls)[i]? = some (.ok (ks, e)) →
      (c.jwks = some ks ∧ c.exp = e ∧ ∃ at_, calls[i]? = some at_ ∧ at_.now < e) ∨
      (ks ≠ [] ∧ ∃ j, j ≤ i ∧ ∃ at_ src, calls[i]? = some at_ ∧ calls[j]? = some src ∧ Serves src.fetch ks e ∧
        (e = 0 ∨ src.now' ≤ e) ∧ (j = i ∨ at_.now < e)) := by
    intro calls
    induction calls with
    | nil => intro c i h; simp [keyCalls] at h
    | cons k rest ih =>
      intro c i h
      rcases publicKeys_cases c k.now k.now' k.fetch with ⟨ks', h1, h2, h3⟩ | ⟨h0, ⟨ks', e', h1, h2, h3, h4⟩ | ⟨h1, _⟩ | ⟨h1, _⟩⟩
      · cases i with
        | zero =>
          simp only [keyCalls, h3, List.getElem?_cons_zero, Option.some.injEq, Out.ok.injEq, Prod.mk.injEq] at h
          obtain ⟨rfl, rfl⟩ := h
          exact .inl ⟨h1, rfl, k, by simp, h2⟩
        | succ i =>
          simp only [keyCalls, h3, List.getElem?_cons_succ] at h
          rcases ih c i h with ⟨g1, g2, at_, g3, g4⟩ | ⟨g1, j, g2, at_, src, g3, g4, g5, g6, g7⟩
          · exact .inl ⟨g1, g2, at_, by simpa using g3, g4⟩
          · exact .inr ⟨g1, j + 1, by omega, at_, src, by simpa using g3, by simpa using g4, g5, g6, by omega⟩
      · cases i with
        | zero =>
          simp only [keyCalls, h4, List.getElem?_cons_zero, Option.some.injEq, Out.ok.injEq, Prod.mk.injEq] at h
          obtain ⟨rfl, rfl⟩ := h
          exact .inr ⟨h2, 0, by omega, k, k, by simp, by simp, h1, h3, .inl rfl⟩
        | succ i =>
          simp only [keyCalls, h4, List.getElem?_cons_succ] at h
          rcases ih _ i h with ⟨g1, g2, at_, g3, g4⟩ | ⟨g1, j, g2, at_, src, g3, g4, g5, g6, g7⟩
          · simp only [Option.some.injEq] at g1 g2
            subst g1 g2
            exact .inr ⟨h2, 0, by omega, at_, k, by simpa using g3, by simp, h1, h3, .inr g4⟩
          · exact .inr ⟨g1, j + 1, by omega, at_, src, by simpa using g3, by simpa using g4, g5, g6, by omega⟩
      all_goals
        cases i with
        | zero => simp [keyCalls, h1] at h
        | succ i =>
          simp only [keyCalls, h1, List.getElem?_cons_succ] at h
          rcases ih c i h with ⟨g1, g2, at_, g3, g4⟩ | ⟨g1, j, g2, at_, src, g3, g4, g5, g6, g7⟩
          · exact .inl ⟨g1, g2, at_, by simpa using g3, g4⟩
          · exact .inr ⟨g1, j + 1, by omega, at_, src, by simpa using g3, by simpa using g4, g5, g6, by omega⟩
  rcases main calls {} i h with ⟨h1, _⟩ | h1
  · cases h1
  · exact h1

/-- **C74** (converse). A call for which the server serves keys that are not expired succeeds,
whatever happened before; it fails only if the server serves nothing usable. -/
theorem C74_available (c : Cache) (now now' : Nat) (f : Fetch) (ks : List Jwk) (e : Nat) (h : Serves f ks e) (hne : ks ≠ [])
    (he : e = 0 ∨ now' ≤ e) : ∃ r, (publicKeys c now now' f).1 = .ok r := by
  rcases publicKeys_cases c now now' f with ⟨ks', _, _, h3⟩ | ⟨_, ⟨ks', e', _, _, _, h4⟩ | ⟨_, e', h2⟩ | ⟨_, h2⟩⟩
  · exact ⟨_, by rw [h3]⟩
  · exact ⟨_, by rw [h4]⟩
  · unfold Serves at h
    rw [h2] at h
    cases h
  · rcases h2 ks e h with rfl | h2
    · exact absurd rfl hne
    · omega

/-- **C74** (no expiration). The key set of the example server names no expiration; a client
never keeps it: each call hands out what the server serves at that time. -/
theorem C74_never_cached (calls : List KeyCall) (keys : Nat → List Jwk)
    (hs : ∀ i k, calls[i]? = some k → k.fetch = jwksAnswer (keys i)) (i : Nat) (ks : List Jwk) (e : Nat)
    (h : (keyCalls {} calls)[i]? = some (.ok (ks, e))) : ks = keys i := by
  obtain ⟨-, j, -, at_, src, h1, h2, h3, -, h4⟩ := C74_history calls i ks e h
  have e1 := hs j src h2
  unfold Serves at h3
  rw [e1] at h3
  simp only [jwksAnswer, Fetch.answer.injEq, Option.some.injEq, JwksBody.mk.injEq, true_and] at h3
  obtain ⟨g1, g2⟩ := h3
  rcases h4 with rfl | h4
  · exact g1.symm
  · omega

/-- **C74_violated** (crash). An answer without the member `keys` makes the client crash: the
embedded key set is nil. -/
theorem C74_violated : ∃ calls : List KeyCall, Out.panic ∈ keyCalls {} calls :=
  ⟨[⟨0, 0, .answer 200 (some ⟨none, 0⟩)⟩], by decide⟩

/-- **C74_no_crash_partial** If the answers always have the member `keys`, no call crashes. -/
theorem C74_no_crash_partial (calls : List KeyCall)
    (hk : ∀ k ∈ calls, ∀ st e, k.fetch ≠ .answer st (some ⟨none, e⟩)) : Out.panic ∉ keyCalls {} calls := by
  have main : ∀ (calls : List KeyCall) (c : Cache), (∀ k ∈ calls, ∀ st e, k.fetch ≠ .answer st (some ⟨none, e⟩)) →
      Out.panic ∉ keyCalls c calls := by
    intro calls
    induction calls with
    | nil => intro c _; simp [keyCalls]
    | cons k rest ih =>
      intro c hk
      simp only [keyCalls, List.mem_cons, not_or]
      refine ⟨?_, ih _ fun k' hm => hk k' (List.mem_cons_of_mem _ hm)⟩
      rcases publicKeys_cases c k.now k.now' k.fetch with ⟨ks', _, _, h3⟩ | ⟨_, ⟨ks', e', _, _, _, h4⟩ | ⟨_, e', h2⟩ | ⟨h1, _⟩⟩
      · rw [h3]; simp
      · rw [h4]; simp
      · exact absurd h2 (hk k (by simp) 200 e')
      · rw [h1]; simp
  exact main calls {} hk

/-- Keys are fetched, handed out again while they are valid although the server fails, and
fetched again after their expiration; an expired set is refused. -/
example : keyCalls {} [
    ⟨100, 100, .answer 200 (some ⟨some [{ kid := g!"a", key := g!"ka" }], 200⟩)⟩,
    ⟨150, 150, .failed⟩, ⟨200, 200, .failed⟩,
    ⟨210, 210, .answer 200 (some ⟨some [{ kid := g!"b", key := g!"kb" }], 205⟩)⟩,
    ⟨211, 211, .answer 200 (some ⟨some [{ kid := g!"c", key := g!"kc" }], 0⟩)⟩, ⟨212, 212, .answer 500 none⟩] =
    [.ok ([{ kid := g!"a", key := g!"ka" }], 200), .ok ([{ kid := g!"a", key := g!"ka" }], 200), .err, .err, .ok ([{ kid := g!"c", key := g!"kc" }], 0), .err] := by
  decide

end Verif.Props
