import Verif.Proofs.TokenStore

/-!
Revocations in the token store, access by access.
-/
namespace Verif.TokenStore
open Verif.Store
variable {E : Env} {τ : List Event} {f g : Fine}

/-- The token with this identifier is revoked. -/
def Dead (f : Fine) (id : Str) : Prop :=
  ∃ p t, f.idIdx id = some p ∧ f.heap[p]? = some t ∧ t.tokenId = id ∧ t.status = .revoked

/-- What an identifier points to stays. -/
theorem Inv.idIdx {i : Nat} (h : Inv E τ f) (ha : Access E i f g) {id : Str} {p : Nat} (hp : f.idIdx id = some p) :
    g.idIdx id = some p := by
  cases ha with
  | create0 ht => have := h.fresh _ _ _ ht; simp only [TokenStore.put]; grind
  | revoke2 ht hq =>
    obtain ⟨t', hp', hv⟩ := h.held i _ (by rw [ht]; rfl)
    obtain ⟨_, t'', hp'', _, hid⟩ := h.val _ _ hv
    simp only [TokenStore.put]; grind
  | _ => exact hp

/-- An object keeps its identifier, and its status if it is revoked. -/
theorem Access.heap {i : Nat} (ha : Access E i f g) {p : Nat} {t : Token} (hp : f.heap[p]? = some t) :
    ∃ t', g.heap[p]? = some t' ∧ t'.tokenId = t.tokenId ∧ (t.status = .revoked → t'.status = .revoked) := by
  cases ha with
  | create0 ht => exact ⟨t, by grind, rfl, id⟩
  | @revoke1 _ q u ht hq => simp only [List.getElem?_set]; grind
  | _ => exact ⟨t, hp, rfl, id⟩

theorem Dead.access {i : Nat} {id : Str} (h : Inv E τ f) (ha : Access E i f g) (hd : Dead f id) : Dead g id := by
  obtain ⟨p, t, h1, h2, h3, h4⟩ := hd
  obtain ⟨t', h5, h6, h7⟩ := ha.heap h2
  exact ⟨p, t', h.idIdx ha h1, h5, h6.trans h3, h7 h4⟩

/-- Only goroutine `i` changes. -/
theorem Access.other {i j : Nat} (ha : Access E i f g) (hj : j ≠ i) : g.thr j = f.thr j := by
  cases ha <;> simp [TokenStore.set, hj]

/-- The last event of a trace, and a call in it. -/
theorem snoc_cases {a : List Event} {e x : Event} {b c : List Event} (h : a ++ [e] = b ++ x :: c) :
    (a = b ∧ e = x ∧ c = []) ∨ ∃ c', c = c' ++ [e] ∧ a = b ++ x :: c' := by
  rcases List.eq_nil_or_concat c with rfl | ⟨c', y, rfl⟩
  · left
    have := List.append_inj' h rfl
    simp_all
  · right
    rw [show b ++ x :: c'.concat y = (b ++ x :: c') ++ [y] by simp] at h
    have := List.append_inj' h rfl
    refine ⟨c', ?_, this.1⟩
    simp_all

/-- Where a goroutine is that revokes a token. -/
def Revoking (f : Fine) (id : Str) : Local → Prop
  | .revoke0 x => x = id
  | .revoke1 x p => x = id ∧ f.idIdx id = some p
  | .revoke2 .. => Dead f id
  | .revoke3 .. => Dead f id
  | .done a => a = .ok none ∧ Dead f id
  | _ => False

theorem Revoking.mono {id : Str} {l : Local} (h1 : ∀ p, f.idIdx id = some p → g.idIdx id = some p)
    (h2 : Dead f id → Dead g id) (h : Revoking f id l) : Revoking g id l := by
  cases l <;> simp_all [Revoking]

theorem Revoking.access {i : Nat} {id : Str} (h : Inv E τ f) (ha : Access E i f g) (hd : Revoking f id (f.thr i)) :
    Revoking g id (g.thr i) := by
  have m1 := fun p => h.idIdx ha (id := id) (p := p)
  have m2 := fun hd => Dead.access (id := id) h ha hd
  cases ha with
  | revoke0 ht hp =>
    rw [ht] at hd
    simp only [Revoking] at hd
    subst hd
    simp [TokenStore.set, Revoking, hp]
  | revokeNone ht hp =>
    obtain ⟨p, _, hp', _⟩ := h.rev0 _ _ ht
    rw [hp] at hp'; cases hp'
  | @revoke1 x p t ht hp =>
    rw [ht] at hd
    obtain ⟨rfl, hd⟩ := hd
    obtain ⟨t', hp', rfl⟩ := h.rev i x p (.inl ht)
    obtain rfl : t = t' := by rw [hp] at hp'; cases hp'; rfl
    simp only [TokenStore.set, if_true, Revoking]
    exact ⟨p, { t with status := .revoked }, hd, by rw [List.getElem?_set]; grind, rfl, rfl⟩
  | revoke2 ht hp => rw [ht] at hd; simpa [TokenStore.set, Revoking] using m2 hd
  | revoke3 ht hp => rw [ht] at hd; simpa [TokenStore.set, Revoking] using m2 hd
  | create0 ht => rw [ht] at hd; exact hd.elim
  | create1 ht => rw [ht] at hd; exact hd.elim
  | get ht _ => rw [ht] at hd; exact hd.elim
  | getNone ht _ => rw [ht] at hd; exact hd.elim
  | getVal ht _ => rw [ht] at hd; exact hd.elim
  | getValNone ht _ => rw [ht] at hd; exact hd.elim
  | read ht _ => rw [ht] at hd; exact hd.elim

theorem revoking (hr : Run E τ f) (hg : Orderly E τ) {τ1 τ2 : List Event} {i : Nat} {id : Str}
    (e : τ = τ1 ++ .inv i (.revoke id) :: τ2) (hn : ∀ a, .ret i a ∉ τ2) : Revoking f id (f.thr i) := by
  induction hr generalizing τ2 with
  | nil => simp at e
  | @inv τ f j o hr ht ih =>
    rcases snoc_cases e with ⟨rfl, h, rfl⟩ | ⟨τ2, rfl, rfl⟩
    · cases h
      simp [TokenStore.set, Op.start, Revoking]
    · have := ih hg.init rfl fun a ha => hn a (by simp [ha])
      have hij : i ≠ j := by rintro rfl; rw [ht] at this; exact this
      simp only [TokenStore.set, if_neg hij]
      exact this.mono (fun _ h => h) (fun h => h)
  | @ret τ f j o hr ht ih =>
    rcases snoc_cases e with ⟨rfl, h, rfl⟩ | ⟨τ2, rfl, rfl⟩
    · cases h
    · have := ih hg.init rfl fun a ha => hn a (by simp [ha])
      have hij : i ≠ j := by rintro rfl; exact hn o (by simp)
      simp only [TokenStore.set, if_neg hij]
      exact this.mono (fun _ h => h) (fun h => h)
  | @access τ f g j hr ha ih =>
    have hi := (simulation hr hg).1
    have := ih hg e hn
    by_cases hij : i = j
    · subst hij; exact this.access hi ha
    · rw [ha.other hij]
      exact this.mono (fun p => hi.idIdx ha) (fun h => h.access hi ha)

theorem dead (hr : Run E τ f) (hg : Orderly E τ) {τ1 τ2 τ3 : List Event} {i : Nat} {id : Str} {a : Ans}
    (e : τ = τ1 ++ .inv i (.revoke id) :: τ2 ++ .ret i a :: τ3) (hn : ∀ a, .ret i a ∉ τ2) : Dead f id := by
  induction hr generalizing τ3 with
  | nil => simp at e
  | @inv τ f j o hr ht ih =>
    rcases snoc_cases e with ⟨_, h, _⟩ | ⟨τ3, rfl, rfl⟩
    · cases h
    · exact ih hg.init rfl
  | @ret τ f j o hr ht ih =>
    rcases snoc_cases e with ⟨rfl, h, rfl⟩ | ⟨τ3, rfl, rfl⟩
    · cases h
      have := revoking hr hg.init rfl hn
      rw [ht] at this
      exact this.2
    · exact ih hg.init rfl
  | @access τ f g j hr ha ih => exact (ih hg e).access (simulation hr hg).1 ha

/-- Where a goroutine is that looks up after the revocation. -/
def Reading (id : Str) : Local → Prop
  | .getVal0 .. => True
  | .got .. => True
  | .done (.ok (some t)) => t.tokenId = id → t.status = .revoked
  | .done (.error _) => True
  | _ => False

theorem reading (hr : Run E τ f) (hg : Orderly E τ) {τ1 τ2 τ3 τ4 : List Event} {i j : Nat} {id iss v : Str} {a : Ans}
    (e : τ = (τ1 ++ .inv i (.revoke id) :: τ2 ++ .ret i a :: τ3) ++ .inv j (.getVal iss v) :: τ4)
    (hn : ∀ a, .ret i a ∉ τ2) (hm : ∀ a, .ret j a ∉ τ4) : Reading id (f.thr j) := by
  induction hr generalizing τ4 with
  | nil => simp at e
  | @inv τ f k o hr ht ih =>
    rcases snoc_cases e with ⟨rfl, h, rfl⟩ | ⟨τ4, rfl, rfl⟩
    · cases h
      simp [TokenStore.set, Op.start, Reading]
    · have := ih hg.init rfl fun a ha => hm a (by simp [ha])
      have hij : j ≠ k := by rintro rfl; rw [ht] at this; exact this
      simp only [TokenStore.set, if_neg hij]
      exact this
  | @ret τ f k o hr ht ih =>
    rcases snoc_cases e with ⟨rfl, h, rfl⟩ | ⟨τ4, rfl, rfl⟩
    · cases h
    · have := ih hg.init rfl fun a ha => hm a (by simp [ha])
      have hij : j ≠ k := by rintro rfl; exact hm o (by simp)
      simp only [TokenStore.set, if_neg hij]
      exact this
  | @access τ f g k hr ha ih =>
    have hi := (simulation hr hg).1
    have hR := ih hg e hm
    by_cases hij : j = k
    · subst hij
      cases ha with
      | getVal ht _ => simp [TokenStore.set, Reading]
      | getValNone ht _ => simp [TokenStore.set, Reading]
      | @read o p t ht hp =>
        simp only [TokenStore.set, if_true, Reading]
        rintro rfl
        obtain ⟨q, u, h1, h2, h3, h4⟩ := dead (τ1 := τ1) (τ2 := τ2) (i := i) (a := a)
          (τ3 := τ3 ++ .inv j (.getVal iss v) :: τ4) hr hg (id := t.tokenId) (by rw [e]; simp) hn
        obtain ⟨w, h5, h6⟩ := hi.held j p (by rw [ht]; rfl)
        obtain ⟨_, x, h7, _, h8⟩ := hi.val _ _ h6
        grind
      | create0 ht => rw [ht] at hR; exact hR.elim
      | create1 ht => rw [ht] at hR; exact hR.elim
      | get ht _ => rw [ht] at hR; exact hR.elim
      | getNone ht _ => rw [ht] at hR; exact hR.elim
      | revoke0 ht _ => rw [ht] at hR; exact hR.elim
      | revokeNone ht _ => rw [ht] at hR; exact hR.elim
      | revoke1 ht _ => rw [ht] at hR; exact hR.elim
      | revoke2 ht _ => rw [ht] at hR; exact hR.elim
      | revoke3 ht _ => rw [ht] at hR; exact hR.elim
    · rw [ha.other hij]; exact hR

/-- Before its return a call had its answer. -/
theorem run_ret {i : Nat} {a : Ans} (h : Run E (τ ++ [.ret i a]) f) : ∃ f', Run E τ f' ∧ f'.thr i = .done a := by
  generalize hw : τ ++ [Event.ret i a] = w at h
  induction h with
  | nil => simp at hw
  | inv => simp at hw
  | ret j b h0 hj _ =>
    simp only [List.append_singleton_inj, Event.ret.injEq] at hw
    obtain ⟨rfl, rfl, rfl⟩ := hw
    exact ⟨_, h0, hj⟩
  | access _ _ _ ih => exact ih hw

end Verif.TokenStore
