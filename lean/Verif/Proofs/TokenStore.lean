import Verif.Spec.TokenStore

/-!
The token store access by access and call by call: a simulation.
-/
namespace Verif.TokenStore
open Verif.Store

theorem created_append (a b : List Event) : created (a ++ b) = created a ++ created b := by
  induction a with
  | nil => rfl
  | cons e a ih =>
    rcases e with ⟨i, o⟩ | ⟨i, o⟩
    · cases o <;> simp [created, ih]
    · simp [created, ih]

/-- The call that a goroutine is in has a token that cannot be found by value yet. -/
def pend : Local → Option (Str × Token)
  | .create0 iss t => some (iss, t)
  | .create1 iss t _ => some (iss, t)
  | _ => none

/-- The pointer that a goroutine holds. -/
def held : Local → Option Nat
  | .got _ p | .revoke1 _ p | .revoke2 _ p | .revoke3 _ p => some p
  | _ => none

/-- The token with this identifier can be found by value. -/
def Pub (f : Fine) (id : Str) : Prop :=
  ∃ p t, f.idIdx id = some p ∧ f.heap[p]? = some t ∧ t.tokenId = id ∧ f.valIdx t.value = some p

structure Inv (E : Env) (τ : List Event) (f : Fine) : Prop where
  pendKey : ∀ i iss t, pend (f.thr i) = some (iss, t) → f.valIdx (copy E iss t).value = none
  pendMem : ∀ i iss t, pend (f.thr i) = some (iss, t) → (copy E iss t).value ∈ keys E τ ∧ t.tokenId ∈ ids τ
  fresh : ∀ i iss t, f.thr i = .create0 iss t → f.idIdx t.tokenId = none
  stored : ∀ i iss t p, f.thr i = .create1 iss t p → f.heap[p]? = some (copy E iss t) ∧ f.idIdx t.tokenId = some p
  apart : ∀ i j iss t iss' t', i ≠ j → pend (f.thr i) = some (iss, t) → pend (f.thr j) = some (iss', t') →
    t.tokenId ≠ t'.tokenId ∧ (copy E iss t).value ≠ (copy E iss' t').value
  val : ∀ k p, f.valIdx k = some p → k ∈ keys E τ ∧ ∃ t, f.heap[p]? = some t ∧ t.value = k ∧ f.idIdx t.tokenId = some p
  idm : ∀ id p, f.idIdx id = some p → id ∈ ids τ ∧ ∃ t, f.heap[p]? = some t ∧ t.tokenId = id
  held : ∀ i p, held (f.thr i) = some p → ∃ t, f.heap[p]? = some t ∧ f.valIdx t.value = some p
  gotOp : ∀ i o p, f.thr i = .got o p → ∃ iss v, o = .getVal iss v ∧ f.valIdx (tokenKey E iss v) = some p
  rev : ∀ i id p, (f.thr i = .revoke1 id p ∨ f.thr i = .revoke2 id p ∨ f.thr i = .revoke3 id p) → ∃ t, f.heap[p]? = some t ∧ t.tokenId = id
  rev0 : ∀ i id, f.thr i = .revoke0 id → Pub f id
  pubDone : ∀ i t, f.thr i = .done (.ok (some t)) → Pub f t.tokenId
  pubRet : ∀ i t, .ret i (.ok (some t)) ∈ τ → Pub f t.tokenId
  noGet : ∀ i id, f.thr i ≠ .get0 id

theorem Orderly.init {E : Env} {τ : List Event} {e : Event} (h : Orderly E (τ ++ [e])) : Orderly E τ where
  ids := by
    have := h.ids
    simp only [TokenStore.ids, created_append, List.map_append] at this
    exact (List.nodup_append.1 this).1
  keys := by
    have := h.keys
    simp only [TokenStore.keys, created_append, List.map_append] at this
    exact (List.nodup_append.1 this).1
  get i id hm := h.get i id (by simp [hm])
  revoke τ1 i id τ2 hτ := h.revoke τ1 i id (τ2 ++ [e]) (by simp [hτ])

theorem inv_nil (E : Env) : Inv E [] {} := by
  constructor <;> simp [pend, TokenStore.held]

variable {E : Env} {τ : List Event} {f g : Fine}

theorem Inv.create0 {i : Nat} {iss : Str} {t : Token} (h : Inv E τ f) (ht : f.thr i = .create0 iss t) :
    Inv E τ { f with heap := f.heap ++ [copy E iss t], idIdx := TokenStore.put f.idIdx t.tokenId f.heap.length,
                     thr := TokenStore.set f.thr i (.create1 iss t f.heap.length) } := by
  obtain ⟨h1, h2, h3, h4, h5, h6, h7, h8, h9, h10, h11, h12, h13, h14⟩ := h
  have hpi : pend (f.thr i) = some (iss, t) := by simp [ht, pend]
  have h0 : ∀ j iss' t', j ≠ i → f.thr j = .create0 iss' t' → t'.tokenId ≠ t.tokenId :=
    fun j iss' t' hj e => (h5 j i iss' t' iss t hj (by simp [e, pend]) hpi).1
  constructor
  all_goals simp only [TokenStore.set, TokenStore.put, Pub] at *
  all_goals grind [pend, TokenStore.held, copy]

theorem Inv.create1 {i : Nat} {iss : Str} {t : Token} {p : Nat} (h : Inv E τ f) (ht : f.thr i = .create1 iss t p) :
    Inv E τ { f with valIdx := TokenStore.put f.valIdx (copy E iss t).value p, thr := TokenStore.set f.thr i (.done (.ok none)) } := by
  obtain ⟨h1, h2, h3, h4, h5, h6, h7, h8, h9, h10, h11, h12, h13, h14⟩ := h
  constructor
  all_goals simp only [TokenStore.set, TokenStore.put, Pub] at *
  all_goals grind [pend, TokenStore.held, copy]

theorem Inv.getVal {i : Nat} {iss v : Str} {p : Nat} (h : Inv E τ f) (ht : f.thr i = .getVal0 iss v)
    (hp : f.valIdx (tokenKey E iss v) = some p) :
    Inv E τ { f with thr := TokenStore.set f.thr i (.got (.getVal iss v) p) } := by
  obtain ⟨h1, h2, h3, h4, h5, h6, h7, h8, h9, h10, h11, h12, h13, h14⟩ := h
  constructor
  all_goals simp only [TokenStore.set, TokenStore.put, Pub] at *
  all_goals grind [pend, TokenStore.held, copy]

theorem Inv.ends {i : Nat} {a : SRes (Option Token)} (h : Inv E τ f) (ha : ∀ t, a ≠ .ok (some t)) :
    Inv E τ { f with thr := TokenStore.set f.thr i (.done a) } := by
  obtain ⟨h1, h2, h3, h4, h5, h6, h7, h8, h9, h10, h11, h12, h13, h14⟩ := h
  constructor
  all_goals simp only [TokenStore.set, TokenStore.put, Pub] at *
  all_goals grind [pend, TokenStore.held, copy]

theorem Inv.read {i : Nat} {o : Op} {p : Nat} {t : Token} (h : Inv E τ f) (ht : f.thr i = .got o p) (hp : f.heap[p]? = some t) :
    Inv E τ { f with thr := TokenStore.set f.thr i (.done (.ok (some t))) } := by
  obtain ⟨h1, h2, h3, h4, h5, h6, h7, h8, h9, h10, h11, h12, h13, h14⟩ := h
  constructor
  all_goals simp only [TokenStore.set, TokenStore.put, Pub] at *
  all_goals grind [pend, TokenStore.held, copy]

theorem Inv.revoke0 {i : Nat} {id : Str} {p : Nat} (h : Inv E τ f) (ht : f.thr i = .revoke0 id) (hp : f.idIdx id = some p) :
    Inv E τ { f with thr := TokenStore.set f.thr i (.revoke1 id p) } := by
  obtain ⟨h1, h2, h3, h4, h5, h6, h7, h8, h9, h10, h11, h12, h13, h14⟩ := h
  constructor
  all_goals simp only [TokenStore.set, TokenStore.put, Pub] at *
  all_goals grind [pend, TokenStore.held, copy]

theorem Inv.revoke1 {i : Nat} {id : Str} {p : Nat} {t : Token} (h : Inv E τ f) (ht : f.thr i = .revoke1 id p) (hp : f.heap[p]? = some t) :
    Inv E τ { f with heap := f.heap.set p { t with status := .revoked }, thr := TokenStore.set f.thr i (.revoke2 id p) } := by
  obtain ⟨h1, h2, h3, h4, h5, h6, h7, h8, h9, h10, h11, h12, h13, h14⟩ := h
  constructor
  all_goals simp only [TokenStore.set, TokenStore.put, Pub] at *
  all_goals grind [pend, TokenStore.held, copy]

theorem Inv.revoke2 {i : Nat} {id : Str} {p : Nat} {t : Token} (h : Inv E τ f) (ht : f.thr i = .revoke2 id p) (hp : f.heap[p]? = some t) :
    Inv E τ { f with idIdx := TokenStore.put f.idIdx t.tokenId p, thr := TokenStore.set f.thr i (.revoke3 id p) } := by
  obtain ⟨h1, h2, h3, h4, h5, h6, h7, h8, h9, h10, h11, h12, h13, h14⟩ := h
  constructor
  all_goals simp only [TokenStore.set, TokenStore.put, Pub] at *
  all_goals grind [pend, TokenStore.held, copy]

theorem Inv.revoke3 {i : Nat} {id : Str} {p : Nat} {t : Token} (h : Inv E τ f) (ht : f.thr i = .revoke3 id p) (hp : f.heap[p]? = some t) :
    Inv E τ { f with valIdx := TokenStore.put f.valIdx t.value p, thr := TokenStore.set f.thr i (.done (.ok none)) } := by
  obtain ⟨h1, h2, h3, h4, h5, h6, h7, h8, h9, h10, h11, h12, h13, h14⟩ := h
  constructor
  all_goals simp only [TokenStore.set, TokenStore.put, Pub] at *
  all_goals grind [pend, TokenStore.held, copy]

theorem Inv.access {i : Nat} (h : Inv E τ f) (ha : Access E i f g) : Inv E τ g := by
  cases ha with
  | create0 ht => exact h.create0 ht
  | create1 ht => exact h.create1 ht
  | get ht _ => exact absurd ht (h.noGet _ _)
  | getNone ht _ => exact absurd ht (h.noGet _ _)
  | getVal ht hp => exact h.getVal ht hp
  | getValNone ht _ => exact h.ends (by simp)
  | read ht hp => exact h.read ht hp
  | revoke0 ht hp => exact h.revoke0 ht hp
  | revokeNone ht _ => exact h.ends (by simp)
  | revoke1 ht hp => exact h.revoke1 ht hp
  | revoke2 ht hp => exact h.revoke2 ht hp
  | revoke3 ht hp => exact h.revoke3 ht hp

theorem created_ret (τ : List Event) (i : Nat) (a : Ans) : created (τ ++ [.ret i a]) = created τ := by
  simp [created_append, created]

theorem Inv.ret {i : Nat} {a : Ans} (h : Inv E τ f) (ht : f.thr i = .done a) :
    Inv E (τ ++ [.ret i a]) { f with thr := TokenStore.set f.thr i .idle } := by
  obtain ⟨h1, h2, h3, h4, h5, h6, h7, h8, h9, h10, h11, h12, h13, h14⟩ := h
  have hk : keys E (τ ++ [.ret i a]) = keys E τ := by simp [keys, created_ret]
  have hi : ids (τ ++ [.ret i a]) = ids τ := by simp [ids, created_ret]
  constructor
  all_goals simp only [TokenStore.set, TokenStore.put, Pub, hk, hi] at *
  all_goals grind [pend, TokenStore.held, copy]

theorem Inv.inv {i : Nat} {o : Op} (h : Inv E τ f) (ht : f.thr i = .idle) (hg : Orderly E (τ ++ [.inv i o])) :
    Inv E (τ ++ [.inv i o]) { f with thr := TokenStore.set f.thr i o.start } := by
  obtain ⟨h1, h2, h3, h4, h5, h6, h7, h8, h9, h10, h11, h12, h13, h14⟩ := h
  cases o with
  | get id => exact absurd (by simp) (hg.get i id)
  | getVal iss v =>
    have hk : keys E (τ ++ [.inv i (.getVal iss v)]) = keys E τ := by simp [keys, created_append, created]
    have hi : ids (τ ++ [.inv i (.getVal iss v)]) = ids τ := by simp [ids, created_append, created]
    constructor
    all_goals simp only [TokenStore.set, TokenStore.put, Pub, hk, hi, Op.start] at *
    all_goals grind [pend, TokenStore.held, copy]
  | revoke id =>
    have hk : keys E (τ ++ [.inv i (.revoke id)]) = keys E τ := by simp [keys, created_append, created]
    have hi : ids (τ ++ [.inv i (.revoke id)]) = ids τ := by simp [ids, created_append, created]
    obtain ⟨j, t, hj, rfl⟩ := hg.revoke τ i id [] rfl
    have hp := h13 j t hj
    constructor
    all_goals simp only [TokenStore.set, TokenStore.put, Pub, hk, hi, Op.start] at *
    all_goals grind [pend, TokenStore.held, copy]
  | create iss t =>
    have hk : keys E (τ ++ [.inv i (.create iss t)]) = keys E τ ++ [(copy E iss t).value] := by
      simp [keys, created_append, created]
    have hi : ids (τ ++ [.inv i (.create iss t)]) = ids τ ++ [t.tokenId] := by simp [ids, created_append, created]
    have n1 : (copy E iss t).value ∉ keys E τ := by have := hg.keys; rw [hk] at this; grind
    have n2 : t.tokenId ∉ ids τ := by have := hg.ids; rw [hi] at this; grind
    have m1 : f.valIdx (copy E iss t).value = none := by
      cases hc : f.valIdx (copy E iss t).value with
      | none => rfl
      | some p => exact absurd (h6 _ _ hc).1 n1
    have m2 : f.idIdx t.tokenId = none := by
      cases hc : f.idIdx t.tokenId with
      | none => rfl
      | some p => exact absurd (h7 _ _ hc).1 n2
    constructor
    all_goals simp only [TokenStore.set, TokenStore.put, Pub, hk, hi, Op.start] at *
    all_goals grind [pend, TokenStore.held]

/-- Where a goroutine of the model is. -/
def abs : Local → ALocal
  | .idle => .idle
  | .create0 iss t => .called (.create iss t)
  | .create1 iss t _ => .called (.create iss t)
  | .get0 id => .called (.get id)
  | .getVal0 iss v => .called (.getVal iss v)
  | .got o _ => .called o
  | .revoke0 id => .called (.revoke id)
  | .revoke1 id _ => .called (.revoke id)
  | .revoke2 _ _ => .done (.ok none)
  | .revoke3 _ _ => .done (.ok none)
  | .done a => .done a

theorem abs_set (f : Nat → Local) (i : Nat) (l : Local) :
    (fun j => abs (TokenStore.set f i l j)) = TokenStore.set (fun j => abs (f j)) i (abs l) := by
  funext j
  simp only [TokenStore.set]
  split <;> rfl

theorem set_same {X : Type} {f : Nat → X} {i : Nat} {x : X} (h : f i = x) : TokenStore.set f i x = f := by
  funext j
  simp only [TokenStore.set]
  split <;> simp_all

/-- The store of the model holds the tokens that can be found by value. -/
structure Rel (f : Fine) (s : St) : Prop where
  val : ∀ k t, s.tokVal k = some t ↔ ∃ p, f.valIdx k = some p ∧ f.heap[p]? = some t
  id : ∀ id t, s.tokId id = some t ↔ ∃ p, f.idIdx id = some p ∧ f.heap[p]? = some t ∧ f.valIdx t.value = some p

/-- An access is a step of the model, or none. -/
theorem Rel.access {i : Nat} {s : St} (h : Inv E τ f) (r : Rel f s) (ha : Access E i f g) :
    (Rel g s ∧ (fun j => abs (g.thr j)) = fun j => abs (f.thr j)) ∨
    ∃ o, abs (f.thr i) = .called o ∧ Rel g (call E o s).2 ∧
      (fun j => abs (g.thr j)) = TokenStore.set (fun j => abs (f.thr j)) i (.done (call E o s).1) := by
  obtain ⟨r1, r2⟩ := r
  cases ha with
  | create0 ht =>
    left
    refine ⟨⟨?_, ?_⟩, ?_⟩
    · have := h.val; have := h.pendKey; simp only [TokenStore.put]; grind [pend]
    · have := h.val; have := h.pendKey; have := h.idm; have := h.fresh; simp only [TokenStore.put]; grind [pend]
    · rw [abs_set]; exact set_same (by rw [ht]; rfl)
  | @create1 iss t p ht =>
    right
    refine ⟨.create iss t, by rw [ht]; rfl, ⟨?_, ?_⟩, by rw [abs_set]; rfl⟩
    · have := h.stored _ _ _ _ ht
      simp only [call, Store.create, upd, TokenStore.put]; grind [copy]
    · have := h.stored _ _ _ _ ht
      have := h.pendKey i iss t (by rw [ht]; rfl)
      have := h.val
      have := h.idm
      simp only [call, Store.create, upd, TokenStore.put]; grind [copy]
  | get ht _ => exact absurd ht (h.noGet _ _)
  | getNone ht _ => exact absurd ht (h.noGet _ _)
  | getVal ht hp => left; exact ⟨⟨r1, r2⟩, by rw [abs_set]; exact set_same (by rw [ht]; rfl)⟩
  | @getValNone iss v ht hp =>
    right
    refine ⟨.getVal iss v, by rw [ht]; rfl, ⟨r1, r2⟩, ?_⟩
    have : s.tokVal (tokenKey E iss v) = none := by
      cases hc : s.tokVal (tokenKey E iss v) with
      | none => rfl
      | some t => obtain ⟨p, hp', _⟩ := (r1 _ _).1 hc; rw [hp] at hp'; cases hp'
    rw [abs_set]; simp [call, exec, faulty, this, found, abs]
  | @read o p t ht hp =>
    right
    obtain ⟨iss, v, rfl, hv⟩ := h.gotOp _ _ _ ht
    refine ⟨.getVal iss v, by rw [ht]; rfl, ⟨r1, r2⟩, ?_⟩
    have : s.tokVal (tokenKey E iss v) = some t := (r1 _ _).2 ⟨p, hv, hp⟩
    rw [abs_set]; simp [call, exec, faulty, this, found, abs]
  | revoke0 ht hp => left; exact ⟨⟨r1, r2⟩, by rw [abs_set]; exact set_same (by rw [ht]; rfl)⟩
  | revokeNone ht hp =>
    obtain ⟨p, _, hp', _⟩ := h.rev0 _ _ ht
    rw [hp] at hp'; cases hp'
  | @revoke1 id p t ht hp =>
    right
    obtain ⟨t', hp', rfl⟩ := h.rev i id p (.inl ht)
    obtain rfl : t = t' := by rw [hp] at hp'; cases hp'; rfl
    obtain ⟨t', hp', hv⟩ := h.held i p (by rw [ht]; rfl)
    obtain rfl : t = t' := by rw [hp] at hp'; cases hp'; rfl
    obtain ⟨_, t', hp', _, hid⟩ := h.val _ _ hv
    obtain rfl : t = t' := by rw [hp] at hp'; cases hp'; rfl
    have hs : s.tokId t.tokenId = some t := (r2 _ _).2 ⟨p, hid, hp, hv⟩
    have := h.val
    have := h.idm
    refine ⟨.revoke t.tokenId, by rw [ht]; rfl, ⟨?_, ?_⟩, ?_⟩
    · simp only [call, Store.revoke, hs, upd]; grind
    · simp only [call, Store.revoke, hs, upd]; grind
    · rw [abs_set]; simp [call, Store.revoke, hs, abs, Except.map]
  | @revoke2 id p t ht hp =>
    left
    obtain ⟨t', hp', hv⟩ := h.held i p (by rw [ht]; rfl)
    obtain rfl : t = t' := by rw [hp] at hp'; cases hp'; rfl
    obtain ⟨_, t', hp', _, hid⟩ := h.val _ _ hv
    obtain rfl : t = t' := by rw [hp] at hp'; cases hp'; rfl
    refine ⟨⟨r1, ?_⟩, by rw [abs_set]; exact set_same (by rw [ht]; rfl)⟩
    simp only [TokenStore.put]; grind
  | @revoke3 id p t ht hp =>
    left
    obtain ⟨t', hp', hv⟩ := h.held i p (by rw [ht]; rfl)
    obtain rfl : t = t' := by rw [hp] at hp'; cases hp'; rfl
    refine ⟨⟨?_, ?_⟩, by rw [abs_set]; exact set_same (by rw [ht]; rfl)⟩
    · simp only [TokenStore.put]; grind
    · simp only [TokenStore.put]; grind

theorem abs_start (o : Op) : abs o.start = .called o := by cases o <;> rfl

theorem simulation (hr : Run E τ f) (hg : Orderly E τ) :
    Inv E τ f ∧ ∃ s, Rel f s ∧ Atomic E τ s fun i => abs (f.thr i) := by
  induction hr with
  | nil => exact ⟨inv_nil E, {}, ⟨by simp, by simp⟩, .nil⟩
  | inv i o _ ht ih =>
    obtain ⟨h, s, r, a⟩ := ih hg.init
    refine ⟨h.inv ht hg, s, ⟨r.val, r.id⟩, ?_⟩
    rw [abs_set, abs_start]
    exact .inv i o a (by simp only [ht, abs])
  | ret i x _ ht ih =>
    obtain ⟨h, s, r, a⟩ := ih hg.init
    refine ⟨h.ret ht, s, ⟨r.val, r.id⟩, ?_⟩
    rw [abs_set]
    exact .ret i x a (by simp only [ht, abs])
  | access i _ ha ih =>
    obtain ⟨h, s, r, a⟩ := ih hg
    refine ⟨h.access ha, ?_⟩
    rcases r.access h ha with ⟨r', e⟩ | ⟨o, ho, r', e⟩
    · exact ⟨s, r', e ▸ a⟩
    · exact ⟨_, r', e ▸ .step i o a ho⟩

end Verif.TokenStore
