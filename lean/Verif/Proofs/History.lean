import Verif.Proofs.Run

/-! Positions in the log: what happened between two calls. -/
namespace Verif
open Verif.Prog
variable {E : Env}

theorem take_cons_drop {α : Type} {l : List α} {n : Nat} {a : α} (h : l[n]? = some a) :
    l = l.take n ++ a :: l.drop (n + 1) := by
  obtain ⟨hn, rfl⟩ := List.getElem?_eq_some_iff.1 h
  simp

theorem Linked.at {s f : St} {log : List Entry} {n : Nat} {e : Entry} (h : Linked E s log f)
    (he : log[n]? = some e) : Linked E s (log.take n) e.pre ∧ Linked E (e.post E) (log.drop (n + 1)) f := by
  have := take_cons_drop he
  rw [this] at h
  exact h.split

/-- A timeless predicate that holds before the `n`-th call, but not initially, was
established by an earlier call and has held since. -/
theorem Linked.made {P : St → Prop} (hP : Timeless P) {s f : St} {log : List Entry} (hs : ¬ P s)
    (h : Linked E s log f) {n : Nat} {e : Entry} (he : log[n]? = some e) (hp : P e.pre) :
    ∃ m e0, m < n ∧ log[m]? = some e0 ∧ ¬ P e0.pre ∧ P (e0.post E) ∧
      ∀ k e', m < k → k < n → log[k]? = some e' → P e'.pre ∧ P (e'.post E) := by
  obtain ⟨l1, e0, l2, hl, h1, h2, h3⟩ := Linked.last hP hs (h.at he).1 hp
  have hlen : n ≤ log.length := by
    obtain ⟨hn, _⟩ := List.getElem?_eq_some_iff.1 he; omega
  have hn : l1.length + 1 + l2.length = n := by
    have := congrArg List.length hl
    simp at this; omega
  have hidx : ∀ k, k < n → log[k]? = (l1 ++ e0 :: l2)[k]? := by
    intro k hk; rw [← hl, List.getElem?_take_of_lt hk]
  refine ⟨l1.length, e0, by omega, by rw [hidx _ (by omega)]; simp, h1, h2, ?_⟩
  intro k e' hk hkn hke
  rw [hidx k hkn, List.getElem?_append_right (by omega)] at hke
  obtain ⟨d, hd⟩ : ∃ d, k - l1.length = d + 1 := ⟨k - l1.length - 1, by omega⟩
  rw [hd] at hke
  simp at hke
  exact h3 e' (List.mem_of_getElem? hke)

/-- As `made`, counting from a call after which the predicate did not hold. -/
theorem Linked.madeSince {P : St → Prop} (hP : Timeless P) {s f : St} {log : List Entry}
    (h : Linked E s log f) {d n : Nat} {ed e : Entry} (hd : log[d]? = some ed) (hnd : ¬ P (ed.post E))
    (hdn : d < n) (he : log[n]? = some e) (hp : P e.pre) :
    ∃ m e0, d < m ∧ m < n ∧ log[m]? = some e0 ∧ ¬ P e0.pre ∧ P (e0.post E) ∧
      ∀ k e', m < k → k < n → log[k]? = some e' → P e'.pre ∧ P (e'.post E) := by
  have hl := (h.at hd).2
  have he' : (log.drop (d + 1))[n - (d + 1)]? = some e := by
    rw [List.getElem?_drop]; rw [← he]; congr 1; omega
  obtain ⟨m, e0, h1, h2, h3, h4, h5⟩ := hl.made hP hnd he' hp
  rw [List.getElem?_drop] at h2
  refine ⟨d + 1 + m, e0, by omega, by omega, h2, h3, h4, ?_⟩
  intro k e' hk hkn hke
  refine h5 (k - (d + 1)) e' (by omega) (by omega) ?_
  rw [List.getElem?_drop, ← hke]; congr 1; omega

/-- Time does not go backwards between two calls. -/
theorem Linked.time_le {s f : St} {log : List Entry} (h : Linked E s log f) {m n : Nat} {e e' : Entry}
    (hm : log[m]? = some e) (hn : log[n]? = some e') (hmn : m ≤ n) : e.time ≤ e'.time := by
  rcases Nat.lt_or_eq_of_le hmn with hlt | rfl
  · have hl := (h.at hm).2
    have he' : (log.drop (m + 1))[n - (m + 1)]? = some e' := by
      rw [List.getElem?_drop]; rw [← hn]; congr 1; omega
    have := (hl.at he').1.clock
    rw [Entry.post, exec_clock] at this
    exact this
  · rw [hm] at hn; cases hn; exact Nat.le_refl _

/-- A timeless predicate kept by the calls between two positions is kept. -/
theorem Linked.keepBetween {P : St → Prop} (hP : Timeless P) {s f : St} {log : List Entry}
    (h : Linked E s log f) {m n : Nat} {e e' : Entry} (hm : log[m]? = some e) (hn : log[n]? = some e')
    (hmn : m < n) (hpost : P (e.post E))
    (hk : ∀ k e'', m < k → k < n → log[k]? = some e'' → P e''.pre → P (e''.post E)) : P e'.pre := by
  have hl := (h.at hm).2
  have he' : (log.drop (m + 1))[n - (m + 1)]? = some e' := by
    rw [List.getElem?_drop]; rw [← hn]; congr 1; omega
  refine Linked.keep hP (hl.at he').1 ?_ hpost
  intro e'' he''
  obtain ⟨j, hj, hje⟩ := List.mem_take_iff_getElem.1 he''
  have hj1 : j < n - (m + 1) := by omega
  refine hk (m + 1 + j) e'' (by omega) (by omega) ?_
  rw [List.getElem_drop] at hje
  rw [List.getElem?_eq_some_iff]
  exact ⟨_, hje⟩

/-- Likewise up to the final state. -/
theorem Linked.keepEnd {P : St → Prop} (hP : Timeless P) {s f : St} {log : List Entry}
    (h : Linked E s log f) {m : Nat} {e : Entry} (hm : log[m]? = some e) (hpost : P (e.post E))
    (hk : ∀ k e'', m < k → log[k]? = some e'' → P e''.pre → P (e''.post E)) : P f := by
  refine Linked.keep hP (h.at hm).2 ?_ hpost
  intro e'' he''
  obtain ⟨j, hj⟩ := List.mem_iff_getElem?.1 he''
  rw [List.getElem?_drop] at hj
  exact hk (m + 1 + j) e'' (by omega) hj

/-! ### The calls of one request -/

/-- The `a`-th call of request `i` sits at some position of the log. -/
theorem callsOf_index {i : Nat} {log : List Entry} {a : Nat} {x : Ev} (h : (callsOf E i log)[a]? = some x) :
    ∃ n e, log[n]? = some e ∧ e.tid = i ∧ e.ev E = x ∧ (callsOf E i (log.take n)).length = a := by
  obtain ⟨l1, e, l2, rfl, h2, h3, h4⟩ := callsOf_pos i log a x h
  exact ⟨l1.length, e, by simp, h2, h3, by simp [h4]⟩

theorem callsOf_mono {i : Nat} {log : List Entry} {m n : Nat} (h : m ≤ n) :
    (callsOf E i (log.take m)).length ≤ (callsOf E i (log.take n)).length := by
  obtain ⟨d, rfl⟩ : ∃ d, n = m + d := ⟨n - m, by omega⟩
  rw [List.take_add, callsOf_append]
  simp

/-- Earlier calls of a request are earlier in the log. -/
theorem callsOf_lt {i : Nat} {log : List Entry} {m n a b : Nat}
    (hm : (callsOf E i (log.take m)).length = a) (hn : (callsOf E i (log.take n)).length = b) (h : a < b) : m < n := by
  rcases Nat.lt_or_ge m n with h' | h'
  · exact h'
  · have := callsOf_mono (E := E) (i := i) (log := log) h'
    omega

/-- A call of request `i` at a position of the log is one of its calls, with the
calls before it being those made earlier. -/
theorem callsOf_split {i : Nat} {log : List Entry} {n : Nat} {e : Entry} (he : log[n]? = some e) (hi : e.tid = i) :
    callsOf E i log = callsOf E i (log.take n) ++ e.ev E :: callsOf E i (log.drop (n + 1)) := by
  have hl := take_cons_drop he
  conv => lhs; rw [hl]
  rw [callsOf_append]
  simp [callsOf, hi]

theorem callsOf_take_getElem? {i : Nat} {log : List Entry} {n : Nat} {e : Entry} (he : log[n]? = some e)
    (hi : e.tid = i) : (callsOf E i log)[(callsOf E i (log.take n)).length]? = some (e.ev E) := by
  rw [callsOf_split he hi]
  simp

theorem mem_callsOf_iff {i : Nat} {log : List Entry} {x : Ev} :
    x ∈ callsOf E i log ↔ ∃ (n : Nat) (e : Entry), log[n]? = some e ∧ e.tid = i ∧ e.ev E = x := by
  constructor
  · intro h
    obtain ⟨a, ha⟩ := List.getElem?_of_mem h
    obtain ⟨n, e, h1, h2, h3, _⟩ := callsOf_index ha
    exact ⟨n, e, h1, h2, h3⟩
  · rintro ⟨n, e, h1, h2, rfl⟩
    exact mem_callsOf (List.mem_of_getElem? h1) h2

/-- Sequential histories: an earlier request's calls all precede a later one's. -/
theorem sequential_lt {s : St} {ls : List Label} (h : Sequential 0 ls) {m n : Nat} {e e' : Entry}
    (hm : (run E s ls).log[m]? = some e) (hn : (run E s ls).log[n]? = some e') (ht : e.tid < e'.tid) : m < n := by
  have hp := List.pairwise_iff_getElem.1 (sequential_sorted E s ls h)
  obtain ⟨hm1, hm2⟩ := List.getElem?_eq_some_iff.1 hm
  obtain ⟨hn1, hn2⟩ := List.getElem?_eq_some_iff.1 hn
  rcases Nat.lt_trichotomy m n with h' | h' | h'
  · exact h'
  · subst h'; rw [hm2] at hn2; subst hn2; omega
  · have := hp n m hn1 hm1 h'
    rw [hm2, hn2] at this; omega

/-! ### Who made a call -/

theorem Answered.asked {c : Conf} {i : Nat} {r : Req} {a : Resp} (h : Answered c i r a) : Asked c i r := by
  obtain ⟨th, h1, h2, _⟩ := h; exact ⟨th, h1, h2⟩

theorem Asked.unique {c : Conf} {i : Nat} {r r' : Req} (h : Asked c i r) (h' : Asked c i r') : r = r' := by
  obtain ⟨th, h1, h2⟩ := h
  obtain ⟨th', h1', h2'⟩ := h'
  rw [h1] at h1'; cases h1'; rw [← h2, ← h2']

/-- The calls of an answered request form a complete execution. -/
theorem Answered.exec {s : St} {ls : List Label} {i : Nat} {r : Req} {a : Resp}
    (h : Answered (run E s ls) i r a) :
    Exec (handle E r) (callsOf E i (run E s ls).log) (.done a) := by
  obtain ⟨th, h1, h2, h3⟩ := h
  have hp := (path_run E s ls).1 i th h1
  rw [h2] at hp
  unfold Thread.answer at h3
  split at h3
  · rename_i heq
    cases h3
    rw [heq] at hp
    exact hp.toExec
  · simp at h3

/-- The calls of any request form an interrupted execution. -/
theorem Asked.exec {s : St} {ls : List Label} {i : Nat} {r : Req} (h : Asked (run E s ls) i r) :
    Exec (handle E r) (callsOf E i (run E s ls).log) .stopped := by
  obtain ⟨th, h1, h2⟩ := h
  have hp := (path_run E s ls).1 i th h1
  rw [h2] at hp
  exact hp.toStopped

/-- Every call was made by some request. -/
theorem entry_asked {s : St} {ls : List Label} {n : Nat} {e : Entry} (h : (run E s ls).log[n]? = some e) :
    ∃ r, Asked (run E s ls) e.tid r := by
  have := (path_run E s ls).2 e (List.mem_of_getElem? h)
  exact ⟨_, _, List.getElem?_eq_getElem this, rfl⟩

/-- Every executed call satisfies what holds of all calls of its service function. -/
theorem entry_calls {s : St} {ls : List Label} {n : Nat} {e : Entry} {r : Req}
    (h : (run E s ls).log[n]? = some e) (hr : Asked (run E s ls) e.tid r)
    {J : List Ev → Cmd → Prop} (hj : Calls J (handle E r) []) :
    J (callsOf E e.tid ((run E s ls).log.take n)) e.cmd := by
  have hs := callsOf_split (E := E) h rfl
  have := calls_sound hj hr.exec hs
  rw [List.nil_append] at this
  exact this

end Verif
