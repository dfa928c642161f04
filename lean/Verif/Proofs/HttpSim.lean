import Verif.Proofs.HttpTrail
import Verif.Proofs.Run
import Mathlib.Data.List.Induction

/-! Every history of the HTTP server is a history of the services. -/
set_option linter.unusedSimpArgs false
namespace Verif.Http
open Verif.Prog Verif.Spec

variable {S : Server}

/-- HTTP request `i` got to `h` by way of `w`. -/
structure At (S : Server) (own : List Nat) (d : Verif.Conf) (log : List Entry) (i : Nat) (th : Thread) (w : List Stop)
    (h : Lay) : Prop where
  trail : Trail (lay S th.route th.req) w h
  served : ∀ j q a, Stop.svc j q a ∈ w → own[j]? = some i ∧ Verif.Answered d j q a
  made : ∀ ev, Stop.read ev ∈ w → ev ∈ callsOf S.E i log

/-- Where it is: outside of the services, or inside of one. -/
inductive Here (S : Server) (own : List Nat) (d : Verif.Conf) (i : Nat) (p : Prog Resp) (w : List Stop) : Lay → Prop
  | out (h : Lay) : p = h.flat S.E → (∀ q k, h ≠ .svc q k) →
      (∀ j, own[j]? = some i → ∃ q a, Stop.svc j q a ∈ w) → Here S own d i p w h
  | inside (j : Nat) (q : Verif.Req) (k : Verif.Resp → Lay) (P : Prog Verif.Resp) :
      p = (P >>= fun a => (k a).flat S.E) → (∀ a, P ≠ .ret a) → d.threads[j]? = some ⟨q, P⟩ → own[j]? = some i →
      (∀ j', own[j']? = some i → j' ≠ j → ∃ q a, Stop.svc j' q a ∈ w) → Here S own d i p w (.svc q k)

/-- Everything but the threads. -/
structure Frame (own : List Nat) (c : Conf) (d : Verif.Conf) : Prop where
  st : d.st = c.st
  len : own.length = d.threads.length
  lt : ∀ (j i : Nat), own[j]? = some i → i < c.threads.length
  sub : (d.log.map (relabel (own.getD · 0))).Sublist c.log
  eq : (d.log.map (relabel (own.getD · 0))).filter (fun e => touches e.cmd) = c.log.filter fun e => touches e.cmd
  tids : ∀ e ∈ d.log, e.tid < d.threads.length

/-- Simulation, without request `x`. -/
def Others (S : Server) (own : List Nat) (c : Conf) (d : Verif.Conf) (x : Nat) : Prop :=
  ∀ (i : Nat) th, i ≠ x → c.threads[i]? = some th → ∃ w h, At S own d c.log i th w h ∧ Here S own d i th.prog w h

/-- The service history `d` simulates the HTTP history `c`. -/
structure Sim (S : Server) (own : List Nat) (c : Conf) (d : Verif.Conf) : Prop where
  frame : Frame own c d
  threads : ∀ (i : Nat) th, c.threads[i]? = some th → ∃ w h, At S own d c.log i th w h ∧ Here S own d i th.prog w h

/-- Nothing changes for request `i`. -/
def Same (i : Nat) (own : List Nat) (d : Verif.Conf) (own' : List Nat) (d' : Verif.Conf) : Prop :=
  ∀ j : Nat, (own'[j]? = some i ↔ own[j]? = some i) ∧ (own[j]? = some i → d'.threads[j]? = d.threads[j]?)

theorem At.mono {own own' : List Nat} {d d' : Verif.Conf} {log log' : List Entry} {i : Nat} {th : Thread} {w : List Stop}
    {h : Lay} (ha : At S own d log i th w h) (hs : Same i own d own' d')
    (hl : ∀ ev ∈ callsOf S.E i log, ev ∈ callsOf S.E i log') : At S own' d' log' i th w h := by
  refine ⟨ha.trail, fun j q a hm => ?_, fun ev hm => hl _ (ha.made ev hm)⟩
  obtain ⟨h1, t, h2, h3⟩ := ha.served j q a hm
  exact ⟨(hs j).1.2 h1, t, by rw [(hs j).2 h1]; exact h2, h3⟩

theorem Here.mono {own own' : List Nat} {d d' : Verif.Conf} {i : Nat} {p : Prog Resp} {w : List Stop}
    {h : Lay} (hh : Here S own d i p w h) (hs : Same i own d own' d') : Here S own' d' i p w h := by
  cases hh with
  | out h e hn ho => exact .out h e hn fun j hj => ho j ((hs j).1.1 hj)
  | inside j q k P e hn ht ho hw =>
    exact .inside j q k P e hn (by rw [(hs j).2 ho]; exact ht) ((hs j).1.2 ho) fun j' hj' => hw j' ((hs j').1.1 hj')

theorem Others.mono {own own' : List Nat} {c c' : Conf} {d d' : Verif.Conf} {x : Nat} (ho : Others S own c d x)
    (hs : ∀ i, i ≠ x → Same i own d own' d') (ht : ∀ (i : Nat) th, i ≠ x → c'.threads[i]? = some th → c.threads[i]? = some th)
    (hl : ∀ i, i ≠ x → ∀ ev ∈ callsOf S.E i c.log, ev ∈ callsOf S.E i c'.log) : Others S own' c' d' x := by
  intro i th hi hth
  obtain ⟨w, h, h1, h2⟩ := ho i th hi (ht i th hi hth)
  exact ⟨w, h, h1.mono (hs i hi) (hl i hi), h2.mono (hs i hi)⟩

theorem same_arrive {i x : Nat} (hi : i ≠ x) {own : List Nat} {d : Verif.Conf} (hlen : own.length = d.threads.length)
    (t : Verif.Thread) : Same i own d (own ++ [x]) { d with threads := d.threads ++ [t] } := by
  intro j
  rcases Nat.lt_trichotomy j own.length with h | h | h
  · refine ⟨by rw [List.getElem?_append_left h], fun _ => ?_⟩
    simp only
    rw [List.getElem?_append_left (by omega)]
  · subst h
    refine ⟨by simp; omega, fun h => by simp at h⟩
  · refine ⟨?_, fun h' => ?_⟩
    · rw [List.getElem?_eq_none (by simp; omega), List.getElem?_eq_none (by omega)]
    · rw [List.getElem?_eq_none (by omega)] at h'; cases h'

theorem relabel_append {own l : List Nat} {log : List Entry} (h : ∀ e ∈ log, e.tid < own.length) :
    log.map (relabel ((own ++ l).getD · 0)) = log.map (relabel (own.getD · 0)) := by
  refine List.map_congr_left fun e he => ?_
  have := h e he
  simp only [relabel]
  congr 1
  simp only [List.getD_eq_getElem?_getD]
  rw [List.getElem?_append_left this]

theorem Frame.arrive {own : List Nat} {c : Conf} {d : Verif.Conf} (hf : Frame own c d) {x : Nat} (hx : x < c.threads.length)
    (t : Verif.Thread) : Frame (own ++ [x]) c { d with threads := d.threads ++ [t] } := by
  have hl : ∀ e ∈ d.log, e.tid < own.length := fun e he => by rw [hf.len]; exact hf.tids e he
  refine ⟨hf.st, by simp [hf.len], fun j i hj => ?_, ?_, ?_, fun e he => ?_⟩
  · rcases Nat.lt_trichotomy j own.length with h | h | h
    · rw [List.getElem?_append_left h] at hj; exact hf.lt j i hj
    · subst h; simp at hj; omega
    · rw [List.getElem?_eq_none (by simp; omega)] at hj; cases hj
  · simp only; rw [relabel_append hl]; exact hf.sub
  · simp only; rw [relabel_append hl]; exact hf.eq
  · have := hf.tids e he; simp; omega

/-- The requests `qs` arrive at the services. -/
def arrivals (E : Env) (d : Verif.Conf) (qs : List Verif.Req) : Verif.Conf := (qs.map Verif.Label.arrive).foldl (Verif.step E) d

/-- Let request `x` start the services it needs next. -/
theorem settle {x : Nat} {th : Thread} {c : Conf} (hth : c.threads[x]? = some th) (h : Lay) :
    ∀ {own : List Nat} {d : Verif.Conf} {w : List Stop}, Frame own c d → Others S own c d x →
      At S own d c.log x th w h → th.prog = h.flat S.E → (∀ j, own[j]? = some x → ∃ q a, Stop.svc j q a ∈ w) →
      ∃ qs own', Sim S own' c (arrivals S.E d qs) ∧
        (∃ n, own' = own ++ List.replicate n x) ∧
        ∀ j, own'[j]? = some x → (∃ t, (arrivals S.E d qs).threads[j]? = some t ∧ t.answer = none) → j + 1 = own'.length := by
  have hx : x < c.threads.length := by
    rcases Nat.lt_or_ge x c.threads.length with h' | h'
    · exact h'
    · rw [List.getElem?_eq_none h'] at hth; cases hth
  -- nothing to start
  have stay : ∀ {h : Lay} {own : List Nat} {d : Verif.Conf} {w : List Stop}, (∀ q k, h ≠ .svc q k) → Frame own c d → Others S own c d x →
      At S own d c.log x th w h → th.prog = h.flat S.E → (∀ j, own[j]? = some x → ∃ q a, Stop.svc j q a ∈ w) →
      ∃ qs own', Sim S own' c (arrivals S.E d qs) ∧
        (∃ n, own' = own ++ List.replicate n x) ∧
        ∀ j, own'[j]? = some x → (∃ t, (arrivals S.E d qs).threads[j]? = some t ∧ t.answer = none) → j + 1 = own'.length := by
    intro h own d w hn hf ho ha hp hw
    refine ⟨[], own, ⟨hf, fun i th' hi => ?_⟩, ⟨0, by simp⟩, fun j hj ⟨t, ht, hna⟩ => ?_⟩
    · by_cases hix : i = x
      · subst hix
        rw [hth] at hi; cases hi
        exact ⟨w, h, ha, .out h hp hn hw⟩
      · exact ho i th' hix hi
    · obtain ⟨q, a, hm⟩ := hw j hj
      obtain ⟨_, t', h1, _, h3⟩ := ha.served j q a hm
      simp only [arrivals, List.map_nil, List.foldl_nil] at ht
      rw [ht] at h1; cases h1
      rw [hna] at h3; cases h3
  induction h with
  | ret a => exact fun hf ho ha hp hw => stay (by simp) hf ho ha hp hw
  | panic => exact fun hf ho ha hp hw => stay (by simp) hf ho ha hp hw
  | read c k _ => exact fun hf ho ha hp hw => stay (by simp) hf ho ha hp hw
  | svc q k ih =>
    intro own d w hf ho ha hp hw
    have hf' := hf.arrive hx ⟨q, handle S.E q⟩
    have ho' : Others S (own ++ [x]) c { d with threads := d.threads ++ [⟨q, handle S.E q⟩] } x :=
      ho.mono (fun i hi => same_arrive hi hf.len _) (fun _ _ _ h => h) fun _ _ _ h => h
    have hnew : (own ++ [x])[own.length]? = some x := by simp
    have hnt : ({ d with threads := d.threads ++ [⟨q, handle S.E q⟩] } : Verif.Conf).threads[own.length]? =
        some ⟨q, handle S.E q⟩ := by simp [hf.len]
    have hserved : ∀ j q' a, Stop.svc j q' a ∈ w → (own ++ [x])[j]? = some x ∧
        Verif.Answered { d with threads := d.threads ++ [⟨q, handle S.E q⟩] } j q' a := by
      intro j q' a hm
      obtain ⟨h1, t, h2, h3⟩ := ha.served j q' a hm
      have hj : j < own.length := by
        rcases Nat.lt_or_ge j own.length with h' | h'
        · exact h'
        · rw [List.getElem?_eq_none h'] at h1; cases h1
      exact ⟨by rw [List.getElem?_append_left hj]; exact h1, t,
        by simp only; rw [List.getElem?_append_left (by rw [← hf.len]; exact hj)]; exact h2, h3⟩
    have hold : ∀ j, (own ++ [x])[j]? = some x → j ≠ own.length → ∃ q a, Stop.svc j q a ∈ w := by
      intro j hj hne
      rcases Nat.lt_or_ge j own.length with h' | h'
      · rw [List.getElem?_append_left h'] at hj; exact hw j hj
      · rw [List.getElem?_eq_none (by simp; omega)] at hj; cases hj
    cases hP : handle S.E q with
    | ret a =>
      have hans : Verif.Answered { d with threads := d.threads ++ [⟨q, handle S.E q⟩] } own.length q a :=
        ⟨_, hnt, rfl, by simp [Verif.Thread.answer, hP]⟩
      obtain ⟨qs, own', h1, ⟨n, hn⟩, h2⟩ := ih a (own := own ++ [x])
        (d := { d with threads := d.threads ++ [⟨q, handle S.E q⟩] }) (w := w ++ [.svc own.length q a]) hf' ho'
        ⟨ha.trail.trans (.svc q k _ a [] _ (.nil _)), by
            intro j q' a' hm
            rcases List.mem_append.1 hm with hm | hm
            · exact hserved j q' a' hm
            · simp at hm
              obtain ⟨rfl, rfl, rfl⟩ := hm
              exact ⟨hnew, hans⟩,
          by
            intro ev hm
            rcases List.mem_append.1 hm with hm | hm
            · exact ha.made ev hm
            · simp at hm⟩
        (by rw [hp]; simp [Lay.flat, hP])
        (by
          intro j hj
          by_cases hne : j = own.length
          · subst hne; exact ⟨q, a, by simp⟩
          · obtain ⟨q', a', hm⟩ := hold j hj hne
            exact ⟨q', a', by simp [hm]⟩)
      exact ⟨q :: qs, own', h1, ⟨n + 1, by rw [hn, List.replicate_succ]; simp⟩, h2⟩
    | panic =>
      refine ⟨[q], own ++ [x], ⟨hf', fun i th' hi => ?_⟩, ⟨1, rfl⟩, fun j hj ⟨t, ht, hna⟩ => ?_⟩
      · by_cases hix : i = x
        · subst hix
          rw [hth] at hi; cases hi
          exact ⟨w, _, ⟨ha.trail, hserved, ha.made⟩, .inside own.length q k (handle S.E q) (by rw [hp]; rfl) (by simp [hP]) hnt hnew hold⟩
        · exact ho' i th' hix hi
      · by_cases hne : j = own.length
        · subst hne; simp
        · obtain ⟨q', a', hm⟩ := hold j hj hne
          obtain ⟨_, t', h1, _, h3⟩ := hserved j q' a' hm
          change _ = some t at ht
          simp only [arrivals, List.map_cons, List.map_nil, List.foldl_cons, List.foldl_nil, Verif.step] at ht
          simp only at h1
          rw [ht] at h1; cases h1
          rw [hna] at h3; cases h3
    | op cmd kk =>
      refine ⟨[q], own ++ [x], ⟨hf', fun i th' hi => ?_⟩, ⟨1, rfl⟩, fun j hj ⟨t, ht, hna⟩ => ?_⟩
      · by_cases hix : i = x
        · subst hix
          rw [hth] at hi; cases hi
          exact ⟨w, _, ⟨ha.trail, hserved, ha.made⟩, .inside own.length q k (handle S.E q) (by rw [hp]; rfl) (by simp [hP]) hnt hnew hold⟩
        · exact ho' i th' hix hi
      · by_cases hne : j = own.length
        · subst hne; simp
        · obtain ⟨q', a', hm⟩ := hold j hj hne
          obtain ⟨_, t', h1, _, h3⟩ := hserved j q' a' hm
          simp only [arrivals, List.map_cons, List.map_nil, List.foldl_cons, List.foldl_nil, Verif.step] at ht
          simp only at h1
          rw [ht] at h1; cases h1
          rw [hna] at h3; cases h3

/-- Only the last service request can be unfinished among those of the last HTTP request. -/
def Lastly (own : List Nat) (c : Conf) (d : Verif.Conf) : Prop :=
  ∀ i : Nat, i + 1 = c.threads.length → ∀ j : Nat, own[j]? = some i → (∃ t, d.threads[j]? = some t ∧ t.answer = none) →
    j + 1 = own.length

/-- Service requests are numbered in the order of the HTTP requests. -/
def Sorted (own : List Nat) : Prop := own.Pairwise (· ≤ ·)

theorem Sorted.replicate {own : List Nat} (h : Sorted own) {x : Nat} (hx : ∀ i ∈ own, i ≤ x) (n : Nat) :
    Sorted (own ++ List.replicate n x) := by
  unfold Sorted
  rw [List.pairwise_append]
  refine ⟨h, List.pairwise_replicate.2 (Or.inr (Nat.le_refl _)), fun a ha b hb => ?_⟩
  rw [List.eq_of_mem_replicate hb]
  exact hx a ha

theorem Frame.le {own : List Nat} {c : Conf} {d : Verif.Conf} (hf : Frame own c d) {i : Nat} (hi : i ∈ own) :
    i < c.threads.length := by
  obtain ⟨j, hj⟩ := List.getElem?_of_mem hi
  exact hf.lt j i hj

/-- The last HTTP request makes the step. -/
def OfLast (n : Nat) : Label → Prop
  | .run i _ => i + 1 = n
  | _ => True

theorem sequential_arrivals (n : Nat) (qs : List Verif.Req) : Verif.Sequential n (qs.map Verif.Label.arrive) := by
  induction qs generalizing n with
  | nil => trivial
  | cons q qs ih => exact ih _

theorem callsOf_snoc (E : Env) (i : Nat) (log : List Entry) (e : Entry) : ∀ ev ∈ callsOf E i log, ev ∈ callsOf E i (log ++ [e]) := by
  intro ev hev
  rw [callsOf_append]
  exact List.mem_append_left _ hev

theorem lt_of_getElem? {α : Type} {l : List α} {i : Nat} {a : α} (h : l[i]? = some a) : i < l.length := by
  rcases Nat.lt_or_ge i l.length with h' | h'
  · exact h'
  · rw [List.getElem?_eq_none h'] at h; cases h

/-- Request `i` made a call and became `th`. -/
abbrev moved (S : Server) (c : Conf) (i : Nat) (cmd : Cmd) (ch : Store.Choice) (th : Thread) : Conf :=
  ⟨(⟨i, cmd, ch, c.st⟩ : Entry).post S.E, c.threads.set i th, c.log ++ [⟨i, cmd, ch, c.st⟩]⟩

/-- One step. -/
theorem step_sim {own : List Nat} {c : Conf} {d : Verif.Conf} (hs : Sim S own c d) (l : Label) :
    ∃ ls own', Sim S own' (step S c l) (ls.foldl (Verif.step S.E) d) ∧
      (Lastly own c d → OfLast c.threads.length l →
        Verif.Sequential d.threads.length ls ∧ (Sorted own → Sorted own') ∧ Lastly own' (step S c l) (ls.foldl (Verif.step S.E) d)) := by
  cases l with
  | arrive route r =>
    have hth : (step S c (.arrive route r)).threads[c.threads.length]? = some ⟨route, r, serve S route r⟩ := by
      simp [step]
    have hf : Frame own (step S c (.arrive route r)) d :=
      ⟨hs.frame.st, hs.frame.len, fun j i h => by have := hs.frame.lt j i h; simp [step]; omega, hs.frame.sub,
        hs.frame.eq, hs.frame.tids⟩
    have ho : Others S own (step S c (.arrive route r)) d c.threads.length := by
      intro i th hi hth'
      refine hs.threads i th ?_
      simp only [step] at hth'
      have := lt_of_getElem? hth'
      simp at this
      rw [List.getElem?_append_left (by omega)] at hth'
      exact hth'
    obtain ⟨qs, own', h1, ⟨n, hn'⟩, h2⟩ := settle (S := S) hth (lay S route r) (own := own) (d := d) (w := []) hf ho
      ⟨.nil _, by simp, by simp⟩ (flat_lay S route r).symm fun j hj => by
        have := hs.frame.lt j _ hj; omega
    refine ⟨qs.map .arrive, own', h1, fun _ _ => ⟨sequential_arrivals _ _, fun h => ?_, fun i hi j hj ht => ?_⟩⟩
    · rw [hn']
      exact h.replicate (fun i hi => by have := hs.frame.le hi; omega) n
    obtain rfl : i = c.threads.length := by simp [step] at hi; omega
    exact h2 j hj ht
  | tick n =>
    refine ⟨[.tick n], own, ⟨⟨by simp [Verif.step, step, hs.frame.st], hs.frame.len, hs.frame.lt, hs.frame.sub, hs.frame.eq,
      hs.frame.tids⟩, fun i th hi => ?_⟩, fun hl _ => ⟨trivial, id, hl⟩⟩
    obtain ⟨w, h, h1, h2⟩ := hs.threads i th hi
    exact ⟨w, h, h1.mono (fun j => ⟨Iff.rfl, fun _ => rfl⟩) fun _ h => h, h2.mono fun j => ⟨Iff.rfl, fun _ => rfl⟩⟩
  | run i ch =>
    have idle : step S c (.run i ch) = c → ∃ ls own', Sim S own' (step S c (.run i ch)) (ls.foldl (Verif.step S.E) d) ∧
      (Lastly own c d → OfLast c.threads.length (.run i ch) →
        Verif.Sequential d.threads.length ls ∧ (Sorted own → Sorted own') ∧ Lastly own' (step S c (.run i ch)) (ls.foldl (Verif.step S.E) d)) := by
      intro e
      rw [e]
      exact ⟨[], own, hs, fun hl _ => ⟨trivial, id, hl⟩⟩
    cases hth : c.threads[i]? with
    | none => exact idle (by simp [step, hth])
    | some th =>
      obtain ⟨route, req, p⟩ := th
      cases p with
      | ret a => exact idle (by simp [step, hth])
      | panic => exact idle (by simp [step, hth])
      | op cmd kk =>
        have hi : i < c.threads.length := lt_of_getElem? hth
        have hstep : step S c (.run i ch) = (moved S c i cmd ch ⟨route, req, kk ((⟨i, cmd, ch, c.st⟩ : Entry).res S.E)⟩) := by
          simp [step, hth]
        rw [hstep]
        have hth' : (c.threads.set i ⟨route, req, kk ((⟨i, cmd, ch, c.st⟩ : Entry).res S.E)⟩)[i]? =
            some ⟨route, req, kk ((⟨i, cmd, ch, c.st⟩ : Entry).res S.E)⟩ := by
          rw [List.getElem?_set_self hi]
        have hother : ∀ (i' : Nat) th', i' ≠ i →
            (c.threads.set i ⟨route, req, kk ((⟨i, cmd, ch, c.st⟩ : Entry).res S.E)⟩)[i']? = some th' →
            c.threads[i']? = some th' := by
          intro i' th' hne h
          rwa [List.getElem?_set_ne (Ne.symm hne)] at h
        obtain ⟨w, h, ha, hh⟩ := hs.threads i _ hth
        cases hh with
        | out _ hp hn hw =>
          cases h with
          | ret a => cases hp
          | panic => cases hp
          | svc q k => exact absurd rfl (hn q k)
          | read cmd' k =>
            simp only [Lay.flat, Prog.op.injEq] at hp
            obtain ⟨rfl, hk⟩ := hp
            cases eq_of_heq hk
            have hro : Props.isReadOnly cmd = true := (ha.trail.good (good_lay S route req)).1
            have hpost : (⟨i, cmd, ch, c.st⟩ : Entry).post S.E = c.st :=
              (Props.C59_replay_violated S.P none).2.2 S.E cmd ch c.st hro
            have htouch : touches cmd = false := by
              cases cmd <;> simp [Props.isReadOnly] at hro <;> rfl
            obtain ⟨qs, own', h1, ⟨n, hn'⟩, h2⟩ := settle (S := S) (x := i)
              (c := moved S c i cmd ch ⟨route, req, (k ((⟨i, cmd, ch, c.st⟩ : Entry).res S.E)).flat S.E⟩) hth'
              (k ((⟨i, cmd, ch, c.st⟩ : Entry).res S.E)) (own := own) (d := d)
              (w := w ++ [.read ⟨cmd, (⟨i, cmd, ch, c.st⟩ : Entry).res S.E⟩])
              ⟨hs.frame.st.trans hpost.symm, hs.frame.len, fun j x hj => by simpa using hs.frame.lt j x hj,
                hs.frame.sub.trans (List.sublist_append_left _ _), by
                  rw [hs.frame.eq]
                  show _ = (c.log ++ [_]).filter _
                  simp [List.filter_append, htouch],
                hs.frame.tids⟩
              (Others.mono (c := c) (fun i' th' _ h => hs.threads i' th' h) (fun _ _ j => ⟨Iff.rfl, fun _ => rfl⟩)
                hother fun i' _ => callsOf_snoc _ _ _ _)
              ⟨ha.trail.trans (.read cmd k _ [] _ (.nil _)), fun j q a hm => by
                  rcases List.mem_append.1 hm with hm | hm
                  · exact ha.served j q a hm
                  · simp at hm,
                fun ev hm => by
                  rcases List.mem_append.1 hm with hm | hm
                  · exact callsOf_snoc _ _ _ _ _ (ha.made ev hm)
                  · simp at hm
                    subst hm
                    exact mem_callsOf (e := ⟨i, cmd, ch, c.st⟩) (by simp) rfl⟩
              rfl
              (fun j hj => by
                obtain ⟨q, a, hm⟩ := hw j hj
                exact ⟨q, a, by simp [hm]⟩)
            refine ⟨qs.map .arrive, own', h1, fun _ hlast => ⟨sequential_arrivals _ _, fun h => ?_, fun i' hi' j hj ht => ?_⟩⟩
            · rw [hn']
              exact h.replicate (fun i' hi' => by have := hs.frame.le hi'; simp only [OfLast] at hlast; omega) n
            obtain rfl : i' = i := by
              simp [OfLast] at hlast hi'; omega
            exact h2 j hj ht
        | inside j q k P hp hn hj hown hw =>
          cases P with
          | ret a => exact absurd rfl (hn a)
          | panic => cases hp
          | op cmd' kk' =>
            simp only [bind_op, Prog.op.injEq] at hp
            obtain ⟨rfl, hk⟩ := hp
            cases eq_of_heq hk
            have hjl : j < d.threads.length := lt_of_getElem? hj
            have hres : (⟨j, cmd, ch, d.st⟩ : Entry).res S.E = (⟨i, cmd, ch, c.st⟩ : Entry).res S.E := by
              simp [Entry.res, hs.frame.st]
            have hd : Verif.step S.E d (.run j ch) = (⟨(⟨j, cmd, ch, d.st⟩ : Entry).post S.E, d.threads.set j ⟨q, kk' ((⟨i, cmd, ch, c.st⟩ : Entry).res S.E)⟩, d.log ++ [⟨j, cmd, ch, d.st⟩]⟩ : Verif.Conf) := by
              simp only [Verif.step, hj, hres]
            have hget : own.getD j 0 = i := by rw [List.getD_eq_getElem?_getD, hown]; rfl
            have hf : Frame own (moved S c i cmd ch ⟨route, req, kk' ((⟨i, cmd, ch, c.st⟩ : Entry).res S.E) >>= fun a => (k a).flat S.E⟩) (Verif.step S.E d (.run j ch)) := by
              rw [hd]
              refine ⟨by simp [Entry.post, hs.frame.st], by simp [hs.frame.len], fun j' x hj' => by simpa using hs.frame.lt j' x hj', ?_, ?_, ?_⟩
              · simp only [List.map_append, List.map_cons, List.map_nil, relabel, hget, hs.frame.st]
                exact hs.frame.sub.append (List.Sublist.refl _)
              · simp only [List.map_append, List.map_cons, List.map_nil, List.filter_append, hs.frame.eq]
                simp [relabel, hown, hs.frame.st]
              · intro e he
                simp only [List.length_set]
                rcases List.mem_append.1 he with he | he
                · exact hs.frame.tids e he
                · simp at he; subst he; exact hjl
            have hsame : ∀ i', i' ≠ i → Same i' own d own (Verif.step S.E d (.run j ch)) := by
              intro i' hne j'
              refine ⟨Iff.rfl, fun h => ?_⟩
              have : j' ≠ j := by
                rintro rfl
                rw [hown] at h
                exact hne (Option.some.inj h).symm
              rw [hd]
              simp only
              rw [List.getElem?_set_ne (Ne.symm this)]
            have ho : Others S own (moved S c i cmd ch ⟨route, req, kk' ((⟨i, cmd, ch, c.st⟩ : Entry).res S.E) >>= fun a => (k a).flat S.E⟩) (Verif.step S.E d (.run j ch)) i :=
              Others.mono (c := c) (fun i' th' _ h => hs.threads i' th' h) hsame hother fun i' _ => callsOf_snoc _ _ _ _
            have hjth : (Verif.step S.E d (.run j ch)).threads[j]? =
                some ⟨q, kk' ((⟨i, cmd, ch, c.st⟩ : Entry).res S.E)⟩ := by
              rw [hd]; simp only; rw [List.getElem?_set_self hjl]
            have hserved : ∀ j' q' a, Stop.svc j' q' a ∈ w → own[j']? = some i ∧
                Verif.Answered (Verif.step S.E d (.run j ch)) j' q' a := by
              intro j' q' a hm
              obtain ⟨h1, t, h2, h3, h4⟩ := ha.served j' q' a hm
              have hne : j' ≠ j := by
                rintro rfl
                rw [hj] at h2; cases h2
                cases h4
              refine ⟨h1, t, ?_, h3, h4⟩
              rw [hd]; simp only
              rw [List.getElem?_set_ne (Ne.symm hne)]; exact h2
            have hlen : d.threads.length = own.length := hs.frame.len.symm
            have hcur : Lastly own c d → OfLast c.threads.length (.run i ch) → j + 1 = d.threads.length := by
              intro hl hlast
              rw [hlen]
              exact hl i hlast j hown ⟨_, hj, rfl⟩
            -- the service goes on
            have goOn : (∀ a, kk' ((⟨i, cmd, ch, c.st⟩ : Entry).res S.E) ≠ .ret a) → ∃ ls own', Sim S own'
                (moved S c i cmd ch ⟨route, req, kk' ((⟨i, cmd, ch, c.st⟩ : Entry).res S.E) >>= fun a => (k a).flat S.E⟩) (ls.foldl (Verif.step S.E) d) ∧
                (Lastly own c d → OfLast c.threads.length (.run i ch) →
                  Verif.Sequential d.threads.length ls ∧ (Sorted own → Sorted own') ∧ Lastly own' (moved S c i cmd ch ⟨route, req, kk' ((⟨i, cmd, ch, c.st⟩ : Entry).res S.E) >>= fun a => (k a).flat S.E⟩) (ls.foldl (Verif.step S.E) d)) := by
              intro hnr
              refine ⟨[.run j ch], own, ⟨hf, fun i' th' h => ?_⟩, fun hl hlast => ⟨⟨hcur hl hlast, trivial⟩, id, ?_⟩⟩
              · by_cases hii : i' = i
                · subst hii
                  simp only at h
                  rw [hth'] at h; cases h
                  exact ⟨w, _, ⟨ha.trail, hserved, fun ev hm => callsOf_snoc _ _ _ _ _ (ha.made ev hm)⟩,
                    .inside j q k _ rfl hnr hjth hown hw⟩
                · exact ho i' th' hii h
              · intro i' hi' j' hj' ⟨t, ht, hna⟩
                obtain rfl : i' = i := by
                  simp [OfLast] at hlast hi'; omega
                by_cases hjj : j' = j
                · subst hjj; rw [← hlen]; exact hcur hl hlast
                · obtain ⟨q', a', hm⟩ := hw j' hj' hjj
                  obtain ⟨_, t', h1, _, h3⟩ := hserved j' q' a' hm
                  simp only [List.foldl_cons, List.foldl_nil] at ht
                  rw [ht] at h1; cases h1
                  rw [hna] at h3; cases h3
            cases hP : kk' ((⟨i, cmd, ch, c.st⟩ : Entry).res S.E) with
            | panic => exact goOn (by simp [hP])
            | op _ _ => exact goOn (by simp [hP])
            | ret a =>
              obtain ⟨qs, own', h1, ⟨n, hn'⟩, h2⟩ := settle (S := S) (x := i)
                (c := moved S c i cmd ch ⟨route, req, kk' ((⟨i, cmd, ch, c.st⟩ : Entry).res S.E) >>= fun a => (k a).flat S.E⟩) hth'
                (k a) (own := own) (d := Verif.step S.E d (.run j ch)) (w := w ++ [.svc j q a]) hf ho
                ⟨ha.trail.trans (.svc q k j a [] _ (.nil _)), fun j' q' a' hm => by
                    rcases List.mem_append.1 hm with hm | hm
                    · exact hserved j' q' a' hm
                    · simp at hm
                      obtain ⟨rfl, rfl, rfl⟩ := hm
                      exact ⟨hown, _, hjth, rfl, by simp [Verif.Thread.answer, hP]⟩,
                  fun ev hm => by
                    rcases List.mem_append.1 hm with hm | hm
                    · exact callsOf_snoc _ _ _ _ _ (ha.made ev hm)
                    · simp at hm⟩
                (by simp [hP])
                (fun j' hj' => by
                  by_cases hjj : j' = j
                  · subst hjj; exact ⟨q, a, by simp⟩
                  · obtain ⟨q', a', hm⟩ := hw j' hj' hjj
                    exact ⟨q', a', by simp [hm]⟩)
              refine ⟨.run j ch :: qs.map .arrive, own', h1, fun hl hlast =>
                ⟨⟨hcur hl hlast, sequential_arrivals _ _⟩, fun h => ?_, fun i' hi' j' hj' ht => ?_⟩⟩
              · rw [hn']
                exact h.replicate (fun i' hi' => by have := hs.frame.le hi'; simp only [OfLast] at hlast; omega) n
              obtain rfl : i' = i := by
                simp [OfLast] at hlast hi'; omega
              exact h2 j' hj' ht

theorem sequential_snoc {n : Nat} {ls : List Label} {l : Label} (h : Sequential n (ls ++ [l])) (c : Conf)
    (hc : c.threads.length = n) : Sequential n ls ∧ OfLast (ls.foldl (step S) c).threads.length l := by
  induction ls generalizing n c with
  | nil =>
    refine ⟨trivial, ?_⟩
    cases l with
    | run i ch => simp only [List.foldl_nil, hc]; exact h.1
    | _ => trivial
  | cons l' ls ih =>
    cases l' with
    | arrive route r => exact ih (n := n + 1) h _ (by simp [step, hc])
    | tick d => exact ih (n := n) h _ (by simp [step, hc])
    | run i ch =>
      obtain ⟨h1, h2⟩ := h
      obtain ⟨h3, h4⟩ := ih (n := n) h2 (step S c (.run i ch)) (by
        simp only [step]
        split
        · simpa using hc
        · exact hc)
      exact ⟨⟨h1, h3⟩, h4⟩

theorem sequential_append {E : Env} {n : Nat} {ls ls' : List Verif.Label} (c : Verif.Conf) (hc : c.threads.length = n)
    (h : Verif.Sequential n ls) (h' : Verif.Sequential (ls.foldl (Verif.step E) c).threads.length ls') :
    Verif.Sequential n (ls ++ ls') := by
  induction ls generalizing n c with
  | nil => simpa [hc] using h'
  | cons l ls ih =>
    cases l with
    | arrive r => exact ih (n := n + 1) _ (by simp [Verif.step, hc]) h h'
    | tick d => exact ih (n := n) _ (by simp [Verif.step, hc]) h h'
    | run i ch =>
      refine ⟨h.1, ih (n := n) (Verif.step E c (.run i ch)) ?_ h.2 h'⟩
      simp only [Verif.step]
      split
      · simpa using hc
      · exact hc

/-- Every history of the HTTP server is simulated by a history of the services. -/
theorem sim_run (S : Server) (s : St) (hls : List Label) :
    ∃ ls own, Sim S own (run S s hls) (Verif.run S.E s ls) ∧
      (Sequential 0 hls → Verif.Sequential 0 ls ∧ Sorted own ∧ Lastly own (run S s hls) (Verif.run S.E s ls)) := by
  induction hls using List.reverseRecOn with
  | nil =>
    refine ⟨[], [], ⟨⟨rfl, rfl, by simp, by simp [Verif.run, run], by simp [Verif.run, run], by simp [Verif.run]⟩, ?_⟩, fun _ => ⟨trivial, List.Pairwise.nil, ?_⟩⟩
    · intro i th h
      simp [run] at h
    · intro i hi
      simp [run] at hi
  | append_singleton hls l ih =>
    obtain ⟨ls, own, h1, h2⟩ := ih
    obtain ⟨ls', own', h3, h4⟩ := step_sim h1 l
    refine ⟨ls ++ ls', own', ?_, fun hs => ?_⟩
    · have : Verif.run S.E s (ls ++ ls') = ls'.foldl (Verif.step S.E) (Verif.run S.E s ls) := by
        simp [Verif.run, List.foldl_append]
      rw [this]
      have : run S s (hls ++ [l]) = step S (run S s hls) l := by simp [run, List.foldl_append]
      rw [this]
      exact h3
    · obtain ⟨a1, a2⟩ := sequential_snoc (S := S) hs { st := s } rfl
      obtain ⟨b1, b3, b2⟩ := h2 a1
      obtain ⟨c1, c3, c2⟩ := h4 b2 a2
      refine ⟨sequential_append (E := S.E) { st := s } rfl b1 c1, c3 b3, ?_⟩
      have : Verif.run S.E s (ls ++ ls') = ls'.foldl (Verif.step S.E) (Verif.run S.E s ls) := by
        simp [Verif.run, List.foldl_append]
      rw [this]
      have : run S s (hls ++ [l]) = step S (run S s hls) l := by simp [run, List.foldl_append]
      rw [this]
      exact c2

end Verif.Http
