import Verif.Proofs.HttpSim

/-! The simulating service history accounts for the HTTP history. -/
set_option linter.unusedSimpArgs false
namespace Verif.Http
open Verif.Prog Verif.Spec

variable {S : Server}

/-- At most one proof (if `p`) and one other service (if `o`). -/
def Lay.Budget : Bool → Bool → Lay → Prop
  | _, _, .ret _ => True
  | _, _, .panic => True
  | p, o, .read _ k => ∀ r, Budget p o (k r)
  | p, o, .svc (.dpop _) k => p = true ∧ ∀ a, Budget false o (k a)
  | p, o, .svc _ k => o = true ∧ ∀ a, Budget p false (k a)

theorem Lay.Budget.proof {p o : Bool} {q : Verif.Req} {k : Verif.Resp → Lay} (h : Budget p o (.svc q k)) (hq : IsProof q) :
    p = true ∧ ∀ a, Budget false o (k a) := by
  cases q <;> first | exact h | exact hq.elim

theorem Lay.Budget.other {p o : Bool} {q : Verif.Req} {k : Verif.Resp → Lay} (h : Budget p o (.svc q k)) (hq : ¬ IsProof q) :
    o = true ∧ ∀ a, Budget p false (k a) := by
  cases q <;> first | exact h | exact (hq trivial).elim

theorem budget_ofProg {α : Type} {p o : Bool} {P : Prog α} {f : α → Lay} (hf : ∀ a, (f a).Budget p o) :
    (Lay.ofProg P f).Budget p o := by
  induction P with
  | ret a => exact hf a
  | panic => trivial
  | op c k ih => exact fun r => ih r

theorem budget_ret {p o : Bool} (P : Prog Resp) : (Lay.ofProg P .ret).Budget p o := budget_ofProg fun _ => trivial

theorem budget_tokenCall (r : Req) (c : Client) (cnf : Option Cnf) (d : Bool) (p : Bool) :
    (tokenCallL S r c cnf d).Budget p true := by
  refine ⟨rfl, fun a => ?_⟩
  cases a <;> first | trivial | exact budget_ret _

theorem budget_if {p o : Bool} {c : Prop} [Decidable c] {a b : Lay} (ha : a.Budget p o) (hb : b.Budget p o) :
    (if c then a else b).Budget p o := by
  split
  · exact ha
  · exact hb

theorem budget_lay (S : Server) (route : Route) (r : Req) : (lay S route r).Budget true true := by
  have auth : ∀ {h : Option Client → Lay}, (∀ c, (h c).Budget true true) → (behindAuth S r h).Budget true true := by
    intro h hh
    refine budget_ofProg fun x => ?_
    cases x
    · trivial
    · exact hh _
  have login : ∀ {h : Str → Lay}, (∀ u, (h u).Budget true true) → (behindLogin r h).Budget true true := by
    intro h hh
    unfold behindLogin
    split
    · trivial
    · exact budget_if trivial (budget_if trivial (hh _))
  cases route
  case par =>
    refine auth fun c => budget_if trivial ?_
    cases c with
    | none => trivial
    | some c =>
      refine ⟨rfl, fun a => ?_⟩
      cases a <;> try trivial
      rename_i x
      cases x with
      | none => trivial
      | some x =>
        dsimp only
        split
        · trivial
        · refine ⟨rfl, fun a => ?_⟩
          cases a <;> try trivial
          exact budget_if (budget_ret _) trivial
  case authorize =>
    refine login fun u => budget_if trivial (budget_if trivial fun x => ?_)
    rcases x with _ | _ | c
    · trivial
    · trivial
    · dsimp only
      split
      · trivial
      · split
        · trivial
        · refine ⟨rfl, fun a => ?_⟩
          cases a <;> try trivial
          exact budget_if (budget_ret _) (budget_ret _)
  case token =>
    refine auth fun c => budget_if trivial ?_
    cases c with
    | none => trivial
    | some c =>
      refine budget_if trivial (budget_if (budget_tokenCall _ _ _ _ _) ⟨rfl, fun a => ?_⟩)
      cases a <;> try trivial
      rename_i x
      cases x
      · trivial
      · exact budget_tokenCall _ _ _ _ _
  case introspect =>
    refine auth fun c => ?_
    cases c with
    | none => trivial
    | some c =>
      refine ⟨rfl, fun a => ?_⟩
      cases a <;> try trivial
      refine budget_if (budget_ret _) ?_
      split
      · trivial
      · refine budget_if (budget_ofProg fun u => budget_if ?_ trivial) trivial
        split <;> trivial
  case revoke =>
    refine auth fun c => ?_
    cases c with
    | none => trivial
    | some c =>
      refine ⟨rfl, fun a => ?_⟩
      cases a <;> try trivial
      exact budget_if (budget_ret _) trivial
  case deviceAuthorize =>
    refine auth fun c => budget_if trivial ⟨rfl, fun a => ?_⟩
    cases a <;> try trivial
    exact budget_if (budget_ret _) trivial
  case device =>
    refine login fun u => budget_if trivial (budget_if trivial (budget_if ⟨rfl, fun a => ?_⟩ trivial))
    cases a <;> try trivial
    exact budget_if (budget_ret _) trivial

/-- What is left after a trail. -/
theorem Trail.budget {h h' : Lay} {w : List Stop} (ht : Trail h w h') : ∀ {p o : Bool}, h.Budget p o →
    ∃ p' o', h'.Budget p' o' ∧ ((p' = true → p = true) ∧ (o' = true → o = true)) ∧
      ∀ j q a, Stop.svc j q a ∈ w → (IsProof q → p = true ∧ p' = false) ∧ (¬ IsProof q → o = true ∧ o' = false) := by
  induction ht with
  | nil h => exact fun hb => ⟨_, _, hb, ⟨id, id⟩, by simp⟩
  | read c k r w h _ ih =>
    intro p o hb
    obtain ⟨p', o', h1, h2, h3⟩ := ih (hb r)
    exact ⟨p', o', h1, h2, fun j q a hm => h3 j q a (by simpa using hm)⟩
  | svc q k j a w h _ ih =>
    intro p o hb
    by_cases hq : IsProof q
    · obtain ⟨rfl, hb'⟩ := hb.proof hq
      obtain ⟨p', o', h1, h2, h3⟩ := ih (hb' a)
      have hp : p' = false := by
        cases p'
        · rfl
        · have := h2.1 rfl; cases this
      refine ⟨p', o', h1, ⟨fun _ => rfl, h2.2⟩, fun j' q' a' hm => ?_⟩
      rcases List.mem_cons.1 hm with hm | hm
      · cases hm
        exact ⟨fun _ => ⟨rfl, hp⟩, fun h => absurd hq h⟩
      · have := h3 j' q' a' hm
        exact ⟨fun h => ⟨rfl, (this.1 h).2⟩, this.2⟩
    · obtain ⟨rfl, hb'⟩ := hb.other hq
      obtain ⟨p', o', h1, h2, h3⟩ := ih (hb' a)
      have hp : o' = false := by
        cases o'
        · rfl
        · have := h2.2 rfl; cases this
      refine ⟨p', o', h1, ⟨h2.1, fun _ => rfl⟩, fun j' q' a' hm => ?_⟩
      rcases List.mem_cons.1 hm with hm | hm
      · cases hm
        exact ⟨fun h => absurd h hq, fun _ => ⟨rfl, hp⟩⟩
      · have := h3 j' q' a' hm
        exact ⟨this.1, fun h => ⟨rfl, (this.2 h).2⟩⟩

/-- A service of this kind is still ahead: none was on the way. -/
theorem Trail.ahead {h : Lay} {w : List Stop} {q : Verif.Req} {k : Verif.Resp → Lay} (ht : Trail h w (.svc q k))
    (hb : h.Budget true true) {j : Nat} {q' : Verif.Req} {a : Verif.Resp} (hm : Stop.svc j q' a ∈ w)
    (hk : IsProof q ↔ IsProof q') : False := by
  obtain ⟨p', o', h1, _, h3⟩ := ht.budget hb
  have := h3 j q' a hm
  by_cases hq : IsProof q
  · rw [(h1.proof hq).1] at this
    have := (this.1 (hk.1 hq)).2
    cases this
  · rw [(h1.other hq).1] at this
    have := (this.2 (fun h => hq (hk.2 h))).2
    cases this

theorem Trail.one {h h' : Lay} {w : List Stop} (ht : Trail h w h') (hb : h.Budget true true)
    {j j' : Nat} {q q' : Verif.Req} {a a' : Verif.Resp} (hm : Stop.svc j q a ∈ w) (hm' : Stop.svc j' q' a' ∈ w)
    (hk : IsProof q ↔ IsProof q') : j = j' := by
  obtain ⟨w1, w2, rfl⟩ := List.append_of_mem hm
  rcases List.mem_append.1 hm' with hm' | hm'
  · obtain ⟨k, h1, _⟩ := ht.reached
    exact (h1.ahead hb hm' hk).elim
  · rcases List.mem_cons.1 hm' with hm' | hm'
    · cases hm'; rfl
    · obtain ⟨w3, w4, rfl⟩ := List.append_of_mem hm'
      have ht' : Trail h ((w1 ++ Stop.svc j q a :: w3) ++ Stop.svc j' q' a' :: w4) h' := by simpa using ht
      obtain ⟨k, h1, _⟩ := ht'.reached
      exact (h1.ahead hb (j := j) (q' := q) (a := a) (by simp) hk.symm).elim

theorem StandsFor.mono {r : Req} {tr tr' : List Ev} {b b' : Verif.Req → Verif.Resp → Prop} {route : Route} {q : Verif.Req}
    (h : StandsFor S r tr b route q) (ht : ∀ ev ∈ tr, ev ∈ tr') (hb : ∀ q a, b q a → b' q a) : StandsFor S r tr' b' route q := by
  cases h with
  | token c cnf g h1 h2 h3 h4 h5 h6 => exact .token c cnf g h1 (h2.mono ht) h3 h4 h5 fun k hk => hb _ _ (h6 k hk)
  | tokenProof c h1 h2 h3 => exact .tokenProof c h1 (h2.mono ht) h3
  | parProof c h1 h2 => exact .parProof c h1 (h2.mono ht)
  | par c ar t h1 h2 h3 h4 => exact .par c ar t h1 (h2.mono ht) h3 (hb _ _ h4)
  | introspect c h1 => exact .introspect c (h1.mono ht)
  | revoke c h1 => exact .revoke c (h1.mono ht)
  | deviceAuthorize c sc au h1 h2 h3 h4 => exact .deviceAuthorize c sc au h1 (h2.mono ht) h3 h4
  | device u h1 h2 => exact .device u h1 h2
  | authorize u sub c ar h1 h2 h3 h4 h5 => exact .authorize u sub c ar h1 h2 (ht _ h3) h4 h5

theorem faulty_found {α : Type} (f : Store.Fault) (s : St) (o : Option α) :
    (Store.faulty f s (Store.found o, s)).1 ≠ .ok none := by
  cases f <;> cases o <;> simp [Store.faulty, Store.found]

/-- The registry never answers with nothing. -/
theorem no_nil_client (E : Env) (i : Nat) (log : List Entry) (id : Str) : ⟨.clientsGet id, .ok none⟩ ∉ callsOf E i log := by
  intro h
  obtain ⟨e, _, he⟩ := List.mem_map.1 h
  obtain ⟨tid, cmd, ch, pre⟩ := e
  simp only [Entry.ev, Entry.res] at he
  injection he with h1 h2
  subst h1
  have h2 := eq_of_heq h2
  exact faulty_found ch.fault pre (pre.clients id) h2

theorem getD_some {own : List Nat} {j : Nat} (h : j < own.length) : own[j]? = some (own.getD j 0) := by
  rw [List.getD_eq_getElem?_getD, List.getElem?_eq_getElem h]; rfl

/-- Every service request is on the way of its HTTP request, or is where it is now. -/
theorem Sim.asked {own : List Nat} {c : Conf} {d : Verif.Conf} (hs : Sim S own c d) {j : Nat} {q : Verif.Req}
    (hq : Verif.Asked d j q) : ∃ th w, c.threads[own.getD j 0]? = some th ∧
      ((∃ a h, At S own d c.log (own.getD j 0) th w h ∧ Stop.svc j q a ∈ w) ∨
       (∃ k, At S own d c.log (own.getD j 0) th w (.svc q k) ∧
          (∀ j' q', own[j']? = some (own.getD j 0) → Verif.Asked d j' q' → j' ≠ j → ∃ a, Stop.svc j' q' a ∈ w))) := by
  obtain ⟨t, ht, rfl⟩ := hq
  have hj : j < own.length := by rw [hs.frame.len]; exact lt_of_getElem? ht
  have ho := getD_some hj
  have hi := hs.frame.lt j _ ho
  have hth := List.getElem?_eq_getElem hi
  obtain ⟨w, h, ha, hh⟩ := hs.threads _ _ hth
  have same : ∀ {j' q' q'' a}, Verif.Asked d j' q' → Stop.svc j' q'' a ∈ w → q'' = q' := by
    rintro j' q' q'' a ⟨t, h1, rfl⟩ hm
    obtain ⟨_, t', h2, rfl, _⟩ := ha.served _ _ _ hm
    rw [h1] at h2; cases h2; rfl
  refine ⟨_, w, hth, ?_⟩
  cases hh with
  | out _ _ _ hw =>
    obtain ⟨q, a, hm⟩ := hw j ho
    obtain rfl := same ⟨t, ht, rfl⟩ hm
    exact Or.inl ⟨a, h, ha, hm⟩
  | inside j0 q0 k P _ _ ht0 ho0 hw =>
    by_cases hne : j = j0
    · subst hne
      rw [ht] at ht0; cases ht0
      refine Or.inr ⟨k, ha, fun j' q' hj' hq' hne => ?_⟩
      obtain ⟨q'', a, hm⟩ := hw j' hj' hne
      obtain rfl := same hq' hm
      exact ⟨a, hm⟩
    · obtain ⟨q, a, hm⟩ := hw j ho hne
      obtain rfl := same ⟨t, ht, rfl⟩ hm
      exact Or.inl ⟨a, _, ha, hm⟩

theorem At.reads {own : List Nat} {d : Verif.Conf} {log : List Entry} {i : Nat} {th : Thread} {w : List Stop}
    {h : Lay} (ha : At S own d log i th w h) : ∀ ev ∈ reads w, ev ∈ callsOf S.E i log :=
  fun ev hev => ha.made ev (mem_reads.1 hev)

theorem At.stands {own : List Nat} {d : Verif.Conf} {log : List Entry} {i : Nat} {th : Thread} {w w' : List Stop}
    {h : Lay} {q : Verif.Req} {k : Verif.Resp → Lay} (ha : At S own d log i th w h)
    (ht : Trail (lay S th.route th.req) w' (.svc q k)) (hsub : ∀ x ∈ w', x ∈ w) :
    StandsFor S th.req (callsOf S.E i log) (fun q' a => ∃ j', own.getD j' 0 = i ∧ Verif.Answered d j' q' a) th.route q := by
  have hr : ∀ ev ∈ Http.reads w', ev ∈ callsOf S.E i log :=
    fun ev hev => ha.made ev (hsub _ (mem_reads.1 hev))
  refine StandsFor.mono (trail_standsFor ht fun id hm => no_nil_client S.E i log id (hr _ hm)) hr ?_
  rintro q' a ⟨j, hm⟩
  obtain ⟨h1, h2⟩ := ha.served j q' a (hsub _ hm)
  exact ⟨j, by rw [List.getD_eq_getElem?_getD, h1]; rfl, h2⟩

theorem Sim.refines {own : List Nat} {c : Conf} {d : Verif.Conf} (hs : Sim S own c d) :
    Refines S (own.getD · 0) c d := by
  refine ⟨hs.frame.st, hs.frame.sub, hs.frame.eq, fun j q hq => ?_, fun j j' q q' ho hq hq' hk => ?_,
    fun i route r a ⟨th, hth, hr, hrq, hans⟩ => ?_⟩
  · obtain ⟨th, w, hth, hcase⟩ := hs.asked hq
    refine ⟨th.route, th.req, ⟨th, hth, rfl, rfl⟩, ?_⟩
    rcases hcase with ⟨a, h, ha, hm⟩ | ⟨k, ha, _⟩
    · obtain ⟨w1, w2, rfl⟩ := List.append_of_mem hm
      obtain ⟨k, h1, _⟩ := ha.trail.reached
      exact ha.stands h1 fun x hx => List.mem_append_left _ hx
    · exact ha.stands ha.trail fun x hx => hx
  · have hj : ∀ {j q}, Verif.Asked d j q → own[j]? = some (own.getD j 0) := by
      rintro j q ⟨t, ht, _⟩
      exact getD_some (by rw [hs.frame.len]; exact lt_of_getElem? ht)
    by_cases hne : j = j'
    · exact hne
    obtain ⟨th, w, hth, hcase⟩ := hs.asked hq
    obtain ⟨w0, h0, ha0, hh0⟩ := hs.threads _ _ hth
    have fin : ∀ {j0 q0 q1 k a}, At S own d c.log (own.getD j 0) th w0 (.svc q0 k) → Verif.Asked d j0 q1 → Stop.svc j0 q1 a ∈ w0 →
        (IsProof q0 ↔ IsProof q1) → False := fun ha _ hm hk => ha.trail.ahead (budget_lay S _ _) hm hk
    have same : ∀ {j' q' q'' a}, Verif.Asked d j' q' → Stop.svc j' q'' a ∈ w0 → q'' = q' := by
      rintro j' q' q'' a ⟨t, h1, rfl⟩ hm
      obtain ⟨_, t', h2, rfl, _⟩ := ha0.served _ _ _ hm
      rw [h1] at h2; cases h2; rfl
    have o1 := hj hq
    have o2 : own[j']? = some (own.getD j 0) := by
      have := hj hq'
      rw [this]; exact congrArg _ ho.symm
    cases hh0 with
    | out _ _ _ hw =>
      obtain ⟨_, a, hm⟩ := hw j o1
      obtain ⟨_, a', hm'⟩ := hw j' o2
      obtain rfl := same hq hm
      obtain rfl := same hq' hm'
      exact ha0.trail.one (budget_lay S _ _) hm hm' hk
    | inside j0 q0 k P _ _ ht0 ho0 hw =>
      by_cases e1 : j = j0
      · subst e1
        obtain ⟨t, ht, rfl⟩ := hq
        rw [ht] at ht0; cases ht0
        obtain ⟨_, a', hm'⟩ := hw j' o2 (Ne.symm hne)
        obtain rfl := same hq' hm'
        exact (fin ha0 hq' hm' hk).elim
      · by_cases e2 : j' = j0
        · subst e2
          obtain ⟨t, ht, rfl⟩ := hq'
          rw [ht] at ht0; cases ht0
          obtain ⟨_, a', hm'⟩ := hw j o1 e1
          obtain rfl := same hq hm'
          exact (fin ha0 hq hm' hk.symm).elim
        · obtain ⟨_, a, hm⟩ := hw j o1 e1
          obtain ⟨_, a', hm'⟩ := hw j' o2 e2
          obtain rfl := same hq hm
          obtain rfl := same hq' hm'
          exact ha0.trail.one (budget_lay S _ _) hm hm' hk
  · obtain ⟨w, h, ha, hh⟩ := hs.threads i th hth
    have hp : th.prog = .ret a := by
      unfold Thread.answer at hans
      split at hans
      · rename_i h; cases hans; exact h
      · cases hans
    rw [hp] at hh
    cases hh with
    | inside j0 q0 k P e hn _ _ _ =>
      cases P with
      | ret x => exact absurd rfl (hn x)
      | panic => cases e
      | op _ _ => cases e
    | out _ e hn hw =>
      cases h with
      | panic => cases e
      | read _ _ => cases e
      | svc q k => exact absurd rfl (hn q k)
      | ret a' =>
        cases e
        rcases trail_conveys ha.trail fun id hm => no_nil_client S.E i c.log id (ha.reads _ hm) with h | ⟨j, q, x, hm, hx⟩
        · exact Or.inl h
        · obtain ⟨h1, h2⟩ := ha.served j q x hm
          exact Or.inr ⟨j, q, x, by rw [List.getD_eq_getElem?_getD, h1]; rfl, h2, hx⟩

end Verif.Http
