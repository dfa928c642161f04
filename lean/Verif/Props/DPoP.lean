import Verif.Proofs.DPoP
import Verif.Proofs.DemoRun

/-! DPoP proofs: what is accepted (any cache, any clock), and replays over histories. -/
namespace Verif.Props
open Verif.Spec Verif.Prog Verif.DPoP

/-- **C38.** An accepted proof parses, has the right type, verifies under the key it
embeds (whose thumbprint is the answer), names the method and URL of the request, is
dated within 15 seconds of the clock, and, if an access token is presented, names
its hash and, if a key is expected for it, has that key. -/
theorem C38_accepted_proof (E : Env) (req : VerifyReq) (tr : List Ev) (thumb : Str)
    (h : Exec (verify E req) tr (.done (some thumb))) :
    ∃ p key claims now1 now2, E.parseProof req.proof = some p ∧ p.typ = some g!"dpop+jwt" ∧ p.jwk = some key ∧
      p.claims key = some claims ∧ E.thumbprint key = some thumb ∧
      claims.htm = req.htm ∧ E.urlString req.htu = some claims.htu ∧
      ⟨.now, now1⟩ ∈ tr ∧ ⟨.now, now2⟩ ∈ tr ∧ seconds now1 ≤ claims.iat + 15 ∧ claims.iat ≤ seconds now2 + 15 ∧
      ∀ tv, req.tokenValue = some tv → claims.ath = some (Go.b64 (E.sha256 tv)) ∧
        ∀ jkt, req.tokenConfirmation = some jkt → thumb = jkt := by
  obtain ⟨key, claims, now1, now2, ha⟩ := accepted_exec h
  obtain ⟨p, hp, ho⟩ := ha.parsed
  obtain ⟨o1, o2, o3⟩ := open_some ho
  obtain ⟨f1, f2⟩ := finish_some ha.finished
  exact ⟨p, key, claims, now1, now2, hp, o1, o2, o3, f1, ha.htm, ha.htu, by simp [ha.trace], by simp [ha.trace],
    not_tooOld ha.fresh1, not_tooNew ha.fresh2, f2⟩

/-- **C38** (the cache is consulted and filled). An accepted proof was unknown to
the cache, which then acknowledged to remember it. -/
theorem C38_accepted_proof_remembered (E : Env) (req : VerifyReq) (tr : List Ev) (thumb : Str)
    (h : Exec (verify E req) tr (.done (some thumb))) :
    ∃ id l1 l2, tr = l1 ++ ⟨.dpopExists id, .ok false⟩ :: ⟨.dpopRegister id, .ok ()⟩ :: l2 := by
  obtain ⟨key, claims, now1, now2, ha⟩ := accepted_exec h
  exact ⟨_, [⟨.now, now1⟩, ⟨.now, now2⟩], [], ha.trace⟩

example : ∃ tr thumb, Exec (verify Demo.env ⟨g!"POST", g!"https://as/token", g!"p", none, none⟩) tr
    (.done (some thumb)) := by
  obtain ⟨tr, a, h, h2⟩ := oracle_ex Demo.answers (verify Demo.env ⟨g!"POST", g!"https://as/token", g!"p", none, none⟩)
    (fun a => a.isSome = true) (by decide +kernel)
  obtain ⟨t, rfl⟩ := Option.isSome_iff_exists.1 h2
  exact ⟨tr, t, h⟩

/-- **C38** (converse). A proof that satisfies all the conditions is accepted, if the
cache does not know it and no cache call fails. -/
theorem C38_valid_proof_accepted (E : Env) (req : VerifyReq) (tr : List Ev) (a : Option Str) (p : Proof)
    (key thumb : Str) (claims : ProofClaims) (h : Exec (verify E req) tr (.done a))
    (hne : req.htm ≠ [] ∧ req.htu ≠ [] ∧ req.proof ≠ [] ∧ claims.htu ≠ [])
    (hm : req.htm ∈ [g!"CONNECT", g!"DELETE", g!"GET", g!"HEAD", g!"OPTIONS", g!"PATCH", g!"POST", g!"PUT", g!"TRACE"])
    (hparse : E.parseProof req.proof = some p) (htyp : p.typ = some g!"dpop+jwt") (hkey : p.jwk = some key)
    (hclaims : p.claims key = some claims) (hthumb : E.thumbprint key = some thumb) (hhtm : claims.htm = req.htm)
    (hhtu : E.urlString req.htu = some claims.htu)
    (htime : ∀ now, ⟨.now, now⟩ ∈ tr → 15 * second ≤ now ∧ seconds now ≤ claims.iat + 15 ∧ claims.iat ≤ seconds now + 15)
    (hcache : ∀ id r, ⟨.dpopExists id, r⟩ ∈ tr → r = .ok false) (hreg : ∀ id r, ⟨.dpopRegister id, r⟩ ∈ tr → r = .ok ())
    (htok : ∀ tv, req.tokenValue = some tv → claims.ath = some (Go.b64 (E.sha256 tv)) ∧
      ∀ jkt, req.tokenConfirmation = some jkt → jkt = thumb) : a = some thumb := by
  have hopen : open_ p = some (key, claims) := by simp [open_, htyp, hkey, hclaims, headerType]
  have hup : Go.toUpper req.htm ∈ methods := by
    have : ∀ m ∈ methods, Go.toUpper m = m := by decide
    rw [this _ hm]; exact hm
  have hfin : finish E req key claims = some thumb := by
    unfold finish
    rw [hthumb]
    simp only
    cases htv : req.tokenValue with
    | none => rfl
    | some tv =>
      obtain ⟨h1, h2⟩ := htok tv htv
      rw [h1]
      simp only [ne_eq, not_true_eq_false, if_false]
      cases hc : req.tokenConfirmation with
      | none => rfl
      | some jkt => simp [h2 jkt hc]
  have key : Done (fun tr a => (∀ now, ⟨.now, now⟩ ∈ tr → 15 * second ≤ now ∧ seconds now ≤ claims.iat + 15 ∧
      claims.iat ≤ seconds now + 15) → (∀ id r, ⟨.dpopExists id, r⟩ ∈ tr → r = .ok false) →
      (∀ id r, ⟨.dpopRegister id, r⟩ ∈ tr → r = .ok ()) → a = some thumb) (verify E req) [] := by
    unfold verify
    rw [if_neg (by simp [hne])]
    rw [hhtu]
    simp only
    rw [if_neg (by simp [hup]), hparse]
    simp only
    rw [hopen]
    simp only
    rw [if_neg hne.2.2.2, if_neg (by simp [hhtm]), if_neg (by simp), done_bind]
    have hold : ∀ now, 15 * second ≤ now → seconds now ≤ claims.iat + 15 → tooOld now claims = false := by
      intro now h0 h1
      unfold tooOld unixMinus threshold
      simp only [decide_eq_false_iff_not, Nat.not_lt]
      unfold second at h0
      unfold seconds at h1
      split <;> omega
    have hnew : ∀ now, claims.iat ≤ seconds now + 15 → tooNew now claims = false := by
      intro now h1
      unfold tooNew DPoP.unix threshold
      simp only [decide_eq_false_iff_not, Nat.not_lt]
      unfold seconds at h1
      omega
    refine fresh_done ?_ ?_
    · intro n1 ho ht _ _
      obtain ⟨t1, t2, _⟩ := ht n1 (by simp)
      rw [hold n1 t1 t2] at ho; simp at ho
    · intro n1 n2 _
      cases hn : tooNew n2 claims with
      | true =>
        intro ht _ _
        rw [hnew n2 (ht n2 (by simp)).2.2] at hn; simp at hn
      | false =>
        simp only [Bool.not_false, if_true]
        unfold replay
        simp only [Prog.call, bind_op, bind_ret, pure_eq, Done]
        rintro (_ | (_ | _))
        · intro _ h1 _
          have := h1 _ _ (List.mem_append_right _ (List.mem_singleton.2 rfl))
          simp at this
        · simp only [Done]
          rintro (_ | _)
          · intro _ _ h1
            have := h1 _ _ (List.mem_append_right _ (List.mem_singleton.2 rfl))
            simp at this
          · exact fun _ _ _ => hfin
        · intro _ h1 _
          have := h1 _ _ (List.mem_append_right _ (List.mem_singleton.2 rfl))
          simp at this
  have hd := done_sound key h
  rw [List.nil_append] at hd
  exact hd htime hcache hreg

/-- The hypotheses on the answers are met by the example answers (clock 100 s, proof
dated 100). -/
example : ∃ tr a, Exec (verify Demo.env ⟨g!"POST", g!"https://as/token", g!"p", none, none⟩) tr (.done a) ∧
    (∀ now, ⟨.now, now⟩ ∈ tr → 15 * second ≤ now ∧ seconds now ≤ 100 + 15 ∧ 100 ≤ seconds now + 15) ∧
    (∀ id r, ⟨.dpopExists id, r⟩ ∈ tr → r = .ok false) ∧ (∀ id r, ⟨.dpopRegister id, r⟩ ∈ tr → r = .ok ()) := by
  have hall := oracle_all Demo.answers (P := fun ev => (∀ now, ev = ⟨.now, now⟩ → now = 100 * second) ∧
    (∀ id r, ev = ⟨.dpopExists id, r⟩ → r = .ok false) ∧ (∀ id r, ev = ⟨.dpopRegister id, r⟩ → r = .ok ()))
    (by intro c; cases c <;> simp [Demo.answers, eq_comm]) (verify Demo.env ⟨g!"POST", g!"https://as/token", g!"p", none, none⟩)
  refine ⟨_, some g!"k", oracle_done Demo.answers _ _ (by decide +kernel), ?_, ?_, ?_⟩
  · intro now h
    rw [(hall _ h).1 now rfl]
    decide
  · intro id r h; exact (hall _ h).2.1 id r rfl
  · intro id r h; exact (hall _ h).2.2 id r rfl

/-- Verification number `k` consults the cache at most 29 seconds after each of its
clock readings. -/
def Prompt (c : Conf) (k : Nat) : Prop :=
  ∀ (n m : Nat) (e e' : Entry), c.log[n]? = some e → c.log[m]? = some e' → n < m → e.tid = k → e'.tid = k →
    e.cmd = .now → (∃ id, e'.cmd = .dpopExists id) → e'.time ≤ e.time + 29 * second

/-- **C40** (partial). Under any interleaving, if the same proof is accepted twice by
prompt verifications, then they overlapped: each consulted the cache before the
other one filled it. Missing: overlapping replays do succeed, see `C40_violated`. -/
theorem C40_replay_needs_overlap_partial (E : Env) (s : St) (ls : List Label) (i j : Nat)
    (req req' : VerifyReq) (t t' : Str) (hi : Answered (run E s ls) i (.dpop req) (.dpop (some t)))
    (hj : Answered (run E s ls) j (.dpop req') (.dpop (some t'))) (hp : req.proof = req'.proof)
    (hpi : Prompt (run E s ls) i) (hpj : Prompt (run E s ls) j) :
    ∃ (a b : Nat) (ea eb : Entry) (id : Str), a < b ∧ (run E s ls).log[a]? = some ea ∧ ea.tid = j ∧
      ea.cmd = .dpopExists id ∧ (run E s ls).log[b]? = some eb ∧ eb.tid = i ∧ eb.cmd = .dpopRegister id ∧
    ∃ (a' b' : Nat) (ea' eb' : Entry) (id' : Str), a' < b' ∧ (run E s ls).log[a']? = some ea' ∧ ea'.tid = i ∧
      ea'.cmd = .dpopExists id' ∧ (run E s ls).log[b']? = some eb' ∧ eb'.tid = j ∧ eb'.cmd = .dpopRegister id' := by
  obtain ⟨key, claims, n1, n2, h⟩ := accepted_exec hi.dpop
  obtain ⟨key', claims', n1', n2', h'⟩ := accepted_exec hj.dpop
  obtain ⟨p, hpp, ho⟩ := h.parsed
  obtain ⟨p', hpp', ho'⟩ := h'.parsed
  rw [hp, hpp'] at hpp; simp at hpp; subst hpp
  rw [ho'] at ho; simp at ho
  obtain ⟨rfl, rfl⟩ := ho
  obtain ⟨a, b, ea, eb, id, x1, x2, x3, x4, x5, x6, x7⟩ := no_replay_after h h' hpj
  obtain ⟨a', b', ea', eb', id', y1, y2, y3, y4, y5, y6, y7⟩ := no_replay_after h' h hpi
  exact ⟨a, b, ea, eb, id, x1, x2, x3, x4, x5, x6, x7, a', b', ea', eb', id', y1, y2, y3, y4, y5, y6, y7⟩

/-- **C39.** If verifications are served one after the other and each consults the
cache within 29 seconds of reading the clock, the same proof is never accepted
twice, whatever happens in between and however much time passes. -/
theorem C39_no_replay (E : Env) (s : St) (ls : List Label) (hS : Sequential 0 ls) (i j : Nat) (hij : i ≠ j)
    (req req' : VerifyReq) (t t' : Str) (hi : Answered (run E s ls) i (.dpop req) (.dpop (some t)))
    (hp : req.proof = req'.proof)
    (hpi : Prompt (run E s ls) i) (hpj : Prompt (run E s ls) j) :
    ¬ Answered (run E s ls) j (.dpop req') (.dpop (some t')) := by
  intro hj
  obtain ⟨a, b, ea, eb, id, x1, x2, x3, x4, x5, x6, x7, a', b', ea', eb', id', y1, y2, y3, y4, y5, y6, y7⟩ :=
    C40_replay_needs_overlap_partial E s ls i j req req' t t' hi hj hp hpi hpj
  rcases Nat.lt_or_gt_of_ne hij with h | h
  · have := sequential_lt hS x5 x2 (by omega)
    omega
  · have := sequential_lt hS y5 y2 (by omega)
    omega

/-! ### Witnesses -/

def proofReq : VerifyReq := ⟨g!"POST", g!"https://as/token", g!"p", none, none⟩

def isAccepted (c : Conf) (i : Nat) : Bool :=
  match c.threads[i]? with
  | some ⟨.dpop r, .ret (.dpop (some _))⟩ => r == proofReq
  | _ => false

theorem isAccepted_spec {c : Conf} {i : Nat} (h : isAccepted c i = true) :
    ∃ t, Answered c i (.dpop proofReq) (.dpop (some t)) := by
  unfold isAccepted at h
  split at h
  · rename_i r t heq
    simp at h
    subst h
    exact ⟨t, _, heq, rfl, rfl⟩
  · simp at h

/-- Two verifications of one proof, call by call in lockstep. -/
def lockstep : List Label :=
  .arrive (.dpop proofReq) :: .arrive (.dpop proofReq) ::
    (Demo.calls 0 [[], [], []] ++ Demo.calls 1 [[], [], [], []] ++ Demo.calls 0 [[]])

/-- **C40** (negation). Without failures and without any delay, the same proof is
accepted by two overlapping verifications. -/
theorem C40_violated : ∃ (E : Env) (s : St) (ls : List Label) (req : VerifyReq) (t t' : Str), Empty s ∧
    Answered (run E s ls) 0 (.dpop req) (.dpop (some t)) ∧ Answered (run E s ls) 1 (.dpop req) (.dpop (some t')) ∧
    ∀ e ∈ (run E s ls).log, e.time = s.clock := by
  obtain ⟨t, h⟩ := isAccepted_spec (c := run Demo.env Demo.store lockstep) (i := 0) (by decide +kernel)
  obtain ⟨t', h'⟩ := isAccepted_spec (c := run Demo.env Demo.store lockstep) (i := 1) (by decide +kernel)
  refine ⟨Demo.env, Demo.store, lockstep, proofReq, t, t', Demo.store_empty, h, h', ?_⟩
  intro e he
  have h : ((run Demo.env Demo.store lockstep).log.all fun e => e.time == Demo.store.clock) = true := by decide +kernel
  simpa using List.all_eq_true.1 h e he

/-- A verification that stalls for a minute between reading the clock and consulting
the cache. -/
def stalled : List Label :=
  .arrive (.dpop proofReq) :: Demo.calls 0 [[], [], [], []] ++ .tick second ::
  .arrive (.dpop proofReq) :: Demo.calls 1 [[], []] ++ .tick (60 * second) :: Demo.calls 1 [[], []]

/-- **C39** (the promptness assumption is needed). One after the other, without
failures: a verification that stalls for a minute accepts a proof that was already
accepted. -/
theorem C39_slow_replay : ∃ (E : Env) (s : St) (ls : List Label) (req : VerifyReq) (t t' : Str), Empty s ∧
    Sequential 0 ls ∧ Answered (run E s ls) 0 (.dpop req) (.dpop (some t)) ∧
    Answered (run E s ls) 1 (.dpop req) (.dpop (some t')) := by
  obtain ⟨t, h⟩ := isAccepted_spec (c := run Demo.env Demo.store stalled) (i := 0) (by decide +kernel)
  obtain ⟨t', h'⟩ := isAccepted_spec (c := run Demo.env Demo.store stalled) (i := 1) (by decide +kernel)
  exact ⟨Demo.env, Demo.store, stalled, proofReq, t, t', Demo.store_empty,
    by simp [stalled, Demo.calls, Sequential], h, h'⟩

/-- One accepted verification, a later one of the same proof, each prompt. -/
def twice : List Label :=
  .arrive (.dpop proofReq) :: Demo.calls 0 [[], [], [], []] ++ .tick (10 * second) ::
  .arrive (.dpop proofReq) :: Demo.calls 1 [[], [], [], []]

theorem prompt_of {c : Conf} {k : Nat} (h : (c.log.all fun e => c.log.all fun e' =>
    e.tid == k && e'.tid == k → e'.time ≤ e.time + 29 * second) = true) : Prompt c k := by
  intro n m e e' hn hm _ ht ht' _ _
  have := List.all_eq_true.1 (List.all_eq_true.1 h e (List.mem_of_getElem? hn)) e' (List.mem_of_getElem? hm)
  simpa [ht, ht'] using this

example : Sequential 0 twice ∧ (∃ t, Answered (run Demo.env Demo.store twice) 0 (.dpop proofReq) (.dpop (some t))) ∧
    Prompt (run Demo.env Demo.store twice) 0 ∧ Prompt (run Demo.env Demo.store twice) 1 ∧
    Asked (run Demo.env Demo.store twice) 1 (.dpop proofReq) :=
  ⟨by simp [twice, Demo.calls, Sequential], isAccepted_spec (by decide +kernel), prompt_of (by decide +kernel),
    prompt_of (by decide +kernel), asked_of (by decide +kernel)⟩

example : Prompt (run Demo.env Demo.store lockstep) 0 ∧ Prompt (run Demo.env Demo.store lockstep) 1 ∧
    (∃ t, Answered (run Demo.env Demo.store lockstep) 0 (.dpop proofReq) (.dpop (some t))) ∧
    (∃ t, Answered (run Demo.env Demo.store lockstep) 1 (.dpop proofReq) (.dpop (some t))) :=
  ⟨prompt_of (by decide +kernel), prompt_of (by decide +kernel), isAccepted_spec (by decide +kernel),
    isAccepted_spec (by decide +kernel)⟩

/-- **C38** (limit). The expected key of an access token is not compared when the
caller passes no token value: the verifier accepts a proof with another key. -/
theorem C38_confirmation_needs_token_value : ∃ (E : Env) (req : VerifyReq) (tr : List Ev) (thumb jkt : Str),
    Exec (verify E req) tr (.done (some thumb)) ∧ req.tokenConfirmation = some jkt ∧ thumb ≠ jkt := by
  obtain ⟨tr, a, h, h2⟩ := oracle_ex Demo.answers
    (verify Demo.env ⟨g!"POST", g!"https://as/token", g!"p", none, some g!"other"⟩)
    (fun a => a = some g!"k") (by decide +kernel)
  subst h2
  exact ⟨_, _, tr, g!"k", g!"other", h, rfl, by decide⟩

end Verif.Props
