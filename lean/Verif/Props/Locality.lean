import Verif.Proofs.Locality
import Verif.Proofs.Layers
import Verif.Proofs.Tokens
import Verif.Proofs.HttpServe
import Verif.Proofs.HttpRun
import Verif.Proofs.DemoRun

/-! **C102**: what no request names influences no answer and stays as it is. -/
namespace Verif
open Verif.Prog Verif.Spec Verif.Store
variable {E : Env} {H : Part}

theorem par_tick {s s' : St} (ha : AgreeOutside H s s') (hs : Separate E H s) (d : Nat) :
    AgreeOutside H { s with clock := s.clock + d } { s' with clock := s'.clock + d } ∧
    Separate E H { s with clock := s.clock + d } ∧ AgreeWithin H s { s with clock := s.clock + d } :=
  ⟨{ ha with clock := by simp only [ha.clock] }, { hs with }, { within_refl (H := H) s with }⟩

/-- Two runs of the services side by side. -/
theorem par_run (ls : List Label) : ∀ {c c' : Conf}, AgreeOutside H c.st c'.st → Separate E H c.st →
    c.threads = c'.threads → (∀ t ∈ c.threads, Stays E H t.prog) → (∀ l ∈ ls, QuietStep E H l) →
    (ls.foldl (step E) c).threads = (ls.foldl (step E) c').threads ∧
    AgreeOutside H (ls.foldl (step E) c).st (ls.foldl (step E) c').st ∧
    Separate E H (ls.foldl (step E) c).st ∧ AgreeWithin H c.st (ls.foldl (step E) c).st := by
  induction ls with
  | nil => exact fun ha hs ht _ _ => ⟨ht, ha, hs, within_refl _⟩
  | cons l ls ih =>
    intro c c' ha hs ht hp hq
    have hl := hq l (List.mem_cons_self ..)
    have hq' := fun l' hl' => hq l' (List.mem_cons_of_mem _ hl')
    simp only [List.foldl_cons]
    cases l with
    | arrive r =>
      refine ih (c := step E c (.arrive r)) (c' := step E c' (.arrive r)) ha hs (by simp only [step, ht]) ?_ hq'
      intro t h
      simp only [step, List.mem_append, List.mem_singleton] at h
      rcases h with h | rfl
      · exact hp t h
      · exact stays_handle r hl
    | tick d =>
      obtain ⟨h1, h2, h3⟩ := par_tick ha hs d
      obtain ⟨g1, g2, g3, g4⟩ := ih (c := step E c (.tick d)) (c' := step E c' (.tick d)) h1 h2 ht hp hq'
      exact ⟨g1, g2, g3, within_trans h3 g4⟩
    | run i ch =>
      cases hi : c.threads[i]? with
      | none =>
        have e : step E c (.run i ch) = c := by simp only [step, hi]
        have e' : step E c' (.run i ch) = c' := by simp only [step, ← ht, hi]
        rw [e, e']
        exact ih ha hs ht hp hq'
      | some t =>
        obtain ⟨req, p⟩ := t
        have hm := hp _ (List.mem_of_getElem? hi)
        cases p with
        | ret a =>
          have e : step E c (.run i ch) = c := by simp only [step, hi]
          have e' : step E c' (.run i ch) = c' := by simp only [step, ← ht, hi]
          rw [e, e']
          exact ih ha hs ht hp hq'
        | panic =>
          have e : step E c (.run i ch) = c := by simp only [step, hi]
          have e' : step E c' (.run i ch) = c' := by simp only [step, ← ht, hi]
          rw [e, e']
          exact ih ha hs ht hp hq'
        | op cmd k =>
          have hx := par_exec ha hs hl hm.1
          have e : step E c (.run i ch) = ⟨(exec E cmd ch c.st).2,
            c.threads.set i ⟨req, k (exec E cmd ch c.st).1⟩, c.log ++ [⟨i, cmd, ch, c.st⟩]⟩ := by
            simp only [step, hi]; rfl
          have e' : step E c' (.run i ch) = ⟨(exec E cmd ch c'.st).2,
            c'.threads.set i ⟨req, k (exec E cmd ch c'.st).1⟩, c'.log ++ [⟨i, cmd, ch, c'.st⟩]⟩ := by
            simp only [step, ← ht, hi]; rfl
          rw [e, e']
          obtain ⟨g1, g2, g3, g4⟩ := ih
            (c := ⟨(exec E cmd ch c.st).2,
              c.threads.set i ⟨req, k (exec E cmd ch c.st).1⟩, c.log ++ [⟨i, cmd, ch, c.st⟩]⟩)
            (c' := ⟨(exec E cmd ch c'.st).2,
              c'.threads.set i ⟨req, k (exec E cmd ch c'.st).1⟩, c'.log ++ [⟨i, cmd, ch, c'.st⟩]⟩)
            hx.agree hx.sep (by simp only; rw [hx.ans, ht])
            (fun t h => (List.mem_or_eq_of_mem_set h).elim (hp t) (fun e => e ▸ hm.2 _ hx.out)) hq'
          exact ⟨g1, g2, g3, within_trans hx.kept g4⟩

namespace Http
variable {S : Server}

theorem stays_readOnly {α : Type} {p : Prog α} (h : Only Props.isReadOnly p) : Stays E H p := by
  induction p with
  | ret a => trivial
  | panic => trivial
  | op c k ih =>
    refine ⟨?_, fun r _ => ih r (h.2 r)⟩
    have := h.1
    cases c <;> trivial

theorem stays_clientAuth (r : Req) {h : Option Client → Prog Resp} (hh : ∀ c, Stays S.E H (h c)) :
    Stays S.E H (clientAuth S r h) := by
  rw [clientAuth_eq]
  refine stays_bind (stays_readOnly (only_authP S r)) ?_
  rintro (a | c)
  · trivial
  · exact hh c

theorem stays_basicAuth (r : Req) {h : Str → Prog Resp} (hh : ∀ c, Stays S.E H (h c)) :
    Stays S.E H (basicAuth r h) := by
  unfold basicAuth
  repeat' split
  all_goals first | trivial | exact hh _

theorem stays_withError (n : Nat) (e : Option OErr) : Stays E H (withError n e) := by
  cases e <;> trivial

theorem stays_par (hm : H.served S.issuer) (r : Req) (c : Option Client) : Stays S.E H (parHandler S r c) := by
  unfold parHandler
  split; · trivial
  cases c with
  | none => trivial
  | some c =>
    refine stays_bind (stays_dpop _) ?_
    rintro (_ | _)
    · trivial
    · simp only
      split
      · trivial
      · refine stays_bind (stays_register _ (fun q e => by cases e; exact hm)) fun res => ?_
        split
        · exact stays_withError _ _
        · trivial

theorem stays_tokenMsg (hm : H.served S.issuer) {r : Req} (hq : HttpQuiet S H r) (c : Client) (cnf : Option Cnf) :
    Quiet S.E H (.token (some (tokenMsg S r c cnf))) := by
  intro q e
  cases e
  refine ⟨hm, fun g hg => ?_⟩
  simp only [tokenMsg, grantOf] at hg
  simp only [tokenMsg]
  repeat' split at hg
  all_goals cases hg
  · exact hq.code
  · trivial
  · exact hq.device
  · exact hq.refresh

theorem stays_serve (hm : H.served S.issuer) (route : Route) {r : Req} (hq : HttpQuiet S H r) : Stays S.E H (serve S route r) := by
  cases route with
  | par => exact stays_clientAuth r (stays_par hm r)
  | authorize =>
    refine stays_basicAuth r fun sub => ?_
    unfold authorizeHandler
    split; · trivial
    split; · trivial
    refine ⟨trivial, ?_⟩
    rintro (_ | (_ | client)) _
    · trivial
    · trivial
    · simp only [Prog.bind]
      split
      · trivial
      · split
        · trivial
        · rename_i ar har
          refine stays_bind (stays_authorize _ ?_) fun res => ?_
          · intro q e1
            cases e1
            refine ⟨hm, fun ar' uri e2 e3 => ?_⟩
            cases e2
            exact hq.request _ _ _ har e3
          · split
            · exact stays_withError _ _
            · exact stays_readOnly (only_deliver S _)
  | token =>
    refine stays_clientAuth r fun c => ?_
    unfold tokenHandler
    split; · trivial
    cases c with
    | none => trivial
    | some c =>
      simp only
      split; · trivial
      split
      · exact stays_bind (stays_token _ (stays_tokenMsg hm hq _ _)) fun res => stays_readOnly (only_tokenAnswer _ _)
      · refine stays_bind (stays_dpop _) ?_
        rintro (_ | jkt)
        · trivial
        · exact stays_bind (stays_token _ (stays_tokenMsg hm hq _ _)) fun res => stays_readOnly (only_tokenAnswer _ _)
  | introspect =>
    refine stays_clientAuth r fun c => ?_
    unfold introspectHandler
    cases c with
    | none => trivial
    | some c =>
      refine stays_bind (stays_introspect _ ?_) fun res => ?_
      · intro q e; cases e; exact hq.token
      · split
        · exact stays_withError _ _
        · split
          · trivial
          · split
            · refine stays_bind (stays_readOnly (only_isUsable _)) ?_
              rintro (_ | _)
              · trivial
              · simp only [if_true]
                split <;> trivial
            · trivial
  | revoke =>
    refine stays_clientAuth r fun c => ?_
    unfold revokeHandler
    cases c with
    | none => trivial
    | some c =>
      refine stays_bind (stays_revoke _ ?_) fun res => ?_
      · intro q e; cases e; exact hq.token
      · split
        · exact stays_withError _ _
        · trivial
  | deviceAuthorize =>
    refine stays_clientAuth r fun c => ?_
    unfold deviceAuthzHandler
    split; · trivial
    refine stays_bind (stays_deviceAuthorize _ (fun q e => by cases e; exact hm)) fun res => ?_
    split
    · exact stays_withError _ _
    · trivial
  | device =>
    refine stays_basicAuth r fun sub => ?_
    unfold deviceHandler
    split; · trivial
    split; · trivial
    split
    · refine stays_bind (stays_deviceValidate _ ?_) fun res => ?_
      · intro q e; cases e; exact ⟨hm, hq.user⟩
      · split
        · exact stays_withError _ _
        · trivial
    · trivial

/-- Two runs of the HTTP server side by side. -/
theorem par_run (hm : H.served S.issuer) (ls : List Label) : ∀ {c c' : Conf}, AgreeOutside H c.st c'.st → Separate S.E H c.st →
    c.threads = c'.threads → (∀ t ∈ c.threads, Stays S.E H t.prog) → (∀ l ∈ ls, HttpQuietStep S H l) →
    (ls.foldl (step S) c).threads = (ls.foldl (step S) c').threads ∧
    AgreeOutside H (ls.foldl (step S) c).st (ls.foldl (step S) c').st ∧
    Separate S.E H (ls.foldl (step S) c).st ∧ AgreeWithin H c.st (ls.foldl (step S) c).st := by
  induction ls with
  | nil => exact fun ha hs ht _ _ => ⟨ht, ha, hs, within_refl _⟩
  | cons l ls ih =>
    intro c c' ha hs ht hp hq
    have hl := hq l (List.mem_cons_self ..)
    have hq' := fun l' hl' => hq l' (List.mem_cons_of_mem _ hl')
    simp only [List.foldl_cons]
    cases l with
    | arrive route r =>
      refine ih (c := step S c (.arrive route r)) (c' := step S c' (.arrive route r)) ha hs
        (by simp only [step, ht]) ?_ hq'
      intro t h
      simp only [step, List.mem_append, List.mem_singleton] at h
      rcases h with h | rfl
      · exact hp t h
      · exact stays_serve hm route hl
    | tick d =>
      obtain ⟨h1, h2, h3⟩ := par_tick ha hs d
      obtain ⟨g1, g2, g3, g4⟩ := ih (c := step S c (.tick d)) (c' := step S c' (.tick d)) h1 h2 ht hp hq'
      exact ⟨g1, g2, g3, within_trans h3 g4⟩
    | run i ch =>
      cases hi : c.threads[i]? with
      | none =>
        have e : step S c (.run i ch) = c := by simp only [step, hi]
        have e' : step S c' (.run i ch) = c' := by simp only [step, ← ht, hi]
        rw [e, e']
        exact ih ha hs ht hp hq'
      | some t =>
        obtain ⟨route, req, p⟩ := t
        have hm := hp _ (List.mem_of_getElem? hi)
        cases p with
        | ret a =>
          have e : step S c (.run i ch) = c := by simp only [step, hi]
          have e' : step S c' (.run i ch) = c' := by simp only [step, ← ht, hi]
          rw [e, e']
          exact ih ha hs ht hp hq'
        | panic =>
          have e : step S c (.run i ch) = c := by simp only [step, hi]
          have e' : step S c' (.run i ch) = c' := by simp only [step, ← ht, hi]
          rw [e, e']
          exact ih ha hs ht hp hq'
        | op cmd k =>
          have hx := par_exec ha hs hl hm.1
          have e : step S c (.run i ch) = ⟨(exec S.E cmd ch c.st).2,
            c.threads.set i ⟨route, req, k (exec S.E cmd ch c.st).1⟩, c.log ++ [⟨i, cmd, ch, c.st⟩]⟩ := by
            simp only [step, hi]; rfl
          have e' : step S c' (.run i ch) = ⟨(exec S.E cmd ch c'.st).2,
            c'.threads.set i ⟨route, req, k (exec S.E cmd ch c'.st).1⟩, c'.log ++ [⟨i, cmd, ch, c'.st⟩]⟩ := by
            simp only [step, ← ht, hi]; rfl
          rw [e, e']
          obtain ⟨g1, g2, g3, g4⟩ := ih
            (c := ⟨(exec S.E cmd ch c.st).2,
              c.threads.set i ⟨route, req, k (exec S.E cmd ch c.st).1⟩, c.log ++ [⟨i, cmd, ch, c.st⟩]⟩)
            (c' := ⟨(exec S.E cmd ch c'.st).2,
              c'.threads.set i ⟨route, req, k (exec S.E cmd ch c'.st).1⟩, c'.log ++ [⟨i, cmd, ch, c'.st⟩]⟩)
            hx.agree hx.sep (by simp only; rw [hx.ans, ht])
            (fun t h => (List.mem_or_eq_of_mem_set h).elim (hp t) (fun e => e ▸ hm.2 _ hx.out)) hq'
          exact ⟨g1, g2, g3, within_trans hx.kept g4⟩

end Http

theorem agree_refl (s : St) : AgreeOutside H s s :=
  ⟨rfl, rfl, rfl, rfl, fun _ _ => rfl, fun _ _ => rfl, fun _ _ => rfl, fun _ _ => rfl, rfl, fun _ _ => rfl,
   fun _ _ => rfl, fun _ _ => rfl⟩

/-! ### Histories -/

theorem run_append' (E : Env) (s : St) (ls ls' : List Label) :
    run E s (ls ++ ls') = ls'.foldl (step E) (run E s ls) := by
  simp [run, List.foldl_append]

theorem stays_answered {c : Conf} (h : ∀ th ∈ c.threads, th.answer.isSome) : ∀ th ∈ c.threads, Stays E H th.prog := by
  intro th hth
  have := h th hth
  unfold Thread.answer at this
  cases hp : th.prog with
  | ret a => trivial
  | panic => trivial
  | op c k => rw [hp] at this; simp at this

theorem Http.stays_answered {c : Http.Conf} (h : ∀ th ∈ c.threads, th.answer.isSome) :
    ∀ th ∈ c.threads, Stays E H th.prog := by
  intro th hth
  have := h th hth
  unfold Http.Thread.answer at this
  cases hp : th.prog with
  | ret a => trivial
  | panic => trivial
  | op c k => rw [hp] at this; simp at this

theorem separate_empty {s : St} (hE : Empty s) (hr : ∀ r, ¬ H.ref r) : Separate E H s where
  alloc r h := (hr r h).elim
  user k r x _ h := by rw [hE.userIdx] at h; cases h
  device k r x _ h := by rw [hE.devIdx] at h; cases h
  heap r d _ h := by rw [hE.heap] at h; cases h
  token k t _ h := by rw [hE.tokVal] at h; cases h
  id k t _ h := by rw [hE.tokId] at h; cases h

/-- The stores hold only what belongs to the issuers that were asked. -/
theorem separate_served {P : Str → Prop} {s : St} (hE : Empty s) {ls : List Label}
    (hP : ∀ r, .arrive r ∈ ls → Quiet E { served := P } r) : Separate E { served := P } (run E s ls).st := by
  refine (par_run (E := E) (H := { served := P }) ls (c := { st := s }) (c' := { st := s }) (agree_refl s)
    (separate_empty hE (fun _ h => h)) rfl (by simp) ?_).2.2.1
  intro l hl
  cases l with
  | arrive r => exact hP r hl
  | run i ch =>
    exact ⟨fun _ _ h => h, fun _ _ h => h, fun _ _ h => h, fun _ _ h => h, fun _ _ h => h, fun h => h⟩
  | tick d => trivial

theorem separate_code {P : Str → Prop} {s : St} (h : Separate E { served := P } s) (i code : Str) :
    Separate E (codePart P E i code) s where
  alloc r h := h.elim
  user k r x _ _ h := h
  device k r x _ _ h := h
  heap r d _ hd := ⟨fun h => h, (h.heap r d (fun h => h) hd).2⟩
  token k t _ ht := ⟨fun h => h, (h.token k t (fun h => h) ht).2⟩
  id k t _ ht := ⟨fun h => h, fun h => h, (h.id k t (fun h => h) ht).2.2⟩

theorem separate_token {P : Str → Prop} {s : St} (hE : Empty s) {ls : List Label}
    (hK : NoKeyClash E (run E s ls)) (hF : FreshTokens (run E s ls))
    (h : Separate E { served := P } (run E s ls).st) {m : Nat} {i : Str} {t : Token}
    (hc : Creates (run E s ls) m i t) : Separate E (tokenPart P E i t) (run E s ls).st where
  alloc r h := h.elim
  user k r x _ _ h := h
  device k r x _ _ h := h
  heap r d _ hd := ⟨fun h => h, (h.heap r d (fun h => h) hd).2⟩
  token k x hk hx := by
    refine ⟨fun hid => hk ?_, (h.token k x (fun h => h) hx).2⟩
    obtain ⟨h1, n, e, i0, t0, h2, h3, h4, h5⟩ := (tokInv_run (E := E) hE ls).1.1 k x hx
    have hn : n = m := hF.ids n m i0 i t0 t ⟨e, h2, h3⟩ hc (by rw [← h5.tokenId]; exact hid)
    subst hn
    obtain ⟨e', h2', h3'⟩ := hc
    rw [h2] at h2'; cases h2'
    rw [h3] at h3'; cases h3'
    rw [← h1]; exact h4
  id k x hk hx := by
    obtain ⟨h1, n, e, i0, t0, h2, h3, h4, h5⟩ := (tokInv_run (E := E) hE ls).1.2 k x hx
    refine ⟨fun hid => hk (h1.symm.trans hid), fun hv => hk ?_, (h.id k x (fun h => h) hx).2.2⟩
    obtain ⟨e', h2', h3'⟩ := hc
    obtain ⟨rfl, hval⟩ := noKeyClash_token hK h2 h2' (by rw [h3]; simp [cells]) (by rw [h3']; simp [cells])
      (h4.symm.trans hv)
    have hn : n = m := hF.values n m i0 t0 t ⟨e, h2, h3⟩ ⟨e', h2', h3'⟩ hval
    subst hn
    rw [h2] at h2'; cases h2'
    rw [h3] at h3'; cases h3'
    rw [← h1]; exact h5.tokenId

namespace Demo

/-- Another user authorizes, the client asks about another token, and another token is revoked. -/
def elsewhere (i : Nat) : List Label :=
  .arrive (.authorize (some authorizeReq)) :: calls i [[], g!"c1de", []] ++ introspectRun (i + 1) g!"zz" ++
    revokeRun (i + 2) g!"zz"

/-- A label check for one code. -/
def codeQuiet (code : Str) : Label → Bool
  | .arrive (.authorize (some q)) => q.issuer == issuer && (q.request.all fun r => r.requestUri.isNone)
  | .arrive (.token (some q)) => q.issuer == issuer &&
      match q.grant with
      | some (.authorizationCode g) => g.code != code
      | _ => true
  | .arrive (.introspect _) => true
  | .arrive (.revoke _) => true
  | .run _ ch => ch.str != code
  | .tick _ => true
  | _ => false

theorem codeQuiet_sound {code : Str} {l : Label} (h : codeQuiet code l = true) :
    QuietStep env (codePart (· = issuer) env issuer code) l := by
  have hk : ∀ v, v ≠ code → ¬ codeKey env issuer v = codeKey env issuer code := by
    intro v hv he; exact hv (by simpa [codeKey, env] using he)
  cases l with
  | tick d => trivial
  | run i ch =>
    have h : ch.str ≠ code := by simpa [codeQuiet] using h
    exact ⟨by rintro _ rfl; exact hk _ h, fun _ _ h => h, fun _ _ h => h, fun _ _ h => h, fun _ _ h => h, fun h => h⟩
  | arrive r =>
    unfold codeQuiet at h
    split at h <;> try cases h
    · rename_i q e
      cases e
      simp only [Bool.and_eq_true, beq_iff_eq] at h
      intro q' e; cases e
      exact ⟨h.1, fun ar uri e1 e2 => by simp [e1, e2] at h⟩
    · rename_i q e
      cases e
      simp only [Bool.and_eq_true, beq_iff_eq] at h
      intro q' e; cases e
      refine ⟨h.1, fun g hg => ?_⟩
      cases g with
      | authorizationCode g =>
        have : g.code ≠ code := by simpa [hg] using h.2
        show ¬ codeKey env q.issuer g.code = codeKey env issuer code
        rw [h.1]
        exact hk _ this
      | clientCredentials => trivial
      | deviceCode => exact fun h => h
      | refreshToken => exact fun h => h
      | tokenExchange => exact fun h => h
    · rename_i e; cases e; exact fun _ _ h => h
    · rename_i e; cases e; exact fun _ _ h => h
    · rename_i e; cases e
    · rename_i e; cases e

/-- A label check for one token. -/
def tokenQuiet (t : Token) : Label → Bool
  | .arrive (.introspect (some q)) => q.issuer == issuer && q.token != t.value
  | .arrive (.revoke (some q)) => q.issuer == issuer && q.token != t.value
  | .run _ ch => ch.str != t.value && ch.str != t.tokenId
  | .tick _ => true
  | _ => false

theorem tokenQuiet_sound {t : Token} {l : Label} (h : tokenQuiet t l = true) :
    QuietStep env (tokenPart (· = issuer) env issuer t) l := by
  have hk : ∀ v, v ≠ t.value → ¬ tokenKey env issuer v = tokenKey env issuer t.value := by
    intro v hv he; exact hv (by simpa [tokenKey, env] using he)
  cases l with
  | tick d => trivial
  | run i ch =>
    obtain ⟨h1, h2⟩ : ch.str ≠ t.value ∧ ch.str ≠ t.tokenId := by simpa [tokenQuiet] using h
    exact ⟨fun _ _ h => h, fun _ _ h => h, fun _ _ h => h, fun _ _ h => h, by rintro _ rfl; exact hk _ h1, h2⟩
  | arrive r =>
    unfold tokenQuiet at h
    split at h <;> try cases h
    · rename_i q e
      cases e
      simp only [Bool.and_eq_true, beq_iff_eq, bne_iff_ne, ne_eq] at h
      intro q' e; cases e
      show ¬ tokenKey env q.issuer q.token = tokenKey env issuer t.value
      rw [h.1]
      exact hk _ h.2
    · rename_i q e
      cases e
      simp only [Bool.and_eq_true, beq_iff_eq, bne_iff_ne, ne_eq] at h
      intro q' e; cases e
      show ¬ tokenKey env q.issuer q.token = tokenKey env issuer t.value
      rw [h.1]
      exact hk _ h.2
    · rename_i e; cases e
    · rename_i e; cases e

/-- Stores in which the code `c0de` is known, and stores in which it is not. -/
def storeWith (x : Option (CodeSession × Nat)) : St :=
  { store with codes := fun k => if k = codeKey env issuer g!"c0de" then x else none }

theorem storeWith_agree (x y : Option (CodeSession × Nat)) :
    AgreeOutside (codePart (· = issuer) env issuer g!"c0de") (storeWith x) (storeWith y) where
  clock := rfl
  clients := rfl
  resources := rfl
  proofs := rfl
  codes k hk := by
    have hk : ¬ k = codeKey env issuer g!"c0de" := hk
    simp only [storeWith, if_neg hk]
  requests _ _ := rfl
  user _ _ := rfl
  device _ _ := rfl
  size := rfl
  heap _ _ := rfl
  token _ _ := rfl
  id _ _ := rfl

theorem storeWith_separate (x : Option (CodeSession × Nat)) :
    Separate env (codePart (· = issuer) env issuer g!"c0de") (storeWith x) where
  alloc r h := h.elim
  user k r x _ _ h := h
  device k r x _ _ h := h
  heap r d _ hd := by cases hd
  token k t _ ht := by cases ht
  id k t _ ht := by cases ht

theorem quiet_served {P : Str → Prop} {i code : Str} {r : Req} (h : Quiet E (codePart P E i code) r) :
    Quiet E { served := P } r := by
  cases r with
  | authorize r => exact fun q e => ⟨(h q e).1, fun _ _ _ _ h => h⟩
  | register r => exact h
  | deviceAuthorize r => exact h
  | deviceValidate r => exact fun q e => ⟨(h q e).1, fun _ _ h => h⟩
  | token r =>
    refine fun q e => ⟨(h q e).1, fun g _ => ?_⟩
    cases g <;> first | trivial | exact fun h => h
  | introspect r => exact fun _ _ h => h
  | revoke r => exact fun _ _ h => h
  | dpop r => trivial

/-- The refresh token created by `happy`. -/
def createdRefresh : Token :=
  ((run env store happy).log[13]?.bind fun e =>
    match e.cmd with
    | .tkCreate _ t => some t
    | _ => none).getD { tokenId := [], value := [] }

theorem creates_refresh : Creates (run env store happy) 13 issuer createdRefresh := by
  cases he : (run env store happy).log[13]? with
  | none => exact absurd (congrArg Option.isSome he) (by decide +kernel)
  | some e =>
    refine ⟨e, he, ?_⟩
    have h : ((run env store happy).log[13]?.map Entry.cmd) = some (.tkCreate issuer createdRefresh) := by
      decide +kernel
    rw [he] at h
    simpa using h

/-- An HTTP request check for one code. -/
theorem webQuiet {P : Str → Prop} {code : Str} {r : Http.Req}
    (h : codeKey server.E server.issuer (r.formValue g!"code") ≠ codeKey server.E server.issuer code) :
    HttpQuiet server (codePart P server.E server.issuer code) r :=
  ⟨h, fun h => h, fun h => h, fun h => h, fun _ _ h => h, fun _ _ _ _ _ h => h⟩

/-- A label check for one code. -/
def webCheck (code : Str) : Http.Label → Bool
  | .arrive _ r => codeKey server.E server.issuer (r.formValue g!"code") != codeKey server.E server.issuer code
  | .run _ ch => codeKey server.E server.issuer ch.str != codeKey server.E server.issuer code
  | .tick _ => true

theorem webCheck_sound {code : Str} {ls : List Http.Label} (h : ls.all (webCheck code) = true) :
    ∀ l ∈ ls, HttpQuietStep server (codePart (· = server.issuer) server.E server.issuer code) l := by
  intro l hl
  have h := List.all_eq_true.1 h l hl
  cases l with
  | arrive route r => exact webQuiet (by simpa [webCheck] using h)
  | run i ch =>
    have h : codeKey server.E server.issuer ch.str ≠ codeKey server.E server.issuer code := by simpa [webCheck] using h
    exact ⟨by rintro _ rfl; exact h, fun _ _ h => h, fun _ _ h => h, fun _ _ h => h, fun _ _ h => h, fun h => h⟩
  | tick d => trivial

end Demo

namespace Props

/-- **C102_noninterference.** Let two servers start with stores that differ only within a part
that nothing outside of it points to. If no request and no generated string names anything in
the part, then all requests take the same course and get the same answers, however they
overlap and whichever calls fail, and the stores still differ only within the part. -/
theorem C102_noninterference (E : Env) (H : Part) (s s' : St) (ls : List Label) (ha : AgreeOutside H s s')
    (hs : Separate E H s) (hq : ∀ l ∈ ls, QuietStep E H l) :
    (run E s ls).threads = (run E s' ls).threads ∧ AgreeOutside H (run E s ls).st (run E s' ls).st := by
  obtain ⟨h1, h2, _, _⟩ := par_run ls (c := { st := s }) (c' := { st := s' }) ha hs rfl (by simp) hq
  exact ⟨h1, h2⟩

/-- Nobody who presents another code can tell whether `c0de` was handed out. -/
example : ∃ x y ls, x ≠ y ∧ AgreeOutside (codePart (· = Demo.issuer) Demo.env Demo.issuer g!"c0de") (Demo.storeWith x)
      (Demo.storeWith y) ∧
    Separate Demo.env (codePart (· = Demo.issuer) Demo.env Demo.issuer g!"c0de") (Demo.storeWith x) ∧
    (∀ l ∈ ls, QuietStep Demo.env (codePart (· = Demo.issuer) Demo.env Demo.issuer g!"c0de") l) ∧
    ((run Demo.env (Demo.storeWith x) ls).threads.all fun th => th.answer.isSome) = true ∧ ls.length = 11 :=
  ⟨none, some ({ issuer := Demo.issuer, subject := g!"alice", request := some Demo.request }, 10 ^ 12), Demo.elsewhere 0,
    by simp, Demo.storeWith_agree _ _, Demo.storeWith_separate _,
    fun l hl => Demo.codeQuiet_sound (by revert l; decide +kernel), by decide +kernel, by decide +kernel⟩

/-- **C102_untouched.** After any history whose requests are all answered: while no request and
no generated string names anything in a part that nothing outside points to, everything in the
part stays as it is, and nothing outside comes to point to it. -/
theorem C102_untouched (E : Env) (H : Part) (s : St) (ls ls' : List Label)
    (hd : ∀ th ∈ (run E s ls).threads, th.answer.isSome) (hs : Separate E H (run E s ls).st)
    (hq : ∀ l ∈ ls', QuietStep E H l) :
    AgreeWithin H (run E s ls).st (run E s (ls ++ ls')).st ∧ Separate E H (run E s (ls ++ ls')).st := by
  rw [run_append']
  obtain ⟨_, _, h3, h4⟩ := par_run ls' (c := run E s ls) (c' := run E s ls) (agree_refl _) hs rfl (stays_answered hd) hq
  exact ⟨h4, h3⟩

/-- **C102_http_noninterference.** The same for the HTTP server and the parameters of HTTP
requests. -/
theorem C102_http_noninterference (S : Http.Server) (H : Part) (hi : H.served S.issuer) (s s' : St)
    (ls : List Http.Label) (ha : AgreeOutside H s s') (hs : Separate S.E H s) (hq : ∀ l ∈ ls, HttpQuietStep S H l) :
    (Http.run S s ls).threads = (Http.run S s' ls).threads ∧
    AgreeOutside H (Http.run S s ls).st (Http.run S s' ls).st := by
  obtain ⟨h1, h2, _, _⟩ := Http.par_run hi ls (c := { st := s }) (c' := { st := s' }) ha hs rfl (by simp) hq
  exact ⟨h1, h2⟩

/-- A code is pending; the client presents another one. -/
example : ∃ s ls, Separate Demo.server.E (codePart (· = Demo.server.issuer) Demo.server.E Demo.server.issuer g!"c1de") s ∧
    (∀ l ∈ ls, HttpQuietStep Demo.server (codePart (· = Demo.server.issuer) Demo.server.E Demo.server.issuer g!"c1de") l) ∧
    ((Http.run Demo.server s ls).threads.all fun th => th.answer.isSome) = true ∧
    (Http.run Demo.server s ls).threads.length = 2 := by
  refine ⟨Demo.webStore, Demo.webAuthorize 0 ++ Demo.webRedeem 1,
    separate_empty Demo.webStore_empty (fun _ h => h), ?_, by decide +kernel, by decide +kernel⟩
  exact Demo.webCheck_sound (by decide +kernel)

/-- **C102_http_untouched.** -/
theorem C102_http_untouched (S : Http.Server) (H : Part) (hi : H.served S.issuer) (s : St) (ls ls' : List Http.Label)
    (hd : ∀ th ∈ (Http.run S s ls).threads, th.answer.isSome) (hs : Separate S.E H (Http.run S s ls).st)
    (hq : ∀ l ∈ ls', HttpQuietStep S H l) :
    AgreeWithin H (Http.run S s ls).st (Http.run S s (ls ++ ls')).st ∧ Separate S.E H (Http.run S s (ls ++ ls')).st := by
  rw [Http.run_append]
  obtain ⟨_, _, h3, h4⟩ := Http.par_run hi ls' (c := Http.run S s ls) (c' := Http.run S s ls) (agree_refl _) hs rfl
    (Http.stays_answered hd) hq
  exact ⟨h4, h3⟩

/-- **C102_code.** From empty stores, once all requests are answered: until a request presents
an authorization code or a generator repeats it, what the server remembers of the code stays as
it is, whatever else it is asked by whomever. -/
theorem C102_code (E : Env) (P : Str → Prop) (s : St) (hE : Empty s) (ls ls' : List Label) (i code : Str)
    (hP : ∀ r, .arrive r ∈ ls → Quiet E { served := P } r)
    (hd : ∀ th ∈ (run E s ls).threads, th.answer.isSome)
    (hq : ∀ l ∈ ls', QuietStep E (codePart P E i code) l) :
    (run E s (ls ++ ls')).st.codes (codeKey E i code) = (run E s ls).st.codes (codeKey E i code) :=
  (C102_untouched E (codePart P E i code) s ls ls' hd (separate_code (separate_served hE hP) i code) hq).1.codes _ rfl

/-- The code of the examples survives other authorizations, introspections and revocations. -/
example : ∃ ls ls', (∀ th ∈ (run Demo.env Demo.store ls).threads, th.answer.isSome) ∧
    (∀ l ∈ ls', QuietStep Demo.env (codePart (· = Demo.issuer) Demo.env Demo.issuer g!"c0de") l) ∧
    ls'.length = 11 ∧ ((run Demo.env Demo.store ls).st.codes (codeKey Demo.env Demo.issuer g!"c0de")).isSome ∧
    ((run Demo.env Demo.store (ls ++ ls')).st.codes (codeKey Demo.env Demo.issuer g!"c1de")).isSome := by
  refine ⟨Demo.authorizeRun 0, Demo.elsewhere 1, ?_, fun l hl => Demo.codeQuiet_sound ?_, by decide +kernel,
    by decide +kernel, by decide +kernel⟩
  · decide +kernel
  · revert l; decide +kernel

/-- **C102_token.** From empty stores with generators that do not repeat themselves, once all
requests are answered: until a request presents a token, its stored record (with its status)
stays as it is; nobody revokes or prolongs a token without presenting it. -/
theorem C102_token (E : Env) (P : Str → Prop) (s : St) (hE : Empty s) (ls ls' : List Label) (m : Nat) (i : Str)
    (t : Token) (hP : ∀ r, .arrive r ∈ ls → Quiet E { served := P } r)
    (hd : ∀ th ∈ (run E s ls).threads, th.answer.isSome) (hK : NoKeyClash E (run E s ls))
    (hF : FreshTokens (run E s ls)) (hc : Creates (run E s ls) m i t)
    (hq : ∀ l ∈ ls', QuietStep E (tokenPart P E i t) l) :
    (run E s (ls ++ ls')).st.tokVal (tokenKey E i t.value) = (run E s ls).st.tokVal (tokenKey E i t.value) ∧
    (run E s (ls ++ ls')).st.tokId t.tokenId = (run E s ls).st.tokId t.tokenId := by
  have h := (C102_untouched E (tokenPart P E i t) s ls ls' hd
    (separate_token hE hK hF (separate_served hE hP) hc) hq).1
  exact ⟨h.token _ rfl, h.id _ rfl⟩

/-- Revoking the access token leaves the refresh token of the same grant alone. -/
example : ∃ ls ls' m t, (∀ r, .arrive r ∈ ls → Quiet Demo.env { served := (· = Demo.issuer) } r) ∧
    (∀ th ∈ (run Demo.env Demo.store ls).threads, th.answer.isSome) ∧
    NoKeyClash Demo.env (run Demo.env Demo.store ls) ∧ FreshTokens (run Demo.env Demo.store ls) ∧
    Creates (run Demo.env Demo.store ls) m Demo.issuer t ∧
    (∀ l ∈ ls', QuietStep Demo.env (tokenPart (· = Demo.issuer) Demo.env Demo.issuer t) l) ∧
    ((run Demo.env Demo.store (ls ++ ls')).st.tokVal (tokenKey Demo.env Demo.issuer t.value)).map (·.status) =
      some .active ∧
    ((run Demo.env Demo.store (ls ++ ls')).st.tokVal (tokenKey Demo.env Demo.issuer g!"at")).map (·.status) =
      some .revoked := by
  refine ⟨Demo.happy, Demo.revokeRun 2 g!"at", 13, Demo.createdRefresh, fun r hr => ?_, ?_, ?_, ?_, Demo.creates_refresh,
    fun l hl => Demo.tokenQuiet_sound ?_, by decide +kernel, by decide +kernel⟩
  · have h : ∀ l ∈ Demo.happy, Demo.codeQuiet g!"zz" l = true := by decide +kernel
    exact Demo.quiet_served (Demo.codeQuiet_sound (h _ hr))
  · decide +kernel
  · exact Demo.noKeyClash_of (by decide +kernel)
  · exact Demo.freshTokens_of (by decide +kernel)
  · revert l; decide +kernel

end Props
end Verif
