import Verif.Proofs.DeviceRun
import Verif.Proofs.Serve
import Verif.Proofs.DemoRun
import Verif.Props.Token

/-! Device flow properties over histories. -/
namespace Verif.Props
open Verif.Prog Verif.Spec Verif.Store Verif.TokenSvc
variable {E : Env}

/-- **C34**, over histories: if no stored session is approved at the start, then
whenever a device code is exchanged for tokens, some earlier approval request by
the very subject the tokens are for approved exactly this session, while it was
pending and unexpired. -/
theorem C34_approved_by_user {s : St} (hs : ∀ d ∈ s.heap, d.status ≠ .validated) {ls : List Label} {i : Nat}
    {q : TokenReq} {a : TokenResp} {dc : Str} (ha : Answered (run E s ls) i (.token (some q)) (.token a))
    (hg : q.grant = some (.deviceCode dc)) (ht : ReturnsToken a) :
    ∃ (l m : Nat) (el em : Entry) (v : DeviceValidationReq) (ref : Nat) (sess : DeviceSession) (now : Nat), l < m ∧
      (run E s ls).log[l]? = some el ∧ (run E s ls).log[m]? = some em ∧ em.tid = i ∧
      em.ev E = ⟨.dsGetDev q.issuer dc, .ok (some (ref, { sess with subject := some v.subject, status := .validated }))⟩ ∧
      el.cmd = .dsAssign ref { sess with subject := some v.subject, status := .validated } ∧
      Asked (run E s ls) el.tid (.deviceValidate (some v)) ∧
      ⟨.dsGetUser v.issuer v.userCode, .ok (some (ref, sess))⟩ ∈ callsOf E el.tid ((run E s ls).log.take l) ∧
      ⟨.now, now⟩ ∈ callsOf E el.tid ((run E s ls).log.take l) ∧
      sess.status = .authorizationPending ∧ seconds now ≤ sess.expiresAt ∧
      ∀ t, Returns a t → ∃ md, t.metadata = some md ∧ md.subject = v.subject := by
  obtain ⟨c, cl, ref, d, dreq, sub, now, _, _, h3, _, _, _, _, h8, h9, _, h11⟩ :=
    C34_device_tokens E q dc _ a hg ha.token ht
  obtain ⟨m, em, hm, g1, g2⟩ := mem_callsOf_iff.1 h3
  have hp := Entry.dsGetDev_ok g2
  obtain ⟨l, el, hlm, k1, k2, k3, -⟩ := Linked.made (P := fun st => st.heap[ref]? = some d)
    (by rintro a b ⟨x, rfl⟩; exact Iff.rfl) (fun h => hs d (List.mem_of_getElem? h) h8) (linked_run E s ls) hm hp
  unfold Entry.post at k3
  rcases exec_heap E el.cmd el.choice el.pre with h | ⟨i', uc, d', hc, h⟩ | ⟨ref', d', hc, h⟩
  · rw [h] at k3; exact absurd k3 k2
  · obtain ⟨q', cl', dc', _, _, rfl⟩ := entry_dsReg k1 hc
    rw [h] at k3
    rcases List.getElem?_append ▸ k3 with k3
    split at k3
    · exact absurd k3 k2
    · have := List.mem_of_getElem? k3
      simp at this
      rw [this] at h8; simp [Device.newSession] at h8
  · rw [h] at k3
    have hr : ref' = ref := by
      by_contra hne
      rw [List.getElem?_set_ne hne] at k3
      exact k2 k3
    subst hr
    have hd : d' = d := by
      have hlt := (List.getElem?_eq_some_iff.1 k3).1
      rw [List.length_set] at hlt
      rw [List.getElem?_set_self hlt] at k3
      simpa using k3
    subst hd
    obtain ⟨v, sess, now', f1, f2, f3, f4, rfl⟩ := entry_dsAssign k1 hc
    simp at h9; subst h9
    refine ⟨l, m, el, em, v, ref', sess, now', hlm, k1, hm, g1, g2, hc, f1, by rw [f2]; simp, by rw [f2]; simp, f3, f4, ?_⟩
    intro t ht
    obtain ⟨md, e1, _, e2, _⟩ := (h11 t ht).metadata
    exact ⟨md, e1, e2⟩

/-- **C35**, violated for every history: the shipped service stores device sessions
without status and expiry, so no approval ever succeeds and no device code is ever
exchanged for tokens, whatever happens. -/
theorem C35_never_completes {s : St} (hE : s.heap = []) (ls : List Label) :
    (∀ i v a, Answered (run E s ls) i (.deviceValidate (some v)) (.deviceValidate a) → a.goErr = true) ∧
    (∀ i q dc a, Answered (run E s ls) i (.token (some q)) (.token a) → q.grant = some (.deviceCode dc) →
      ¬ ReturnsToken a) := by
  have hu := (unapproved_run (E := E) hE ls).2
  constructor
  · intro i v a ha
    by_contra hne
    obtain ⟨ref, sess, now, h1, h2, h3⟩ := done_sound (deviceValidate_done v) ha.deviceValidate (by simpa using hne)
    simp only [List.nil_append] at h3
    have hmem : (⟨.dsGetUser v.issuer v.userCode, .ok (some (ref, sess))⟩ : Ev) ∈ callsOf E i (run E s ls).log := by
      rw [h3]; simp
    obtain ⟨m, em, hm, g1, g2⟩ := mem_callsOf_iff.1 hmem
    exact (hu m em hm sess (List.mem_of_getElem? (Entry.dsGetUser_ok g2).1)).1 h1
  · intro i q dc a ha hg ht
    obtain ⟨c, cl, ref, d, dreq, sub, now, _, _, h3, _, _, _, _, h8, _⟩ := C34_device_tokens E q dc _ a hg ha.token ht
    obtain ⟨m, em, hm, g1, g2⟩ := mem_callsOf_iff.1 h3
    exact (hu m em hm d (List.mem_of_getElem? (Entry.dsGetDev_ok g2))).2 h8

/-- A session as the flow would need it: pending, unexpired, found under the user code. -/
structure Pending (E : Env) (st : St) (iss uc dc : Str) (ref : Nat) (sess : DeviceSession) : Prop where
  indexed : ∃ x, st.userIdx (userKey E iss uc) = some (ref, x) ∧ st.clock ≤ x
  stored : st.heap[ref]? = some sess
  status : sess.status = .authorizationPending
  unexpired : seconds st.clock ≤ sess.expiresAt
  client : sess.client.isSome = true
  issuer : sess.issuer = iss
  code : sess.deviceCode = dc

/-- **C35**, the part that holds: if a session *were* stored pending and with an
expiry, then after any history an undisturbed approval by a user followed within two
minutes and before the session's expiry by the device's request yields an access
token for this user. (Missing: the service never stores such a session,
`C35_never_completes`.) -/
theorem C35_pending_completes_partial {s : St} {ls : List Label} {iss uc dc : Str} {ref : Nat} {sess : DeviceSession}
    {dreq : DeviceAuthzReq} (hP : Pending E (run E s ls).st iss uc dc ref sess) (hreq : sess.request = some dreq)
    (hiss : iss ≠ []) (hurl : E.parseRequestURI iss = true) (huc : uc ≠ []) (hdc : dc ≠ [])
    {cl : Client} (hcl : (run E s ls).st.clients cl.clientId = some cl) (hid : dreq.clientId = cl.clientId)
    (hgt : MemFold g!"urn:ietf:params:oauth:grant-type:device_code" cl.grantTypes)
    {sub : Str} (hsub : sub ≠ []) {d : Nat} (hd : d ≤ 120 * second)
    (hexp : seconds ((run E s ls).st.clock + d) ≤ sess.expiresAt)
    {q : TokenReq} (hq1 : q.issuer = iss) (hq2 : q.client = some cl)
    (hq3 : q.grantType = g!"urn:ietf:params:oauth:grant-type:device_code") (hq4 : q.grant = some (.deviceCode dc))
    {chs chs' : List Choice} (hu : Undisturbed chs) (hn : 5 ≤ chs.length) (hu' : Undisturbed chs') (hn' : 11 ≤ chs'.length)
    {n : Nat} (hlen : (run E s ls).threads.length = n) :
    ∃ a b t, Answered (run E s (ls ++ serve n (.deviceValidate (some ⟨iss, uc, sub⟩)) chs ++ [.tick d] ++
        serve (n + 1) (.token (some q)) chs')) n (.deviceValidate (some ⟨iss, uc, sub⟩)) (.deviceValidate a) ∧ a.goErr = false ∧
      Answered (run E s (ls ++ serve n (.deviceValidate (some ⟨iss, uc, sub⟩)) chs ++ [.tick d] ++
        serve (n + 1) (.token (some q)) chs')) (n + 1) (.token (some q)) (.token b) ∧
      Succeeds b ∧ b.accessToken = some t ∧
      Carries t iss sub cl.clientId (sess.scope.getD []) [] q.tokenConfirmation := by
  subst hlen
  subst hq1
  obtain ⟨⟨x, hx1, hx2⟩, h2, h3, h4, h5, h6, h7⟩ := hP
  have hlt := (List.getElem?_eq_some_iff.1 h2).1
  have good1 : Good E (fun a st => a = .deviceValidate {} ∧ st.clock = (run E s ls).st.clock ∧
      st.clients = (run E s ls).st.clients ∧
      st.heap[ref]? = some { sess with subject := some sub, status := .validated } ∧
      st.devIdx (devKey E q.issuer dc) = some (ref, (run E s ls).st.clock + 120 * second))
      (handle E (.deviceValidate (some ⟨q.issuer, uc, sub⟩))) 5 (run E s ls).st := by
    simp only [handle, Device.validate, hiss, huc, hsub, if_false, Prog.call, bind_op, bind_ret, pure_eq, Good, exec,
      faulty, hx1, live, hx2, if_true, deref, h2, Option.map_some, found, hreq, Option.isNone_some, Bool.false_eq_true]
    intro _ _
    have hc : sess.client.isNone = false := by cases hh : sess.client <;> simp_all
    simp only [hc, Bool.false_eq_true, if_false, Good, bind_op, exec]
    intro _ _
    have he : ¬ sess.expiresAt < Device.unix (run E s ls).st.clock := by
      have : Device.unix (run E s ls).st.clock = seconds (run E s ls).st.clock := rfl
      omega
    simp only [he, h3, ne_eq, not_true, if_false, Good, bind_op, bind_ret, exec, faulty]
    intro _ _ _ _ _ _
    simp [hlt, upd, h6, h7, hreq]
  obtain ⟨a, k1, ⟨rfl, k3, k4, k5, k6⟩, k7, k8⟩ := serve_good good1 hu hn
  generalize hc1 : ls ++ serve (run E s ls).threads.length (.deviceValidate (some ⟨q.issuer, uc, sub⟩)) chs = ls1 at *
  have ht := run_tick (E := E) s ls1 d
  have good2 : Good E (fun b _ => ∃ a t, b = .token a ∧ Succeeds a ∧ a.accessToken = some t ∧
      Carries t q.issuer sub cl.clientId (sess.scope.getD []) [] q.tokenConfirmation)
      (handle E (.token (some q))) 11 (run E s (ls1 ++ [.tick d])).st := by
    have hv : validateRequest (some q) = none := by
      simp [validateRequest, hiss, hq2, hq3, hq4, Oidc.grantAuthorizationCode, Oidc.grantClientCredentials,
        Oidc.grantDeviceCode]
    have hdisp : dispatch E (some cl) q = deviceCode E (some cl) q dc := by
      simp [dispatch, hq3, hq4, Oidc.grantClientCredentials, Oidc.grantAuthorizationCode, Oidc.grantDeviceCode]
    refine good_bind (m := 11) (n := 0) (f := fun b => Prog.ret (Resp.token b)) (good_token (n := 10) hv hq2
      (by rw [ht]; exact k4 ▸ hcl) (Φ := fun a _ => ∃ t, Succeeds a ∧ a.accessToken = some t ∧
        Carries t q.issuer sub cl.clientId (sess.scope.getD []) [] q.tokenConfirmation) ?_)
      (fun a s' ⟨t, g⟩ => ⟨a, t, rfl, g⟩)
    have hgt' : StringArray.contains cl.grantTypes Oidc.grantDeviceCode = true := (contains_iff _ _).2 hgt
    simp only [hdisp, deviceCode, hiss, hurl, hgt', hdc, if_false, not_true, Prog.call, bind_op, bind_ret, Good, exec,
      faulty, k6, live, k3, deref, k5, Option.map_some, found, Nat.add_le_add_iff_left, hd, if_true, hreq, ht]
    intro _ _
    have hc : sess.client.isNone = false := by cases hh : sess.client <;> simp_all
    simp only [hc, Bool.false_eq_true, if_false, hid, ne_eq, not_true, Good, exec]
    intro _ _
    have he : ¬ sess.expiresAt < Device.unix ((run E s ls).st.clock + d) := by
      have : Device.unix ((run E s ls).st.clock + d) = seconds ((run E s ls).st.clock + d) := rfl
      omega
    simp only [he, reduceCtorEq, if_false]
    refine good_mono (good_deviceTokens cl q sub sess.scope _) ?_
    rintro a s' ⟨g1, t, g2, g3⟩
    exact ⟨t, g1, g2, g3⟩
  obtain ⟨b, m1, ⟨a', t, rfl, m3, m4, m5⟩, m6, m7⟩ := serve_good good2 hu' hn'
  have hlen : (run E s (ls1 ++ [.tick d])).threads.length = (run E s ls).threads.length + 1 := by rw [ht]; exact k7
  rw [hlen] at m1
  exact ⟨{}, a', t, by rw [List.append_assoc]; exact k1.mono, rfl, m1, m3, m4, m5⟩

/-- **C36**: in a sequential history a session, once approved, never changes again:
neither its approving subject nor anything else. -/
theorem C36_approved_session_is_final {s : St} {ls : List Label} (hS : Sequential 0 ls) {m : Nat} {e : Entry}
    {ref : Nat} {d : DeviceSession} (hm : (run E s ls).log[m]? = some e) (hp : (e.post E).heap[ref]? = some d)
    (hd : d.status = .validated) :
    (run E s ls).st.heap[ref]? = some d ∧
    ∀ (n : Nat) (e' : Entry), m < n → (run E s ls).log[n]? = some e' → e'.pre.heap[ref]? = some d := by
  have hT : Timeless (fun st => st.heap[ref]? = some d) := by rintro a b ⟨x, rfl⟩; exact Iff.rfl
  constructor
  · exact (linked_run E s ls).keepEnd hT hm hp fun k e' hk he' h => approved_fixed hS hd he' h
  · intro n e' hmn hn
    exact (linked_run E s ls).keepBetween hT hm hn hmn hp fun k e' hk _ he' h => approved_fixed hS hd he' h

/-- **C36**: in a sequential history no session is approved twice, whatever the
answers of the two requests are: two different approvals are of different sessions. -/
theorem C36_approved_once {s : St} {ls : List Label} (hS : Sequential 0 ls) {m m' : Nat} {e e' : Entry}
    {ref ref' : Nat} {d d' : DeviceSession} (hm : (run E s ls).log[m]? = some e)
    (hm' : (run E s ls).log[m']? = some e') (hc : e.cmd = .dsAssign ref d) (hc' : e'.cmd = .dsAssign ref' d')
    (hne : m ≠ m') : ref ≠ ref' := by
  wlog hlt : m < m' generalizing m m' e e' ref ref' d d'
  · exact (this hm' hm hc' hc hne.symm (by omega)).symm
  rintro rfl
  obtain ⟨x, h1, _, h3⟩ := assign_pending hS hm hc
  obtain ⟨x', h1', h2', _⟩ := assign_pending hS hm' hc'
  have hpost : (e.post E).heap[ref]? = some d := by
    have hl := (List.getElem?_eq_some_iff.1 h1).1
    obtain ⟨tid, cmd, ch, pre⟩ := e
    simp only at hc; subst hc
    simp only at hl
    simp [Entry.post, exec, hl]
  have := (C36_approved_session_is_final hS hm hpost h3).2 m' e' hlt hm'
  rw [this] at h1'
  simp at h1'; subst h1'
  rw [h3] at h2'; simp at h2'

/-- **C36** for answers: two different approval requests that are both answered
successfully approved different sessions. -/
theorem C36_answers {s : St} {ls : List Label} (hS : Sequential 0 ls) {i j : Nat} {v v' : DeviceValidationReq}
    {a a' : DeviceValidationResp} (hi : Answered (run E s ls) i (.deviceValidate (some v)) (.deviceValidate a))
    (hj : Answered (run E s ls) j (.deviceValidate (some v')) (.deviceValidate a')) (ha : a.goErr = false)
    (ha' : a'.goErr = false) (hij : i ≠ j) :
    ∃ ref ref' sess sess', ref ≠ ref' ∧
      ⟨.dsGetUser v.issuer v.userCode, .ok (some (ref, sess))⟩ ∈ callsOf E i (run E s ls).log ∧
      ⟨.dsGetUser v'.issuer v'.userCode, .ok (some (ref', sess'))⟩ ∈ callsOf E j (run E s ls).log := by
  obtain ⟨ref, sess, now, _, _, h3⟩ := done_sound (deviceValidate_done v) hi.deviceValidate ha
  obtain ⟨ref', sess', now', _, _, h3'⟩ := done_sound (deviceValidate_done v') hj.deviceValidate ha'
  simp only [List.nil_append] at h3 h3'
  refine ⟨ref, ref', sess, sess', ?_, by rw [h3]; simp, by rw [h3']; simp⟩
  have k : (⟨.dsAssign ref { sess with subject := some v.subject, status := .validated }, ()⟩ : Ev) ∈
      callsOf E i (run E s ls).log := by rw [h3]; simp
  have k' : (⟨.dsAssign ref' { sess' with subject := some v'.subject, status := .validated }, ()⟩ : Ev) ∈
      callsOf E j (run E s ls).log := by rw [h3']; simp
  obtain ⟨m, e, hm, g1, g2⟩ := mem_callsOf_iff.1 k
  obtain ⟨m', e', hm', g1', g2'⟩ := mem_callsOf_iff.1 k'
  refine C36_approved_once hS hm hm' (congrArg Sigma.fst g2) (congrArg Sigma.fst g2') ?_
  rintro rfl
  rw [hm] at hm'; simp at hm'; subst hm'
  omega

/-! ### Witnesses -/

/-- A pending session as the flow would need it. -/
def demoSession : DeviceSession :=
  { client := some Demo.client, issuer := Demo.issuer, expiresAt := 200
    request := some ⟨Demo.issuer, g!"app", some g!"openid", none⟩, status := .authorizationPending
    deviceCode := g!"dc", scope := some g!"openid" }

/-- The example stores with this session. -/
def pendingStore : St :=
  { Demo.store with
    heap := [demoSession]
    userIdx := upd (fun _ => none) (userKey Demo.env Demo.issuer g!"uc") (some (0, 150 * second))
    devIdx := upd (fun _ => none) (devKey Demo.env Demo.issuer g!"dc") (some (0, 150 * second)) }

def approve (u : Str) : Req := .deviceValidate (some ⟨Demo.issuer, g!"uc", u⟩)

def deviceRedeem : Req :=
  Demo.tokenReq g!"urn:ietf:params:oauth:grant-type:device_code" (.deviceCode g!"dc")

/-- Approval, then the device code is exchanged twice. -/
def redeemTwice : List Label :=
  .arrive (approve g!"alice") :: Demo.calls 0 [[], [], [], [], []] ++
  .arrive deviceRedeem :: Demo.calls 1 [[], [], [], [], g!"id1", g!"at1", []] ++
  .arrive deviceRedeem :: Demo.calls 2 [[], [], [], [], g!"id2", g!"at2", []]

/-- Two approvals of one session in lockstep. -/
def approveTwice : List Label :=
  [.arrive (approve g!"alice"), .arrive (approve g!"bob"), .run 0 {}, .run 1 {}, .run 0 {}, .run 1 {}, .run 0 {},
   .run 1 {}, .run 0 {}, .run 1 {}, .run 0 {}, .run 1 {}]

/-- The answer to approval request number `i`. -/
def approval (c : Conf) (i : Nat) : Option (Req × DeviceValidationResp) :=
  match c.threads[i]? with
  | some ⟨r, .ret (.deviceValidate a)⟩ => some (r, a)
  | _ => none

theorem approval_some {c : Conf} {i : Nat} {r : Req}
    (h : (approval c i).any (fun x => decide (x.1 = r ∧ x.2.goErr = false)) = true) :
    ∃ a, Answered c i r (.deviceValidate a) ∧ a.goErr = false := by
  unfold approval at h
  split at h
  · rename_i r' a heq
    simp at h
    obtain ⟨rfl, h2⟩ := h
    exact ⟨a, ⟨_, heq, rfl, rfl⟩, h2⟩
  · simp at h

/-- **C36** fails for overlapping approvals: two users approve the same session, both
are told so, and the session ends up with the second user. -/
theorem C36_violated_concurrently : ∃ (E : Env) (s : St) (ls : List Label) (v v' : DeviceValidationReq)
    (a a' : DeviceValidationResp), v.userCode = v'.userCode ∧ v.issuer = v'.issuer ∧ v.subject ≠ v'.subject ∧
      s.heap.length = 1 ∧ (run E s ls).st.heap.length = 1 ∧
      Answered (run E s ls) 0 (.deviceValidate (some v)) (.deviceValidate a) ∧ a.goErr = false ∧
      Answered (run E s ls) 1 (.deviceValidate (some v')) (.deviceValidate a') ∧ a'.goErr = false := by
  obtain ⟨a, h1, h2⟩ := approval_some (c := run Demo.env pendingStore approveTwice) (i := 0) (r := approve g!"alice")
    (by decide +kernel)
  obtain ⟨a', h1', h2'⟩ := approval_some (c := run Demo.env pendingStore approveTwice) (i := 1) (r := approve g!"bob")
    (by decide +kernel)
  exact ⟨_, _, _, ⟨Demo.issuer, g!"uc", g!"alice"⟩, ⟨Demo.issuer, g!"uc", g!"bob"⟩, a, a', rfl, rfl, by decide, rfl, by decide +kernel, h1, h2, h1', h2'⟩

/-- **C37** is violated, even sequentially and without failures: from a store with a
pending session, one approval lets the device exchange the same device code twice. -/
theorem C37_violated : ∃ (E : Env) (s : St) (ls : List Label), Sequential 0 ls ∧
    (∀ d ∈ s.heap, d.status ≠ .validated) ∧ ∃ i j q q' a a' dc, i ≠ j ∧
      Answered (run E s ls) i (.token (some q)) (.token a) ∧ q.grant = some (.deviceCode dc) ∧ ReturnsToken a ∧
      Answered (run E s ls) j (.token (some q')) (.token a') ∧ q'.grant = some (.deviceCode dc) ∧ ReturnsToken a' := by
  refine ⟨Demo.env, pendingStore, redeemTwice, by simp [redeemTwice, Demo.calls, Sequential],
    by simp [pendingStore, demoSession], 1, 2, ?_⟩
  obtain ⟨q, a, h1, h2, h3⟩ := tokenAnswer_ex (c := run Demo.env pendingStore redeemTwice) (i := 1)
    (fun q a => q.grant = some (.deviceCode g!"dc") ∧ ReturnsToken a) (by decide +kernel)
  obtain ⟨q', a', h1', h2', h3'⟩ := tokenAnswer_ex (c := run Demo.env pendingStore redeemTwice) (i := 2)
    (fun q a => q.grant = some (.deviceCode g!"dc") ∧ ReturnsToken a) (by decide +kernel)
  exact ⟨q, q', a, a', g!"dc", by decide, h1, h2, h3, h1', h2', h3'⟩

/-- The same stores, the device having asked for an audience and for offline access. -/
def audienceStore : St :=
  { pendingStore with
    heap := [{ demoSession with
      request := some ⟨Demo.issuer, g!"app", some g!"openid offline_access", some g!"https://api"⟩
      scope := some g!"openid offline_access", audience := some g!"https://api" }] }

def redeemOnce : List Label :=
  .arrive (approve g!"alice") :: Demo.calls 0 [[], [], [], [], []] ++
  .arrive deviceRedeem :: Demo.calls 1 [[], [], [], [], g!"id1", g!"at1", [], [], g!"id2", g!"rt1", [], []]

/-- **C34_audience_violated.** The audience that the device asked for does not reach the tokens: no token for a device
code has one, in any history, and there is a history in which the session has one and the device gets tokens. -/
theorem C34_audience_violated :
    (∀ (E : Env) (s : St) (ls : List Label) i q dc a, Answered (run E s ls) i (.token (some q)) (.token a) →
      q.grant = some (.deviceCode dc) → ∀ t, Returns a t → ∃ md, t.metadata = some md ∧ md.audience = []) ∧
    ∃ (E : Env) (s : St) (ls : List Label) (i : Nat) (q : TokenReq) (dc : Str) (a : TokenResp),
      (∀ d ∈ s.heap, d.audience = some g!"https://api" ∧ d.request.map (·.audience) = some (some g!"https://api")) ∧
      Answered (run E s ls) i (.token (some q)) (.token a) ∧ q.grant = some (.deviceCode dc) ∧ ReturnsToken a := by
  constructor
  · intro E s ls i q dc a ha hg t ht
    have hr : ReturnsToken a := by
      rcases ht with h | h
      · left; rw [h]; rfl
      · right; rw [h]; rfl
    obtain ⟨_, _, _, _, _, _, _, _, _, _, _, _, _, _, _, _, _, h⟩ := C34_device_tokens E q dc _ a hg ha.token hr
    obtain ⟨md, h1, _, _, _, _, h2⟩ := (h t ht).metadata
    exact ⟨md, h1, h2⟩
  · obtain ⟨q, a, h1, h2, h3⟩ := tokenAnswer_ex (c := run Demo.env audienceStore redeemOnce) (i := 1)
      (fun q a => q.grant = some (.deviceCode g!"dc") ∧ ReturnsToken a) (by decide +kernel)
    exact ⟨Demo.env, audienceStore, redeemOnce, 1, q, g!"dc", a, by simp [audienceStore], h1, h2, h3⟩

/-- **C37**, the part that holds: a device code yields tokens only within two minutes
after the call that last registered or approved a session under its key (or while the
initial entry is readable), so it cannot be exchanged for ever. Missing: within this
window it can be exchanged repeatedly (`C37_violated`). -/
theorem C37_window_partial {s : St} {ls : List Label} {i : Nat} {q : TokenReq} {a : TokenResp} {dc : Str}
    (ha : Answered (run E s ls) i (.token (some q)) (.token a)) (hg : q.grant = some (.deviceCode dc))
    (ht : ReturnsToken a) :
    ∃ (m : Nat) (em : Entry), (run E s ls).log[m]? = some em ∧ em.tid = i ∧ em.cmd = .dsGetDev q.issuer dc ∧
      ((∃ ref x, s.devIdx (devKey E q.issuer dc) = some (ref, x) ∧ em.time ≤ x) ∨
       ∃ (l : Nat) (el : Entry) (iss uc : Str) (ref : Nat) (d : DeviceSession), l < m ∧ (run E s ls).log[l]? = some el ∧
         (el.cmd = .dsReg iss uc d ∨ el.cmd = .dsValidate iss uc ref d) ∧
         devKey E d.issuer d.deviceCode = devKey E q.issuer dc ∧ em.time ≤ el.time + 120 * second) := by
  obtain ⟨c, cl, ref, d, dreq, sub, now, _, _, h3, _⟩ := C34_device_tokens E q dc _ a hg ha.token ht
  obtain ⟨m, em, hm, g1, g2⟩ := mem_callsOf_iff.1 h3
  obtain ⟨x, k1, k2⟩ := Entry.dsGetDev_live g2
  refine ⟨m, em, hm, g1, congrArg Sigma.fst g2, ?_⟩
  by_cases h0 : s.devIdx (devKey E q.issuer dc) = some (ref, x)
  · exact .inl ⟨ref, x, h0, k2⟩
  · obtain ⟨l, el, hlm, f1, f2, f3, -⟩ := Linked.made
      (P := fun st => st.devIdx (devKey E q.issuer dc) = some (ref, x))
      (by rintro a b ⟨x, rfl⟩; exact Iff.rfl) h0 (linked_run E s ls) hm k1
    right
    unfold Entry.post at f3
    rcases exec_devIdx E el.cmd el.choice el.pre with h | ⟨uc, ref', d', hc, h⟩
    · rw [h] at f3; exact absurd f3 f2
    · rw [h] at f3
      unfold upd at f3
      split at f3
      · rename_i hk
        simp at f3
        have ht : em.time ≤ el.time + 120 * second := by
          unfold Entry.time at *; omega
        rcases hc with ⟨iss, hc⟩ | ⟨iss, hc⟩
        · exact ⟨l, el, iss, uc, ref', d', hlm, f1, .inl hc, hk.symm, ht⟩
        · exact ⟨l, el, iss, uc, ref', d', hlm, f1, .inr hc, hk.symm, ht⟩
      · exact absurd f3 f2

/-- C34, C36: the history `redeemTwice` meets the hypotheses. -/
example : Sequential 0 redeemTwice ∧ (∀ d ∈ pendingStore.heap, d.status ≠ .validated) ∧
    (∃ q a, Answered (run Demo.env pendingStore redeemTwice) 1 (.token (some q)) (.token a) ∧
      q.grant = some (.deviceCode g!"dc") ∧ ReturnsToken a) ∧
    (∃ a, Answered (run Demo.env pendingStore redeemTwice) 0 (approve g!"alice") (.deviceValidate a) ∧ a.goErr = false) :=
  ⟨by simp [redeemTwice, Demo.calls, Sequential], by simp [pendingStore, demoSession],
    tokenAnswer_ex (fun q a => q.grant = some (.deviceCode g!"dc") ∧ ReturnsToken a) (by decide +kernel),
    approval_some (by decide +kernel)⟩

/-- C35: these stores meet all hypotheses of the partial theorem. -/
example : ∃ b t, Answered (run Demo.env pendingStore ([] ++ serve 0 (approve g!"alice") (List.replicate 5 { str := [97] }) ++
      [.tick (30 * second)] ++ serve 1 deviceRedeem (List.replicate 11 { str := [97] }))) 1 deviceRedeem (.token b) ∧
    b.accessToken = some t ∧ Carries t Demo.issuer g!"alice" g!"app" g!"openid" [] none := by
  obtain ⟨_, b, t, _, _, h1, _, h2, h3⟩ := C35_pending_completes_partial (E := Demo.env) (s := pendingStore) (ls := [])
    (iss := Demo.issuer) (uc := g!"uc") (dc := g!"dc") (ref := 0) (sess := demoSession) (cl := Demo.client)
    (sub := g!"alice") (d := 30 * second) (chs := List.replicate 5 { str := [97] })
    (chs' := List.replicate 11 { str := [97] }) (n := 0)
    (q := ⟨Demo.issuer, some Demo.client, g!"urn:ietf:params:oauth:grant-type:device_code", none, none, none,
      some (.deviceCode g!"dc")⟩)
    ⟨⟨150 * second, by decide +kernel, by decide +kernel⟩, rfl, rfl, by decide +kernel, rfl, rfl, rfl⟩ rfl
    (by decide) (by decide) (by decide) (by decide) (by decide +kernel) rfl ((contains_iff _ _).1 (by decide +kernel))
    (by decide) (by decide +kernel) (by decide +kernel) rfl rfl rfl rfl (by simp [Undisturbed]) (by simp)
    (by simp [Undisturbed]) (by simp) rfl
  exact ⟨b, t, h1, h2, h3⟩

/-- C35: a history with the shipped service in which the approval is refused. -/
def refusedRun : List Label :=
  .arrive (.deviceAuthorize (some ⟨Demo.issuer, g!"app", none, none⟩)) :: Demo.calls 0 [[], g!"dc", g!"uc", []] ++
  .arrive (approve g!"alice") :: Demo.calls 1 [[], []]

example : Demo.store.heap = [] ∧ (run Demo.env Demo.store refusedRun).st.heap.length = 1 ∧
    (approval (run Demo.env Demo.store refusedRun) 1).any (fun x => x.2.goErr) = true := by
  refine ⟨rfl, ?_, ?_⟩ <;> decide +kernel

end Verif.Props
