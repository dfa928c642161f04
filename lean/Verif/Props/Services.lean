import Verif.Props.Tokens
import Verif.Props.Device
import Verif.Props.TokenGen

/-!
C32 (introspection service), C70 (device authorization) and C71 (who can revoke).
-/
namespace Verif.Props
open Verif.Prog Verif.Spec Verif.Store Verif.TokenSvc
variable {E : Env}

/-! ### C32: the introspection service -/

/-- **C32** (the service). An introspection that does not fail was asked for a
non-empty token by a client that the store knows; it reports exactly what the store
returned for the presented value under the issuer of the request, and an unknown
token is reported as unknown, without claims and key binding. -/
theorem C32_service (E : Env) (q : TokenRefReq) (tr : List Ev) (a : IntrospectResp)
    (h : Exec (introspect E (some q)) tr (.done a)) (hok : a.goErr = false) :
    a.error = none ∧ q.issuer ≠ [] ∧ q.token ≠ [] ∧ ∃ c cl, q.client = some c ∧
      ((∃ t, tr = [⟨.clientsGet c.clientId, .ok cl⟩, ⟨.tkGetVal q.issuer q.token, .ok t⟩] ∧ a.token = t) ∨
       (∃ t, tr = [⟨.clientsGet c.clientId, .ok cl⟩, ⟨.tkGetVal q.issuer q.token, .error .notFound⟩] ∧
        a.token = some t ∧ t.status = .unknown ∧ t.value = q.token ∧ t.issuer = q.issuer ∧ t.tokenId = [] ∧
        t.metadata = none ∧ t.confirmation = none)) := by
  suffices hd : Done (fun acc a => a.goErr = false → a.error = none ∧ q.issuer ≠ [] ∧ q.token ≠ [] ∧
      ∃ c cl, q.client = some c ∧
      ((∃ t, acc = [⟨.clientsGet c.clientId, .ok cl⟩, ⟨.tkGetVal q.issuer q.token, .ok t⟩] ∧ a.token = t) ∨
       (∃ t, acc = [⟨.clientsGet c.clientId, .ok cl⟩, ⟨.tkGetVal q.issuer q.token, .error .notFound⟩] ∧
        a.token = some t ∧ t.status = .unknown ∧ t.value = q.token ∧ t.issuer = q.issuer ∧ t.tokenId = [] ∧
        t.metadata = none ∧ t.confirmation = none))) (introspect E (some q)) [] by
    exact done_sound hd h hok
  unfold introspect
  simp only
  split
  · simp [Done]
  rename_i h1
  split
  · simp [Done]
  split
  · simp [Done]
  rename_i c hc
  split
  · simp [Done]
  rename_i h2
  simp only [Prog.call, bind_op, bind_ret, pure_eq, Done]
  rintro ((_ | _) | cl)
  · exact nofun
  · exact nofun
  rintro ((_ | _) | x) <;> simp only [Done]
  · exact fun _ => ⟨by trivial, h1, h2, c, cl, hc, .inr ⟨_, rfl, rfl, rfl, rfl, rfl, rfl, rfl, rfl⟩⟩
  · exact nofun
  · exact fun _ => ⟨by trivial, h1, h2, c, cl, hc, .inl ⟨_, rfl, rfl⟩⟩

/-- An unknown token is reported as such. -/
example : ∃ tr a, Exec (introspect Demo.env (some (Demo.refReq g!"nope"))) tr (.done a) ∧ a.goErr = false ∧
    ∃ t, a.token = some t ∧ t.status = .unknown := by
  obtain ⟨tr, a, h1, h2⟩ := oracle_ex (fun | .tkGetVal .. => .error .notFound | c => Demo.answers c)
    (introspect Demo.env (some (Demo.refReq g!"nope")))
    (fun a => a.goErr = false ∧ a.token = some { issuer := Demo.issuer, value := g!"nope", status := .unknown })
    (by decide)
  exact ⟨tr, a, h1, h2.1, _, h2.2, rfl⟩

/-! ### C70: device authorization -/

/-- **C70** (the answer). A device authorization that does not fail was asked under a
non-empty issuer with a client id; the client of that id is known and registered for
the device grant; the only thing stored is one session, under the issuer of the
request and the announced user code, holding this client, this request with its scope
and audience and the announced device code, not approved and without subject; the
announced lifetime is the one of the store and the polling interval is five seconds. -/
theorem C70_device_authorization (q : DeviceAuthzReq) (tr : List Ev) (a : DeviceAuthzResp)
    (h : Exec (Device.authorize (some q)) tr (.done a)) (hok : a.goErr = false) :
    a.error = none ∧ q.issuer ≠ [] ∧ q.clientId ≠ [] ∧ a.issuer = q.issuer ∧ a.interval = 5 ∧
    ∃ client d, MemFold g!"urn:ietf:params:oauth:grant-type:device_code" client.grantTypes ∧
      tr = [⟨.clientsGet q.clientId, .ok (some client)⟩, ⟨.genDev q.issuer, .ok a.deviceCode⟩,
        ⟨.genUser q.issuer, .ok a.userCode⟩, ⟨.dsReg q.issuer a.userCode d, .ok a.expiresIn⟩] ∧
      d.issuer = q.issuer ∧ d.client = some client ∧ d.request = some q ∧ d.scope = q.scope ∧
      d.audience = q.audience ∧ d.deviceCode = a.deviceCode ∧ d.subject = none ∧ d.status ≠ .validated := by
  suffices hd : Done (fun acc a => a.goErr = false → a.error = none ∧ q.issuer ≠ [] ∧ q.clientId ≠ [] ∧
    a.issuer = q.issuer ∧ a.interval = 5 ∧
    ∃ client d, MemFold g!"urn:ietf:params:oauth:grant-type:device_code" client.grantTypes ∧
      acc = [⟨.clientsGet q.clientId, .ok (some client)⟩, ⟨.genDev q.issuer, .ok a.deviceCode⟩,
        ⟨.genUser q.issuer, .ok a.userCode⟩, ⟨.dsReg q.issuer a.userCode d, .ok a.expiresIn⟩] ∧
      d.issuer = q.issuer ∧ d.client = some client ∧ d.request = some q ∧ d.scope = q.scope ∧
      d.audience = q.audience ∧ d.deviceCode = a.deviceCode ∧ d.subject = none ∧ d.status ≠ .validated)
      (Device.authorize (some q)) [] by
    exact done_sound hd h hok
  unfold Device.authorize
  simp only
  split; · exact nofun
  rename_i h1
  split; · exact nofun
  rename_i h2
  simp only [Prog.call, bind_op, bind_ret, pure_eq, Done]
  rintro (_ | (_ | c)); · exact nofun
  · exact nofun
  simp only
  split; · exact nofun
  rename_i h3
  rintro (_ | dc); · exact nofun
  rintro (_ | uc); · exact nofun
  rintro (_ | n); · exact nofun
  exact fun _ => ⟨rfl, h1, h2, rfl, rfl, c, _, memFold_of h3, rfl, rfl, rfl, rfl, rfl, rfl, rfl, rfl,
    by simp [Device.newSession]⟩

/-- **C70** (everything stored). In every history, however requests interleave and
whatever fails, a device session is handed to the store only while serving a device
authorization request, under its issuer, after the store returned the client named by
the request and this client is registered for the device grant. -/
theorem C70_sessions_registered {s : St} {ls : List Label} {n : Nat} {e : Entry}
    (h : (run E s ls).log[n]? = some e) {i uc : Str} {d : DeviceSession} (hc : e.cmd = .dsReg i uc d) :
    ∃ q client, Asked (run E s ls) e.tid (.deviceAuthorize (some q)) ∧ i = q.issuer ∧ i ≠ [] ∧ q.clientId ≠ [] ∧
      ⟨.clientsGet q.clientId, .ok (some client)⟩ ∈ callsOf E e.tid ((run E s ls).log.take n) ∧
      ⟨.genUser i, .ok uc⟩ ∈ callsOf E e.tid ((run E s ls).log.take n) ∧
      ⟨.genDev i, .ok d.deviceCode⟩ ∈ callsOf E e.tid ((run E s ls).log.take n) ∧
      MemFold g!"urn:ietf:params:oauth:grant-type:device_code" client.grantTypes ∧
      d.issuer = i ∧ d.client = some client ∧ d.request = some q ∧ d.subject = none ∧ d.status ≠ .validated := by
  obtain ⟨r, hr, hf⟩ := entry_foot h
  rw [hc] at hf
  cases r <;> simp [reqCmds, registerCmds, authorizeCmds, deviceValidateCmds, tokenCmds, introspectCmds,
    revokeCmds, dpopCmds] at hf
  rename_i r
  have hcalls : Calls (fun acc c => ∀ i uc d, c = .dsReg i uc d → ∃ q client, r = some q ∧ i = q.issuer ∧ i ≠ [] ∧
      q.clientId ≠ [] ∧ ⟨.clientsGet q.clientId, .ok (some client)⟩ ∈ acc ∧ ⟨.genUser i, .ok uc⟩ ∈ acc ∧
      ⟨.genDev i, .ok d.deviceCode⟩ ∈ acc ∧
      MemFold g!"urn:ietf:params:oauth:grant-type:device_code" client.grantTypes ∧
      d.issuer = i ∧ d.client = some client ∧ d.request = some q ∧ d.subject = none ∧ d.status ≠ .validated)
      (Device.authorize r) [] := by
    unfold Device.authorize
    cases r with
    | none => trivial
    | some q =>
      simp only
      split; · trivial
      rename_i h1
      split; · trivial
      rename_i h2
      simp only [Prog.call, bind_op, bind_ret, pure_eq, Calls]
      refine ⟨by intro i uc d h; simp at h, ?_⟩
      rintro (_ | (_ | cl))
      · trivial
      · trivial
      simp only
      split; · trivial
      rename_i h3
      refine ⟨by intro i uc d h; simp at h, ?_⟩
      rintro (_ | dc); · trivial
      refine ⟨by intro i uc d h; simp at h, ?_⟩
      rintro (_ | uc); · trivial
      refine ⟨?_, ?_⟩
      · intro i uc' d h
        simp only [Cmd.dsReg.injEq] at h
        obtain ⟨rfl, rfl, rfl⟩ := h
        exact ⟨q, cl, rfl, rfl, h1, h2, by simp, by simp, by simp [Device.newSession], memFold_of h3, rfl, rfl, rfl,
          rfl, by simp [Device.newSession]⟩
      · rintro (_ | n) <;> trivial
  obtain ⟨q, client, h1, h2⟩ := entry_calls h hr (calls_map hcalls) i uc d hc
  subst h1
  exact ⟨q, client, hr, h2⟩

/-- A device authorization of a registered client. -/
example : ∃ tr a, Exec (Device.authorize (some { issuer := Demo.issuer, clientId := g!"app" })) tr (.done a) ∧
    a.goErr = false ∧ a.userCode ≠ [] :=
  oracle_ex Demo.answers _ (fun a : DeviceAuthzResp => a.goErr = false ∧ a.userCode ≠ []) (by decide)

/-- A client registered for other grants is refused. -/
example : ∃ tr a, Exec (Device.authorize (some { issuer := Demo.issuer, clientId := g!"app" })) tr (.done a) ∧
    a.goErr = true ∧ a.error = some ⟨.unsupportedGrantType, none⟩ :=
  oracle_ex (fun | .clientsGet _ => .ok (some { Demo.client with grantTypes := [] }) | c => Demo.answers c) _
    (fun a : DeviceAuthzResp => a.goErr = true ∧ a.error = some ⟨.unsupportedGrantType, none⟩) (by decide)

/-! ### C71: who can revoke a token -/

/-- The calls of the revocation service: the only token revoked is the one found under
the presented value. -/
theorem revokeService_calls (E : Env) (r : Option TokenRefReq) :
    Calls (fun acc c => ∀ i id, c = .tkRevoke i id → ∃ q c0 cl x, r = some q ∧ q.client = some c0 ∧ i = q.issuer ∧
      ⟨.clientsGet c0.clientId, .ok cl⟩ ∈ acc ∧ ⟨.tkGetVal q.issuer q.token, .ok (some x)⟩ ∈ acc ∧ x.tokenId = id)
      (TokenSvc.revoke E r) [] := by
  unfold TokenSvc.revoke
  cases r with
  | none => trivial
  | some q =>
    simp only
    split; · trivial
    split; · trivial
    split; · trivial
    rename_i c hc
    split; · trivial
    simp only [Prog.call, bind_op, bind_ret, pure_eq, Calls]
    refine ⟨nofun, ?_⟩
    rintro ((_ | _) | cl); · trivial
    · trivial
    refine ⟨nofun, ?_⟩
    rintro (_ | (_ | x)); · trivial
    · trivial
    refine ⟨?_, ?_⟩
    · intro i id h
      simp only [Cmd.tkRevoke.injEq] at h
      obtain ⟨rfl, rfl⟩ := h
      exact ⟨q, c, cl, x, rfl, hc, rfl, by simp, by simp, rfl⟩
    · rintro (_ | _) <;> trivial

theorem mints_active {q : TokenReq} {cl : Client} {tr : List Ev} {i : Str} {t : Token} (h : Mints E q cl tr i t) :
    t.status = .active := by
  have hat : ∀ {md cnf}, ATAt tr cl md cnf t → t.status = .active := by rintro md cnf ⟨_, _, _, _, _, rfl⟩; rfl
  have hrt : ∀ {md cnf}, RTAt tr cl md cnf t → t.status = .active := by rintro md cnf ⟨_, _, _, _, _, rfl⟩; rfl
  cases h with
  | code _ _ _ _ _ _ _ _ _ _ _ ht => exact ht.elim hat fun h => hrt h.2
  | cc _ _ _ _ ht => exact hat ht
  | device _ _ _ _ _ _ _ _ _ _ _ _ _ _ _ _ ht => exact ht.elim hat fun h => hrt h.2
  | refresh _ _ _ _ _ _ _ _ _ _ _ _ _ _ ht => exact ht.elim hat hrt
  | exchange => rfl

/-- **C71**, the part that holds: a stored token is revoked only because a client known
to the store presented the value of a token with this id to the revocation endpoint, or
because the client a refresh token was issued to refreshed it. Missing: the revocation
endpoint does not compare that client with the owner of the token, see
`C71_violated`. -/
theorem C71_revoked_by_holder_partial {s : St} {ls : List Label} (hE : Empty s) {k : Str} {x : Token}
    (hx : (run E s ls).st.tokVal k = some x) (hr : x.status = .revoked) :
    ∃ (n : Nat) (e : Entry) (i : Str), (run E s ls).log[n]? = some e ∧ e.cmd = .tkRevoke i x.tokenId ∧
      ((∃ q c0 cl y, Asked (run E s ls) e.tid (.revoke (some q)) ∧ q.client = some c0 ∧ i = q.issuer ∧
        ⟨.clientsGet c0.clientId, .ok cl⟩ ∈ callsOf E e.tid ((run E s ls).log.take n) ∧
        ⟨.tkGetVal q.issuer q.token, .ok (some y)⟩ ∈ callsOf E e.tid ((run E s ls).log.take n) ∧
        y.tokenId = x.tokenId) ∨
       (∃ q v rt md c0 cl, Asked (run E s ls) e.tid (.token (some q)) ∧ q.grant = some (.refreshToken v) ∧
        q.client = some c0 ∧ ⟨.clientsGet c0.clientId, .ok (some cl)⟩ ∈ callsOf E e.tid ((run E s ls).log.take n) ∧
        ⟨.tkGetVal q.issuer v, .ok (some rt)⟩ ∈ callsOf E e.tid ((run E s ls).log.take n) ∧
        rt.tokenId = x.tokenId ∧ rt.tokenType = .refreshToken ∧ rt.metadata = some md ∧
        md.clientId = cl.clientId)) := by
  obtain ⟨l1, e, l2, hl, h1, h2, -⟩ := Linked.last (P := fun st => st.tokVal k = some x)
    (by rintro a b ⟨d, rfl⟩; exact Iff.rfl) (by rw [hE.tokVal]; simp) (linked_run E s ls) hx
  have hn : (run E s ls).log[l1.length]? = some e := by rw [hl]; simp
  have hinv := ((tokInv_run (E := E) hE ls).2 _ e hn)
  have hrev : ∃ i, e.cmd = .tkRevoke i x.tokenId := by
    unfold Entry.post at h2
    rcases exec_tokens E e.cmd e.choice e.pre with ⟨_, b⟩ | ⟨i, t, hc, hp⟩ | ⟨i, id, t, hc, hid, hp⟩
    · rw [b] at h2; exact absurd h2 h1
    · rw [hp] at h2
      simp only [create, upd] at h2
      split at h2
      · obtain ⟨q, c0, cl, _, _, _, hm⟩ := entry_tkCreate hn hc
        simp only [Option.some.injEq] at h2
        subst h2
        have := mints_active hm
        simp only at hr
        rw [this] at hr
        cases hr
      · exact absurd h2 h1
    · rw [hp] at h2
      simp only [Store.revoke, hid, upd] at h2
      split at h2
      · simp only [Option.some.injEq] at h2
        subst h2
        exact ⟨i, by rw [hc]; simp only [(hinv.2 id t hid).1]⟩
      · exact absurd h2 h1
  obtain ⟨i, hc⟩ := hrev
  refine ⟨l1.length, e, i, hn, hc, ?_⟩
  obtain ⟨r, hr', hf⟩ := entry_foot hn
  rw [hc] at hf
  cases r <;> simp [reqCmds, registerCmds, authorizeCmds, deviceAuthorizeCmds, deviceValidateCmds, introspectCmds,
    dpopCmds] at hf
  · rename_i r
    obtain ⟨q, v, rt, new, md, c0, cl, g1, g2, g3, g4, g5, g6, g7, g8, g9, g10, g11, _⟩ :=
      (entry_calls hn hr' (calls_map (TokenSvc.token_calls E r))).revoke i _ hc
    subst g1
    exact .inr ⟨q, v, rt, md, c0, cl, hr', g2, g9, g10, g4, g5.symm, g7, g8, g11⟩
  · rename_i r
    obtain ⟨q, c0, cl, y, g1, g2, g3, g4, g5, g6⟩ := entry_calls hn hr' (calls_map (revokeService_calls E r)) i _ hc
    subst g1
    exact .inl ⟨q, c0, cl, y, hr', g2, g3, g4, g5, g6⟩

/-- The tokens of client `app`, and a revocation of its access token by client `other`. -/
def foreignRevoke : List Label :=
  Demo.happy ++ .arrive (.revoke (some { Demo.refReq g!"at" with client := some Demo.client2 })) ::
    Demo.calls 2 [[], [], []]

/-- **C71** (negation). A sequential history without failures, key clash and clash of
generated values: client `app` gets an access token for a code; then client `other`
revokes it, and the store holds it as revoked. -/
theorem C71_violated : ∃ (E : Env) (s : St) (ls : List Label), Empty s ∧ Sequential 0 ls ∧
    NoKeyClash E (run E s ls) ∧ FreshTokens (run E s ls) ∧ ∃ i q a c0 t md x,
      Answered (run E s ls) i (.revoke (some q)) (.revoke a) ∧ a.goErr = false ∧ q.client = some c0 ∧
      (∃ n, Creates (run E s ls) n q.issuer t) ∧ t.value = q.token ∧ t.metadata = some md ∧
      md.clientId ≠ c0.clientId ∧
      (run E s ls).st.tokVal (tokenKey E q.issuer q.token) = some x ∧ x.status = .revoked := by
  refine ⟨Demo.env, Demo.store, foreignRevoke, Demo.store_empty,
    by simp [foreignRevoke, Demo.happy, Demo.authorizeRun, Demo.redeemCalls, Demo.calls, Sequential],
    Demo.noKeyClash_of (by decide +kernel), Demo.freshTokens_of (by decide +kernel), 2,
    { Demo.refReq g!"at" with client := some Demo.client2 }, ?_⟩
  obtain ⟨a, h1, h2⟩ := revocation_some (c := run Demo.env Demo.store foreignRevoke) (i := 2)
    (q := { Demo.refReq g!"at" with client := some Demo.client2 }) (by decide +kernel)
  have h3 : ((run Demo.env Demo.store foreignRevoke).log[9]?.any fun e => match e.cmd with
    | .tkCreate i t => i == Demo.issuer && t.value == g!"at" && t.metadata.any fun m => m.clientId == g!"app"
    | _ => false) = true := by decide +kernel
  have h4 : ((run Demo.env Demo.store foreignRevoke).st.tokVal (tokenKey Demo.env Demo.issuer g!"at")).any
    (fun x => x.status == .revoked) = true := by decide +kernel
  cases h5 : (run Demo.env Demo.store foreignRevoke).st.tokVal (tokenKey Demo.env Demo.issuer g!"at") with
  | none => rw [h5] at h4; simp at h4
  | some x =>
    rw [h5] at h4
    cases h6 : (run Demo.env Demo.store foreignRevoke).log[9]? with
    | none => rw [h6] at h3; simp at h3
    | some e =>
      rw [h6] at h3
      simp only [Option.any_some] at h3
      split at h3
      · rename_i i t hc
        cases h7 : t.metadata with
        | none => rw [h7] at h3; simp at h3
        | some md =>
          rw [h7] at h3
          simp at h3
          obtain ⟨⟨rfl, h8⟩, h9⟩ := h3
          exact ⟨a, Demo.client2, t, md, x, h1, h2, rfl, ⟨9, e, h6, hc⟩, h8, h7, by rw [h9]; decide, h5,
            by simpa using h4⟩
      · simp at h3

/-- A revoked token in a store, for `C71_revoked_by_holder_partial`. -/
example : ∃ (E : Env) (s : St) (ls : List Label) (k : Str) (x : Token), Empty s ∧
    (run E s ls).st.tokVal k = some x ∧ x.status = .revoked := by
  obtain ⟨E, s, ls, h1, _, _, _, _, _, _, _, _, _, x, _, _, _, _, _, _, _, h2, h3⟩ := C71_violated
  exact ⟨E, s, ls, _, x, h1, h2, h3⟩

end Verif.Props
