import Verif.Proofs.HttpServe2
import Verif.Props.HttpComplete

/-!
What a correct client gets from the other endpoints of the example server (C91): refresh,
client credentials, revocation and the device flow.
-/
namespace Verif.Props
open Verif.Spec Verif.Store

theorem accessWorks_of {S : Http.Server} {s : St} {L : List Http.Label} {v : Str} {g : Granted} (hiss : S.issuer ≠ [])
    (hurl : S.E.parseRequestURI S.issuer = true) (hv : v ≠ [])
    (hf : Http.Fresh S.E (Http.run S s L).st (Http.run S s L).st.clock S.issuer v g.sub g.clientId g.scope g.audience g.cnf) :
    AccessWorks S s L v g := by
  have hcs : ∀ ls, (Http.run S s ls).st.clients = s.clients := fun ls => (Http.clients_const S s ls).1
  rintro mid c' r c chs n rfl hleave h1 h2 hp hc htok hfl hn hlen
  obtain ⟨o, k1, i, rfl, k2, k3, k4, k5, k6, k7, k8, k9⟩ := Http.serve_good (Http.good_introspect
    (hf.left (Http.since s _ mid) hleave) hp (by rw [hcs]; exact hc) hiss hurl hv htok h1 h2) hfl hn hlen
  exact ⟨i, k1, k2, k3, k4, k5, k6, k7, k8, Nat.le_trans h2 k9⟩

/-- **C91** (refresh over HTTP). At the end of a history the store has a refresh token, such as
the one that `C91_flow` yields. Let anything happen until it expires, except that somebody
stores or revokes a token with its value or id. Then its client, authenticating at /token and
presenting it, gets an access token for an hour, which works for what the refresh token stands
for. If the refresh token outlives the access token, there is no new one and the old one stays
as it is; otherwise there is a new one for a week, which stands for the same and can be used in
the same way, and the old one is revoked. The strings drawn for the new tokens have to differ
from the id and value of the old one. -/
theorem C91_refresh (S : Http.Server) (s : St) (hls mid : List Http.Label) (hiss : S.issuer ≠ [])
    (hurl : S.E.parseRequestURI S.issuer = true) {v id : Str} {g : Granted} {exp : Nat}
    (hR : Refreshable S (Http.run S s hls).st v id g exp) {c2 : Http.Conf} (hc2 : c2 = Http.run S s (hls ++ mid))
    (hl : LeavesToken S (callsSince (Http.run S s hls) c2) v) (hl' : LeavesId (callsSince (Http.run S s hls) c2) id)
    (hexp : seconds c2.st.clock ≤ exp)
    {r : Http.Req} {c : Client} {cnf : Option Cnf} {chs : List Choice} {n : Nat} (hp : Presents S.P c2.st r c)
    (hc : s.clients c.clientId = some c) (hown : c.clientId = g.clientId) (hgt : MemFold g!"refresh_token" c.grantTypes)
    (hm : r.method = g!"POST") (hty : r.formValue g!"grant_type" = g!"refresh_token")
    (hv : r.formValue g!"refresh_token" = v) (hb : Binding S c2.st r c cnf) (hf : Faultless chs)
    (hnew : ∀ ch ∈ chs, ch.str ≠ id ∧ tokenKey S.E S.issuer ch.str ≠ tokenKey S.E S.issuer v) (hn : 19 ≤ chs.length)
    (hlen : c2.threads.length = n) :
    ∃ L3 c3, L3 = (hls ++ mid) ++ serving n .token r chs ∧ c3 = Http.run S s L3 ∧ c3.st.clock = c2.st.clock ∧
    ∃ b, Http.Answered c3 n .token r ⟨200, .tokens b⟩ ∧ b.accessToken ≠ [] ∧ b.expiresIn = 3600 ∧
      b.tokenType = (if cnf.isSome then g!"DPoP" else g!"Bearer") ∧ b.scope = g.scope ∧ AccessWorks S s L3 b.accessToken g ∧
      (seconds c2.st.clock + 3600 ≤ exp → b.refreshToken = [] ∧ Refreshable S c3.st v id g exp) ∧
      (exp < seconds c2.st.clock + 3600 → Spent S c3.st v ∧
        ∃ id', Refreshable S c3.st b.refreshToken id' g (seconds c2.st.clock + 604800)) := by
  subst hc2
  have hcs : ∀ ls, (Http.run S s ls).st.clients = s.clients := fun ls => (Http.clients_const S s ls).1
  obtain ⟨o, h1, h2, b, rfl, h3, h4, h5, h6, h7, h8, h9⟩ := Http.serve_goodOn (Http.goodOn_refresh
    (Http.refreshable_left (Http.since s _ mid) hl hl' hR) hexp hp (by rw [hcs]; exact hc) hown hgt hiss hurl hm hty hv hb)
    (fun ch hch => ⟨(hf ch hch).1, (hf ch hch).2, hnew ch hch⟩) hn hlen
  exact ⟨_, _, rfl, rfl, h2, b, h1, h3, h4, h5, h6, accessWorks_of hiss hurl h3 (by rw [h2]; exact h7), h8, h9⟩

/-- **C91** (client credentials over HTTP). After any history, a client that is able to keep a
secret and authenticates at /token with the client credentials grant gets an access token for
an hour, which works and stands for the client alone, and no refresh token. -/
theorem C91_credentials (S : Http.Server) (s : St) (hls : List Http.Label) (hiss : S.issuer ≠ [])
    (hurl : S.E.parseRequestURI S.issuer = true) {r : Http.Req} {c : Client} {cnf : Option Cnf} {chs : List Choice} {n : Nat}
    (hp : Presents S.P (Http.run S s hls).st r c) (hc : s.clients c.clientId = some c)
    (hsec : c.clientType = .confidential ∨ c.clientType = .credentialed)
    (hgt : MemFold g!"client_credentials" c.grantTypes) (hm : r.method = g!"POST")
    (hty : r.formValue g!"grant_type" = g!"client_credentials") (hb : Binding S (Http.run S s hls).st r c cnf)
    (hf : Faultless chs) (hn : 12 ≤ chs.length) (hlen : (Http.run S s hls).threads.length = n) :
    ∃ L b, L = hls ++ serving n .token r chs ∧ Http.Answered (Http.run S s L) n .token r ⟨200, .tokens b⟩ ∧
      b.accessToken ≠ [] ∧ b.expiresIn = 3600 ∧ b.tokenType = (if cnf.isSome then g!"DPoP" else g!"Bearer") ∧
      b.scope = [] ∧ b.refreshToken = [] ∧ AccessWorks S s L b.accessToken ⟨[], c.clientId, [], [], cnf⟩ := by
  have hcs : ∀ ls, (Http.run S s ls).st.clients = s.clients := fun ls => (Http.clients_const S s ls).1
  obtain ⟨o, h1, h2, b, rfl, h3, h4, h5, h6, h7, h8⟩ := Http.serve_goodOn (Http.goodOn_credentials hp
    (by rw [hcs]; exact hc) hgt hsec hiss hurl hm hty hb) hf hn hlen
  exact ⟨_, b, rfl, h1, h3, h4, h5, h6, h7, accessWorks_of hiss hurl h3 (by rw [h2]; exact h8)⟩

/-- **C91** (spent tokens). Once the token with a value is revoked, anything may happen except
that somebody stores a token with this value: introspection answers that the token is not
active, and a refresh with it is refused. -/
theorem C91_spent (S : Http.Server) (s : St) (hls mid : List Http.Label) (hiss : S.issuer ≠ [])
    (hurl : S.E.parseRequestURI S.issuer = true) {v : Str} (hs : Spent S (Http.run S s hls).st v) {c2 : Http.Conf}
    (hc2 : c2 = Http.run S s (hls ++ mid)) (hl : NeverStores S (callsSince (Http.run S s hls) c2) v)
    {r : Http.Req} {c : Client} {chs : List Choice} {n : Nat} (hp : Presents S.P c2.st r c)
    (hc : s.clients c.clientId = some c) (hf : Faultless chs) (hlen : c2.threads.length = n) :
    (r.formValue g!"token" = v → 5 ≤ chs.length →
      Http.Answered (Http.run S s ((hls ++ mid) ++ serving n .introspect r chs)) n .introspect r ⟨200, .introspection none⟩) ∧
    (∀ cnf, r.method = g!"POST" → r.formValue g!"grant_type" = g!"refresh_token" → r.formValue g!"refresh_token" = v →
      MemFold g!"refresh_token" c.grantTypes → Binding S c2.st r c cnf → 8 ≤ chs.length →
      Http.Answered (Http.run S s ((hls ++ mid) ++ serving n .token r chs)) n .token r ⟨400, .error .invalidRequest⟩) := by
  subst hc2
  have hcs : ∀ ls, (Http.run S s ls).st.clients = s.clients := fun ls => (Http.clients_const S s ls).1
  have hs' := Http.spent_left (Http.since s _ mid) hl hs
  constructor
  · intro hr hn
    obtain ⟨o, h1, rfl⟩ := Http.serve_good (Http.good_introspect_spent hs' hp (by rw [hcs]; exact hc) hiss hurl hr) hf hn hlen
    exact h1
  · intro cnf hm hty hr hgt hb hn
    obtain ⟨o, h1, rfl⟩ := Http.serve_good (Http.good_refresh_spent hs' hp (by rw [hcs]; exact hc) hgt hiss hurl hm hty hr hb)
      hf hn hlen
    exact h1

/-- **C91** (revocation over HTTP). After any history, a registered client that authenticates at
/token/revoke with the value of a stored token is told that it is revoked, and it is (see
`C91_spent`). -/
theorem C91_revoke (S : Http.Server) (s : St) (hls : List Http.Label) (hiss : S.issuer ≠ [])
    (hurl : S.E.parseRequestURI S.issuer = true) {v : Str} {t : Token} {r : Http.Req} {c : Client} {chs : List Choice} {n : Nat}
    (ht : (Http.run S s hls).st.tokVal (tokenKey S.E S.issuer v) = some t)
    (hid : (Http.run S s hls).st.tokId t.tokenId = some t) (hk : t.value = tokenKey S.E S.issuer v) (hv : v ≠ [])
    (hp : Presents S.P (Http.run S s hls).st r c) (hc : s.clients c.clientId = some c) (hr : r.formValue g!"token" = v)
    (hf : Faultless chs) (hn : 5 ≤ chs.length) (hlen : (Http.run S s hls).threads.length = n) :
    Http.Answered (Http.run S s (hls ++ serving n .revoke r chs)) n .revoke r ⟨200, .empty⟩ ∧
      Spent S (Http.run S s (hls ++ serving n .revoke r chs)).st v := by
  have hcs : ∀ ls, (Http.run S s ls).st.clients = s.clients := fun ls => (Http.clients_const S s ls).1
  obtain ⟨o, h1, rfl, h2⟩ := Http.serve_good (Http.good_revoke ht hid hk hp (by rw [hcs]; exact hc) hiss hurl hv hr) hf hn hlen
  exact ⟨h1, h2⟩

/-- **C35**, violated over HTTP. After any history, a request at
/device/authorize for a client with the device grant gets a device code and a user code and is
told that they are good for two minutes. But at any moment of these two minutes (unless it is the
first second since 1970), the device that asks for its tokens for the first time is told that the
code has expired. -/
theorem C35_first_poll_violated (S : Http.Server) (s : St) (hls : List Http.Label) (hiss : S.issuer ≠ [])
    (hurl : S.E.parseRequestURI S.issuer = true) {r : Http.Req} {c0 c : Client} {chs : List Choice} {n : Nat}
    (hp : Presents S.P (Http.run S s hls).st r c0) (hm : r.method = g!"POST") (hid : r.formValue g!"client_id" ≠ [])
    (hc : s.clients (r.formValue g!"client_id") = some c)
    (hgt : MemFold g!"urn:ietf:params:oauth:grant-type:device_code" c.grantTypes)
    (hf : Faultless chs) (hn : 6 ≤ chs.length) (hlen : (Http.run S s hls).threads.length = n) :
    ∃ L dc uc, L = hls ++ serving n .deviceAuthorize r chs ∧ dc ≠ [] ∧ uc ≠ [] ∧
      Http.Answered (Http.run S s L) n .deviceAuthorize r ⟨200, .device dc uc (S.issuer ++ g!"/device") 120 5⟩ ∧
    ∀ (d : Nat) (c2 : Http.Conf) (r' : Http.Req) (c' : Client) (cnf : Option Cnf) (chs' : List Choice) (n' : Nat),
      d ≤ 120 * second → c2 = Http.run S s (L ++ [.tick d]) → 0 < seconds c2.st.clock → Presents S.P c2.st r' c' →
      s.clients c'.clientId = some c' → c'.clientId = r.formValue g!"client_id" →
      MemFold g!"urn:ietf:params:oauth:grant-type:device_code" c'.grantTypes → r'.method = g!"POST" →
      r'.formValue g!"grant_type" = g!"urn:ietf:params:oauth:grant-type:device_code" → r'.formValue g!"device_code" = dc →
      Binding S c2.st r' c' cnf → Faultless chs' → 9 ≤ chs'.length → c2.threads.length = n' →
      Http.Answered (Http.run S s ((L ++ [.tick d]) ++ serving n' .token r' chs')) n' .token r' ⟨400, .error .tokenExpired⟩ := by
  have hcs : ∀ ls, (Http.run S s ls).st.clients = s.clients := fun ls => (Http.clients_const S s ls).1
  obtain ⟨o, h1, dc, uc, sess, ref, exp, h2, h3, rfl, h4, h5, h6, h7, h8, h9, h10⟩ := Http.serve_good
    (Http.good_deviceAuthorize hp hiss hm hid (by rw [hcs]; exact hc) hgt) hf hn hlen
  refine ⟨_, dc, uc, rfl, h2, h3, h1, ?_⟩
  rintro d c2 r' c' cnf chs' n' hd rfl hpos hp' hc' hown hgt' hm' hty hdc hb hf' hn' hlen'
  have e := tick_st S s (hls ++ serving n .deviceAuthorize r chs) d
  obtain ⟨o, k1, rfl⟩ := Http.serve_good (Http.good_devicePoll (dc := dc) (ref := ref) (exp := exp) (sess := sess)
    (by rw [e]; exact h5) (by rw [e]; show _ + d ≤ exp; rw [h4, h6]; omega) (by rw [e]; exact h7) h8 h9 h10 hown.symm hpos h2 hp'
    (by rw [hcs]; exact hc') hgt' hiss hurl hm' hty hdc hb) hf' hn' hlen'
  exact k1

/-! ### Examples -/

/-- The user and the client `app` have got the tokens `at` and `rt`. -/
def demoTokens : List Http.Label := Demo.webAuthorize 0 ++ Demo.webRedeem 1

theorem refreshable_of {S : Http.Server} {st : St} {v id : Str} {g : Granted} {exp : Nat} (hv : v ≠ [])
    (h : (st.tokVal (tokenKey S.E S.issuer v)).any (fun t => t.metadata.any fun md => decide (st.tokId id = some t ∧ t.tokenId = id ∧
      t.value = tokenKey S.E S.issuer v ∧ t.status = .active ∧ t.tokenType = .refreshToken ∧
      t.confirmation = g.cnf ∧ md.issuer = S.issuer ∧ md.subject = g.sub ∧ md.clientId = g.clientId ∧ md.scope = g.scope ∧
      md.audience = g.audience ∧ md.expiresAt = exp)) = true) : Refreshable S st v id g exp := by
  refine ⟨hv, ?_⟩
  cases ht : st.tokVal (tokenKey S.E S.issuer v) with
  | none => rw [ht] at h; simp at h
  | some t =>
    rw [ht] at h
    simp only [Option.any_some] at h
    cases hm : t.metadata with
    | none => rw [hm] at h; simp at h
    | some md =>
      rw [hm] at h
      obtain ⟨h1, h2, h3, h4, h5, h6⟩ := of_decide_eq_true h
      exact ⟨t, md, rfl, h1, h2, h3, h4, h5, hm, h6⟩

/-- What the example user granted to the client `app`. -/
def demoGranted : Granted := ⟨g!"hello", g!"app", Demo.request.scope, Demo.request.audience, none⟩

theorem demoTokens_facts : (Http.run Demo.server Demo.webStore demoTokens).threads.length = 2 ∧
    (Http.run Demo.server Demo.webStore demoTokens).st.clock = 100 * second ∧
    Refreshable Demo.server (Http.run Demo.server Demo.webStore demoTokens).st g!"rt" g!"id-rt" demoGranted 604900 :=
  ⟨by decide +kernel, by decide +kernel, refreshable_of (by decide) (by decide +kernel)⟩

theorem tick_threads (S : Http.Server) (s : St) (ls : List Http.Label) (d : Nat) :
    (Http.run S s (ls ++ [.tick d])).threads = (Http.run S s ls).threads := by
  rw [Http.run_append]; rfl

theorem appears_named {S : Http.Server} {L : List Http.Label} {l : List (Str × Str)} :
    Presents S.P (Http.run S Demo.webStore L).st (Demo.webForm l) (Demo.httpClient g!"app") :=
  .named g!"app" rfl (by decide) (by rw [(Http.clients_const _ _ _).1]; rfl) rfl

/-- C91: half an hour before it expires, the refresh token `rt` is exchanged for a new one, which
stands for the same for another week; the old one is then refused. -/
example : ∃ (L : List Http.Label) (v id : Str), demoTokens <+: L ∧ v ≠ [] ∧
    Refreshable Demo.server (Http.run Demo.server Demo.webStore L).st v id demoGranted (603100 + 604800) ∧
    ∃ n r, r.formValue g!"refresh_token" = g!"rt" ∧
      Http.Answered (Http.run Demo.server Demo.webStore (L ++ serving n .token r (thirdIs g!"x" 16))) n .token r
        ⟨400, .error .invalidRequest⟩ := by
  obtain ⟨f1, f2, f3⟩ := demoTokens_facts
  have e : seconds (Http.run Demo.server Demo.webStore (demoTokens ++ [.tick (603000 * second)])).st.clock = 603100 := by
    rw [tick_st, f2]; decide
  obtain ⟨L3, c3, h1, rfl, h3, b, h4, h5, h6, h7, h8, h9, h10, h11⟩ := C91_refresh Demo.server Demo.webStore demoTokens
    [.tick (603000 * second)] (by decide) (by decide) f3 rfl (by rw [callsSince_tick]; intro e he; simp at he)
    (by rw [callsSince_tick]; intro e he; simp at he) (by rw [e]; decide)
    (r := Demo.webForm [(g!"grant_type", g!"refresh_token"), (g!"refresh_token", g!"rt")])
    (cnf := none) (chs := thirdIs g!"x" 16) appears_named (by rfl) rfl ⟨g!"refresh_token", by decide, by decide⟩ rfl (by decide) (by decide)
    (.none rfl rfl) (thirdIs_faultless (by decide) 16) (by decide) (by decide) rfl
  rw [e] at h11
  obtain ⟨h12, id, h13⟩ := h11 (by decide)
  have hs := (C91_spent Demo.server Demo.webStore L3 [] (by decide) (by decide) h12 rfl
    (by rw [List.append_nil]; intro e he; simp [callsSince] at he)
    (r := Demo.webForm [(g!"grant_type", g!"refresh_token"), (g!"refresh_token", g!"rt")]) (chs := thirdIs g!"x" 16) appears_named (by rfl) (thirdIs_faultless (by decide) 16) rfl).2 none
      rfl (by decide) (by decide) ⟨g!"refresh_token", by decide, by decide⟩ (.none rfl rfl) (by decide)
  rw [List.append_nil] at hs
  refine ⟨L3, b.refreshToken, id, ?_, h13.value, h13, _, _, by decide, hs⟩
  rw [h1, List.append_assoc]
  exact List.prefix_append _ _

/-- C91: the client gives the refresh token `rt` up. -/
example : ∃ L, demoTokens <+: L ∧ Spent Demo.server (Http.run Demo.server Demo.webStore L).st g!"rt" := by
  obtain ⟨f1, f2, f3⟩ := demoTokens_facts
  obtain ⟨t, md, e1, e2, e3, e4, _⟩ := f3.ex
  exact ⟨_, List.prefix_append _ _, (C91_revoke Demo.server Demo.webStore demoTokens (by decide) (by decide) e1 (by rw [e3]; exact e2) e4 f3.value
    (r := Demo.webForm [(g!"token", g!"rt")]) (chs := thirdIs g!"x" 2) appears_named (by rfl) (by decide) (thirdIs_faultless (by decide) 2)
    (by decide) f1).2⟩

/-- C91: the client `good` gets a token of its own. -/
example : ∃ L v, demoTokens <+: L ∧ v ≠ [] ∧ AccessWorks Demo.server Demo.webStore L v ⟨[], g!"good", [], [], none⟩ := by
  obtain ⟨f1, f2, f3⟩ := demoTokens_facts
  obtain ⟨L, b, h1, _, h2, _, _, _, _, h3⟩ := C91_credentials Demo.server Demo.webStore demoTokens (by decide) (by decide)
    (r := { method := g!"POST"
            post := Demo.form [(g!"client_assertion_type", g!"urn:ietf:params:oauth:client-assertion-type:jwt-bearer"),
              (g!"client_assertion", g!"assertion"), (g!"grant_type", g!"client_credentials")] })
    (c := { Demo.httpClient g!"good" with clientType := .confidential }) (cnf := none) (chs := thirdIs g!"x" 16)
    (.key g!"assertion" _ _ _ { key := g!"gk" } rfl rfl rfl (by decide) rfl rfl rfl (by decide) (by decide) (by decide) (by decide)
      (by rw [f2]; show seconds (100 * second) ≤ 1000; decide)
      (by rw [(Http.clients_const _ _ _).1]; rfl) (by decide) rfl (by simp) (by decide) (by decide))
    (by rfl) (Or.inl rfl) ⟨g!"client_credentials", by decide, by decide⟩ rfl (by decide) (.none rfl rfl)
    (thirdIs_faultless (by decide) 16) (by decide) f1
  exact ⟨L, b.accessToken, by rw [h1]; exact List.prefix_append _ _, h2, h3⟩

/-- C35: the device with the client `app` asks once, after five seconds. -/
example : ∃ (L : List Http.Label) (dc : Str) (n : Nat) (r : Http.Req), demoTokens <+: L ∧ r.formValue g!"device_code" = dc ∧
    Http.Answered (Http.run Demo.server Demo.webStore L) n .token r ⟨400, .error .tokenExpired⟩ := by
  obtain ⟨f1, f2, f3⟩ := demoTokens_facts
  obtain ⟨L, dc, uc, h1, h2, h3, h4, h5⟩ := C35_first_poll_violated Demo.server Demo.webStore demoTokens (by decide) (by decide)
    (r := Demo.webForm [(g!"client_id", g!"app")]) (c := Demo.httpClient g!"app") (chs := thirdIs g!"x" 16) appears_named rfl (by decide) (by rfl)
    ⟨g!"urn:ietf:params:oauth:grant-type:device_code", by decide, by decide⟩ (thirdIs_faultless (by decide) 16) (by decide) f1
  have e : 0 < seconds (Http.run Demo.server Demo.webStore (L ++ [.tick (5 * second)])).st.clock := by
    rw [tick_st]
    show 0 < ((Http.run Demo.server Demo.webStore L).st.clock + 5 * 1000000000) / 1000000000
    omega
  exact ⟨_, dc, _, Demo.webForm [(g!"grant_type", g!"urn:ietf:params:oauth:grant-type:device_code"), (g!"device_code", dc)],
    by rw [h1]; simp only [List.append_assoc]; exact List.prefix_append _ _, rfl,
    h5 (5 * second) _ _ (Demo.httpClient g!"app") none (thirdIs g!"x" 16) _ (by decide) rfl e appears_named (by rfl) (by decide)
    ⟨g!"urn:ietf:params:oauth:grant-type:device_code", by decide, by decide⟩ rfl (by rfl) (by rfl) (.none rfl rfl)
    (thirdIs_faultless (by decide) 16) (by decide) rfl⟩

end Verif.Props
