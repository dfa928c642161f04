import Verif.Props.Client
import Verif.Proofs.ClientAuth

/-! C75: the attestation example. -/
namespace Verif.Props
open Verif.Spec Verif.Prog Verif.Jose Verif.Sign Verif.ClientAuth Verif.Http Verif.Client

section
variable {S : Server} {w : World} {La : Lib AttClaims} {Lp : Lib PopClaims} {att pop : Str} {url : DPoP.Target} {akey key : Jwk}
  {attester cl : Client}

/-- The claims of an attestation of the example. -/
def attestationClaims (id : Str) (k : Jwk) (n : Nat) : AttClaims :=
  { iss := attesterId, sub := id, nbf := seconds n - 1, exp := seconds n + 3600, cnf := some (some k) }

/-- The claims of a proof of possession of the example. -/
def popClaims (jti : Str) (n : Nat) : PopClaims :=
  { iss := attestedId, aud := g!"http://localhost:8085", nbf := seconds n - 1, exp := seconds n + 30, jti := jti }

theorem attest_exec {id : Str} {k : Jwk} {tr : List Ev} {x : Option Str}
    (h : Exec (attest La akey (some ⟨id, some k⟩)) tr (.done x)) :
    ∃ n, tr = [(⟨.now, n⟩ : Ev)] ∧
      x = some ((La.sign g!"client-attestation+jwt" [] true akey (attestationClaims id (La.pub k) n)).getD []) := by
  unfold attest at h
  simp only [Prog.call, bind_op, bind_ret, pure_eq] at h
  cases h with
  | step _ _ n _ _ h =>
    change Exec (Prog.ret (some ((La.sign g!"client-attestation+jwt" [] true akey
      (attestationClaims id (La.pub k) n)).getD []))) _ _ at h
    generalize hs : some (Option.getD _ _) = y at h
    cases h
    exact ⟨n, rfl, hs.symm⟩

theorem pop_exec {tr : List Ev} (h : Exec (attestationPop Lp key) tr (.done (some pop))) :
    ∃ n jti, tr = [⟨.now, n⟩, (⟨.jti, jti⟩ : Ev)] ∧
      Lp.sign g!"client-attestation-pop+jwt" [] true key (popClaims jti n) = some pop := by
  unfold attestationPop at h
  simp only [Prog.call, bind_op, bind_ret, pure_eq] at h
  cases h with
  | step _ _ n _ _ h =>
    cases h with
    | step _ _ jti _ _ h =>
      change Exec (Prog.ret (Lp.sign g!"client-attestation-pop+jwt" [] true key (popClaims jti n))) _ _ at h
      generalize hs : Lp.sign _ _ _ _ _ = y at h
      cases h
      exact ⟨n, jti, rfl, hs⟩

/-- The attestation server signed `att` for the public half `k` of a key, and the client
signed `pop` with this key, shortly before the authorization server sees both. The
server parses what both sign. -/
structure Attested (S : Server) (w : World) (La : Lib AttClaims) (Lp : Lib PopClaims) (akey k key : Jwk) (att pop : Str) :
    Prop where
  attested : ∃ tr ok, Exec (attest La akey (some ⟨attestedId, some k⟩)) tr (.done (some att)) ∧ La.Lawful ok ∧
    (∀ n, ok (attestationClaims attestedId (La.pub k) n)) ∧
    ∀ n, ⟨.now, n⟩ ∈ tr → w.last ≤ seconds n + 3600 ∧ seconds n ≤ w.first + 1
  proved : ∃ tr ok, Exec (attestationPop Lp key) tr (.done (some pop)) ∧ Lp.Lawful ok ∧
    (∀ j n, ⟨.jti, j⟩ ∈ tr → j ≠ [] ∧ ok (popClaims j n)) ∧
    ∀ n, ⟨.now, n⟩ ∈ tr → w.last ≤ seconds n + 30 ∧ seconds n ≤ w.first + 1
  pair : La.pub k = Lp.pub key
  nonempty : att ≠ []
  sep : 126 ∉ att
  parse : S.P.parse = La.parse ∧ S.P.parse = Lp.parse
  dec : S.P.attClaims = La.dec ∧ S.P.popClaims = Lp.dec

theorem Attested.read {k : Jwk} (h : Attested S w La Lp akey k key att pop) : ∃ t1 c1 t2 c2,
    S.P.parse att = some t1 ∧ S.P.attClaims t1.payload = some c1 ∧ c1.iss = attesterId ∧ c1.sub = attestedId ∧
    c1.cnf = some (some (Lp.pub key)) ∧ w.last ≤ c1.exp ∧ c1.exp ≠ 0 ∧ c1.nbf ≤ w.first ∧ t1.verifies (La.pub akey) = true ∧
    S.P.parse pop = some t2 ∧ S.P.popClaims t2.payload = some c2 ∧ c2.iss = attestedId ∧
    c2.jti ≠ [] ∧ c2.aud ≠ [] ∧ w.last ≤ c2.exp ∧ c2.exp ≠ 0 ∧ c2.nbf ≤ w.first ∧ t2.verifies (Lp.pub key) = true := by
  obtain ⟨tr1, ok1, x1, l1, o1, b1⟩ := h.attested
  obtain ⟨tr2, ok2, x2, l2, o2, b2⟩ := h.proved
  obtain ⟨n, rfl, e1⟩ := attest_exec x1
  obtain ⟨n', j, rfl, s2⟩ := pop_exec x2
  simp only [Option.some.injEq] at e1
  cases hs : La.sign g!"client-attestation+jwt" [] true akey (attestationClaims attestedId (La.pub k) n) with
  | none => rw [hs] at e1; exact absurd e1 h.nonempty
  | some raw =>
    rw [hs] at e1
    obtain rfl : att = raw := e1
    obtain ⟨t1, g1, _, _, g4, g5, _⟩ := l1.signed (o1 n) hs
    obtain ⟨t2, f1, _, _, f4, f5, _⟩ := l2.signed (o2 j n' (by simp)).2 s2
    have c1 := b1 n (by simp)
    have c2 := b2 n' (by simp)
    refine ⟨t1, _, t2, _, h.parse.1 ▸ g1, h.dec.1 ▸ g5, rfl, rfl, by rw [← h.pair]; rfl, c1.1, by simp [attestationClaims],
      ?_, g4, h.parse.2 ▸ f1, h.dec.2 ▸ f5, rfl, (o2 j n' (by simp)).1, by simp [popClaims], c2.1, by simp [popClaims], ?_, f4⟩
    · have := c1.2; simp only [attestationClaims]; omega
    · have := c2.2; simp only [popClaims]; omega

theorem must_attestation {k : Jwk} (h : Attested S w La Lp akey k key att pop)
    (ha : HasKey w S.P.jwks attesterId attester (La.pub akey)) (hcl : w.clients attestedId = some cl) :
    Must w.Healthy (· = ⟨some { client := some cl }, false⟩)
      (clientAttestation S.P (some ⟨some typeAttestation, some (att ++ g!"~" ++ pop)⟩)) := by
  obtain ⟨t1, c1, t2, c2, p1, p2, p3, p4, p5, p6, p7, p8, p9, q1, q2, q3, q4, q5, q6, q7, q8, q9⟩ := h.read
  have hcut : cut 126 (att ++ g!"~" ++ pop) = (att, some pop) := by
    have := cut_append (y := pop) h.sep
    simpa using this
  have hne : att ++ g!"~" ++ pop ≠ [] := by simp
  obtain ⟨ks, hks, hmem⟩ := ha.key
  have hsig : validateSignature (some ks) (some t1) = true := validateSignature_iff.2 ⟨_, hmem, ha.signs, p9⟩
  have hid1 : attesterId ≠ [] := by decide
  have hid2 : attestedId ≠ [] := by decide
  have hpc : claims S.P.popClaims t2 (Lp.pub key) = some c2 := claims_some.2 ⟨q9, q2⟩
  unfold clientAttestation
  simp only [ne_eq, not_true_eq_false, if_false, hne, hcut]
  refine must_bind (R := (· = some (some (Lp.pub key)))) ?_ ?_
  · unfold attestation
    simp only [p1, p2, p3, p4, p5, p7, hid1, hid2, or_self, if_false, Prog.call, bind_op, bind_ret, Must]
    intro n hn
    have h1 : ¬ c1.exp < Device.unix n := Nat.not_lt.2 (Nat.le_trans hn.2 p6)
    rw [if_neg h1]
    simp only [Must]
    intro n hn
    have h1 : ¬ c1.nbf > Device.unix n := Nat.not_lt.2 (Nat.le_trans p8 hn.1)
    rw [if_neg h1]
    simp only [Must]
    intro r hr
    simp only [World.Healthy, p3, ha.found] at hr
    subst hr
    simp only [ha.some_keys, if_false, hks, hsig, if_true, pure_eq, Must]
  · rintro _ rfl
    unfold proofOfPossession
    simp only [q1, hpc, q3, hid2, q4, q5, q7, or_self, if_false, Prog.call, bind_op, bind_ret, Must]
    intro n hn
    have h1 : ¬ c2.exp < Device.unix n := Nat.not_lt.2 (Nat.le_trans hn.2 q6)
    rw [if_neg h1]
    simp only [Must]
    intro n hn
    have h1 : ¬ c2.nbf > Device.unix n := Nat.not_lt.2 (Nat.le_trans q8 hn.1)
    rw [if_neg h1]
    simp only [Must]
    intro r hr
    simp only [World.Healthy, q3, hcl] at hr
    subst hr
    rfl

/-- **C75_partial** The attestation example obtains a token from a server that accepts the
algorithm of the attestations: the attestation server attests a key, the client proves
the possession of it, within 30 seconds the server sees both, its interfaces work and
know the attestation server with its key and the client. What is missing: the example
server does not accept the algorithm (C75_shipped_violated). -/
theorem C75_gets_token_partial {k : Jwk} {tr : List Ev} {out : Outcome Http.Resp}
    (h : Attested S w La Lp akey k key att pop)
    (ha : HasKey w S.P.jwks attesterId attester (La.pub akey)) (hcl : w.clients attestedId = some cl)
    (hn : cl.clientId = attestedId) (hi : S.issuer ≠ []) (hu : S.E.parseRequestURI S.issuer = true)
    (hb : cl.dpopBoundAccessTokens = false) (hty : cl.clientType = .confidential ∨ cl.clientType = .credentialed)
    (hgt : MemFold g!"client_credentials" cl.grantTypes)
    (hx : Exec (Http.serve S .token (attestedReq att pop url)) tr out) (hw : ∀ ev ∈ tr, w.Healthy ev) :
    out = .stopped ∨ ∃ resp tk, out = .done resp ∧ readToken resp = some tk ∧ tk.tokenType = g!"Bearer" ∧
      tk.accessToken ≠ [] := by
  have hm : Must w.Healthy (fun a => ∃ b, a = ⟨200, .tokens b⟩ ∧ b.tokenType = g!"Bearer" ∧
      b.accessToken ≠ [] ∧ b.refreshToken = []) (Http.serve S .token (attestedReq att pop url)) := by
    unfold Http.serve clientAuth
    have e1 : (attestedReq att pop url).get g!"client_id" = [] := rfl
    have e2 : (attestedReq att pop url).postValue g!"client_assertion_type" = typeAttestation := rfl
    have e3 : (attestedReq att pop url).postValue g!"client_assertion" = att ++ g!"~" ++ pop := rfl
    have e4 : typeAttestation ≠ typeBearer := by decide
    simp only [e1, ne_eq, not_true_eq_false, if_false, e2, e4, if_true, e3]
    refine must_bind (must_attestation h ha hcl) ?_
    rintro _ rfl
    exact must_tokenHandler (r := attestedReq att pop url) hi hu rfl rfl rfl hb (by rw [hn]; exact hcl) hty hgt
  rcases must_sound hm hx hw with h | ⟨resp, rfl, b, rfl, h1, h2, h3⟩
  · exact .inl h
  · exact .inr ⟨_, ⟨b.accessToken, b.tokenType, b.refreshToken, none⟩, rfl, rfl, h1, h2⟩

/-- **C75_shipped_violated** The example server accepts tokens signed with ES256 or ES384 for
client authentication; the attestation server signs with EdDSA. Whatever the stores
answer, the attestation example never gets a token. `alg` is the algorithm named in the
header of a token. -/
theorem C75_shipped_violated (S : Server) (alg : Str → Str) (La : Lib AttClaims) (akey : Jwk)
    (hparse : ∀ s t, S.P.parse s = some t → alg s ∈ serverAlgs)
    (hsign : ∀ ty kid e k c raw, La.sign ty kid e k c = some raw → alg raw = attesterAlg ∧ 126 ∉ raw)
    (hempty : S.P.parse [] = none)
    (d : AttestationData) (tr0 : List Ev) (att pop : Str) (url : DPoP.Target) (h : Exec (attest La akey (some d)) tr0 (.done (some att)))
    (tr : List Ev) (out : Outcome Http.Resp) (hx : Exec (Http.serve S .token (attestedReq att pop url)) tr out) :
    out = .stopped ∨ out = .done ⟨401, .error .invalidClient⟩ := by
  obtain ⟨id, pk⟩ := d
  cases pk with
  | none =>
    unfold attest at h
    simp only [Prog.call, bind_op, bind_ret] at h
    cases h with
    | step _ _ n _ _ h => cases h
  | some k =>
    obtain ⟨n, -, e⟩ := attest_exec h
    simp only [Option.some.injEq] at e
    have hbad : S.P.parse att = none ∧ 126 ∉ att := by
      cases hs : La.sign g!"client-attestation+jwt" [] true akey (attestationClaims id (La.pub k) n) with
      | none => rw [hs] at e; subst e; exact ⟨hempty, by simp⟩
      | some raw =>
        rw [hs] at e
        obtain rfl : att = raw := e
        obtain ⟨h1, h2⟩ := hsign _ _ _ _ _ _ hs
        refine ⟨?_, h2⟩
        cases hp : S.P.parse att with
        | none => rfl
        | some t =>
          have := hparse _ _ hp
          rw [h1] at this
          exact absurd this (by decide)
    have hcut : cut 126 (att ++ g!"~" ++ pop) = (att, some pop) := by
      have := cut_append (y := pop) hbad.2
      simpa using this
    have hne : att ++ g!"~" ++ pop ≠ [] := by simp
    have e0 : Http.serve S .token (attestedReq att pop url) = .ret ⟨401, .error .invalidClient⟩ := by
      unfold Http.serve clientAuth
      have e1 : (attestedReq att pop url).get g!"client_id" = [] := rfl
      have e2 : (attestedReq att pop url).postValue g!"client_assertion_type" = typeAttestation := rfl
      have e3 : (attestedReq att pop url).postValue g!"client_assertion" = att ++ g!"~" ++ pop := rfl
      have e4 : typeAttestation ≠ typeBearer := by decide
      simp only [e1, ne_eq, not_true_eq_false, if_false, e2, e4, if_true, e3]
      unfold clientAttestation
      simp only [ne_eq, not_true_eq_false, if_false, hne, hcut]
      unfold attestation
      simp only [hbad.1]
      rfl
    rw [e0] at hx
    cases hx
    · exact .inr rfl
    · exact .inl rfl

/-- **C75_anyone_violated** The attestation server attests whatever it is asked to attest: for
every client identifier and every public key somebody sends, it signs that the key
belongs to this client. -/
theorem C75_anyone_violated (La : Lib AttClaims) (ok : AttClaims → Prop) (hL : La.Lawful ok) (hok : ∀ c, ok c) (akey k : Jwk)
    (id : Str) (hs : ∀ c, (La.sign g!"client-attestation+jwt" [] true akey c).isSome) (n : Nat) :
    ∃ att t c, Exec (attest La akey (some ⟨id, some k⟩)) [⟨.now, n⟩] (.done (some att)) ∧ La.parse att = some t ∧
      t.verifies (La.pub akey) = true ∧ La.dec t.payload = some c ∧ c.sub = id ∧ c.cnf = some (some (La.pub k)) := by
  obtain ⟨att, ha⟩ := Option.isSome_iff_exists.1 (hs (attestationClaims id (La.pub k) n))
  obtain ⟨t, h1, _, _, h4, h5, _⟩ := hL.signed (hok _) ha
  refine ⟨att, t, _, ?_, h1, h4, h5, rfl, rfl⟩
  unfold attest
  simp only [Prog.call, bind_op, bind_ret, pure_eq]
  refine .step _ _ _ _ _ ?_
  change Exec (Prog.ret (some ((La.sign g!"client-attestation+jwt" [] true akey
      (attestationClaims id (La.pub k) n)).getD []))) _ _
  rw [ha]
  exact .ret _

/-- **C75_crash_violated** A request without key crashes the handler. -/
theorem C75_crash_violated (La : Lib AttClaims) (akey : Jwk) (id : Str) (n : Nat) :
    Exec (attest La akey (some ⟨id, none⟩)) [⟨.now, n⟩] .panicked :=
  .step _ _ _ _ _ .panic

end

/-! ### An instance -/

def attLib : Lib AttClaims where
  sign ty kid e k c := if ty = g!"client-attestation+jwt" ∧ kid = [] ∧ e = true ∧ k = { key := g!"attester-private" } ∧
    c = attestationClaims attestedId { key := g!"public" } (900 * 10 ^ 9) then some g!"att" else none
  parse s := if s = g!"att" then some (jwsBy [] g!"client-attestation+jwt" (some { key := g!"public" }) s)
    else if s = g!"pop" then some (jwsBy [] g!"client-attestation-pop+jwt" (some { key := g!"public" }) s)
    else none
  dec s := if s = g!"att" then some (attestationClaims attestedId { key := g!"public" } (900 * 10 ^ 9)) else none
  pub _ := { key := g!"public" }

def popLib : Lib PopClaims where
  sign ty kid e k c := if ty = g!"client-attestation-pop+jwt" ∧ kid = [] ∧ e = true ∧ k = { key := g!"client-private" } ∧
    c = popClaims g!"1" (900 * 10 ^ 9) then some g!"pop" else none
  parse := attLib.parse
  dec s := if s = g!"pop" then some (popClaims g!"1" (900 * 10 ^ 9)) else none
  pub _ := { key := g!"public" }

theorem attLib_lawful : attLib.Lawful (fun _ => True) where
  nonempty := by
    intro ty kid e k c raw h
    simp only [attLib] at h
    split at h
    · cases h; simp
    · cases h
  signed := by
    intro ty kid e k c raw _ h
    simp only [attLib] at h
    split at h
    · rename_i hc
      obtain ⟨rfl, rfl, rfl, rfl, rfl⟩ := hc
      cases h
      exact ⟨_, rfl, rfl, rfl, rfl, rfl, fun _ => rfl⟩
    · cases h

theorem popLib_lawful : popLib.Lawful (fun _ => True) where
  nonempty := by
    intro ty kid e k c raw h
    simp only [popLib] at h
    split at h
    · cases h; simp
    · cases h
  signed := by
    intro ty kid e k c raw _ h
    simp only [popLib] at h
    split at h
    · rename_i hc
      obtain ⟨rfl, rfl, rfl, rfl, rfl⟩ := hc
      cases h
      exact ⟨_, rfl, rfl, rfl, rfl, rfl, fun _ => rfl⟩
    · cases h

/-- The shipped clients; the server parses EdDSA too. -/
def attServer : Server :=
  { Demo.server with
    P := { Demo.server.P with
      parse := attLib.parse, attClaims := attLib.dec, popClaims := popLib.dec,
      jwks := fun s => if s = g!"keys of attestation-server" then some [{ key := g!"public" }] else none } }

def attWorld : World where
  clients := lookup
  tokens _ _ := none
  first := 905
  last := 920

def attAnswers (c : Cmd) : c.Res :=
  match c with
  | .now => 910 * 10 ^ 9
  | .clientsGet id => match lookup id with
    | some c => .ok (some c)
    | none => .error .notFound
  | .tkGetVal _ _ => .error .notFound
  | .genAT _ => .ok g!"access"
  | .tkCreate _ _ => .ok ()
  | c => Demo.answers c

theorem attAnswers_healthy (c : Cmd) : attWorld.Healthy ⟨c, attAnswers c⟩ := by
  cases c <;> simp only [World.Healthy, attAnswers, attWorld]
  · exact ⟨by decide, by decide⟩
  · split <;> simp_all
  · exact ⟨_, by decide, rfl⟩

/-- The hypotheses of C75_gets_token_partial are met by the clients the example registers, and
the execution completes. -/
example : Attested attServer attWorld attLib popLib { key := g!"attester-private" } { key := g!"client-public" }
      { key := g!"client-private" } g!"att" g!"pop" ∧
    (∃ attester, HasKey attWorld attServer.P.jwks attesterId attester (attLib.pub { key := g!"attester-private" })) ∧
    (∃ cl, attWorld.clients attestedId = some cl ∧ cl.clientId = attestedId ∧ cl.dpopBoundAccessTokens = false ∧
      cl.clientType = .credentialed ∧ MemFold g!"client_credentials" cl.grantTypes) ∧
    ∃ tr resp, Exec (Http.serve attServer .token (attestedReq g!"att" g!"pop" {})) tr (.done resp) ∧
      (∀ ev ∈ tr, attWorld.Healthy ev) ∧ readToken resp = some ⟨g!"access", g!"Bearer", [], none⟩ := by
  refine ⟨?_, ?_, ?_, ?_⟩
  · refine ⟨⟨[⟨.now, 900 * 10 ^ 9⟩], _, ?_, attLib_lawful, fun _ => trivial, ?_⟩,
      ⟨[⟨.now, 900 * 10 ^ 9⟩, ⟨.jti, g!"1"⟩], _, ?_, popLib_lawful, ?_, ?_⟩, rfl, by decide, by decide, ⟨rfl, rfl⟩, ⟨rfl, rfl⟩⟩
    · exact .step _ _ _ _ _ (.ret _)
    · intro n h
      simp only [List.mem_singleton] at h
      cases h
      exact ⟨by decide, by decide⟩
    · exact .step _ _ _ _ _ (.step _ _ _ _ _ (.ret _))
    · intro j n h
      simp at h
      subst h
      exact ⟨by decide, trivial⟩
    · intro n h
      simp at h
      subst h
      exact ⟨by decide, by decide⟩
  · exact ⟨_, rfl, rfl, by decide, ⟨_, rfl, by simp [attLib]⟩, by decide⟩
  · exact ⟨_, rfl, rfl, rfl, rfl, (contains_iff _ _).1 (by decide)⟩
  · exact oracle_run attAnswers _ attWorld.Healthy (fun _ resp => readToken resp = some ⟨g!"access", g!"Bearer", [], none⟩)
      attAnswers_healthy (by decide +kernel)

/-- The hypotheses of C75_shipped_violated are met: with EdDSA among the algorithms of the
attestations only, nothing the attestation server signs parses. -/
example : ∃ (S : Server) (alg : Str → Str), (∀ s t, S.P.parse s = some t → alg s ∈ serverAlgs) ∧
    (∀ ty kid e k c raw, attLib.sign ty kid e k c = some raw → alg raw = attesterAlg ∧ 126 ∉ raw) ∧
    S.P.parse [] = none ∧
    (∃ t, S.P.parse g!"other" = some t) ∧
    ∃ tr, Exec (attest attLib { key := g!"attester-private" } (some ⟨attestedId, some { key := g!"client-public" }⟩)) tr
      (.done (some g!"att")) := by
  refine ⟨{ Demo.server with P := { Demo.server.P with
      parse := fun s => if s = g!"other" then some { payload := s, verifies := fun _ => true } else none } },
    fun s => if s = g!"other" then g!"ES256" else g!"EdDSA", ?_, ?_, rfl, ⟨_, rfl⟩,
    [⟨.now, 900 * 10 ^ 9⟩], ?_⟩
  · intro s t h
    dsimp only at h ⊢
    split at h
    · rename_i hs
      rw [if_pos hs]
      decide
    · cases h
  · intro ty kid e k c raw h
    simp only [attLib] at h
    split at h
    · cases h; exact ⟨by decide, by decide⟩
    · cases h
  · exact .step _ _ _ _ _ (.ret _)

end Verif.Props
