import Verif.Spec.Timestamp
import Verif.Props.Challenge

/-! Signed timestamps (C101). -/
namespace Verif.Props
open Verif.Spec Verif.Prog Verif.ResourceServer Verif.Timestamp

theorem bigEndian_length (k n : Nat) : (bigEndian k n).length = k := by
  induction k generalizing n with
  | zero => rfl
  | succ k ih => simp [bigEndian, ih]

theorem bigEndian_value (k n : Nat) (h : n < 256 ^ k) : (bigEndian k n).foldl (fun a b => 256 * a + b.toNat) 0 = n := by
  induction k generalizing n with
  | zero => simp at h; subst h; rfl
  | succ k ih =>
    rw [bigEndian, List.foldl_append, ih _ (by rw [Nat.pow_succ] at h; omega)]
    have : n % 256 < 256 := Nat.mod_lt _ (by decide)
    simp only [List.foldl_cons, List.foldl_nil, UInt8.toNat_ofNat']
    omega

theorem eightBytes_bigEndian (t : Int) : EightBytes t (bigEndian 8 (t % 2 ^ 64).toNat) := by
  refine ⟨bigEndian_length _ _, ?_⟩
  have h1 : 0 ≤ t % 2 ^ 64 := Int.emod_nonneg _ (by decide)
  have h2 : t % 2 ^ 64 < 2 ^ 64 := Int.emod_lt_of_pos _ (by decide)
  rw [bigEndian_value]
  · omega
  · have : (256 : Nat) ^ 8 = 2 ^ 64 := by decide
    rw [this]
    omega

theorem isMessage_payload (issuer nonce : Str) (t : Int) : IsMessage issuer nonce t (payload issuer nonce t) :=
  ⟨_, eightBytes_bigEndian t, rfl⟩

/-- A message says one thing to readers who know the length of the nonce. -/
theorem message_unique {issuer issuer' nonce nonce' m : Str} {t t' : Int} (h : IsMessage issuer nonce t m) (h' : IsMessage issuer' nonce' t' m)
    (hn : nonce.length = nonce'.length) (ht : -2 ^ 63 ≤ t ∧ t < 2 ^ 63) (ht' : -2 ^ 63 ≤ t' ∧ t' < 2 ^ 63) :
    issuer = issuer' ∧ nonce = nonce' ∧ t = t' := by
  obtain ⟨raw, ⟨hl, hv⟩, rfl⟩ := h
  obtain ⟨raw', ⟨hl', hv'⟩, e⟩ := h'
  obtain ⟨e1, rfl⟩ := List.append_inj' e (hl.trans hl'.symm)
  obtain ⟨e2, rfl⟩ := List.append_inj' e1 hn
  refine ⟨List.append_cancel_left e2, rfl, ?_⟩
  rw [hv] at hv'
  omega

/-- **C101.** A signed timestamp goes only to requests that the middleware lets through (C51). It says what the
clock showed afterwards, in the name of the server, and readers who know the server's key accept it. -/
theorem C101_signed (S : Rs) (r : ResourceServer.Req) (tr : List Ev) (d : Doc) (hk : Ed25519Correct S.ed S.pub S.priv)
    (hn : ∀ n, S.nonce = some n → n.length = 8) (h : Exec (serve S r) tr (.done (.signed d))) :
    ∃ t1 now, tr = t1 ++ [⟨.now, now⟩] ∧
      Exec (authorizer S.E S.cli g!"timestamp:read" [g!"urn:solid:loa:1fa:any"] 30 r) t1 (.done .passed) ∧
      d.timestamp = (now : Nat) ∧ d.issuer = g!"http://localhost:8085" ∧ d.pub = Go.b64 S.pub ∧
      ((now : Nat) < 2 ^ 63 → Verified S.ed S.pub d) := by
  unfold serve at h
  split at h
  · cases h
  obtain ⟨t1, t2, a, rfl, h1, h2⟩ := exec_bind_done h
  cases a with
  | refused => cases h2
  | passed =>
    simp only at h2
    cases h2 with
    | step _ _ now _ _ h2 =>
      cases hs : S.nonce with
      | none => simp only [sign, hs] at h2; cases h2
      | some nonce =>
        simp only [sign, hs] at h2
        cases h2
        refine ⟨t1, now, rfl, ?_, rfl, rfl, rfl, fun hlt => ⟨rfl, ?_, ?_, nonce, _, _, hn _ hs, rfl, rfl, isMessage_payload _ _ _, hk _⟩⟩
        · rw [← C100_refines, ← List.append_nil t1]
          exact Http.exec_seq h1 (.ret _)
        · show -2 ^ 63 ≤ ((now : Nat) : Int)
          have : (0 : Int) ≤ ((now : Nat) : Int) := Int.natCast_nonneg _
          omega
        · show ((now : Nat) : Int) < 2 ^ 63
          have : ((now : Nat) : Int) < ((2 ^ 63 : Nat) : Int) := Int.ofNat_lt.2 hlt
          simpa using this

/-- What the server has signed so far: the messages of nonces and times. -/
def Signed (log : List (Str × Int)) (m : Str) : Prop := ∃ x ∈ log, m = payload issuer x.1 x.2

/-- **C101** (binding). If only what the server signed verifies under its key, then every document that readers
accept names the server and a time and nonce for which the server signed. -/
theorem C101_binding (ed : Ed25519) (pub : Str) (log : List (Str × Int)) (hlog : ∀ x ∈ log, x.1.length = 8 ∧ -2 ^ 63 ≤ x.2 ∧ x.2 < 2 ^ 63)
    (hu : ∀ m sig, ed.verify pub m sig = true → Signed log m) (d : Doc) (h : Verified ed pub d) :
    d.issuer = g!"http://localhost:8085" ∧ ∃ nonce, (nonce, d.timestamp) ∈ log ∧ d.nonce = Go.b64 nonce := by
  obtain ⟨-, h1, h2, nonce, sig, m, hl, hn, -, hm, hv⟩ := h
  obtain ⟨⟨n', t'⟩, hx, rfl⟩ := hu m sig hv
  obtain ⟨hl', hb⟩ := hlog _ hx
  obtain ⟨e1, e2, e3⟩ := message_unique hm (isMessage_payload _ _ _) (hl.trans hl'.symm) ⟨h1, h2⟩ hb
  subst e2 e3
  exact ⟨e1, nonce, hx, hn⟩

/-- **C101** (limit). The message has no mark between the issuer and the nonce: to readers who do not look at
the length of the nonce, every signed timestamp is also one of another issuer. -/
theorem C101_boundary_violated (ed : Ed25519) (pub priv nonce : Str) (now : Int) (d : Doc) (hk : Ed25519Correct ed pub priv)
    (ht : -2 ^ 63 ≤ now ∧ now < 2 ^ 63) (h : sign ed issuer pub priv (some nonce) now = some d) :
    ∃ d', VerifiedLoosely ed pub d' ∧ d'.issuer = g!"http://localhost:808" ∧ d'.timestamp = d.timestamp ∧ d'.proof = d.proof := by
  cases h
  refine ⟨{ issuer := g!"http://localhost:808", timestamp := now, scheme := g!"ed25519", nonce := Go.b64 (53 :: nonce)
            proof := Go.b64 (ed.sign priv (payload issuer nonce now)), pub := [] },
    ⟨rfl, ht.1, ht.2, 53 :: nonce, ed.sign priv (payload issuer nonce now), payload issuer nonce now, rfl, rfl, ?_, hk _⟩, rfl, rfl, rfl⟩
  refine ⟨_, eightBytes_bigEndian now, ?_⟩
  simp [payload, issuer]

/-- **C101** (metadata). Anyone gets the metadata, and it names the resource that the challenges name. -/
theorem C101_metadata (S : Rs) (r : ResourceServer.Req) (h : r.target.path = g!"/.well-known/oauth-protected-resource") :
    ∃ m, Exec (serve S r) [] (.done (.metadata m)) ∧ (g!"resource", .str g!"http://127.0.0.1:8085") ∈ m := by
  refine ⟨metadata, ?_, by simp [metadata]⟩
  unfold serve
  rw [if_pos h]
  exact .ret _

/-- **C101** (negation). The metadata does not follow RFC 9728: members without values are empty arrays
(section 3.2: they must be omitted), the scopes have another name than `scopes_supported` (section 2), and the
resource is not the one that the server signs for. -/
theorem C101_metadata_violated : (∃ k, (k, .strs []) ∈ metadata) ∧ (∀ v, (g!"scopes_supported", v) ∉ metadata) ∧
    (g!"resource", .str issuer) ∉ metadata := by
  refine ⟨⟨g!"authorization_servers", by simp [metadata]⟩, fun v h => ?_, fun h => ?_⟩
  · simp [metadata] at h
  · simp [metadata, issuer] at h

/-! ### Examples -/

/-- Signatures that show the message. -/
def demoEd : Ed25519 := ⟨fun _ m => m, fun _ m s => m = s⟩

def demoRs : Rs := ⟨demoEd, Demo.env, demoCli demoToken, g!"pub", g!"priv", some g!"12345678"⟩

/-- A request that gets a signed timestamp (C101_signed). -/
example : (∃ tr d, Exec (serve demoRs { method := g!"GET", target := { host := g!"rs", path := g!"/" }, authorization := g!"Bearer tok" }) tr
      (.done (.signed d))) ∧ Ed25519Correct demoRs.ed demoRs.pub demoRs.priv ∧ ∀ n, demoRs.nonce = some n → n.length = 8 := by
  refine ⟨?_, fun m => by simp [demoRs, demoEd], fun n h => by cases h; rfl⟩
  exact ⟨_, _, .step (c := .now) _ (100 : Nat) _ _ (.ret _)⟩

/-- A log, and a key under which only its messages verify (C101_binding). -/
example : ∃ (ed : Ed25519) (d : Doc), (∀ m sig, ed.verify g!"pub" m sig = true → Signed [(g!"12345678", 5)] m) ∧ Verified ed g!"pub" d :=
  ⟨⟨fun _ m => m, fun _ m s => m = s ∧ m = payload issuer g!"12345678" 5⟩,
    { issuer := issuer, timestamp := 5, scheme := g!"ed25519", nonce := Go.b64 g!"12345678"
      proof := Go.b64 (payload issuer g!"12345678" 5), pub := [] },
    fun m sig h => ⟨_, List.mem_singleton.2 rfl, by simpa using (by simpa using h : m = sig ∧ _).2⟩,
    rfl, by decide, by decide, _, _, _, rfl, rfl, rfl, isMessage_payload _ _ _, by simp⟩

/-- A signed timestamp (C101_boundary_violated). -/
example : (sign demoEd issuer g!"pub" g!"priv" (some g!"12345678") 5).isSome = true ∧ Ed25519Correct demoEd g!"pub" g!"priv" :=
  ⟨rfl, fun m => by simp [demoEd]⟩

end Verif.Props
