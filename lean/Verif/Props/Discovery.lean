import Verif.Model.Discovery
import Verif.Props.Client
import Verif.Props.Sign

/-!
C77 (error answers), C78 (signed metadata), C79 (what is advertised), C80 (the constructor of
the client library).
-/
set_option linter.unusedSimpArgs false
namespace Verif.Props
open Verif.Prog Verif.Spec Verif.Jose Verif.Sign Verif.Http Verif.Discovery

/-! ### The JSON codec -/

theorem error_roundtrip (m : Pb.Error) : Error.ofJson (Error.toJson m) = some { m with unknown := [] } := by
  rcases m with ⟨a, b, _ | c, _ | d, _ | e, u⟩ <;> rfl

set_option maxRecDepth 100000 in
theorem metadata_roundtrip (m : Pb.ServerMetadata) (h : m.mtlsEndpointAliases = none) :
    ServerMetadata.ofJson (ServerMetadata.toJson m) = some { m with unknown := [] } := by
  cases m
  cases h
  rfl

set_option maxRecDepth 100000 in
theorem metadata_roundtrip_mtls (m : Pb.ServerMetadata) (x : Pb.MTLSEndpoints) (h : m.mtlsEndpointAliases = some x) :
    ServerMetadata.ofJson (ServerMetadata.toJson m) =
      some { m with unknown := [], mtlsEndpointAliases := some { x with unknown := [] } } := by
  cases m
  cases h
  cases x
  rfl

/-! ### C77 -/

/-- The error codes of the IANA registry for OAuth (RFC 6749, 6750, 7009, 8628, 8707, 9449 and
OpenID Connect). -/
def registeredCodes : List Str :=
  [g!"invalid_request", g!"invalid_client", g!"invalid_grant", g!"unauthorized_client", g!"unsupported_grant_type",
   g!"invalid_scope", g!"access_denied", g!"unsupported_response_type", g!"server_error", g!"temporarily_unavailable",
   g!"invalid_token", g!"insufficient_scope", g!"unsupported_token_type", g!"interaction_required", g!"login_required",
   g!"session_selection_required", g!"consent_required", g!"invalid_request_uri", g!"invalid_request_object",
   g!"request_not_supported", g!"request_uri_not_supported", g!"registration_not_supported", g!"authorization_pending",
   g!"slow_down", g!"expired_token", g!"invalid_target", g!"invalid_dpop_proof", g!"use_dpop_nonce"]

/-- A character of RFC 6749, appendix A.7 and A.8 (`NQSCHAR`). -/
def nqschar (b : UInt8) : Prop := b = 0x20 ∨ b = 0x21 ∨ (0x23 ≤ b ∧ b ≤ 0x5B) ∨ (0x5D ≤ b ∧ b ≤ 0x7E)

instance (b : UInt8) : Decidable (nqschar b) := by unfold nqschar; infer_instance

theorem codes_fit (c : ErrCode) : codeText c ≠ [] ∧ (∀ b ∈ codeText c, nqschar b) ∧ description c ≠ [] ∧
    ∀ b ∈ description c, nqschar b := by
  cases c <;> decide +kernel

theorem codeText_inj {c c' : ErrCode} (h : codeText c = codeText c') : c = c' := by
  have hd : ∀ a b : ErrCode, codeText a = codeText b → a = b := by
    intro a b
    cases a <;> cases b <;> first | (intro _; rfl) | (intro h; exact absurd h (by decide))
  exact hd _ _ h

/-- **C77** (the client library). Whatever error the server answers with, the client library
reads a code and a description made of the allowed characters, and the state the error was
built with; different errors are read as different ones. -/
theorem C77_client_reads (e : OErr) : ∃ m, Error.ofJson (errorBody e) = some m ∧ m.state = e.state ∧
    m.err ≠ [] ∧ (∀ b ∈ m.err, nqschar b) ∧ m.errorDescription ≠ [] ∧ (∀ b ∈ m.errorDescription, nqschar b) ∧
    ∀ e', Error.ofJson (errorBody e') = some m → e' = e := by
  refine ⟨build e, error_roundtrip _, rfl, (codes_fit e.code).1, (codes_fit e.code).2.1, (codes_fit e.code).2.2.1,
    (codes_fit e.code).2.2.2, ?_⟩
  intro e' h
  rw [errorBody, error_roundtrip] at h
  have h := Option.some.inj h
  have h1 : codeText e'.code = codeText e.code := congrArg Pb.Error.err h
  have h2 : e'.state = e.state := congrArg Pb.Error.state h
  have h3 := codeText_inj h1
  cases e
  cases e'
  cases h2
  cases h3
  rfl

/-- **C77_partial** (registered codes). Every error code except the one for an expired device
session is registered. -/
theorem C77_codes_partial (e : OErr) (h : e.code ≠ .tokenExpired) :
    ∃ m, Error.ofJson (errorBody e) = some m ∧ m.err ∈ registeredCodes := by
  refine ⟨build e, error_roundtrip _, ?_⟩
  rcases e with ⟨c, s⟩
  change codeText c ∈ registeredCodes
  change c ≠ .tokenExpired at h
  clear s
  revert h
  cases c <;> decide +kernel

/-- An expired device session. -/
def Demo.lateAnswers (c : Cmd) : c.Res :=
  match c with
  | .now => 300 * second
  | c => Demo.grantAnswers c

/-- **C77_violated** (registered codes). A device that asks for its tokens too late is told an
error code that no specification knows (RFC 8628 says `expired_token`). -/
theorem C77_codes_violated : ∃ (S : Server) (r : Http.Req) (tr : List Ev) (c : ErrCode),
    Exec (Http.serve S .token r) tr (.done ⟨400, .error c⟩) ∧ (∀ ev ∈ tr, StoreContract ev) ∧
    ∀ st m, Error.ofJson (errorBody ⟨c, st⟩) = some m → m.err ∉ registeredCodes := by
  have hW : ∀ c, StoreContract ⟨c, Demo.lateAnswers c⟩ := by
    intro c
    cases c <;> simp [StoreContract, Demo.lateAnswers, Demo.grantAnswers, Demo.answers]
  obtain ⟨tr, a, h1, h2, h3⟩ := oracle_run Demo.lateAnswers
    (Http.serve Demo.server .token (Demo.grantRequest g!"urn:ietf:params:oauth:grant-type:device_code")) StoreContract
    (fun _ (a : Http.Resp) => a = ⟨400, .error .tokenExpired⟩) hW (by decide +kernel)
  refine ⟨_, _, tr, .tokenExpired, h3 ▸ h1, h2, fun st m hm => ?_⟩
  rw [errorBody, error_roundtrip] at hm
  cases hm
  show codeText .tokenExpired ∉ registeredCodes
  decide +kernel

/-- **C77_violated** (the member `error`). No error answer has the member `error` that
RFC 6749, section 5.2, requires: the code is written as `err`. -/
theorem C77_member_violated (e : OErr) (v : JVal) : (g!"error", v) ∉ errorBody e := by
  intro h
  have : g!"error" ∈ (errorBody e).map (·.1) := List.mem_map.2 ⟨_, h, rfl⟩
  revert this
  rcases e with ⟨c, _ | s⟩
  · have : (errorBody ⟨c, none⟩).map (·.1) = [g!"err", g!"error_description"] := rfl
    rw [this]; decide
  · have : (errorBody ⟨c, some s⟩).map (·.1) = [g!"err", g!"error_description", g!"state"] := rfl
    rw [this]; decide

/-- The hypothesis of C77_codes_partial is met. -/
example : (⟨.invalidGrant, some g!"xyz"⟩ : OErr).code ≠ .tokenExpired := by decide

/-! ### C78 -/

section
variable {L : Lib (List (Str × JVal))} {ok : List (Str × JVal) → Prop} {key : Jwk} {issuer : Str}

/-- `md` describes the server at `issuer`; the signature in it, checked with a key set that
holds the public key, gives the description without the signature. -/
structure SelfSigned (L : Lib (List (Str × JVal))) (key : Jwk) (issuer : Str) (md : Pb.ServerMetadata) : Prop where
  rest : { md with signedMetadata := [] } = metadata issuer
  typ : ∃ t, L.parse md.signedMetadata = some t ∧ t.typ = some g!"oauth-authorization-server"
  verified : ∀ ks, L.pub key ∈ ks → (L.pub key).kid = key.kid → (L.pub key).use ≠ g!"enc" →
    ∃ o, defaultClaims L.parse L.dec (some (some ks)) md.signedMetadata = .ok o ∧
      ServerMetadata.ofJson o = some { md with signedMetadata := [] }

/-- What the library signs. -/
theorem signedNow_spec (hL : L.Lawful ok) {s raw : Str} (hok : ok (ServerMetadata.toJson (current issuer s)))
    (h : signedNow L (some key) issuer s = some raw) :
    (∃ t, L.parse raw = some t ∧ t.typ = some g!"oauth-authorization-server") ∧
    ∀ ks, L.pub key ∈ ks → (L.pub key).kid = key.kid → (L.pub key).use ≠ g!"enc" →
      defaultClaims L.parse L.dec (some (some ks)) raw = .ok (ServerMetadata.toJson (current issuer s)) := by
  unfold signedNow serialize at h
  simp only at h
  split at h
  · cases h
  · obtain ⟨t, h1, h2, _⟩ := hL.signed hok h
    exact ⟨⟨t, h1, h2⟩, fun ks hk hkid hu => defaultClaims_signed hL hok h hk hkid hu⟩

theorem selfSigned (hL : L.Lawful ok) {s : Str} (hok : ok (ServerMetadata.toJson (current issuer [])))
    (h : signedNow L (some key) issuer [] = some s) : SelfSigned L key issuer (current issuer s) := by
  obtain ⟨h1, h2⟩ := signedNow_spec hL hok h
  exact ⟨rfl, h1, fun ks a b c => ⟨_, h2 ks a b c, metadata_roundtrip _ rfl⟩⟩

theorem run_append (key : Option Jwk) (c : MConf) (is js : List Nat) :
    mrun L key issuer c (is ++ js) = mrun L key issuer (mrun L key issuer c is) js := List.foldl_append

theorem advance_other (key : Option Jwk) (c : MConf) {i j : Nat} (h : j ≠ i) : (advance L key issuer c i).req j = c.req j := by
  unfold advance
  cases hc : c.req i with
  | cleared => cases hs : signedNow L key issuer c.shared <;> simp [h]
  | _ => simp [h]

theorem run_other (key : Option Jwk) {j : Nat} : ∀ (is : List Nat) (c : MConf), j ∉ is → (mrun L key issuer c is).req j = c.req j
  | [], _, _ => rfl
  | i :: is, c, h => by
    simp only [List.mem_cons, not_or] at h
    show (mrun L key issuer (advance L key issuer c i) is).req j = _
    rw [run_other key is _ h.2, advance_other key c h.1]

theorem advance_answered (key : Option Jwk) (c : MConf) {i j : Nat} {md : Pb.ServerMetadata} (h : c.req j = .answered md) :
    (advance L key issuer c i).req j = .answered md := by
  by_cases hji : j = i
  · subst hji
    unfold advance
    rw [h]
    exact h
  · rw [advance_other key c hji, h]

theorem run_answered (key : Option Jwk) {j : Nat} {md : Pb.ServerMetadata} : ∀ (is : List Nat) (c : MConf),
    c.req j = .answered md → (mrun L key issuer c is).req j = .answered md
  | [], _, h => h
  | _ :: is, c, h => run_answered key is _ (advance_answered key c h)

theorem advance_failed (key : Option Jwk) (c : MConf) {i j : Nat} (h : c.req j = .failed) :
    (advance L key issuer c i).req j = .failed := by
  by_cases hji : j = i
  · subst hji
    unfold advance
    rw [h]
    exact h
  · rw [advance_other key c hji, h]

theorem run_failed (key : Option Jwk) {j : Nat} : ∀ (is : List Nat) (c : MConf),
    c.req j = .failed → (mrun L key issuer c is).req j = .failed
  | [], _, h => h
  | _ :: is, c, h => run_failed key is _ (advance_failed key c h)

theorem run_four (key : Option Jwk) (c : MConf) (i : Nat) (h : c.req i = .start) :
    (mrun L key issuer c [i, i, i, i]).req i =
      match signedNow L key issuer [] with
      | none => .failed
      | some s => .answered (current issuer s) := by
  have h1 : advance L key issuer c i = ⟨[], fun j => if j = i then .cleared else c.req j⟩ := by
    unfold advance; rw [h]
  simp only [mrun, List.foldl_cons, List.foldl_nil, h1]
  cases hs : signedNow L key issuer [] with
  | none => simp [advance, hs]
  | some s => simp [advance, hs]

/-- **C78** (a request that is not disturbed). Whatever the requests before have done, finished
or not, a request that nobody disturbs while it is being answered gets the description of the
server with a signature of it, or a server error if signing fails. Requests after it change
nothing. -/
theorem C78_undisturbed (hL : L.Lawful ok) (hok : ok (ServerMetadata.toJson (metadata issuer)))
    (before after : List Nat) (i : Nat) (hi : i ∉ before) :
    (∀ md, (mrun L (some key) issuer .init (before ++ [i, i, i, i] ++ after)).req i = .answered md →
      SelfSigned L key issuer md) ∧
    (key.kid ≠ [] → (∀ o, L.sign g!"oauth-authorization-server" key.kid false key o ≠ none) →
      ∃ md, (mrun L (some key) issuer .init (before ++ [i, i, i, i] ++ after)).req i = .answered md) := by
  have h0 : (mrun L (some key) issuer .init before).req i = .start := by rw [run_other _ _ _ hi]; rfl
  have h4 := run_four (L := L) (issuer := issuer) (some key) _ i h0
  rw [run_append, run_append]
  cases hs : signedNow L (some key) issuer [] with
  | none =>
    rw [hs] at h4
    rw [run_failed _ _ _ h4]
    refine ⟨fun md h => (by cases h), fun hk hsg => ?_⟩
    unfold signedNow serialize at hs
    simp only [hk, if_false] at hs
    exact absurd hs (hsg _)
  | some s =>
    rw [hs] at h4
    rw [run_answered _ _ _ h4]
    exact ⟨fun md h => (by cases h; exact selfSigned hL hok hs), fun _ _ => ⟨_, rfl⟩⟩

/-- A text that was produced by signing the description, perhaps with such a text in it. -/
inductive Genuine (L : Lib (List (Str × JVal))) (key : Option Jwk) (issuer : Str) : Str → Prop
  | plain {raw} : signedNow L key issuer [] = some raw → Genuine L key issuer raw
  | nested {s raw} : Genuine L key issuer s → signedNow L key issuer s = some raw → Genuine L key issuer raw

/-- What holds at every moment. -/
structure Reached (L : Lib (List (Str × JVal))) (key : Option Jwk) (issuer : Str) (c : MConf) : Prop where
  shared : c.shared = [] ∨ Genuine L key issuer c.shared
  signed : ∀ i s, c.req i = .signed s → Genuine L key issuer s
  answered : ∀ i md, c.req i = .answered md → ∃ s, md = current issuer s ∧ (s = [] ∨ Genuine L key issuer s)

theorem reached_advance {key : Option Jwk} {c : MConf} (h : Reached L key issuer c) (i : Nat) :
    Reached L key issuer (advance L key issuer c i) := by
  unfold advance
  cases hc : c.req i with
  | start =>
    refine ⟨.inl rfl, fun j s hj => ?_, fun j md hj => ?_⟩ <;> simp only at hj <;> split at hj
    · cases hj
    · exact h.signed j s hj
    · cases hj
    · exact h.answered j md hj
  | cleared =>
    cases hs : signedNow L key issuer c.shared with
    | none =>
      refine ⟨h.shared, fun j s hj => ?_, fun j md hj => ?_⟩ <;> simp only [hs] at hj <;> split at hj
      · cases hj
      · exact h.signed j s hj
      · cases hj
      · exact h.answered j md hj
    | some raw =>
      refine ⟨h.shared, fun j s hj => ?_, fun j md hj => ?_⟩ <;> simp only [hs] at hj <;> split at hj
      · cases hj
        rcases h.shared with he | hg
        · rw [he] at hs; exact .plain hs
        · exact .nested hg hs
      · exact h.signed j s hj
      · cases hj
      · exact h.answered j md hj
  | signed s' =>
    refine ⟨.inr (h.signed i s' hc), fun j s hj => ?_, fun j md hj => ?_⟩ <;> simp only at hj <;> split at hj
    · cases hj
    · exact h.signed j s hj
    · cases hj
    · exact h.answered j md hj
  | stored =>
    refine ⟨h.shared, fun j s hj => ?_, fun j md hj => ?_⟩ <;> simp only at hj <;> split at hj
    · cases hj
    · exact h.signed j s hj
    · cases hj; exact ⟨_, rfl, h.shared⟩
    · exact h.answered j md hj
  | answered md => simpa [hc] using h
  | failed => simpa [hc] using h

theorem reached_run {key : Option Jwk} : ∀ (is : List Nat) {c : MConf}, Reached L key issuer c → Reached L key issuer (mrun L key issuer c is)
  | [], _, h => h
  | i :: is, _, h => reached_run is (reached_advance h i)

theorem reached_init (key : Option Jwk) : Reached L key issuer .init :=
  ⟨.inl rfl, fun _ _ h => (by cases h), fun _ _ h => (by cases h)⟩

/-- **C78_partial** (overlapping requests). However requests overlap, every answer describes the
server correctly, the signature aside; and the signature is missing or was made by the server's key
over a description of the server that differs at most in its signature. Missing: it may be
absent, or sign another signature (`C78_absent_violated`, `C78_nested_violated`). -/
theorem C78_overlapping_partial (hL : L.Lawful ok) (hok : ∀ s, ok (ServerMetadata.toJson (current issuer s)))
    (is : List Nat) (i : Nat) (md : Pb.ServerMetadata)
    (h : (mrun L (some key) issuer .init is).req i = .answered md) :
    { md with signedMetadata := [] } = metadata issuer ∧
    (md.signedMetadata = [] ∨ ∀ ks, L.pub key ∈ ks → (L.pub key).kid = key.kid → (L.pub key).use ≠ g!"enc" →
      ∃ o md', defaultClaims L.parse L.dec (some (some ks)) md.signedMetadata = .ok o ∧
        ServerMetadata.ofJson o = some md' ∧ { md' with signedMetadata := [] } = metadata issuer) := by
  obtain ⟨s, rfl, hs⟩ := (reached_run is (reached_init (some key))).answered i md h
  refine ⟨rfl, hs.imp id fun hg ks a b c => ?_⟩
  cases hg with
  | plain h => exact ⟨_, _, (signedNow_spec hL (hok _) h).2 ks a b c, metadata_roundtrip _ rfl, rfl⟩
  | nested _ h => exact ⟨_, _, (signedNow_spec hL (hok _) h).2 ks a b c, metadata_roundtrip _ rfl, rfl⟩

/-- **C78_violated** (absent signature). Whenever signing works, two overlapping requests can
make the server answer without a signature. -/
theorem C78_absent_violated (hk : key.kid ≠ []) (hsg : ∀ o, L.sign g!"oauth-authorization-server" key.kid false key o ≠ none) :
    ∃ is md, (mrun L (some key) issuer .init is).req 0 = .answered md ∧ md.signedMetadata = [] := by
  refine ⟨[0, 0, 0, 1, 0], current issuer [], ?_, rfl⟩
  have hs : ∃ raw, signedNow L (some key) issuer [] = some raw := by
    unfold signedNow serialize
    simp only [hk, if_false]
    exact Option.ne_none_iff_exists'.1 (hsg _)
  obtain ⟨raw, hs⟩ := hs
  simp [mrun, advance, MConf.init, hs]

/-- **C78_violated** (nested signature). Whenever signing works, two overlapping requests can
make the server sign a description that carries another signature. -/
theorem C78_nested_violated (hL : L.Lawful ok) (hok : ∀ s, ok (ServerMetadata.toJson (current issuer s)))
    (hk : key.kid ≠ []) (hsg : ∀ o, L.sign g!"oauth-authorization-server" key.kid false key o ≠ none)
    (hkid : (L.pub key).kid = key.kid) (hu : (L.pub key).use ≠ g!"enc") :
    ∃ is md o md', (mrun L (some key) issuer .init is).req 0 = .answered md ∧
      defaultClaims L.parse L.dec (some (some [L.pub key])) md.signedMetadata = .ok o ∧
      ServerMetadata.ofJson o = some md' ∧ md'.signedMetadata ≠ [] := by
  have hs : ∀ s, ∃ raw, signedNow L (some key) issuer s = some raw := by
    intro s
    unfold signedNow serialize
    simp only [hk, if_false]
    exact Option.ne_none_iff_exists'.1 (hsg _)
  obtain ⟨r1, h1⟩ := hs []
  obtain ⟨r2, h2⟩ := hs r1
  have hne : r1 ≠ [] := by
    unfold signedNow serialize at h1
    simp only [hk, if_false] at h1
    exact hL.nonempty h1
  refine ⟨[0, 1, 1, 1, 0, 0, 0], current issuer r2, _, current issuer r1, ?_, (signedNow_spec hL (hok _) h2).2 _ (by simp) hkid hu,
    metadata_roundtrip _ rfl, hne⟩
  simp [mrun, advance, MConf.init, h1, h2]

set_option maxRecDepth 100000 in
/-- **C78_violated** (issuer of the signed metadata). RFC 8414, section 2.1, wants an `iss` claim
in signed metadata; there is none. -/
theorem C78_iss_violated (md : Pb.ServerMetadata) (v : JVal) : (g!"iss", v) ∉ ServerMetadata.toJson md := by
  intro h
  have hm : g!"iss" ∈ (ServerMetadata.toJson md).map (·.1) := List.mem_map.2 ⟨_, h, rfl⟩
  have : (ServerMetadata.toJson md).map (·.1) = (ServerMetadata.toJson {}).map (·.1) := by cases md; rfl
  rw [this] at hm
  revert hm
  decide +kernel

/-- A library that signs descriptions of one server. -/
def mdLib : Lib (List (Str × JVal)) where
  sign ty kid e _ o := if ty = g!"oauth-authorization-server" ∧ kid = g!"k1" ∧ e = false then
    some (1 :: ((ServerMetadata.ofJson o).map (·.signedMetadata)).getD []) else none
  parse raw := some { kid := g!"k1", typ := some g!"oauth-authorization-server", payload := raw, verifies := fun k => k.key == g!"pub" }
  dec raw := some (ServerMetadata.toJson (current g!"https://as" raw.tail))
  pub k := { k with key := g!"pub" }

theorem mdLib_lawful : mdLib.Lawful (fun o => ∃ s, o = ServerMetadata.toJson (current g!"https://as" s)) where
  nonempty := by
    intro ty kid e k c raw h
    simp only [mdLib] at h
    split at h
    · cases h; simp
    · cases h
  signed := by
    rintro ty kid e k _ raw ⟨s, rfl⟩ h
    simp only [mdLib] at h
    split at h
    · rename_i hc
      obtain ⟨rfl, rfl, rfl⟩ := hc
      rw [metadata_roundtrip _ rfl] at h
      cases h
      exact ⟨_, rfl, rfl, rfl, rfl, rfl, by simp⟩
    · cases h

/-- The hypotheses of C78 are met. -/
example : (∀ s, ∃ s', ServerMetadata.toJson (current g!"https://as" s) = ServerMetadata.toJson (current g!"https://as" s')) ∧
    (∃ s, ServerMetadata.toJson (metadata g!"https://as") = ServerMetadata.toJson (current g!"https://as" s)) ∧
    demoKey.kid ≠ [] ∧ (∀ o, mdLib.sign g!"oauth-authorization-server" demoKey.kid false demoKey o ≠ none) ∧
    (mdLib.pub demoKey).kid = demoKey.kid ∧ (mdLib.pub demoKey).use ≠ g!"enc" ∧ 3 ∉ [1, 2, 1, 1] ∧
    (∃ md, (mrun mdLib (some demoKey) g!"https://as" .init [1, 2, 1, 1, 3, 3, 3, 3, 1]).req 3 = .answered md) :=
  ⟨fun s => ⟨s, rfl⟩, ⟨[], rfl⟩, by decide, fun o => by simp [mdLib, demoKey], rfl, by decide, by decide,
    (C78_undisturbed (key := demoKey) mdLib_lawful ⟨[], rfl⟩ [1, 2, 1, 1] [1] 3 (by decide)).2 (by decide)
      (fun o => by simp [mdLib, demoKey])⟩

end

/-! ### C79 -/

theorem route_append (issuer path : Str) : route issuer (issuer ++ path) = routes.lookup path := by
  unfold route
  rw [if_pos (by simp), List.drop_left]

/-- **C79** (endpoints). Every endpoint in the description is served, by the handler it stands
for, and the description itself is found where the client library asks for it. -/
theorem C79_endpoints (issuer : Str) :
    route issuer (metadata issuer).authorizationEndpoint = some (.http .authorize) ∧
    route issuer (metadata issuer).tokenEndpoint = some (.http .token) ∧
    route issuer (metadata issuer).introspectionEndpoint = some (.http .introspect) ∧
    route issuer (metadata issuer).revocationEndpoint = some (.http .revoke) ∧
    route issuer (metadata issuer).deviceAuthorizationEndpoint = some (.http .deviceAuthorize) ∧
    route issuer (metadata issuer).pushedAuthorizationRequestEndpoint = some (.http .par) ∧
    route issuer (metadata issuer).jwksUri = some .keys ∧
    route issuer (issuer ++ g!"/.well-known/oauth-authorization-server") = some .metadata ∧
    route issuer (issuer ++ g!"/.well-known/openid-configuration") = some .metadata := by
  simp only [metadata, route_append]
  decide +kernel

/-- The texts of a description, those of the lists aside. -/
def texts (o : List (Str × JVal)) : List Str :=
  o.filterMap fun
    | (_, .str s) => some s
    | _ => none

set_option maxRecDepth 100000 in
/-- **C79** (nothing else). Every URL in the description is the issuer or is served; and
everything that is served is in the description, except the description and the page that
the answers of the device flow name. -/
theorem C79_urls (issuer : Str) :
    (∀ s ∈ texts (ServerMetadata.toJson (metadata issuer)), s = [] ∨ s = issuer ∨ (route issuer s).isSome) ∧
    ∀ path e, (path, e) ∈ routes → e = .metadata ∨ e = .http .device ∨
      issuer ++ path ∈ texts (ServerMetadata.toJson (metadata issuer)) := by
  have h : texts (ServerMetadata.toJson (metadata issuer)) = [issuer, issuer ++ g!"/authorize", issuer ++ g!"/token",
      issuer ++ g!"/keys", [], [], [], [], [], issuer ++ g!"/token/revoke", issuer ++ g!"/token/introspect",
      issuer ++ g!"/par", issuer ++ g!"/device/authorize", []] := rfl
  rw [h]
  constructor
  · have hl : ∀ p ∈ [g!"/authorize", g!"/token", g!"/keys", g!"/token/revoke", g!"/token/introspect", g!"/par",
        g!"/device/authorize"], (route issuer (issuer ++ p)).isSome = true := by
      intro p hp
      rw [route_append]
      revert p
      decide +kernel
    intro s hs
    simp only [List.mem_cons, List.not_mem_nil, or_false] at hs
    rcases hs with rfl | rfl | rfl | rfl | rfl | rfl | rfl | rfl | rfl | rfl | rfl | rfl | rfl | rfl
    · exact .inr (.inl rfl)
    all_goals first | exact .inl rfl | exact .inr (.inr (hl _ (by decide)))
  · intro path e he
    simp only [routes, List.mem_cons, List.not_mem_nil, or_false, Prod.mk.injEq] at he
    rcases he with ⟨rfl, rfl⟩ | ⟨rfl, rfl⟩ | ⟨rfl, rfl⟩ | ⟨rfl, rfl⟩ | ⟨rfl, rfl⟩ | ⟨rfl, rfl⟩ | ⟨rfl, rfl⟩ | ⟨rfl, rfl⟩ |
      ⟨rfl, rfl⟩ | ⟨rfl, rfl⟩ <;> simp

/-- **C79** (the page of the device flow). The page named in an answer to a device is the one
where the server takes user codes. -/
theorem C79_device_page (S : Server) (r : Http.Req) (tr : List Ev) (st : Nat) (d u v : Str) (n k : Nat)
    (hnil : ∀ id, ⟨.clientsGet id, .ok none⟩ ∉ tr)
    (h : Exec (Http.serve S .deviceAuthorize r) tr (.done ⟨st, .device d u v n k⟩)) :
    route S.issuer v = some (.http .device) := by
  rcases clientAuth_exec h hnil with ⟨_, h2, _⟩ | ⟨c, t1, t2, rfl, _, _, hk⟩
  · obtain ⟨e, he⟩ := h2 _ rfl
    simp at he
  unfold deviceAuthzHandler at hk
  split at hk
  · cases hk
  obtain ⟨u1, u2, res, rfl, _, k2⟩ := exec_bind_done hk
  split at k2
  · unfold withError at k2
    split at k2 <;> cases k2
  · cases k2
    rw [route_append]
    decide +kernel

/-- **C79_violated** (algorithms of proofs). The description offers one algorithm for DPoP
proofs, and the verifier of the example server refuses every proof made with it. -/
theorem C79_proofs_violated (E : Env) (parse : Str → Option Jws) (f : Jws → Proof) (issuer : Str)
    (hE : E.parseProof = fun raw => (restrict proofAlgs parse raw).map f) (req : DPoP.VerifyReq) (t : Jws)
    (ht : parse req.proof = some t) (ha : t.alg ∈ (metadata issuer).dpopSigningAlgValuesSupported) (tr : List Ev)
    (a : Option Str) (h : Exec (DPoP.verify E req) tr (.done a)) : a = none := by
  have e : E.parseProof req.proof = none := by
    rw [hE]
    have hne : t.alg ∉ proofAlgs := by
      simp only [metadata, List.mem_cons, List.not_mem_nil, or_false] at ha
      rw [ha]
      decide
    simp [restrict, ht, Option.filter, hne]
  unfold DPoP.verify at h
  rw [e] at h
  split at h
  · cases h; rfl
  · split at h
    · cases h; rfl
    · split at h <;> cases h <;> rfl

/-- **C79** (other algorithms). The algorithm accepted for request objects and the one used for
authorization responses are in the description. -/
theorem C79_algs (issuer : Str) :
    (∀ alg, alg ∈ (metadata issuer).requestObjectSigningAlgValuesSupported ↔ alg ∈ requestAlgs) ∧
    responseAlg ∈ (metadata issuer).authorizationSigningAlgValuesSupported := by
  refine ⟨fun _ => Iff.rfl, ?_⟩
  show responseAlg ∈ [g!"ES256", g!"ES384"]
  decide

/-- **C79_violated** (empty members). RFC 8414, section 3.2: members with no values must be left
out. The answer has such members, among them the scopes. -/
theorem C79_empty_violated (issuer s : Str) : (g!"scopes_supported", .strs []) ∈ ServerMetadata.toJson (current issuer s) ∧
    (g!"userinfo_endpoint", .str []) ∈ ServerMetadata.toJson (current issuer s) := by
  constructor
  · exact List.mem_of_getElem? (i := 6) rfl
  · exact List.mem_of_getElem? (i := 4) rfl

/-! ### C80 -/

/-- The example server, asked for its description and its keys. -/
def exampleMeta (md : Pb.ServerMetadata) (url : Str) : Answer :=
  if route md.issuer url = some .metadata then .answer 200 (some (some (ServerMetadata.toJson md))) else .answer 404 none

def exampleKeys (md : Pb.ServerMetadata) (ks : List Jwk) (url : Str) : Client.Fetch :=
  if route md.issuer url = some .keys then Client.jwksAnswer ks else .answer 404 none

/-- **C80** (the example server). A client that is given the issuer of the example server ends
up with the description and the keys of the server, whatever the signature in the description. -/
theorem C80_connects (issuer s : Str) (ks : List Jwk) (hks : ks ≠ []) (now : Nat) :
    ∃ c, connect (exampleMeta (current issuer s)) (exampleKeys (current issuer s) ks) now issuer = .ok c ∧
      c.issuer = issuer ∧ c.metadata = current issuer s ∧ c.metadata.issuer = issuer ∧ c.cache.jwks = some ks := by
  have h1 : exampleMeta (current issuer s) (issuer ++ g!"/.well-known/oauth-authorization-server") =
      .answer 200 (some (some (ServerMetadata.toJson (current issuer s)))) := by
    have := (C79_endpoints issuer).2.2.2.2.2.2.2.1
    unfold exampleMeta
    exact if_pos this
  have h2 : exampleKeys (current issuer s) ks (current issuer s).jwksUri = Client.jwksAnswer ks := by
    have := (C79_endpoints issuer).2.2.2.2.2.2.1
    unfold exampleKeys
    exact if_pos this
  unfold connect
  rw [h1]
  simp only [ne_eq, not_true_eq_false, if_false, metadata_roundtrip (current issuer s) rfl]
  have h3 : ({ current issuer s with unknown := [] } : Pb.ServerMetadata) = current issuer s := rfl
  rw [h3, h2]
  cases ks with
  | nil => exact absurd rfl hks
  | cons k ks => exact ⟨_, rfl, rfl, rfl, rfl, rfl⟩

/-- **C80_partial** (any server). What a client holds after its construction was answered at
the well-known address of the issuer it was given and at the address of the keys in that
answer. Missing: the answer may speak of another issuer (`C80_issuer_violated`). -/
theorem C80_holds_partial (fm : Str → Answer) (fk : Str → Client.Fetch) (now : Nat) (issuer : Str) (c : Conn)
    (h : connect fm fk now issuer = .ok c) :
    c.issuer = issuer ∧ ∃ o ks e, fm (issuer ++ g!"/.well-known/oauth-authorization-server") = .answer 200 (some (some o)) ∧
      ServerMetadata.ofJson o = some c.metadata ∧ fk c.metadata.jwksUri = .answer 200 (some ⟨some ks, e⟩) ∧
      ks ≠ [] ∧ c.cache.jwks = some ks ∧ (e = 0 ∨ now ≤ e) := by
  unfold connect at h
  split at h
  · cases h
  · rename_i status body hf
    split at h
    · cases h
    · rename_i hst
      simp only [ne_eq, Decidable.not_not] at hst
      subst hst
      split at h
      · cases h
      · cases h
      · rename_i o
        split at h
        · cases h
        · rename_i md hd
          split at h
          · rename_i x cache hp
            cases h
            unfold Client.publicKeys at hp
            simp only at hp
            split at hp
            · cases hp
            · rename_i status' body' hk
              split at hp
              · cases hp
              · rename_i hst'
                simp only [ne_eq, Decidable.not_not] at hst'
                subst hst'
                split at hp
                · cases hp
                · rename_i b
                  rcases b with ⟨keys, e⟩
                  split at hp
                  · cases hp
                  · cases hp
                  · rename_i ks hne hb
                    simp only at hb
                    subst hb
                    split at hp
                    · cases hp
                    · rename_i he
                      cases hp
                      exact ⟨rfl, o, ks, e, hf, hd, hk, fun hx => hne (by rw [hx]), rfl, by simp only at he; omega⟩
          · cases h
          · cases h

/-- **C80_violated** (issuer). RFC 8414, section 3.3: a description whose issuer is not the one
that was asked for must not be used. The client library uses any: for every description
that can be written, a server can make a client of any issuer work with it. -/
theorem C80_issuer_violated (md : Pb.ServerMetadata) (hm : md.mtlsEndpointAliases = none) (ks : List Jwk) (hks : ks ≠ [])
    (now : Nat) (issuer : Str) :
    ∃ fm fk c, connect fm fk now issuer = .ok c ∧ c.issuer = issuer ∧ c.metadata = { md with unknown := [] } := by
  refine ⟨fun _ => .answer 200 (some (some (ServerMetadata.toJson md))), fun _ => Client.jwksAnswer ks, ?_⟩
  unfold connect
  simp only [ne_eq, not_true_eq_false, if_false, metadata_roundtrip md hm]
  cases ks with
  | nil => exact absurd rfl hks
  | cons k ks => exact ⟨_, rfl, rfl, rfl⟩

/-- **C80_violated** (mix-up). A client that was led to another server signs an assertion for
that server; presented to the example server within its 30 seconds, the assertion gets a
token of the client. -/
theorem C80_mixup_violated {S : Server} {w : World} {L : Lib ClientAuth.PrivClaims} {o : Client.Options} {a : Str} {url : DPoP.Target} {key : Jwk}
    {cl : Client} {jwkOf : Str → Option Jwk} {other : Str} {tr0 tr : List Ev} {out : Outcome Http.Resp}
    (ho : other ≠ []) (_ : other ≠ S.issuer) (hj : jwkOf o.jwk = some key)
    (hx0 : Exec (Client.assertion jwkOf L o other) tr0 (.done (some a)))
    (hjti : ∀ j, ⟨.jti, j⟩ ∈ tr0 → j ≠ []) (hnow : ∀ n, ⟨.now, n⟩ ∈ tr0 → w.last ≤ seconds n + 30)
    (hL : L.Lawful (fun _ => True)) (hparse : S.P.parse = L.parse) (hdec : S.P.privClaims = L.dec)
    (hid : o.clientId ≠ [])
    (hk : HasKey w S.P.jwks o.clientId cl (L.pub key)) (hi : S.issuer ≠ []) (hu : S.E.parseRequestURI S.issuer = true)
    (hb : cl.dpopBoundAccessTokens = false) (hty : cl.clientType = .confidential ∨ cl.clientType = .credentialed)
    (hgt : MemFold g!"client_credentials" cl.grantTypes)
    (hx : Exec (Http.serve S .token (Client.credentialsReq a url)) tr out) (hw : ∀ ev ∈ tr, w.Healthy ev) :
    out = .stopped ∨ ∃ resp tk, out = .done resp ∧ Client.readToken resp = some tk ∧ tk.accessToken ≠ [] := by
  have hp : Prepared S w L o key a :=
    ⟨⟨jwkOf, other, tr0, hj, ho, hx0, hjti, hnow, _, hL, fun _ _ _ _ => trivial⟩, hparse, hdec, hid⟩
  rcases C73_gets_token_partial hp hk hi hu hb hty hgt hx hw with h | ⟨resp, tk, h1, h2, _, h3, _⟩
  · exact .inl h
  · exact .inr ⟨resp, tk, h1, h2, h3⟩

/-- **C80_violated** (crash). A server that answers `null` crashes the client. -/
theorem C80_null_violated (fk : Str → Client.Fetch) (now : Nat) (issuer : Str) :
    ∃ fm, connect fm fk now issuer = .panic :=
  ⟨fun _ => .answer 200 (some none), rfl⟩

/-- The hypotheses of C79 are met. -/
example : (∃ (r : Http.Req) (tr : List Ev) (d u v : Str) (n k : Nat),
      Exec (Http.serve Demo.server .deviceAuthorize r) tr (.done ⟨200, .device d u v n k⟩) ∧
      ∀ id, ⟨.clientsGet id, .ok none⟩ ∉ tr) ∧
    ∃ (parse : Str → Option Jws) (t : Jws), parse g!"proof" = some t ∧
      t.alg ∈ (metadata g!"https://as").dpopSigningAlgValuesSupported := by
  constructor
  · have hW : ∀ c, StoreContract ⟨c, Demo.httpAnswers c⟩ ∧ ∀ id, (⟨c, Demo.httpAnswers c⟩ : Ev) ≠ ⟨.clientsGet id, .ok none⟩ := by
      intro c
      cases c <;> simp [StoreContract, Demo.httpAnswers, Demo.answers]
    obtain ⟨tr, a, h1, h2, h3⟩ := oracle_run Demo.httpAnswers (Http.serve Demo.server .deviceAuthorize
      { method := g!"POST", query := Demo.form [(g!"client_id", g!"app")], post := Demo.form [] })
      (fun ev => StoreContract ev ∧ ∀ id, ev ≠ ⟨.clientsGet id, .ok none⟩)
      (fun _ (a : Http.Resp) => a = ⟨200, .device g!"dc" g!"uc" g!"https://as/device" 120 5⟩) hW (by decide +kernel)
    exact ⟨_, tr, _, _, _, _, _, h3 ▸ h1, fun id hm => (h2 _ hm).2 id rfl⟩
  · exact ⟨fun _ => some { alg := g!"ES256", payload := [], verifies := fun _ => true }, _, rfl, by simp [metadata]⟩

/-- The hypotheses of C80 are met: a client of the example server, and a client of another
server whose assertion is used at `https://honest`. -/
example : (∃ c, connect (exampleMeta (current g!"https://as" [])) (exampleKeys (current g!"https://as" []) [demoKey]) 100
      g!"https://as" = .ok c) ∧
    (metadata g!"https://other").mtlsEndpointAliases = none ∧
    ∃ tr, Exec (Http.serve { ccServer with issuer := g!"https://honest" } .token (Client.credentialsReq g!"assertion" {})) tr
      (.done ⟨200, .tokens ⟨g!"access", 3600, g!"Bearer", [], []⟩⟩) ∧
    ∀ ev ∈ tr, (ccWorld false).Healthy ev := by
  refine ⟨?_, rfl, ?_⟩
  · obtain ⟨c, h, _⟩ := C80_connects g!"https://as" [] [demoKey] (by simp) 100
    exact ⟨c, h⟩
  · obtain ⟨tr, resp, h1, h2, h3⟩ := oracle_run (ccAnswers false)
      (Http.serve { ccServer with issuer := g!"https://honest" } .token (Client.credentialsReq g!"assertion" {})) (ccWorld false).Healthy
      (fun _ (resp : Http.Resp) => resp = ⟨200, .tokens ⟨g!"access", 3600, g!"Bearer", [], []⟩⟩)
      (ccAnswers_healthy _) (by decide +kernel)
    exact ⟨tr, h3 ▸ h1, h2⟩

end Verif.Props
