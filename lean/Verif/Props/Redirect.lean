import Verif.Props.Authorization
import Verif.Props.Complete

/-!
C82: codes go to registered redirect URIs. The comparison of
`sdk/types/string_array.go` is `strings.EqualFold`, not equality.
-/
namespace Verif.Props
open Verif.Spec Verif.Prog Verif.Authorization Verif.Store

/-- **C82** (partial). The redirect URI of a code answer is that of the request, and some
URI registered for the client has as many runes and is the same up to letter case. When
the registered URIs are ASCII and have no `s` and no `k`, the URI of the answer is ASCII
and differs from the registered one only by ASCII capitals. Missing: equality; the
theorems `C82_violated_*` show that it does not hold. -/
theorem C82_redirect_partial (E : Env) (req : Option AuthorizeReq) (tr : List Ev)
    (a : AuthorizeResp) (h : Exec (authorize E req) tr (.done a)) (hi : Issued a) :
    ∃ q r cl u, req = some q ∧ ActedOn q tr r ∧ ⟨.clientsGet r.clientId, .ok (some cl)⟩ ∈ tr ∧
      a.redirectUri = r.redirectUri ∧ u ∈ cl.redirectUris ∧ SameFold a.redirectUri u ∧
      (Go.runes a.redirectUri).length = (Go.runes u).length ∧
      (Go.Ascii u → (∀ b ∈ u, b ≠ 115 ∧ b ≠ 83 ∧ b ≠ 107 ∧ b ≠ 75) →
        Go.Ascii a.redirectUri ∧ a.redirectUri.length = u.length ∧ Go.toLower a.redirectUri = Go.toLower u) := by
  have := done_sound (authorize_done E req) h
  simp only [List.nil_append] at this
  rcases this with ⟨_, q, r, eff, cl, n, s, h1, ⟨h2, h3, h4, h5, h6, h7, h8, _⟩, hrest⟩ | ⟨hn, _⟩
  · obtain ⟨u, hu, hs⟩ := h8.redirectUri
    have hr : a.redirectUri = r.redirectUri := by
      have := congrArg AuthorizeResp.redirectUri hrest.2
      simpa using this
    have hlen := congrArg List.length (hr ▸ hs : SameFold a.redirectUri u)
    simp only [List.length_map] at hlen
    refine ⟨q, r, cl, u, h1, h4, h7, hr, hu, hr ▸ hs, hlen, fun ha hk => ?_⟩
    have has : Go.Ascii a.redirectUri := Go.fold_ascii (hr ▸ hs) ha hk
    refine ⟨has, ?_, Go.toLower_fold (hr ▸ hs) has ha⟩
    rw [Go.runes_ascii has, Go.runes_ascii ha] at hlen
    simpa using hlen
  · exact absurd hi hn

/-- **C82 violated** (for every request). A well-formed request of a registered client for a
redirect URI that is not registered, but is so up to letter case, gets a code for that URI. -/
theorem C82_violated_always (E : Env) (s : St) (ls : List Label) {q : AuthorizeReq} {r : AuthzRequest} {cl : Client}
    (hq : q.request = some r) (hu : r.requestUri = none) (hiss : q.issuer ≠ []) (hsub : q.subject ≠ [])
    (hwf : WellFormed E r) (hcl : (run E s ls).st.clients r.clientId = some cl) (hreg : Registered cl r)
    (hnot : r.redirectUri ∉ cl.redirectUris) {chs : List Choice} (hund : Undisturbed chs) (hn : 3 ≤ chs.length)
    {n : Nat} (hlen : (run E s ls).threads.length = n) :
    ∃ a, Answered (run E s (ls ++ serve n (.authorize (some q)) chs)) n (.authorize (some q)) (.authorize a) ∧
      a.code ≠ [] ∧ a.redirectUri = r.redirectUri ∧ a.redirectUri ∉ cl.redirectUris := by
  obtain ⟨a, eff, h1, h2, h3, _⟩ := C57_authorize (E := E) s ls hq hu hiss hsub hwf hcl hreg hund hn hlen
  have : a.redirectUri = r.redirectUri := by
    have := congrArg AuthorizeResp.redirectUri h2
    simpa using this
  exact ⟨a, h1, h3, this, this ▸ hnot⟩

/-- A client whose only redirect URI is `u`, and stores that know it. -/
def redirectClient (u : Str) : Client := { Demo.client with redirectUris := [u] }

def redirectStore (u : Str) : St := { Demo.store with clients := fun id => if id = g!"app" then some (redirectClient u) else none }

/-- A request for the redirect URI `v`. -/
def redirectRequest (v : Str) : AuthorizeReq :=
  { Demo.authorizeReq with request := some { Demo.request with redirectUri := v } }

/-- **C82 violated.** Whenever two URIs differ but are the same up to letter case, a client
that registered one gets its code sent to the other. -/
theorem C82_violated (u v : Str) (hs : SameFold v u) (hne : v ≠ u) (hv : v ≠ []) (chs : List Choice)
    (hund : Undisturbed chs) (hn : 3 ≤ chs.length) :
    ∃ a, Answered (run Demo.env (redirectStore u) (serve 0 (.authorize (some (redirectRequest v))) chs)) 0
        (.authorize (some (redirectRequest v))) (.authorize a) ∧
      a.code ≠ [] ∧ a.redirectUri = v ∧ a.redirectUri ∉ (redirectClient u).redirectUris := by
  have hw := demo_wellFormed
  have hr := demo_registered
  refine C82_violated_always Demo.env (redirectStore u) [] (q := redirectRequest v)
    (r := { Demo.request with redirectUri := v }) (cl := redirectClient u) rfl rfl
    (show Demo.authorizeReq.issuer ≠ [] by decide) (show Demo.authorizeReq.subject ≠ [] by decide) ?_ rfl ?_ ?_ hund hn rfl
  · exact { hw with redirect := ⟨hv, by cases v with | nil => exact absurd rfl hv | cons _ _ => rfl⟩ }
  · exact { hr with redirectUri := ⟨u, by simp [redirectClient], hs⟩ }
  · simpa [redirectClient] using hne

/-- The unregistered spelling may name another place: only `/~mallory` was registered. -/
example : SameFold g!"https://host/~Mallory" g!"https://host/~mallory" ∧
    g!"https://host/~Mallory" ≠ g!"https://host/~mallory" := by decide

theorem foldRunes_congr (l r m m' : Str) (h : (Go.runes m).map Go.foldRune = (Go.runes m').map Go.foldRune) :
    SameFold (l ++ 47 :: (m ++ 47 :: r)) (l ++ 47 :: (m' ++ 47 :: r)) := by
  have h47 : (47 : UInt8) < 0x80 := by decide
  unfold SameFold
  rw [Go.runes_append h47, Go.runes_append h47, Go.runes_append h47, Go.runes_append h47]
  simp [h]

/-- **C82 violated** (Unicode). KELVIN SIGN (U+212A) passes for `k` and LATIN SMALL LETTER
LONG S (U+017F) for `s`, so the URI that gets the code need not be ASCII though the
registered one is. -/
theorem C82_violated_unicode (l r : Str) :
    SameFold (l ++ 47 :: (g!"\u212A" ++ 47 :: r)) (l ++ 47 :: (g!"k" ++ 47 :: r)) ∧
    SameFold (l ++ 47 :: (g!"\u017F" ++ 47 :: r)) (l ++ 47 :: (g!"s" ++ 47 :: r)) ∧
    ¬ Go.Ascii (l ++ 47 :: (g!"\u212A" ++ 47 :: r)) ∧ ¬ Go.Ascii (l ++ 47 :: (g!"\u017F" ++ 47 :: r)) := by
  refine ⟨foldRunes_congr _ _ _ _ (by decide), foldRunes_congr _ _ _ _ (by decide), fun h => ?_, fun h => ?_⟩
  · exact absurd (h 0xE2 (by simp)) (by decide)
  · exact absurd (h 0xC5 (by simp)) (by decide)

/-- **C82 violated** (bytes). Bytes that are not UTF-8 all pass for each other. -/
theorem C82_violated_bytes (l r : Str) (b c : UInt8) (hb : 0xF5 ≤ b) (hc : 0xF5 ≤ c) :
    SameFold (l ++ 47 :: ([b] ++ 47 :: r)) (l ++ 47 :: ([c] ++ 47 :: r)) := by
  have key : ∀ b : UInt8, 0xF5 ≤ b → Go.runes [b] = [0xFFFD] := by
    intro b hb
    have hlt : ¬ b < 0x80 := by
      intro h
      exact absurd (UInt8.lt_of_le_of_lt hb h) (by decide)
    have h1 : Go.runeLen [b] = 1 := Nat.le_antisymm (Go.runeLen_le _) (Go.runeLen_pos _ _)
    have hc : Go.chunks [b] = [[b]] := by
      rw [Go.chunks_ne (by simp), h1]; rfl
    have ho : Go.runeOf [b] = 0xFFFD := if_neg hlt
    unfold Go.runes
    rw [hc, List.map_singleton, ho]
  refine foldRunes_congr _ _ _ _ ?_
  rw [key b hb, key c hc]

example : g!"k" ≠ g!"\u212A" ∧ (0xF5 : UInt8) ≤ 0xFE ∧ (0xF5 : UInt8) ≤ 0xFF := by decide

end Verif.Props
