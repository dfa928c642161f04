import Verif.Props.Url
import Verif.Spec.ProofUri

/-! The characters of the address that the browser is sent to (C94). -/
namespace Verif.Props
open Verif.Spec Verif.Url

theorem intercalate_mem {p : UInt8 → Prop} (h38 : p 38) : ∀ (m : List Str), (∀ x ∈ m, ∀ b ∈ x, p b) →
    ∀ b ∈ (g!"&").intercalate m, p b
  | [], _, b, hb => by simp [List.intercalate] at hb
  | [x], h, b, hb => h x (by simp) b (by simpa [List.intercalate] using hb)
  | x :: y :: m, h, b, hb => by
    have e : (g!"&").intercalate (x :: y :: m) = x ++ 38 :: (g!"&").intercalate (y :: m) := by simp [List.intercalate]
    rw [e] at hb
    simp only [List.mem_append, List.mem_cons] at hb
    rcases hb with hb | rfl | hb
    · exact h x (by simp) b hb
    · exact h38
    · exact intercalate_mem h38 (y :: m) (fun z hz => h z (List.mem_cons_of_mem _ hz)) b hb

theorem encode_characters (l : List (Str × Str)) : ∀ b ∈ encode l, letterOrDigit b = true ∨ b ∈ g!"-._~%+=&" := by
  have k : ∀ c : UInt8, ∀ b ∈ escapeByte .queryComponent c, letterOrDigit b = true ∨ b ∈ g!"-._~%+=&" := by
    apply bytes
    decide +kernel
  rw [encode]
  refine intercalate_mem (by decide) _ fun x hx b hb => ?_
  obtain ⟨y, -, rfl⟩ := List.mem_map.1 hx
  simp only [pair, escape, List.mem_append, List.mem_flatMap, List.mem_singleton] at hb
  rcases hb with (⟨c, -, hb⟩ | rfl) | ⟨c, -, hb⟩
  · exact k c b hb
  · decide
  · exact k c b hb

/-- **C94** (characters). The scheme of the address has only the characters that RFC 3986 section 3.1 allows, and its
query only letters, digits, `-._~`, the marks of pairs and escapes: nothing that the code, the state or any other parameter
holds is written as a delimiter of section 2.2 or as a character that URIs do not have. -/
theorem C94_characters (dir uri loc : Str) (params : List (Str × Str)) (c : UriParts) (h : IsUri uri c)
    (hne : c.authority ≠ [] ∨ c.path ≠ []) (hp : params ≠ []) (hl : location dir uri params = some loc) :
    ∃ c' q, IsUri loc c' ∧ c'.query = some q ∧ (∀ b ∈ c'.scheme, letterOrDigit b = true ∨ b ∈ g!"+-.") ∧
      ∀ b ∈ q, letterOrDigit b = true ∨ b ∈ g!"-._~%+=&" := by
  obtain ⟨user, host, p, hsb, -⟩ := location_text h hne hp hl
  obtain ⟨c', h1, h2, -, -, -, h3⟩ := C94_target_partial dir uri loc params c h hne hp hl
  refine ⟨c', _, h1, h3, fun b hb => ?_, encode_characters params⟩
  have k : ∀ b : UInt8, isSchemeByte b = true → letterOrDigit b = true ∨ b ∈ g!"+-." := by
    apply bytes
    decide +kernel
  exact k b (hsb b (h2 ▸ hb))

/-- C94: a parameter of characters that need escapes. -/
example : IsUri g!"https://rp/cb" ⟨g!"https", g!"rp", g!"/cb", none⟩ ∧
    location g!"/" g!"https://rp/cb" [(g!"state", g!"[a]&x=#")] = some g!"https://rp/cb?state=%5Ba%5D%26x%3D%23" :=
  ⟨⟨by decide +kernel, by decide +kernel, by decide +kernel, by decide +kernel, by decide +kernel, by decide +kernel,
    fun _ h => by cases h⟩, by decide +kernel⟩

theorem last_unique {c : UInt8} {a b x y : Str} (h : a ++ c :: b = x ++ c :: y) (hb : c ∉ b) (hy : c ∉ y) : a = x ∧ b = y := by
  rcases List.append_eq_append_iff.1 h with ⟨l, h1, h2⟩ | ⟨l, h1, h2⟩
  · cases l with
    | nil => exact ⟨by simpa using h1.symm, by simpa using h2⟩
    | cons d l =>
      obtain ⟨rfl, e⟩ := List.cons.inj h2
      exact absurd (by rw [e]; simp) hb
  · cases l with
    | nil => exact ⟨by simpa using h1, (by simpa using h2.symm)⟩
    | cons d l =>
      obtain ⟨rfl, e⟩ := List.cons.inj h2
      exact absurd (by rw [e]; simp) hy

theorem port_digits {h host pre port : Str} (hp : parseHost h = some host) (e : h = pre ++ 58 :: port) (h58 : 58 ∉ port)
    (h93 : 93 ∉ port) : ∀ b ∈ port, 48 ≤ b ∧ b ≤ 57 := by
  suffices H : port.all isDigit = true by
    intro b hb
    have := List.all_eq_true.1 H b hb
    simpa [isDigit] using this
  unfold parseHost at hp
  split at hp
  · split at hp
    · cases hp
    · rename_i x rest hc
      split at hp
      · cases hp
      · rename_i hv
        obtain ⟨e2, -⟩ := cutLast_some hc
        have hv : validOptionalPort rest = true := by simpa using hv
        have hsub : ∃ l, rest = l ++ 58 :: port := by
          rw [e] at e2
          rcases List.append_eq_append_iff.1 e2 with ⟨l, h1, h2⟩ | ⟨l, h1, h2⟩
          · cases l with
            | nil => simp at h2
            | cons d l =>
              obtain ⟨rfl, e3⟩ := List.cons.inj h2
              exact absurd (by rw [e3]; simp) h93
          · cases l with
            | nil => simp at h2
            | cons d l =>
              obtain ⟨rfl, e3⟩ := List.cons.inj h2
              exact ⟨l, e3⟩
        obtain ⟨l, rfl⟩ := hsub
        cases l with
        | nil => simpa [validOptionalPort] using hv
        | cons d l =>
          simp only [List.cons_append, validOptionalPort, Bool.and_eq_true, List.all_append, List.all_cons] at hv
          exact hv.2.2.2
  · split at hp
    · rename_i x port' hc
      split at hp
      · cases hp
      · rename_i hv
        obtain ⟨e2, e3⟩ := cutLast_some hc
        obtain ⟨-, rfl⟩ := last_unique (e.symm.trans e2) h58 e3
        simpa using hv
    · rename_i hc
      exact absurd (by rw [e]; simp) (cutLast_none.1 hc)

/-- **C94** (authority). A redirect URI is used only if its port, where it has one, consists of digits, and its user
information of the characters that RFC 3986 section 3.2.1 allows there: browsers and the server agree on where the host
begins and ends. -/
theorem C94_authority (dir uri loc : Str) (params : List (Str × Str)) (c : UriParts) (h : IsUri uri c)
    (hne : c.authority ≠ [] ∨ c.path ≠ []) (hp : params ≠ []) (hl : location dir uri params = some loc) :
    (∀ pre port, c.authority = pre ++ 58 :: port → (∀ b ∈ port, b ∉ g!":]@") → ∀ b ∈ port, 48 ≤ b ∧ b ≤ 57) ∧
    (∀ ui host, c.authority = ui ++ 64 :: host → 64 ∉ host →
      ∀ b ∈ ui, letterOrDigit b = true ∨ b ∈ g!"-._~!$&'()*+,;=:%@") := by
  obtain ⟨user, host, p, -, -, ha, -⟩ := location_text h hne hp hl
  have kv : ∀ b : UInt8, (isAlpha b || isDigit b || decide (b ∈ g!"-._:~!$&'()*+,;=%@")) = true →
      letterOrDigit b = true ∨ b ∈ g!"-._~!$&'()*+,;=:%@" := by
    apply bytes
    decide +kernel
  unfold parseAuthority at ha
  refine ⟨fun pre port e hq => ?_, fun ui hst e hh => ?_⟩
  · have h58 : 58 ∉ port := fun hm => hq _ hm (by decide)
    have h93 : 93 ∉ port := fun hm => hq _ hm (by decide)
    have h64 : 64 ∉ port := fun hm => hq _ hm (by decide)
    split at ha
    · cases hx : parseHost c.authority with
      | none => rw [hx] at ha; cases ha
      | some x => exact port_digits hx e h58 h93
    · rename_i ui hst hc
      obtain ⟨e2, -⟩ := cutLast_some hc
      split at ha
      · cases ha
      · rename_i x hx
        rw [e] at e2
        rcases List.append_eq_append_iff.1 e2 with ⟨l, h1, h2⟩ | ⟨l, h1, h2⟩
        · cases l with
          | nil => simp at h2
          | cons d l =>
            obtain ⟨rfl, e3⟩ := List.cons.inj h2
            exact absurd (by rw [e3]; simp) h64
        · cases l with
          | nil => simp at h2
          | cons d l =>
            obtain ⟨rfl, e3⟩ := List.cons.inj h2
            exact port_digits hx e3 h58 h93
  · split at ha
    · rename_i hc
      exact absurd (by rw [e]; simp) (cutLast_none.1 hc)
    · rename_i ui' hst' hc
      obtain ⟨e2, e3⟩ := cutLast_some hc
      obtain ⟨rfl, rfl⟩ := last_unique (e.symm.trans e2) hh e3
      split at ha
      · cases ha
      · split at ha
        · cases ha
        · rename_i hv
          have hv : validUserinfo ui = true := by simpa using hv
          intro b hb
          exact kv b (List.all_eq_true.1 hv b hb)

/-- C94: a redirect URI with user information and a port, and one whose port is refused. -/
example : IsUri g!"https://u:p@rp:8443/cb" ⟨g!"https", g!"u:p@rp:8443", g!"/cb", none⟩ ∧
    location g!"/" g!"https://u:p@rp:8443/cb" [(g!"code", g!"c")] = some g!"https://u:p@rp:8443/cb?code=c" ∧
    location g!"/" g!"https://rp:80x/cb" [(g!"code", g!"c")] = none :=
  ⟨⟨by decide +kernel, by decide +kernel, by decide +kernel, by decide +kernel, by decide +kernel, by decide +kernel,
    fun _ h => by cases h⟩, by decide +kernel, by decide +kernel⟩

end Verif.Props
