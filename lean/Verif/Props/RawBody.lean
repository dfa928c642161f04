import Verif.Proofs.Blank
import Verif.Props.Raw

/-! Bodies that the endpoints do not read (C97). -/
namespace Verif.Props
open Verif.Spec Verif.Raw

/-- **C97** (other bodies). With a method other than `POST`, `PUT` and `PATCH`, or with a content type that does not name
a form, nothing in the body has an effect (bodies in parts are left out of the model). -/
theorem C97_ignored (w : Raw) (body : Str)
    (h : w.method ∉ [g!"POST", g!"PUT", g!"PATCH"] ∨
      ¬ g!"application/x-www-form-urlencoded" <:+: w.contentType.map asciiLower) :
    ({ w with body := body } : Raw).req = w.req ∧ ∀ k, w.req.postValue k = [] := by
  have hl : ∀ b : UInt8, Url.lowerByte b = asciiLower b := by
    apply Url.bytes
    decide +kernel
  have hn : ¬ ((w.method = g!"POST" ∨ w.method = g!"PUT" ∨ w.method = g!"PATCH") ∧
      mediaType w.contentType = g!"application/x-www-form-urlencoded") := by
    rintro ⟨h1, h2⟩
    rcases h with h | h
    · exact h (by simpa using h1)
    · refine h ?_
      rw [← h2, mediaType]
      obtain ⟨a, b, e⟩ : (Go.trimSpace ((w.contentType.takeWhile (· ≠ 59)).map Url.lowerByte)) <:+:
          (w.contentType.takeWhile (· ≠ 59)).map Url.lowerByte := by
        obtain ⟨⟨l, r, e, -⟩, -⟩ := Go.trimSpace_trimmed ((w.contentType.takeWhile (· ≠ 59)).map Url.lowerByte)
        exact ⟨l.flatten, r.flatten, e.symm⟩
      rw [funext hl] at e ⊢
      refine List.IsInfix.trans ⟨a, b, e⟩ ?_
      exact (List.IsPrefix.map _ (List.takeWhile_prefix _)).isInfix
  have hp : ∀ body, ({ w with body := body } : Raw).postForm = [] := fun body => if_neg hn
  refine ⟨?_, fun k => ?_⟩
  · simp only [Raw.req]
    rw [hp body, show w.postForm = [] from hp w.body]
  · simp only [Http.Req.postValue, Raw.req]
    rw [show w.postForm = [] from hp w.body]
    rfl

/-- C97: a form sent by `GET`, and a body of JSON. -/
example : ({ method := g!"GET", contentType := g!"application/x-www-form-urlencoded", body := g!"token=t" } : Raw).method ∉
      [g!"POST", g!"PUT", g!"PATCH"] ∧
    ¬ g!"application/x-www-form-urlencoded" <:+:
      ({ method := g!"POST", contentType := g!"application/json", body := g!"token=t" } : Raw).contentType.map asciiLower := by
  refine ⟨by decide, fun h => ?_⟩
  have := h.length_le
  revert this
  decide

/-- C97: what would be read of a form. -/
example : ({ method := g!"PUT", contentType := g!"application/x-www-form-urlencoded", body := g!"token=t" } : Raw).req.postValue
    g!"token" = g!"t" := by decide +kernel

end Verif.Props
