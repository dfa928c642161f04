import Verif.Proofs.Prog
import Verif.Model.Device

/-! The device service: which answers report errors. -/
namespace Verif
open Verif.Prog

theorem deviceAuthorize_errors (req : Option DeviceAuthzReq) :
    Done (fun _ a => (a.error.isSome = true ↔ a.goErr = true) ∧
      (a.error.isSome = true → a.deviceCode = [] ∧ a.userCode = [])) (Device.authorize req) [] := by
  unfold Device.authorize
  have hf : ∀ c, ((Device.failA c).error.isSome = true ↔ (Device.failA c).goErr = true) ∧
      ((Device.failA c).error.isSome = true → (Device.failA c).deviceCode = [] ∧ (Device.failA c).userCode = []) := by
    intro c; simp [Device.failA]
  cases req with
  | none => exact hf _
  | some q =>
    simp only
    split; · exact hf _
    split; · exact hf _
    simp only [Prog.call, bind_op, bind_ret, pure_eq, Done]
    rintro (_ | (_ | c))
    · exact hf _
    · exact hf _
    · simp only
      split; · exact hf _
      rintro (_ | dc)
      · exact hf _
      · rintro (_ | uc)
        · exact hf _
        · rintro (_ | n)
          · exact hf _
          · simp [Done]

theorem deviceValidate_errors (req : Option DeviceValidationReq) :
    Done (fun _ a => (a.error.isSome = true ↔ a.goErr = true)) (Device.validate req) [] := by
  unfold Device.validate
  have hf : ∀ c, ((Device.failV c).error.isSome = true ↔ (Device.failV c).goErr = true) := by
    intro c; simp [Device.failV]
  cases req with
  | none => exact hf _
  | some q =>
    simp only
    split; · exact hf _
    split; · exact hf _
    split; · exact hf _
    simp only [Prog.call, bind_op, bind_ret, pure_eq, Done]
    rintro ((_ | _) | (_ | ⟨ref, s⟩))
    · exact hf _
    · exact hf _
    · exact hf _
    · simp only
      split; · exact hf _
      split; · exact hf _
      simp only [Done]
      intro now
      split; · exact hf _
      split; · exact hf _
      simp only [Done]
      intro _
      rintro (_ | u)
      · exact hf _
      · rintro (_ | u)
        · exact hf _
        · simp [Done]

end Verif
