import Verif.Spec.ProtoMap
import Verif.Proofs.Proto
import Verif.Proofs.PbMap

/-! The generated encoders of `ClientMeta` and `RegisterRequest` write what the `.proto`
files say. -/
namespace Verif.Spec.Proto
open Verif.Pb Verif.Wire

theorem mapEntry_eq (k v : Str) : mapEntry k v = entryBytes k v := by
  have t1 : base128 10 = [0xa] := by rw [base128, if_pos (by decide)]; rfl
  have t2 : base128 18 = [0x12] := by rw [base128, if_pos (by decide)]; rfl
  simp [mapEntry, entryBytes, record, Value.wireType, Value.payload, t1, t2, base128_eq]

theorem enc_repeated_entry {tag : Str} {n : Nat} (h : base128 (n * 8 + 2) = tag) (l : List (Str × Str)) :
    Enc (.all (l.map fun (k, v) => .entry tag k v)) (Field.write n (.repeated (l.map fun (k, v) => .message (mapEntry k v)))) := by
  refine enc_repeated l fun (k, v) _ => ?_
  subst h
  have := enc_entry (base128 (n * 8 + 2)) k v
  rwa [List.append_assoc, ← base128_eq (entryBytes k v).length, ← mapEntry_eq] at this

theorem enc_optional_bytes {tag : Str} {n : Nat} (h : base128 (n * 8 + 2) = tag) (s : Option Str) :
    Enc (.optStr tag s) (Field.write n (.optional (s.map fun x => .bytes x))) := by
  cases s with
  | none => exact enc_nil
  | some s => exact enc_string h s

theorem enc_optional_bool {tag : Str} {n : Nat} (h : base128 (n * 8 + 0) = tag) (s : Option Bool) :
    Enc (.optBool tag s) (Field.write n (.optional (s.map fun x => .bool x))) := by
  cases s with
  | none => exact enc_nil
  | some b =>
    subst h
    exact ⟨by simp [Part.optBool, Field.write, record, Value.wireType, Value.payload],
      by simpa [Part.optBool, Field.write, record, Value.wireType, Value.payload] using
        writes_then (writes_byte (if b then 1 else 0)) (writes_tag (base128 (n * 8 + 0)))⟩

theorem enc_clientMeta (m : ClientMeta) : EncAll m.parts (clientMeta m) := by
  unfold ClientMeta.parts clientMeta
  enc_fields
  all_goals first
    | exact enc_repeated_entry (tag_eq (by decide +kernel)) _
    | exact enc_optional_bytes (tag_eq (by decide +kernel)) _
    | exact enc_optional_bool (tag_eq (by decide +kernel)) _

theorem enc_registerRequest (m : RegisterRequest) : EncAll m.parts (registerRequest m) := by
  unfold RegisterRequest.parts registerRequest
  enc_fields
  exact enc_optional_message (tag_eq (by decide +kernel)) enc_clientMeta _

end Verif.Spec.Proto
