import Verif.Props.Wire
import Verif.Props.Proto
import Verif.Proofs.PbMap
import Verif.Proofs.ProtoMap

/-! C52 and C103 for the messages that have maps. -/
namespace Verif.Props
open Verif.Jose (Out)
open Verif.Wire Verif.Pb

theorem C52_clientMeta : Faithful ClientMeta.marshal (fun m => sizeAll m.parts) (ClientMeta.unmarshal {}) ClientMeta.Ok :=
  faithful_of ClientMeta.dec ClientMeta.sane ClientMeta.Ok.empty

theorem C52_registerRequest : Faithful RegisterRequest.marshal (fun m => sizeAll m.parts) (RegisterRequest.unmarshal {}) RegisterRequest.Ok :=
  faithful_of RegisterRequest.dec RegisterRequest.sane RegisterRequest.Ok.empty

theorem C103_clientMeta : Conforms ClientMeta.marshal Spec.Proto.clientMeta := fun m => marshal_eq (Spec.Proto.enc_clientMeta m)

theorem C103_registerRequest : Conforms RegisterRequest.marshal Spec.Proto.registerRequest := fun m => marshal_eq (Spec.Proto.enc_registerRequest m)

/-- The same message: all fields are the same, and the maps have the same entries, whatever
the order. -/
def SameMeta (m m' : ClientMeta) : Prop :=
  ∃ l1 l2 l3 l4, m.clientNameI18N.Perm l1 ∧ m.logoUriI18N.Perm l2 ∧ m.tosUriI18N.Perm l3 ∧ m.policyUriI18N.Perm l4 ∧
    m' = { m with clientNameI18N := l1, logoUriI18N := l2, tosUriI18N := l3, policyUriI18N := l4 }

theorem sizeAll_perm {ps qs : List Part} (h : ps.Perm qs) : sizeAll ps = sizeAll qs := by
  induction h with
  | nil => rfl
  | cons x _ ih => simp only [sizeAll, ih]
  | swap x y l => simp only [sizeAll]; omega
  | trans _ _ h1 h2 => rw [h1, h2]

theorem SameMeta.ok {m m' : ClientMeta} (h : SameMeta m m') (hm : m.Ok) : m'.Ok := by
  obtain ⟨l1, l2, l3, l4, h1, h2, h3, h4, rfl⟩ := h
  exact ⟨hm.unknown, (h1.map _).nodup_iff.1 hm.clientNameI18N, (h2.map _).nodup_iff.1 hm.logoUriI18N,
    (h3.map _).nodup_iff.1 hm.tosUriI18N, (h4.map _).nodup_iff.1 hm.policyUriI18N⟩

theorem SameMeta.size {m m' : ClientMeta} (h : SameMeta m m') : sizeAll m'.parts = sizeAll m.parts := by
  obtain ⟨l1, l2, l3, l4, h1, h2, h3, h4, rfl⟩ := h
  simp only [ClientMeta.parts, sizeAll, Part.all]
  rw [sizeAll_perm (h1.map fun (k, v) => Part.entry [58] k v), sizeAll_perm (h2.map fun (k, v) => Part.entry [82] k v),
    sizeAll_perm (h3.map fun (k, v) => Part.entry [114] k v), sizeAll_perm (h4.map fun (k, v) => Part.entry [130, 1] k v)]

/-- Go's `range` over a map takes any order: whichever the encoder takes, the size is the one
that was computed (in another order), and what is read back is the message. -/
theorem C52_any_order (m m' : ClientMeta) (hm : m.Ok) (h : SameMeta m m') (hs : sizeAll m.parts < 2 ^ 63) :
    ∃ e, m'.marshal = some e ∧ e.length = sizeAll m.parts ∧ ∃ x, ClientMeta.unmarshal {} e = .ok x ∧ SameMeta m x := by
  obtain ⟨e, h1, h2, h3⟩ := C52_clientMeta.roundtrip m' (h.ok hm) (by simpa [h.size] using hs)
  exact ⟨e, h1, h2.trans h.size, m', h3, h⟩

/-- A map entry that is declared to end early takes its key from the field that follows, which
is then read once more. Any other implementation refuses such an input. -/
theorem C52_entry_overrun : ClientMeta.unmarshal {} [58, 2, 10, 3, 66, 1, 65] =
    .ok { clientNameI18N := [([66, 1, 65], [])], clientUri := some [65] } ∧ ClientMeta.unmarshal {} [58, 2, 10, 3] = .err :=
  ⟨rfl, rfl⟩

/-- A message with maps, an empty key and value, presence of empty and false values, and an
unknown field. -/
def Demo.wireMeta : ClientMeta :=
  { applicationType := some [], clientNameI18N := [(g!"fr", g!"Essai"), ([], []), (g!"de", g!"Probe")],
    policyUriI18N := [(g!"fr", g!"https://rp.example/fr")], jwks := some [], dpopBoundAccessTokens := some false,
    requireSignedRequestObject := some true, redirectUris := [g!"https://rp.example/cb"], unknown := [250, 3, 2, 1, 2] }

theorem Demo.wireMeta_ok : Demo.wireMeta.Ok := by
  refine ⟨.snoc (u := []) .nil ⟨506, 2, rfl, by decide, by decide, by decide, by decide, rfl⟩, ?_, ?_, ?_, ?_⟩ <;> decide

/-- In another order of the entries. -/
example : ∃ e, ClientMeta.marshal { Demo.wireMeta with
      clientNameI18N := [([], []), (g!"de", g!"Probe"), (g!"fr", g!"Essai")] } = some e ∧
    ∃ x, ClientMeta.unmarshal {} e = .ok x ∧ SameMeta Demo.wireMeta x := by
  obtain ⟨e, h, _, h'⟩ := C52_any_order Demo.wireMeta _ Demo.wireMeta_ok
    ⟨[([], []), (g!"de", g!"Probe"), (g!"fr", g!"Essai")], _, _, _, by decide, .refl _, .refl _, .refl _, rfl⟩ (by decide)
  exact ⟨e, h, h'⟩

/-- Written by the definition. -/
example : ClientMeta.marshal { clientNameI18N := [(g!"a", [])], dpopBoundAccessTokens := some false } =
    some [58, 5, 10, 1, 97, 18, 0, 160, 2, 0] := by
  rw [C103_clientMeta]
  decide +kernel

example : RegisterRequest.marshal { metadata := some {} } = some [10, 0] := by
  rw [C103_registerRequest]
  decide +kernel

/-- A key that comes twice keeps its last value. -/
example : ClientMeta.unmarshal {} [58, 6, 10, 1, 97, 18, 1, 98, 58, 6, 18, 1, 99, 10, 1, 97] =
    .ok { clientNameI18N := [(g!"a", g!"c")] } := rfl

end Verif.Props
