import Verif.Model.Pb

/-!
`ClientMeta`, which has maps, and `RegisterRequest`, which contains it. A map is the list
of its entries, no two with the same key, in the order in which `range` yields them to the
encoder, which Go leaves open: a statement about every such list is one about every order.
The entries are written backwards, so the list is in the order of the encoding. `SizeVT`
adds the entries up, for which their order is immaterial. A nil map and an empty one are
not told apart; a nil `Jwks` and an empty one are.
-/
namespace Verif.Wire
open Verif.Jose (Out)

/-- An entry of a map (client_vtproto.pb.go:625-640, 909-914): the value, the key, the
length of what was written, the tag. -/
def Part.entry (tag k v : Str) : Part :=
  let n := 1 + k.length + sov k.length + 1 + v.length + sov v.length
  ⟨n + tag.length + sov n, fun (d, i) =>
    match andThen (putBytes v) (andThen (putVarint v.length) (andThen (putByte 0x12)
        (andThen (putBytes k) (andThen (putVarint k.length) (putByte 0xa))))) (d, i) with
    | none => none
    | some (d, j) => andThen (putVarint (i - j)) (putTag tag) (d, j)⟩

/-- `optional bool` (327-337, 1039-1041). -/
def Part.optBool (tag : Str) : Option Bool → Part
  | none => .nil
  | some b => ⟨tag.length + 1, andThen (putByte (if b then 1 else 0)) (putTag tag)⟩

/-- `m[k] = v`. -/
def put (k v : Str) : List (Str × Str) → List (Str × Str)
  | [] => [(k, v)]
  | e :: l => if e.1 = k then (k, v) :: l else e :: put k v l

/-- The loop over the fields of a map entry that ends at `post` (2214-2306); the wire types
are not looked at, and a key or value may end after the entry. `n` bounds the number of
rounds, each of which advances the index. -/
def entryLoop (d : Str) (post : Nat) : (n i : Nat) → (k v : Str) → Out (Str × Str)
  | 0, i, k, v => if i < post then .err else .ok (k, v)
  | n + 1, i, k, v =>
    if i < post then
      match readVarint 64 d 10 0 0 i with
      | .err => .err
      | .panic => .panic
      | .ok (wire, j) =>
        if wire / 8 % 2 ^ 32 = 1 then
          match readBytes d j with
          | .err => .err
          | .panic => .panic
          | .ok (s, j) => entryLoop d post n j s v
        else if wire / 8 % 2 ^ 32 = 2 then
          match readBytes d j with
          | .err => .err
          | .panic => .panic
          | .ok (s, j) => entryLoop d post n j k s
        else match skip d i with
          | .err => .err
          | .panic => .panic
          | .ok s =>
            if i + s ≥ 2 ^ 63 then .err
            else if i + s > post then .err
            else entryLoop d post n (i + s) k v
    else .ok (k, v)

/-- Map field (2182-2308). -/
def onMap {M : Type} (get : M → List (Str × Str)) (set : List (Str × Str) → M → M) : Handler M := fun d wt i m =>
  if wt ≠ 2 then .err
  else match readVarint 64 d 10 0 0 i with
    | .err => .err
    | .panic => .panic
    | .ok (n, i) =>
      if n ≥ 2 ^ 63 then .err
      else if i + n ≥ 2 ^ 63 then .err
      else if i + n > d.length then .err
      else match entryLoop d (i + n) n i [] [] with
        | .err => .err
        | .panic => .panic
        | .ok (k, v) => .ok (set (put k v (get m)) m, i + n)

end Verif.Wire

namespace Verif.Pb
open Verif.Jose (Out)
open Verif.Wire (Part Handler onStr onBool onMsg onMap)

/-! #### `ClientMeta` -/

structure ClientMeta where
  applicationType : Option Str := none
  redirectUris : List Str := []
  tokenEndpointAuthMethod : Option Str := none
  grantTypes : List Str := []
  responseTypes : List Str := []
  clientName : Option Str := none
  clientNameI18N : List (Str × Str) := []
  clientUri : Option Str := none
  logoUri : Option Str := none
  logoUriI18N : List (Str × Str) := []
  scope : Option Str := none
  contacts : List Str := []
  tosUri : Option Str := none
  tosUriI18N : List (Str × Str) := []
  policyUri : Option Str := none
  policyUriI18N : List (Str × Str) := []
  jwkUri : Option Str := none
  jwks : Option Str := none
  softwareId : Option Str := none
  softwareVersion : Option Str := none
  softwareStatement : Option Str := none
  subjectType : Option Str := none
  sectorIdentifier : Option Str := none
  tlsClientAuthSubjectDn : Option Str := none
  tlsClientAuthSanDns : Option Str := none
  tlsClientAuthSanUri : Option Str := none
  tlsClientAuthSanIp : Option Str := none
  tlsClientAuthSanEmail : Option Str := none
  tlsClientCertificateBoundAccessTokens : Option Bool := none
  introspectionSignedResponseAlg : Option Str := none
  introspectionEncryptedResponseAlg : Option Str := none
  introspectionEncryptedResponseEnc : Option Str := none
  responseModes : List Str := []
  requirePushedAuthorizationRequests : Option Bool := none
  requireSignedRequestObject : Option Bool := none
  dpopBoundAccessTokens : Option Bool := none
  unknown : Str := []

/-- api/oidc/client/v1/client_vtproto.pb.go:315-692 `MarshalToSizedBufferVT`, 872-1046 `SizeVT`. -/
def ClientMeta.parts (m : ClientMeta) : List Part :=
  [.optStr [10] m.applicationType,
   .all (m.redirectUris.map (.bytes [18])),
   .optStr [26] m.tokenEndpointAuthMethod,
   .all (m.grantTypes.map (.bytes [34])),
   .all (m.responseTypes.map (.bytes [42])),
   .optStr [50] m.clientName,
   .all (m.clientNameI18N.map fun (k, v) => .entry [58] k v),
   .optStr [66] m.clientUri,
   .optStr [74] m.logoUri,
   .all (m.logoUriI18N.map fun (k, v) => .entry [82] k v),
   .optStr [90] m.scope,
   .all (m.contacts.map (.bytes [98])),
   .optStr [106] m.tosUri,
   .all (m.tosUriI18N.map fun (k, v) => .entry [114] k v),
   .optStr [122] m.policyUri,
   .all (m.policyUriI18N.map fun (k, v) => .entry [130, 1] k v),
   .optStr [138, 1] m.jwkUri,
   .optStr [146, 1] m.jwks,
   .optStr [154, 1] m.softwareId,
   .optStr [162, 1] m.softwareVersion,
   .optStr [170, 1] m.softwareStatement,
   .optStr [178, 1] m.subjectType,
   .optStr [186, 1] m.sectorIdentifier,
   .optStr [194, 1] m.tlsClientAuthSubjectDn,
   .optStr [202, 1] m.tlsClientAuthSanDns,
   .optStr [210, 1] m.tlsClientAuthSanUri,
   .optStr [218, 1] m.tlsClientAuthSanIp,
   .optStr [226, 1] m.tlsClientAuthSanEmail,
   .optBool [232, 1] m.tlsClientCertificateBoundAccessTokens,
   .optStr [242, 1] m.introspectionSignedResponseAlg,
   .optStr [250, 1] m.introspectionEncryptedResponseAlg,
   .optStr [130, 2] m.introspectionEncryptedResponseEnc,
   .all (m.responseModes.map (.bytes [138, 2])),
   .optBool [144, 2] m.requirePushedAuthorizationRequests,
   .optBool [152, 2] m.requireSignedRequestObject,
   .optBool [160, 2] m.dpopBoundAccessTokens,
   .raw m.unknown]

/-- api/oidc/client/v1/client_vtproto.pb.go:1958-3520 `UnmarshalVT`. -/
def ClientMeta.fields : List (Nat × Handler ClientMeta) :=
  [(1, onStr fun s m => { m with applicationType := some s }),
   (2, onStr fun s m => { m with redirectUris := m.redirectUris ++ [s] }),
   (3, onStr fun s m => { m with tokenEndpointAuthMethod := some s }),
   (4, onStr fun s m => { m with grantTypes := m.grantTypes ++ [s] }),
   (5, onStr fun s m => { m with responseTypes := m.responseTypes ++ [s] }),
   (6, onStr fun s m => { m with clientName := some s }),
   (7, onMap (fun m => m.clientNameI18N) fun s m => { m with clientNameI18N := s }),
   (8, onStr fun s m => { m with clientUri := some s }),
   (9, onStr fun s m => { m with logoUri := some s }),
   (10, onMap (fun m => m.logoUriI18N) fun s m => { m with logoUriI18N := s }),
   (11, onStr fun s m => { m with scope := some s }),
   (12, onStr fun s m => { m with contacts := m.contacts ++ [s] }),
   (13, onStr fun s m => { m with tosUri := some s }),
   (14, onMap (fun m => m.tosUriI18N) fun s m => { m with tosUriI18N := s }),
   (15, onStr fun s m => { m with policyUri := some s }),
   (16, onMap (fun m => m.policyUriI18N) fun s m => { m with policyUriI18N := s }),
   (17, onStr fun s m => { m with jwkUri := some s }),
   (18, onStr fun s m => { m with jwks := some s }),
   (19, onStr fun s m => { m with softwareId := some s }),
   (20, onStr fun s m => { m with softwareVersion := some s }),
   (21, onStr fun s m => { m with softwareStatement := some s }),
   (22, onStr fun s m => { m with subjectType := some s }),
   (23, onStr fun s m => { m with sectorIdentifier := some s }),
   (24, onStr fun s m => { m with tlsClientAuthSubjectDn := some s }),
   (25, onStr fun s m => { m with tlsClientAuthSanDns := some s }),
   (26, onStr fun s m => { m with tlsClientAuthSanUri := some s }),
   (27, onStr fun s m => { m with tlsClientAuthSanIp := some s }),
   (28, onStr fun s m => { m with tlsClientAuthSanEmail := some s }),
   (29, onBool fun s m => { m with tlsClientCertificateBoundAccessTokens := some s }),
   (30, onStr fun s m => { m with introspectionSignedResponseAlg := some s }),
   (31, onStr fun s m => { m with introspectionEncryptedResponseAlg := some s }),
   (32, onStr fun s m => { m with introspectionEncryptedResponseEnc := some s }),
   (33, onStr fun s m => { m with responseModes := m.responseModes ++ [s] }),
   (34, onBool fun s m => { m with requirePushedAuthorizationRequests := some s }),
   (35, onBool fun s m => { m with requireSignedRequestObject := some s }),
   (36, onBool fun s m => { m with dpopBoundAccessTokens := some s })]

def ClientMeta.keep (u : Str) (m : ClientMeta) : ClientMeta := { m with unknown := m.unknown ++ u }

def ClientMeta.unmarshal (m : ClientMeta) (d : Str) : Out ClientMeta := Wire.unmarshal ClientMeta.fields ClientMeta.keep m d

def ClientMeta.marshal (m : ClientMeta) : Option Str := Wire.marshal m.parts

/-! #### `RegisterRequest` -/

structure RegisterRequest where
  metadata : Option ClientMeta := none
  unknown : Str := []

/-- api/oidc/client/v1/client_api_vtproto.pb.go:155-178 `MarshalToSizedBufferVT`, 277-289 `SizeVT`. -/
def RegisterRequest.parts (m : RegisterRequest) : List Part :=
  [.optMsg [10] (m.metadata.map ClientMeta.parts),
   .raw m.unknown]

/-- api/oidc/client/v1/client_api_vtproto.pb.go:615-701 `UnmarshalVT`. -/
def RegisterRequest.fields : List (Nat × Handler RegisterRequest) :=
  [(1, onMsg (fun m => m.metadata.getD {}) (fun s m => { m with metadata := some s }) ClientMeta.unmarshal)]

def RegisterRequest.keep (u : Str) (m : RegisterRequest) : RegisterRequest := { m with unknown := m.unknown ++ u }

def RegisterRequest.unmarshal (m : RegisterRequest) (d : Str) : Out RegisterRequest := Wire.unmarshal RegisterRequest.fields RegisterRequest.keep m d

def RegisterRequest.marshal (m : RegisterRequest) : Option Str := Wire.marshal m.parts

end Verif.Pb
