import Verif.Model.Jose

/-!
The building blocks of the generated binary codec (`*_vtproto.pb.go`). The line
numbers are those of `api/oidc/token/v1/token_vtproto.pb.go`; the other generated
files repeat the same code.

The encoder writes backwards into a buffer of exactly the computed size; here a
buffer is a byte list, an index beyond its bounds is a crash. The decoder walks
forward with an index; an index or slice beyond the bounds is a crash, a returned
error is `err` (the errors are not told apart).

Go's `int` is 64 bits wide; the index of a buffer is below `2 ^ 63`, so the sum of an
index and a length wraps to a negative number exactly if it is `2 ^ 63` or more.
-/
namespace Verif.Wire
open Verif.Jose (Out)

/-! ### Encoder -/

/-- A buffer and the index from which it is already written. -/
abbrev Buf := Str × Nat

/-- An encoder step; `none` is a crash. -/
abbrev Writer := Buf → Option Buf

/-- 586-588 `sov`: `(bits.Len64(x|1) + 6) / 7`. -/
def sov (x : Nat) : Nat := (Nat.log2 (x ||| 1) + 1 + 6) / 7

/-- `dAtA[i] = b`. -/
def setByte (d : Str) (i : Nat) (b : UInt8) : Option Str := if i < d.length then some (d.set i b) else none

/-- Loop of `encodeVarint` (411-417). -/
def varintAt (d : Str) (off v : Nat) : Option Str :=
  if v ≥ 128 then
    match setByte d off (UInt8.ofNat (v % 128 + 128)) with
    | none => none
    | some d => varintAt d (off + 1) (v / 128)
  else setByte d off (UInt8.ofNat v)
termination_by v
decreasing_by omega

/-- 408-418 `encodeVarint`. -/
def putVarint (v : Nat) : Writer := fun (d, i) =>
  if i < sov v then none
  else match varintAt d (i - sov v) v with
    | none => none
    | some d => some (d, i - sov v)

/-- `i -= len(s); copy(dAtA[i:], s)`; `copy` stops at the end of the destination. -/
def putBytes (s : Str) : Writer := fun (d, i) =>
  if i < s.length then none
  else some (d.take (i - s.length) ++ s.take (d.length - (i - s.length)) ++ d.drop (i - s.length + s.length), i - s.length)

/-- `i--; dAtA[i] = b`. -/
def putByte (b : UInt8) : Writer := fun (d, i) =>
  if i < 1 then none
  else match setByte d (i - 1) b with
    | none => none
    | some d => some (d, i - 1)

/-- The bytes of a tag, written from the last to the first. -/
def putTag : Str → Writer
  | [] => fun s => some s
  | b :: r => fun s => match putTag r s with
    | none => none
    | some s => putByte b s

/-- The bytes of `binary.LittleEndian.PutUint64`. -/
def le64 (x : UInt64) : Str := (List.range 8).map fun k => UInt8.ofNat (x.toNat / 256 ^ k)

/-- One writer after the other. -/
def andThen (a b : Writer) : Writer := fun s => match a s with
  | none => none
  | some s => b s

/-- An encoded part of a message: its computed size and how it is written. -/
structure Part where
  size : Nat
  write : Writer

/-- Nothing. -/
def Part.nil : Part := ⟨0, fun s => some s⟩

/-- The contents, its length, the tag. -/
def Part.bytes (tag s : Str) : Part :=
  ⟨tag.length + s.length + sov s.length, andThen (putBytes s) (andThen (putVarint s.length) (putTag tag))⟩

/-- `string` and `bytes` fields without presence (109-115, 423-426). -/
def Part.str (tag s : Str) : Part := if s.length > 0 then .bytes tag s else .nil

/-- `optional string` (59-65, 453-456). -/
def Part.optStr (tag : Str) : Option Str → Part
  | none => .nil
  | some s => .bytes tag s

def Part.word (tag : Str) (x : UInt64) : Part :=
  ⟨tag.length + 8, andThen (putBytes (le64 x)) (putTag tag)⟩

/-- `fixed64` (84-89, 431-433). -/
def Part.fix (tag : Str) (x : UInt64) : Part := if x ≠ 0 then .word tag x else .nil

/-- `optional fixed64` (53-58, 457-459). -/
def Part.optFix (tag : Str) : Option UInt64 → Part
  | none => .nil
  | some x => .word tag x

/-- `uint64` of an `int32` (an enumeration), which extends the sign. -/
def signExtend (x : UInt32) : Nat := if x.toNat < 2 ^ 31 then x.toNat else x.toNat + (2 ^ 64 - 2 ^ 32)

def Part.varint (tag : Str) (v : Nat) : Part :=
  ⟨tag.length + sov v, andThen (putVarint v) (putTag tag)⟩

/-- Enumerations (256-260, 500-502); the 32 bits of the number. -/
def Part.enum (tag : Str) (x : UInt32) : Part := if x ≠ 0 then .varint tag (signExtend x) else .nil

/-- `optional uint64` (flow_vtproto.pb.go:161-165). -/
def Part.optVarint (tag : Str) : Option UInt64 → Part
  | none => .nil
  | some x => .varint tag x.toNat

/-- `bool` (client_vtproto.pb.go). -/
def Part.bool (tag : Str) (b : Bool) : Part :=
  if b then ⟨tag.length + 1, andThen (putByte 1) (putTag tag)⟩ else .nil

/-- The sizes added up. -/
def sizeAll : List Part → Nat
  | [] => 0
  | p :: ps => p.size + sizeAll ps

/-- Parts are written from the last to the first. -/
def writeAll : List Part → Writer
  | [] => fun s => some s
  | p :: ps => fun s => match writeAll ps s with
    | none => none
    | some s => p.write s

/-- `MarshalToSizedBufferVT(dAtA[:i])` of a part of a buffer, then its length and tag
(253-262): the callee starts at the end of the slice and reports how much it wrote. -/
def Part.msg (tag : Str) (ps : List Part) : Part :=
  ⟨tag.length + sizeAll ps + sov (sizeAll ps), fun (d, i) =>
    match writeAll ps (d.take i, i) with
    | none => none
    | some (d', j) => andThen (putVarint (i - j)) (putTag tag) (d' ++ d.drop i, j)⟩

/-- A pointer to a message, which may be nil. -/
def Part.optMsg (tag : Str) : Option (List Part) → Part
  | none => .nil
  | some ps => .msg tag ps

/-- `m.unknownFields` (48-51). -/
def Part.raw (u : Str) : Part := ⟨u.length, putBytes u⟩

/-- Several parts as one. -/
def Part.all (ps : List Part) : Part := ⟨sizeAll ps, writeAll ps⟩

/-- `MarshalVT` (23-34): a buffer of the computed size, written backwards; what was
written is taken to be its beginning (`dAtA[:n]`). -/
def marshal (ps : List Part) : Option Str :=
  match writeAll ps (List.replicate (sizeAll ps) 0, sizeAll ps) with
  | none => none
  | some (d, i) => some (d.take (sizeAll ps - i))

/-! ### Decoder -/

/-- The varint loops (599-611): `w` is the width of the accumulator, `k` the number of
bytes still admitted (`shift >= 64` ends the loop after ten). -/
def readVarint (w : Nat) (d : Str) : (k shift acc i : Nat) → Out (Nat × Nat)
  | 0, _, _, _ => .err
  | k + 1, shift, acc, i =>
    if i ≥ d.length then .err
    else match d[i]? with
      | none => .panic
      | some b =>
        let acc := acc ||| (((b.toNat % 128) <<< shift) % 2 ^ w)
        if b < 128 then .ok (acc, i + 1) else readVarint w d k (shift + 7) acc (i + 1)

/-- `dAtA[i:j]`. -/
def slice (d : Str) (i j : Nat) : Out Str :=
  if i ≤ j ∧ j ≤ d.length then .ok ((d.drop i).take (j - i)) else .panic

/-- A length and that many bytes (630-655); the bytes and the index after them. -/
def readBytes (d : Str) (i : Nat) : Out (Str × Nat) :=
  match readVarint 64 d 10 0 0 i with
  | .err => .err
  | .panic => .panic
  | .ok (n, i) =>
    if n ≥ 2 ^ 63 then .err
    else if i + n ≥ 2 ^ 63 then .err
    else if i + n > d.length then .err
    else match slice d i (i + n) with
      | .err => .err
      | .panic => .panic
      | .ok s => .ok (s, i + n)

/-- `binary.LittleEndian.Uint64(d[i:])`, which crashes on less than eight bytes. -/
def readLe64 (d : Str) (i : Nat) : Out UInt64 :=
  if i + 8 ≤ d.length then
    .ok (UInt64.ofNat ((List.range 8).foldl (fun acc k => acc + (d.getD (i + k) 0).toNat * 256 ^ k) 0))
  else .panic

/-- 691-699: a fixed64. -/
def readWord (d : Str) (i : Nat) : Out (UInt64 × Nat) :=
  if i + 8 > d.length then .err
  else match readLe64 d i with
    | .err => .err
    | .panic => .panic
    | .ok x => .ok (x, i + 8)

/-- Loop of `skip` over a nested group (1693-1770); `k` bounds the number of rounds,
each of which advances the index. -/
def skipLoop (d : Str) : (k depth i : Nat) → Out Nat
  | 0, _, _ => .err
  | k + 1, depth, i =>
    if i ≥ d.length then .err
    else match readVarint 64 d 10 0 0 i with
      | .err => .err
      | .panic => .panic
      | .ok (wire, i) =>
        let next : Out (Nat × Nat) := match wire % 8 with
          | 0 => match readVarint 64 d 10 0 0 i with
            | .err => .err
            | .panic => .panic
            | .ok (_, i) => .ok (depth, i)
          | 1 => .ok (depth, i + 8)
          | 2 => match readVarint 64 d 10 0 0 i with
            | .err => .err
            | .panic => .panic
            | .ok (n, i) => if n ≥ 2 ^ 63 then .err else .ok (depth, i + n)
          | 3 => .ok (depth + 1, i)
          | 4 => if depth = 0 then .err else .ok (depth - 1, i)
          | 5 => .ok (depth, i + 4)
          | _ => .err
        match next with
        | .err => .err
        | .panic => .panic
        | .ok (depth, i) =>
          if i ≥ 2 ^ 63 then .err
          else if depth = 0 then .ok i
          else skipLoop d k depth i

/-- `skip(dAtA[i:])`. -/
def skip (d : Str) (i : Nat) : Out Nat := skipLoop (d.drop i) ((d.drop i).length + 1) 0 0

/-- What is done with a field once its tag is read: bytes, wire type, index, message. -/
abbrev Handler (M : Type) := Str → Nat → Nat → M → Out (M × Nat)

variable {M S : Type}

/-- `string` field (626-656). -/
def onStr (set : Str → M → M) : Handler M := fun d wt i m =>
  if wt ≠ 2 then .err
  else match readBytes d i with
    | .err => .err
    | .panic => .panic
    | .ok (s, i) => .ok (set s m, i)

/-- `fixed64` field (690-699). -/
def onFix (set : UInt64 → M → M) : Handler M := fun d wt i m =>
  if wt ≠ 1 then .err
  else match readWord d i with
    | .err => .err
    | .panic => .panic
    | .ok (x, i) => .ok (set x m, i)

/-- Enumeration (1121-1139). -/
def onEnum (set : UInt32 → M → M) : Handler M := fun d wt i m =>
  if wt ≠ 0 then .err
  else match readVarint 32 d 10 0 0 i with
    | .err => .err
    | .panic => .panic
    | .ok (x, i) => .ok (set (UInt32.ofNat x) m, i)

/-- `uint64` as a varint. -/
def onVarint (set : UInt64 → M → M) : Handler M := fun d wt i m =>
  if wt ≠ 0 then .err
  else match readVarint 64 d 10 0 0 i with
    | .err => .err
    | .panic => .panic
    | .ok (x, i) => .ok (set (UInt64.ofNat x) m, i)

/-- `bool`: a varint other than zero. -/
def onBool (set : Bool → M → M) : Handler M := fun d wt i m =>
  if wt ≠ 0 then .err
  else match readVarint 64 d 10 0 0 i with
    | .err => .err
    | .panic => .panic
    | .ok (x, i) => .ok (set (x ≠ 0) m, i)

/-- Message field (1172-1207): decode into the message that is there, or a new one. -/
def onMsg (get : M → S) (set : S → M → M) (dec : S → Str → Out S) : Handler M := fun d wt i m =>
  if wt ≠ 2 then .err
  else match readBytes d i with
    | .err => .err
    | .panic => .panic
    | .ok (s, i) => match dec (get m) s with
      | .err => .err
      | .panic => .panic
      | .ok x => .ok (set x m, i)

/-- One round of the loop of `UnmarshalVT` (596-868): the tag, then the field. Unknown
fields are kept as they are. -/
def step (fields : List (Nat × Handler M)) (unknown : Str → M → M) (d : Str) (pre : Nat) (m : M) : Out (M × Nat) :=
  match readVarint 64 d 10 0 0 pre with
  | .err => .err
  | .panic => .panic
  | .ok (wire, i) =>
    let num := wire / 8 % 2 ^ 32
    let wt := wire % 8
    if wt = 4 then .err
    else if num = 0 ∨ num ≥ 2 ^ 31 then .err
    else match fields.lookup num with
      | some h => h d wt i m
      | none => match skip d pre with
        | .err => .err
        | .panic => .panic
        | .ok n =>
          if pre + n ≥ 2 ^ 63 then .err
          else if pre + n > d.length then .err
          else match slice d pre (pre + n) with
            | .err => .err
            | .panic => .panic
            | .ok u => .ok (unknown u m, pre + n)

/-- The loop of `UnmarshalVT`; `k` bounds the number of rounds, each of which advances
the index. -/
def loop (fields : List (Nat × Handler M)) (unknown : Str → M → M) (d : Str) : (k i : Nat) → M → Out M
  | 0, i, m => if i < d.length then .err else if i > d.length then .err else .ok m
  | k + 1, i, m =>
    if i < d.length then
      match step fields unknown d i m with
      | .err => .err
      | .panic => .panic
      | .ok (m, i) => loop fields unknown d k i m
    else if i > d.length then .err
    else .ok m

/-- `UnmarshalVT` into a message. -/
def unmarshal (fields : List (Nat × Handler M)) (unknown : Str → M → M) (m : M) (d : Str) : Out M :=
  loop fields unknown d d.length 0 m

end Verif.Wire
