import Verif.Model.Wire
/-!
# Reading protobuf messages

`proto.Unmarshal` of google.golang.org/protobuf v1.26 (dependency, pinned in /repo/go.mod), as the
decoder of transactions uses it.  The library reads tags and values one after the other and hands
every value to the code of its field; here the whole message is first cut into fields and then the
fields are handled one after the other.  A message that cannot be cut into fields, or with a field
that cannot be read, is an error in both cases, and which error it is does not matter to the
repository.
-/

namespace Verif

/-- The value of a field, by wire type.  Of groups only the extent matters: no message of the
repository has a group field. -/
inductive FieldVal where
  | varint (n : Nat)
  | fixed64
  | len (b : Bytes)
  | group
  | fixed32
  deriving DecidableEq, Repr

/-- Wire types (`protowire.Type`). -/
def FieldVal.wire : FieldVal → Nat
  | .varint _ => 0
  | .fixed64 => 1
  | .len _ => 2
  | .group => 3
  | .fixed32 => 5

/-- A field of a message: number, value and the bytes the value was read from. -/
structure Field where
  num : Nat
  val : FieldVal
  raw : Bytes
  deriving DecidableEq, Repr

/-- `protowire.ConsumeTag`: field number and wire type.  Numbers up to `MaxInt32` pass. -/
def consumeTag (b : Bytes) : Option (Nat × Nat × Bytes) :=
  match consumeVarint b with
  | .ok v rest => if 1 ≤ v / 8 ∧ v / 8 ≤ 2147483647 then some (v / 8, v % 8, rest) else none
  | _ => none

/-- A value that is not a group: what `protowire.ConsumeFieldValue` reads for wire types 0, 1, 2
and 5. -/
def consumeScalar (typ : Nat) (b : Bytes) : Option (FieldVal × Bytes) :=
  match typ with
  | 0 => match consumeVarint b with
    | .ok n rest => some (.varint n, rest)
    | _ => none
  | 1 => if 8 ≤ b.length then some (.fixed64, b.drop 8) else none
  | 2 => match consumeBytes b with
    | .ok v rest => some (.len v, rest)
    | _ => none
  | 5 => if 4 ≤ b.length then some (.fixed32, b.drop 4) else none
  | _ => none

/-- `protowire.ConsumeGroup`: reads up to the end of the groups that are open.  The library calls
itself for groups in groups; here the numbers of the open groups are a stack.  The first argument
bounds the number of tags. -/
def consumeGroups : Nat → List Nat → Bytes → Option Bytes
  | _, [], b => some b
  | 0, _ :: _, _ => none
  | fuel + 1, g :: open_, b =>
    match consumeTag b with
    | none => none
    | some (num, typ, rest) =>
      if typ = 4 then if num = g then consumeGroups fuel open_ rest else none
      else if typ = 3 then consumeGroups fuel (num :: g :: open_) rest
      else match consumeScalar typ rest with
        | none => none
        | some (_, rest) => consumeGroups fuel (g :: open_) rest

/-- `protowire.ConsumeFieldValue`. -/
def consumeValue (num typ : Nat) (b : Bytes) : Option (FieldVal × Bytes) :=
  if typ = 3 then match consumeGroups b.length [num] b with
    | some rest => some (.group, rest)
    | none => none
  else consumeScalar typ b

/-- The loop of `MessageInfo.unmarshalPointer` (internal/impl/decode.go), without what the message
does with its fields: the number of a field is at most `2^29-1`.  The first argument bounds the
number of fields. -/
def fieldsLoop : Nat → Bytes → Option (List Field)
  | _, [] => some []
  | 0, _ :: _ => none
  | fuel + 1, b =>
    match consumeTag b with
    | none => none
    | some (num, typ, rest) =>
      if num ≤ 536870911 then
        match consumeValue num typ rest with
        | none => none
        | some (v, rest') =>
          match fieldsLoop fuel rest' with
          | none => none
          | some fs => some (⟨num, v, rest.take (rest.length - rest'.length)⟩ :: fs)
      else none

/-- The fields of a message. -/
def fields (b : Bytes) : Option (List Field) := fieldsLoop b.length b

/-- Handles fields in order, until one of them is an error. -/
def foldFields {σ : Type} (step : σ → Field → Option σ) : σ → List Field → Option σ
  | s, [] => some s
  | s, f :: fs => match step s f with
    | none => none
    | some s => foldFields step s fs

/-- `proto.UnmarshalOptions{Merge: true}.Unmarshal`: reads a message into an existing one. -/
def mergeInto {σ : Type} (step : σ → Field → Option σ) (s : σ) (b : Bytes) : Option σ :=
  match fields b with
  | none => none
  | some fs => foldFields step s fs

/-- `protowire.AppendTag`. -/
def appendTag (num typ : Nat) : Bytes := appendVarint (num * 8 + typ)

end Verif
