import Verif.Model.Kind
/-!
# Encoders set aside (pkg/protoutils/kindencoder/xx_to_support.go)

Two maps with conversions and encoders for kinds of fields that are not supported yet.  Nothing calls them.
Floating-point numbers are their bits.
-/

namespace Verif.Spare

/-- `protoreflect.Value` of scalars; a `float32` is kept as a `float64`, see `FloatLib`. -/
inductive Value where
  | enum (v : BitVec 32)
  | int32 (v : BitVec 32)
  | int64 (v : BitVec 64)
  | uint32 (v : BitVec 32)
  | uint64 (v : BitVec 64)
  | float (bits : BitVec 64)
  | bytes (b : Bytes)
  deriving DecidableEq

/-- An `interface{}`: its dynamic type and value; `other` is any other type. -/
inductive Argument where
  | int32 (v : BitVec 32)
  | int64 (v : BitVec 64)
  | uint32 (v : BitVec 32)
  | uint64 (v : BitVec 64)
  | float32 (bits : BitVec 32)
  | float64 (bits : BitVec 64)
  | bytes (b : Bytes)
  | other
  deriving DecidableEq

/-- The conversions between `float32` and `float64`, on bits. -/
structure FloatLib where
  widen : BitVec 32 → BitVec 64
  narrow : BitVec 64 → BitVec 32

/-- `safeInterfaceToValue` (xx_to_support.go:12-83): `none` if there is no entry for the kind, inside `none` for not
valid. -/
def toValue (fl : FloatLib) : Kind → Option (Argument → Option Value)
  | .enum => some fun | .int32 v => some (.enum v) | _ => none
  | .sint32 => some fun | .int32 v => some (.int32 v) | _ => none
  | .sint64 => some fun | .int64 v => some (.int64 v) | _ => none
  | .sfixed32 => some fun | .int32 v => some (.int32 v) | _ => none
  | .fixed32 => some fun | .uint32 v => some (.uint32 v) | _ => none
  | .float => some fun | .float32 v => some (.float (fl.widen v)) | _ => none
  | .sfixed64 => some fun | .int64 v => some (.int64 v) | _ => none
  | .fixed64 => some fun | .uint64 v => some (.uint64 v) | _ => none
  | .double => some fun | .float64 v => some (.float v) | _ => none
  | .bytes => some fun | .bytes v => some (.bytes v) | _ => none
  | _ => none

/-- `Value.Int`: panics on other values. -/
def Value.int : Value → Out (BitVec 64)
  | .int32 v => .ret (v.signExtend 64)
  | .int64 v => .ret v
  | _ => .panic

/-- `Value.Uint`. -/
def Value.uint : Value → Out (BitVec 64)
  | .uint32 v => .ret (v.setWidth 64)
  | .uint64 v => .ret v
  | _ => .panic

/-- `Value.Float`. -/
def Value.asFloat : Value → Out (BitVec 64)
  | .float v => .ret v
  | _ => .panic

/-- `Value.Enum`. -/
def Value.asEnum : Value → Out (BitVec 32)
  | .enum v => .ret v
  | _ => .panic

/-- Apply a function to what an accessor returns. -/
def after {α : Type} (o : Out α) (f : α → Bytes) : Out Bytes :=
  match o with
  | .panic => .panic
  | .ret a => .ret (f a)

/-- `protowire.EncodeZigZag`. -/
def zigZag (x : BitVec 64) : BitVec 64 := (x <<< 1) ^^^ x.sshiftRight 63

/-- `protowire.AppendFixed32(nil, v)`. -/
def fixed32 (v : BitVec 32) : Bytes :=
  [UInt8.ofNat (v.toNat >>> 0), UInt8.ofNat (v.toNat >>> 8), UInt8.ofNat (v.toNat >>> 16), UInt8.ofNat (v.toNat >>> 24)]

/-- `protowire.AppendFixed64(nil, v)`. -/
def fixed64 (v : BitVec 64) : Bytes :=
  [UInt8.ofNat (v.toNat >>> 0), UInt8.ofNat (v.toNat >>> 8), UInt8.ofNat (v.toNat >>> 16), UInt8.ofNat (v.toNat >>> 24),
   UInt8.ofNat (v.toNat >>> 32), UInt8.ofNat (v.toNat >>> 40), UInt8.ofNat (v.toNat >>> 48), UInt8.ofNat (v.toNat >>> 56)]

/-- `protowireFieldEncoders` (xx_to_support.go:87-139): `none` if there is no entry for the kind. -/
def fieldEncoder (fl : FloatLib) : Kind → Option (Value → Out Bytes)
  | .enum => some fun v => after v.asEnum fun n => appendVarint (n.signExtend 64).toNat
  | .sint32 => some fun v => after v.int fun n => appendVarint (zigZag ((n.setWidth 32).signExtend 64)).toNat
  | .sint64 => some fun v => after v.int fun n => appendVarint (zigZag n).toNat
  | .uint64 => some fun v => after v.uint fun n => appendVarint n.toNat
  | .sfixed32 => some fun v => after v.int fun n => fixed32 (n.setWidth 32)
  | .fixed32 => some fun v => after v.uint fun n => fixed32 (n.setWidth 32)
  | .float => some fun v => after v.asFloat fun n => fixed32 (fl.narrow n)
  | .sfixed64 => some fun v => after v.int fixed64
  | .fixed64 => some fun v => after v.uint fixed64
  | .double => some fun v => after v.asFloat fixed64
  | _ => none

end Verif.Spare
