import Verif.Model.Spare
import Verif.Spec.Decoder
/-!
# Numbers in the wire format of protobuf

From the description of the format (protobuf.dev, encoding): enums as the number of 64 bits that extends the sign, signed
integers of the kinds sint32 and sint64 in zigzag order 0, -1, 1, -2, ..., the kinds of fixed size with the lowest byte
first.
-/

namespace Verif.Spec

/-- The place of an integer in the order 0, -1, 1, -2, 2, ... -/
def ZigZag (i : Int) (n : Nat) : Prop := (0 ≤ i ∧ (n : Int) = 2 * i) ∨ (i < 0 ∧ (n : Int) = -2 * i - 1)

/-- The number with these bytes, the lowest first. -/
def littleEndian : Bytes → Nat
  | [] => 0
  | b :: r => b.toNat + 256 * littleEndian r

/-- Bytes of a number of fixed size. -/
def Fixed (size : Nat) (b : Bytes) (n : Nat) : Prop := b.length = size ∧ littleEndian b = n

/-- The two zeros among the bits of a `float32`: the sign is not set, or it is. -/
def zeros32 : BitVec 32 × BitVec 32 := (0, 0x80000000)

/-- Whether bits of a `float32` are a number: not all bits of the exponent are set. -/
def number32 (bits : BitVec 32) : Prop := bits.toNat / 2 ^ 23 % 256 ≠ 255

open Spare in
/-- The bytes of a Go value as a field of the kind; only values of the Go type of the kind have some. -/
inductive FieldBytes : Kind → Argument → Bytes → Prop
  | enum {v : BitVec 32} {n : Nat} {b : Bytes} : (n : Int) % 2 ^ 64 = v.toInt % 2 ^ 64 → IsVarint b n → n < 2 ^ 64 →
      FieldBytes .enum (.int32 v) b
  | sint32 {v : BitVec 32} {n : Nat} {b : Bytes} : ZigZag v.toInt n → IsVarint b n → FieldBytes .sint32 (.int32 v) b
  | sint64 {v : BitVec 64} {n : Nat} {b : Bytes} : ZigZag v.toInt n → IsVarint b n → FieldBytes .sint64 (.int64 v) b
  | sfixed32 {v : BitVec 32} {b : Bytes} : Fixed 4 b v.toNat → FieldBytes .sfixed32 (.int32 v) b
  | fixed32 {v : BitVec 32} {b : Bytes} : Fixed 4 b v.toNat → FieldBytes .fixed32 (.uint32 v) b
  | float {v : BitVec 32} {b : Bytes} : Fixed 4 b v.toNat → FieldBytes .float (.float32 v) b
  | sfixed64 {v : BitVec 64} {b : Bytes} : Fixed 8 b v.toNat → FieldBytes .sfixed64 (.int64 v) b
  | fixed64 {v : BitVec 64} {b : Bytes} : Fixed 8 b v.toNat → FieldBytes .fixed64 (.uint64 v) b
  | double {v : BitVec 64} {b : Bytes} : Fixed 8 b v.toNat → FieldBytes .double (.float64 v) b

end Verif.Spec
