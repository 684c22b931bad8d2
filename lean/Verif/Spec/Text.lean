import Verif.Model.Kind
/-!
# Specification: canonical texts of field values

Written independently of the parsers in `Verif.Model.Kind`.
-/

namespace Verif.Spec

/-- Decimal notation without leading zeros (`strconv.FormatUint(n, 10)`). -/
def decimal (n : Nat) : Bytes :=
  if n < 10 then [UInt8.ofNat (48 + n)] else decimal (n / 10) ++ [UInt8.ofNat (48 + n % 10)]
termination_by n

/-- Decimal notation of an integer (`strconv.FormatInt(i, 10)`). -/
def decimalInt (i : Int) : Bytes :=
  if i < 0 then 45 :: decimal i.natAbs else decimal i.natAbs

/-- The standard base64 alphabet. -/
def b64alphabet : Bytes :=
  b!"ABCDEFGHIJKLMNOPQRSTUVWXYZabcdefghijklmnopqrstuvwxyz0123456789+/"

/-- Character for a sextet. -/
def b64char (n : Nat) : UInt8 := b64alphabet.getD n 0

/-- Unpadded base64 (`base64.RawStdEncoding.EncodeToString`, RFC 4648). -/
def base64 : Bytes → Bytes
  | [] => []
  | [a] => [b64char (a.toNat / 4), b64char (a.toNat % 4 * 16)]
  | [a, b] => [b64char (a.toNat / 4), b64char (a.toNat % 4 * 16 + b.toNat / 16),
      b64char (b.toNat % 16 * 4)]
  | a :: b :: c :: r =>
    b64char (a.toNat / 4) :: b64char (a.toNat % 4 * 16 + b.toNat / 16)
      :: b64char (b.toNat % 16 * 4 + c.toNat / 64) :: b64char (c.toNat % 64) :: base64 r

/-- The text a user writes for a field value. -/
def text : Val → Bytes
  | .bool true => b!"true"
  | .bool false => b!"false"
  | .int32 v => decimalInt v.toInt
  | .uint32 v => decimal v.toNat
  | .int64 v => decimalInt v.toInt
  | .uint64 v => decimal v.toNat
  | .str s => s
  | .bytes b => base64 b
  | .unsupported _ => []

/-- The kind a scalar value has (`none` for values no supported field holds). -/
def kindOf : Val → Option Kind
  | .bool _ => some .bool
  | .int32 _ => some .int32
  | .uint32 _ => some .uint32
  | .int64 _ => some .int64
  | .uint64 _ => some .uint64
  | .str _ => some .string
  | .bytes _ => some .bytes
  | .unsupported _ => none

/-- The value carried by a Go argument of one of the accepted dynamic types. -/
def argValue : Arg → Option Val
  | .bool b => some (.bool b)
  | .int32 v => some (.int32 v)
  | .uint32 v => some (.uint32 v)
  | .int64 v => some (.int64 v)
  | .uint64 v => some (.uint64 v)
  | .str s => some (.str s)
  | .bytes b => some (.bytes b)
  | .other => none

/-- `s` is a non-empty string of decimal digits with value `n`. -/
def DenotesNat (s : Bytes) (n : Nat) : Prop :=
  s ≠ [] ∧ (∀ c ∈ s, 48 ≤ c.toNat ∧ c.toNat ≤ 57) ∧
    s.foldl (fun a c => a * 10 + (c.toNat - 48)) 0 = n

/-- `s` is an optionally signed decimal numeral with value `i`. -/
def DenotesInt (s : Bytes) (i : Int) : Prop :=
  (∃ n, DenotesNat s n ∧ i = n) ∨ (∃ t n, s = 43 :: t ∧ DenotesNat t n ∧ i = n)
    ∨ (∃ t n, s = 45 :: t ∧ DenotesNat t n ∧ i = -n)

end Verif.Spec
