import Verif.Model.Out
import Verif.Model.Wire
/-!
# Field kinds and their encoders (pkg/protoutils/kindencoder/kindencoder.go)
-/

namespace Verif

/-- `protoreflect.Kind` (dependency). -/
inductive Kind where
  | bool | enum | int32 | sint32 | uint32 | int64 | sint64 | uint64
  | sfixed32 | fixed32 | float | sfixed64 | fixed64 | double
  | string | bytes | message | group
  deriving DecidableEq, Repr

/-- `protoreflect.Value`, as far as the encoders look at it.  `unsupported` stands for a value
whose accessor (`Int()`, `Bytes()`, ...) panics: lists, messages, and scalars of kinds that
have no encoder.  Only `Value.String()` does not panic on them; it gives the text `fmt.Sprint`
makes of the value. -/
inductive Val where
  | bool (b : Bool)
  | int32 (v : BitVec 32)
  | uint32 (v : BitVec 32)
  | int64 (v : BitVec 64)
  | uint64 (v : BitVec 64)
  | str (s : Bytes)
  | bytes (b : Bytes)
  | unsupported (text : Bytes)
  deriving DecidableEq, Repr

/-- A Go `interface{}` argument: its dynamic type and value.  `other` is any dynamic type
none of the encoders accepts (`int`, `nil`, ...). -/
inductive Arg where
  | bool (b : Bool)
  | int32 (v : BitVec 32)
  | uint32 (v : BitVec 32)
  | int64 (v : BitVec 64)
  | uint64 (v : BitVec 64)
  | str (s : Bytes)
  | bytes (b : Bytes)
  | other
  deriving DecidableEq, Repr

/-- Membership in `kindEncoders`, i.e. success of `NewKindEncoder`
(kindencoder.go:19-36). -/
def Kind.hasEncoder : Kind → Bool
  | .bool | .int32 | .uint32 | .int64 | .sint64 | .uint64 | .string | .bytes => true
  | _ => false

/-! ## strconv and base64 (Go standard library) -/

/-- Value of a decimal digit character. -/
def digit? (c : UInt8) : Option Nat :=
  if 48 ≤ c.toNat ∧ c.toNat ≤ 57 then some (c.toNat - 48) else none

/-- Value of a string of decimal digits, `none` on any other character. -/
def digitsVal (acc : Nat) : Bytes → Option Nat
  | [] => some acc
  | c :: cs => match digit? c with
    | some d => digitsVal (acc * 10 + d) cs
    | none => none

/-- `strconv.ParseUint(s, 10, bits)`: non-empty, digits only, in range. -/
def parseUint (bits : Nat) (s : Bytes) : Option Nat :=
  if s = [] then none
  else match digitsVal 0 s with
    | some n => if n < 2 ^ bits then some n else none
    | none => none

/-- `strconv.ParseInt(s, 10, bits)`: optional sign, then digits, in range. -/
def parseInt (bits : Nat) (s : Bytes) : Option Int :=
  let pos (t : Bytes) : Option Int := do
    let n ← parseUint 64 t
    if n < 2 ^ (bits - 1) then some (n : Int) else none
  match s with
  | 45 :: t => do  -- '-'
    let n ← parseUint 64 t
    if n ≤ 2 ^ (bits - 1) then some (-(n : Int)) else none
  | 43 :: t => pos t  -- '+'
  | t => pos t

/-- `strconv.ParseBool`. -/
def parseBool (s : Bytes) : Option Bool :=
  if s ∈ [b!"1", b!"t", b!"T", b!"TRUE", b!"true", b!"True"] then some true
  else if s ∈ [b!"0", b!"f", b!"F", b!"FALSE", b!"false", b!"False"] then some false
  else none

/-- Value of a character of the standard base64 alphabet. -/
def b64val (c : UInt8) : Option Nat :=
  let n := c.toNat
  if 65 ≤ n ∧ n ≤ 90 then some (n - 65)
  else if 97 ≤ n ∧ n ≤ 122 then some (n - 97 + 26)
  else if 48 ≤ n ∧ n ≤ 57 then some (n - 48 + 52)
  else if n = 43 then some 62
  else if n = 47 then some 63
  else none

/-- Decoding of sextets: four give three bytes; a rest of two gives one byte, of three gives
two (surplus bits ignored, as in non-strict mode); a rest of one is an error. -/
def b64bytes : List Nat → Option Bytes
  | [] => some []
  | [_] => none
  | [a, b] => some [UInt8.ofNat (a * 4 + b / 16)]
  | [a, b, c] => some [UInt8.ofNat (a * 4 + b / 16), UInt8.ofNat (b % 16 * 16 + c / 4)]
  | a :: b :: c :: d :: r => do
    let t ← b64bytes r
    some (UInt8.ofNat (a * 4 + b / 16) :: UInt8.ofNat (b % 16 * 16 + c / 4)
      :: UInt8.ofNat (c % 4 * 64 + d) :: t)

/-- `base64.RawStdEncoding.DecodeString`: `\r` and `\n` are skipped, no padding allowed. -/
def b64decode (s : Bytes) : Option Bytes :=
  ((s.filter fun c => c ≠ 10 ∧ c ≠ 13).mapM b64val).bind b64bytes

/-! ## The encoders -/

/-- `KindEncoder.EncodeString`.  `none` in the inner option is the returned error.
kString 45-47, kBool 74-80, kInt32 103-109, kUint32 131-137, kInt64 159-165,
kSint64 188-190 (panics), kUint64 207-213, kBytes 236-242.  Kinds without encoder cannot
occur (`NewKindEncoder` fails); the model panics. -/
def Kind.encodeString (k : Kind) (s : Bytes) : Out (Option Val) :=
  match k with
  | .string => .ret (some (.str s))
  | .bool => .ret ((parseBool s).map .bool)
  | .int32 => .ret ((parseInt 32 s).map fun i => .int32 (BitVec.ofInt 32 i))
  | .uint32 => .ret ((parseUint 32 s).map fun n => .uint32 (BitVec.ofNat 32 n))
  | .int64 => .ret ((parseInt 64 s).map fun i => .int64 (BitVec.ofInt 64 i))
  | .uint64 => .ret ((parseUint 64 s).map fun n => .uint64 (BitVec.ofNat 64 n))
  | .bytes => .ret ((b64decode s).map .bytes)
  | _ => .panic

/-- `KindEncoder.EncodeInterface`: exact dynamic type or an error.
kString 49-55, kBool 82-88, kInt32 111-117, kUint32 139-145, kInt64 167-173,
kSint64 192-194 (panics), kUint64 215-221, kBytes 244-250. -/
def Kind.encodeInterface (k : Kind) (a : Arg) : Out (Option Val) :=
  match k, a with
  | .string, .str s => .ret (some (.str s))
  | .bool, .bool b => .ret (some (.bool b))
  | .int32, .int32 v => .ret (some (.int32 v))
  | .uint32, .uint32 v => .ret (some (.uint32 v))
  | .int64, .int64 v => .ret (some (.int64 v))
  | .uint64, .uint64 v => .ret (some (.uint64 v))
  | .bytes, .bytes b => .ret (some (.bytes b))
  | .string, _ | .bool, _ | .int32, _ | .uint32, _ | .int64, _ | .uint64, _ | .bytes, _ =>
    .ret none
  | _, _ => .panic

/-- `KindEncoder.EncodeValueToBytes`.
kString 57-65 and kBytes 252-257: `AppendString`/`AppendBytes`, then drop the *first byte*
(not the whole length prefix); kBool 90-94; kInt32 119-123 (`uint64(int32(v))`
sign-extends); kUint32 147-151; kInt64 175-179; kUint64 223-227; kSint64 196-198 panics.
A value of another shape makes the protoreflect accessor panic, except `String`. -/
def Kind.encodeValue (k : Kind) (v : Val) : Out Bytes :=
  match k, v with
  | .string, .str s => .ret ((appendBytes s).drop 1)
  | .string, .unsupported s => .ret ((appendBytes s).drop 1)
  | .bytes, .bytes b => .ret ((appendBytes b).drop 1)
  | .bool, .bool b => .ret (appendVarint (if b then 1 else 0))
  | .int32, .int32 v => .ret (appendVarint (v.signExtend 64).toNat)
  | .uint32, .uint32 v => .ret (appendVarint v.toNat)
  | .int64, .int64 v => .ret (appendVarint v.toNat)
  | .uint64, .uint64 v => .ret (appendVarint v.toNat)
  | _, _ => .panic

end Verif
