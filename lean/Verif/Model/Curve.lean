import Verif.Model.Secp
import Mathlib.Data.Int.GCD
/-!
# Curve arithmetic (x/authn/crypto/secp256k1/internal/secp256k1/curve.go)

`big.Int` is `Int`; `Mod` is the Euclidean remainder, which is `%` on `Int`.  A nil result is
`none`.  The multiplication done by the C library is a parameter.
-/

namespace Verif

/-- `BitCurve` (curve.go:84-90). -/
structure BitCurve where
  p : Int
  n : Int
  b : Int
  gx : Int
  gy : Int
  bitSize : Nat

namespace BitCurve

/-- `x.Sign() == -1` followed by adding P (curve.go:153-155, 167-169, 191-193, 195-197). -/
def addIfNeg (c : BitCurve) (x : Int) : Int := if x < 0 then x + c.p else x

/-- `IsOnCurve` (curve.go:104-116). -/
def isOnCurve (c : BitCurve) (x y : Int) : Bool :=
  let y2 := y * y % c.p
  let x3 := (x * x * x + c.b) % c.p
  decide (x3 = y2)

/-- `big.Int.ModInverse`: nil if there is no inverse, otherwise the inverse in [0, p). -/
def modInverse (z p : Int) : Option Int :=
  if Int.gcd z p = 1 then some (Int.gcdA z p % p) else none

/-- `affineFromJacobian` (curve.go:121-131).  Multiplying by the nil result of `ModInverse`
panics. -/
def affineFromJacobian (c : BitCurve) : Int × Int × Int → Out (Int × Int)
  | (x, y, z) => match modInverse z c.p with
    | none => .panic
    | some zinv =>
      let zinvsq := zinv * zinv
      .ret (x * zinvsq % c.p, y * (zinvsq * zinv) % c.p)

/-- `addJacobian` (curve.go:141-202). -/
def addJacobian (c : BitCurve) (x1 y1 z1 x2 y2 z2 : Int) : Int × Int × Int :=
  let z1z1 := z1 * z1 % c.p
  let z2z2 := z2 * z2 % c.p
  let u1 := x1 * z2z2 % c.p
  let u2 := x2 * z1z1 % c.p
  let h := c.addIfNeg (u2 - u1)
  let i := 2 * h * (2 * h)
  let j := h * i
  let s1 := y1 * z2 * z2z2 % c.p
  let s2 := y2 * z1 * z1z1 % c.p
  let r := 2 * c.addIfNeg (s2 - s1)
  let v := u1 * i
  let x3 := (r * r - j - v - v) % c.p
  let y3 := (r * (v - x3) - 2 * (s1 * j)) % c.p
  let z3 := c.addIfNeg (c.addIfNeg ((z1 + z2) * (z1 + z2) - z1z1) - z2z2) * h % c.p
  (x3, y3, z3)

/-- `Add` (curve.go:134-137). -/
def add (c : BitCurve) (x1 y1 x2 y2 : Int) : Out (Int × Int) :=
  c.affineFromJacobian (c.addJacobian x1 y1 1 x2 y2 1)

/-- `doubleJacobian` (curve.go:212-242). -/
def doubleJacobian (c : BitCurve) (x y z : Int) : Int × Int × Int :=
  let a := x * x
  let b := y * y
  let cc := b * b
  let d := ((x + b) * (x + b) - a - cc) * 2
  let e := 3 * a
  let f := e * e
  let x3 := (f - 2 * d) % c.p
  let y3 := (e * (d - x3) - 8 * cc) % c.p
  let z3 := 2 * (y * z) % c.p
  (x3, y3, z3)

/-- `Double` (curve.go:205-208). -/
def double (c : BitCurve) (x1 y1 : Int) : Out (Int × Int) :=
  c.affineFromJacobian (c.doubleJacobian x1 y1 1)

end BitCurve

/-- The eight bytes of a `big.Word`, least significant first. -/
def wordBytes (d : Nat) : Bytes := (List.range 8).map fun j => UInt8.ofNat (d >>> (8 * j))

/-- `big.Int.Bits`: the words of the absolute value, least significant first, none of them a
leading zero.  (There are at most `n`.) -/
def words : (fuel : Nat) → Nat → List Nat
  | 0, _ => []
  | f + 1, n => if n = 0 then [] else n % 2 ^ 64 :: words f (n / 2 ^ 64)

/-- `readBits` (curve.go:60-69): the bytes of the words from the end of the buffer on, as far as
there is room; the rest of the buffer is kept. -/
def readBits (x : Int) (buf : Bytes) : Bytes :=
  let written := ((words x.natAbs x.natAbs).flatMap wordBytes).take buf.length
  buf.take (buf.length - written.length) ++ written.reverse

namespace BitCurve

/-- `(BitSize + 7) >> 3` (curve.go:288, 299). -/
def byteLen (c : BitCurve) : Nat := (c.bitSize + 7) >>> 3

/-- `Marshal` (curve.go:287-294). -/
def marshal (c : BitCurve) (x y : Int) : Bytes :=
  4 :: (readBits x (List.replicate c.byteLen 0) ++ readBits y (List.replicate c.byteLen 0))

/-- `Unmarshal` (curve.go:298-309). -/
def unmarshal (c : BitCurve) (data : Bytes) : Option (Int × Int) :=
  if data.length ≠ 1 + 2 * c.byteLen then none
  else if data.head? ≠ some 4 then none
  else some (setBytes ((data.take (1 + c.byteLen)).drop 1), setBytes (data.drop (1 + c.byteLen)))

/-- `ScalarMult` (curve.go:244-277); `mul` is `secp256k1_ext_scalar_mul` of the C library, applied
to the 64 bytes of a point and the 32 bytes of a scalar: `none` if its result is not 1, otherwise
what it leaves in the buffer of the point. -/
def scalarMult (_c : BitCurve) (mul : Bytes → Bytes → Option Bytes) (bx by_ : Int) (scalar : Bytes) :
    Out (Option (Int × Int)) :=
  if scalar.length > 32 then .panic
  else
    let padded := List.replicate (32 - scalar.length) 0 ++ scalar
    let point := readBits bx (List.replicate 32 0) ++ readBits by_ (List.replicate 32 0)
    match mul point padded with
    | none => .ret none
    | some point => .ret (some (setBytes (point.take 32), setBytes (point.drop 32)))

/-- `ScalarBaseMult` (curve.go:281-283). -/
def scalarBaseMult (c : BitCurve) (mul : Bytes → Bytes → Option Bytes) (k : Bytes) : Out (Option (Int × Int)) :=
  c.scalarMult mul c.gx c.gy k

end BitCurve

/-- `theCurve` (curve.go:311-323), returned by `S256` (curve.go:326-328). -/
def theCurve : BitCurve where
  p := 0xFFFFFFFFFFFFFFFFFFFFFFFFFFFFFFFFFFFFFFFFFFFFFFFFFFFFFFFEFFFFFC2F
  n := 0xFFFFFFFFFFFFFFFFFFFFFFFFFFFFFFFEBAAEDCE6AF48A03BBFD25E8CD0364141
  b := 0x0000000000000000000000000000000000000000000000000000000000000007
  gx := 0x79BE667EF9DCBBAC55A06295CE870B07029BFCDB2DCE28D959F2815B16F81798
  gy := 0x483ADA7726A3C4655DA4FBFC0E1108A8FD17B448A68554199C47D08FFB10D4B8
  bitSize := 256

/-! ## secp256.go

The functions of the C library are parameters: they get byte strings for the buffers they are
pointed to.  The buffers they write to are always of the size they fill. -/

/-- The functions of the C library that secp256.go calls; `none` and `false` for results of 0.
`sign` is `secp256k1_ecdsa_sign_recoverable` followed by the serialisation (64 bytes and the
recovery id); `reencode` gets the length of the output as its first argument. -/
structure CLib where
  seckeyVerify : Bytes → Bool
  sign : Bytes → Bytes → Option (Bytes × Nat)
  recover : Bytes → Bytes → Option Bytes
  verify : Bytes → Bytes → Bytes → Bool
  reencode : Nat → Bytes → Option Bytes

/-- The errors of secp256.go:42-50 that are returned. -/
inductive SecpErr where
  | msgLen
  | signatureLen
  | recoveryID
  | key
  | signFailed
  | recoverFailed
  deriving DecidableEq, Repr

/-- `Sign` (secp256.go:58-87). -/
def CLib.signature (c : CLib) (msg seckey : Bytes) : Except SecpErr Bytes :=
  if msg.length ≠ 32 then .error .msgLen
  else if seckey.length ≠ 32 then .error .key
  else if c.seckeyVerify seckey = false then .error .key
  else match c.sign msg seckey with
    | none => .error .signFailed
    | some (sig, recid) => .ok (sig ++ [UInt8.ofNat recid])

/-- `checkSignature` (secp256.go:159-167). -/
def checkSignature (sig : Bytes) : Option SecpErr :=
  if sig.length ≠ 65 then some .signatureLen
  else if 4 ≤ (sig[64]?.getD 0).toNat then some .recoveryID
  else none

/-- `RecoverPubkey` (secp256.go:93-110). -/
def CLib.recoverPubkey (c : CLib) (msg sig : Bytes) : Except SecpErr Bytes :=
  if msg.length ≠ 32 then .error .msgLen
  else match checkSignature sig with
    | some e => .error e
    | none => match c.recover sig msg with
      | none => .error .recoverFailed
      | some key => .ok key

/-- `VerifySignature` (secp256.go:114-122). -/
def CLib.verifySignature (c : CLib) (pubkey msg signature : Bytes) : Bool :=
  if msg.length ≠ 32 ∨ signature.length ≠ 64 ∨ pubkey.length = 0 then false
  else c.verify signature msg pubkey

/-- `DecompressPubkey` (secp256.go:126-141). -/
def CLib.decompressPubkey (c : CLib) (pubkey : Bytes) : Option (Int × Int) :=
  if pubkey.length ≠ 33 then none
  else match c.reencode 65 pubkey with
    | none => none
    | some out => some (setBytes ((out.take 33).drop 1), setBytes (out.drop 33))

/-- `CompressPubkey` (secp256.go:144-157). -/
def CLib.compressPubkey (c : CLib) (x y : Int) : Out Bytes :=
  match c.reencode 33 (theCurve.marshal x y) with
  | none => .panic
  | some out => .ret out

end Verif
