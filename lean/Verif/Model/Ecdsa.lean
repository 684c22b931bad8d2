import Verif.Model.Secp
import Verif.Model.Curve
/-!
# Signatures of secp256k1 (btcec v0.21.0-beta)

The functions of `github.com/btcsuite/btcd/btcec` and `crypto/ecdsa` that are called by
x/authn/crypto/secp256k1 (dependencies, their sources were not at hand; written from knowledge of the
published text).  btcec computes with other coordinates and other formulas; of its arithmetic only the
result is modelled, the group law, here computed with the formulas of
x/authn/crypto/secp256k1/internal/secp256k1/curve.go (`Model/Curve`).
-/

namespace Verif.Btcec

/-- A point; `none` is the one at infinity, which btcec writes as (0, 0). -/
abbrev Pt := Option (Int × Int)

/-- `KoblitzCurve.Double` (btcec). -/
def double : Pt → Pt
  | none => none
  | some (x, y) => match theCurve.double x y with
    | .panic => none
    | .ret q => some q

/-- `KoblitzCurve.Add` (btcec). -/
def add (a b : Pt) : Pt :=
  match a, b with
  | none, b => b
  | some p, none => some p
  | some (x1, y1), some (x2, y2) =>
    if x1 = x2 then if y1 = y2 then double (some (x1, y1)) else none
    else match theCurve.add x1 y1 x2 y2 with
      | .panic => none
      | .ret q => some q

/-- A multiple, for scalars below `2 ^ fuel`. -/
def mulLoop : (fuel k : Nat) → Pt → Pt
  | 0, _, _ => none
  | f + 1, k, q =>
    let h := double (mulLoop f (k / 2) q)
    if k % 2 = 1 then add h q else h

/-- `KoblitzCurve.ScalarMult` (btcec). -/
def mul (k : Nat) (q : Pt) : Pt := mulLoop (k.log2 + 1) k q

/-- `KoblitzCurve.ScalarBaseMult` (btcec). -/
def mulBase (k : Nat) : Pt := mul k (some (theCurve.gx, theCurve.gy))

/-- `hashToInt` (crypto/ecdsa): at most the first 32 bytes. -/
def hashToInt (hash : Bytes) : Nat := setBytes (hash.take 32)

/-- Coordinates of the point that btcec returns. -/
def coords : Pt → Int × Int
  | none => (0, 0)
  | some q => q

/-- `paddedAppend(32, nil, x.Bytes())` (btcec), for numbers below 2^256. -/
def padded (n : Nat) : Bytes := List.replicate (32 - (bigBytes n).length) 0 ++ bigBytes n

/-- `PublicKey.SerializeCompressed` (btcec). -/
def serializeCompressed (q : Pt) : Bytes :=
  (if (coords q).2 % 2 = 1 then 3 else 2) :: padded (coords q).1.toNat

/-- A power modulo P, for exponents below `2 ^ fuel`. -/
def powP : (fuel : Nat) → (a e : Nat) → Nat
  | 0, _, _ => 1
  | f + 1, a, e =>
    let h := powP f (a * a % theCurve.p.toNat) (e / 2)
    if e % 2 = 1 then a * h % theCurve.p.toNat else h

/-- `decompressPoint` (btcec): the root of x³ + 7 with the given parity.  (The number `x` may be
larger than P; the field arithmetic reduces it.) -/
def decompress (x : Nat) (odd : Bool) : Option (Int × Int) :=
  let p := theCurve.p.toNat
  let a := (x * x * x + 7) % p
  let y := powP 256 a ((p + 1) / 4)
  let y := if odd = decide (y % 2 = 1) then y else (p - y) % p
  if y * y % p ≠ a then none
  else if odd = decide (y % 2 = 1) then some ((x % p : Nat), (y : Nat))
  else none

/-- `ParsePubKey` (btcec).  Keys of 65 bytes start with 4, or with 6 or 7, the parity of y.  (The
x-coordinate of a compressed key is kept as it is; here it is reduced, as by everything that reads
it.) -/
def parsePubKey (b : Bytes) : Option (Int × Int) :=
  match b with
  | [] => none
  | f :: l =>
    let odd := decide (f % 2 = 1)
    let format := f - f % 2
    if l.length = 64 then
      let x := setBytes (l.take 32)
      let y := setBytes (l.drop 32)
      if format ≠ 4 ∧ format ≠ 6 then none
      else if format = 6 ∧ odd ≠ decide (y % 2 = 1) then none
      else if (x : Int) ≥ theCurve.p ∨ (y : Int) ≥ theCurve.p then none
      else if theCurve.isOnCurve x y then some (x, y) else none
    else if l.length = 32 then
      if format ≠ 2 then none else decompress (setBytes l) odd
    else none

/-- `ModInverse` modulo N of a number that is not a multiple of N (math/big). -/
def inverse (k : Nat) : Nat := (Int.gcdA k curveN % curveN).toNat

/-- `signRFC6979` (btcec), with the secret number given: `none` if it does not give a signature. -/
def sign (k d : Nat) (hash : Bytes) : Option (Nat × Nat) :=
  let r := ((coords (mulBase k)).1 % curveN).toNat
  if r = 0 then none
  else
    let s := (d * r + hashToInt hash) * inverse k % curveN
    let s := if s > curveN / 2 then curveN - s else s
    if s = 0 then none else some (r, s)

/-- `ecdsa.Verify` (crypto/ecdsa). -/
def verify (q : Int × Int) (hash : Bytes) (r s : Nat) : Bool :=
  if r = 0 ∨ s = 0 ∨ r ≥ curveN ∨ s ≥ curveN then false
  else
    let w := inverse s
    let u1 := hashToInt hash * w % curveN
    let u2 := r * w % curveN
    match add (mulBase u1) (mul u2 (some q)) with
    | none => false
    | some (x, _) => decide ((x % curveN).toNat = r)

/-- What the keys use of other packages. -/
def curve (sha256 ripemd160 : Bytes → Bytes) : Curve where
  Point := Int × Int
  sha256 := sha256
  ripemd160 := ripemd160
  parsePubKey := parsePubKey
  verify := verify

/-- `PrivKey.PubKey` (x/authn/crypto/secp256k1/secp256k1.go:33-37). -/
def pubKey (key : Bytes) : Bytes := serializeCompressed (mulBase (setBytes key))

/-- `PrivKey.Sign` (secp256k1_nocgo.go:21-29).  `nonce` is the deterministic choice of the secret
number from the key and the hash (RFC 6979). -/
def privSign (sha256 : Bytes → Bytes) (nonce : Nat → Bytes → Nat) (key msg : Bytes) : Out (Option Bytes) :=
  let d := setBytes key
  let h := sha256 msg
  match sign (nonce d h) d h with
  | none => .ret none
  | some (r, s) => match serializeSig r s with
    | .panic => .panic
    | .ret b => .ret (some b)

/-! ## The choice of the secret number (RFC 6979) -/

/-- `int2octets` (btcec), with 32 bytes: shorter numbers are padded, of longer ones the last bytes taken. -/
def int2octets (n : Nat) : Bytes :=
  List.replicate (32 - (bigBytes n).length) 0 ++ (bigBytes n).drop ((bigBytes n).length - 32)

/-- `bits2octets` (btcec). -/
def bits2octets (hash : Bytes) : Bytes :=
  if hashToInt hash < curveN then int2octets (hashToInt hash) else int2octets (hashToInt hash - curveN)

/-- The loop of `nonceRFC6979` (btcec), until a number between 1 and N - 1 is found; `none` if none is found
in `fuel` rounds.  `mac` returns 32 bytes, so one of its results is enough in each round. -/
def nonceLoop (mac : Bytes → Bytes → Bytes) : (fuel : Nat) → (k v : Bytes) → Option Nat
  | 0, _, _ => none
  | f + 1, k, v =>
    let v := mac k v
    let secret := hashToInt v
    if 1 ≤ secret ∧ secret < curveN then some secret
    else
      let k := mac k (v ++ [0])
      nonceLoop mac f k (mac k v)

/-- `nonceRFC6979` (btcec). -/
def nonceRFC6979 (mac : Bytes → Bytes → Bytes) (fuel : Nat) (d : Nat) (hash : Bytes) : Option Nat :=
  let bx := int2octets d ++ bits2octets hash
  let v := List.replicate 32 1
  let k := List.replicate 32 0
  let k := mac k (v ++ [0] ++ bx)
  let v := mac k v
  let k := mac k (v ++ [1] ++ bx)
  let v := mac k v
  nonceLoop mac fuel k v

/-- `PrivKey.Sign` (secp256k1_nocgo.go:21-29) with that choice; `none` if it is not made in `fuel` rounds. -/
def privSignRFC (sha256 : Bytes → Bytes) (mac : Bytes → Bytes → Bytes) (fuel : Nat) (key msg : Bytes) :
    Option (Out (Option Bytes)) :=
  (nonceRFC6979 mac fuel (setBytes key) (sha256 msg)).map fun k => privSign sha256 (fun _ _ => k) key msg

end Verif.Btcec
