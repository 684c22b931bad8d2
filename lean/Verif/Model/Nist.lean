import Verif.Model.Curve
/-!
# Keys of other curves

The keys of x/authn/crypto/internal/ecdsa, over a curve of crypto/elliptic, and what they use of the standard library of Go
(crypto/ecdsa, crypto/elliptic, encoding/asn1, cryptobyte), whose source was not at hand. No module uses the package.

The arithmetic of the curve is a parameter. Keys whose pointers are nil are left out; `MarshalTo` and `String` are in
`Verif.Model.KeyText`. Left out are also the text of errors and the error of a random source that fails.
-/

namespace Verif.Nist

/-- A curve of crypto/elliptic: the size of the field in bits, its order, the order N of the base point, and what the methods
compute; `sqrt` is `ModSqrt` modulo P, `poly` is x³ - 3x + b modulo P. -/
structure Elliptic where
  bitSize : Nat
  p : Nat
  n : Nat
  poly : Nat → Nat
  sqrt : Nat → Option Nat
  add : Nat × Nat → Nat × Nat → Nat × Nat
  mult : Nat × Nat → Bytes → Nat × Nat
  baseMult : Bytes → Nat × Nat

/-- `IsOnCurve` (crypto/elliptic). -/
def Elliptic.isOnCurve (c : Elliptic) (x y : Nat) : Bool := decide (y * y % c.p = c.poly x)

/-- The bytes of an element of the field: `(BitSize + 7) / 8`. -/
def Elliptic.byteLen (c : Elliptic) : Nat := (c.bitSize + 7) / 8

/-- `big.Int.FillBytes`: panics if the number does not fit. -/
def fillBytes (n len : Nat) : Out Bytes :=
  if (bigBytes n).length > len then .panic else .ret (List.replicate (len - (bigBytes n).length) 0 ++ bigBytes n)

/-- `MarshalCompressed` (crypto/elliptic). -/
def marshalCompressed (c : Elliptic) (x y : Nat) : Out Bytes :=
  match fillBytes x c.byteLen with
  | .panic => .panic
  | .ret b => .ret ((if y % 2 = 1 then 3 else 2) :: b)

/-- `UnmarshalCompressed` (crypto/elliptic): `none` for nil. -/
def unmarshalCompressed (c : Elliptic) (data : Bytes) : Option (Nat × Nat) :=
  if data.length ≠ 1 + c.byteLen then none
  else match data with
    | [] => none
    | f :: r =>
      if f ≠ 2 ∧ f ≠ 3 then none
      else
        let x := setBytes r
        if x ≥ c.p then none
        else match c.sqrt (c.poly x) with
          | none => none
          | some y =>
            let y := if decide (y % 2 = 1) ≠ decide (f = 3) then (c.p - y) % c.p else y
            if c.isOnCurve x y then some (x, y) else none

/-- What is read of an element: class, whether it is compound, tag and length. -/
structure Header where
  cls : Nat
  compound : Bool
  tag : Nat
  len : Nat

/-- The bytes of a length in the long form, `k` of them (the loop in `parseTagAndLength`, encoding/asn1). -/
def longLength : (k : Nat) → (len : Nat) → Bytes → Option (Nat × Bytes)
  | 0, len, b => some (len, b)
  | _ + 1, _, [] => none
  | k + 1, len, x :: b =>
    if len ≥ 2 ^ 23 then none
    else if len * 256 + x.toNat = 0 then none
    else longLength k (len * 256 + x.toNat) b

/-- `parseTagAndLength` (encoding/asn1): the header and the bytes after it. Tags of more than one byte are never
those looked for, so they are rejected here. -/
def parseTagAndLength : Bytes → Option (Header × Bytes)
  | [] => none
  | [_] => none
  | t :: l :: b =>
    let h : Nat → Header := fun len => ⟨t.toNat / 64, decide (t.toNat / 32 % 2 = 1), t.toNat % 32, len⟩
    if t.toNat % 32 = 31 then none
    else if l.toNat < 128 then some (h l.toNat, b)
    else if l.toNat = 128 then none
    else match longLength (l.toNat - 128) 0 b with
      | none => none
      | some (len, b) => if len < 128 then none else some (h len, b)

/-- The start of `parseField` (encoding/asn1) for a tag without parameters: the bytes of the element, and those after it. -/
def parseElement (tag : Nat) (compound : Bool) (b : Bytes) : Option (Bytes × Bytes) :=
  match parseTagAndLength b with
  | none => none
  | some (h, b) =>
    if h.cls ≠ 0 ∨ h.tag ≠ tag ∨ h.compound ≠ compound then none
    else if h.len > b.length then none
    else some (b.take h.len, b.drop h.len)

/-- `parseBigInt` (encoding/asn1): two's complement, in the shortest form. -/
def parseBigInt : Bytes → Option Int
  | [] => none
  | [x] => some (if x.toNat ≥ 128 then -((setBytes [~~~x] : Nat) + 1 : Int) else setBytes [x])
  | x :: y :: b =>
    if (x = 0 ∧ y.toNat < 128) ∨ (x = 255 ∧ y.toNat ≥ 128) then none
    else some (if x.toNat ≥ 128 then -((setBytes ((x :: y :: b).map (~~~ ·)) : Nat) + 1 : Int) else setBytes (x :: y :: b))

/-- `asn1.Unmarshal` of a `signature`, x/authn/crypto/internal/ecdsa/pubkey.go:18-20,51. Bytes after the two numbers, and
after the sequence, are ignored. -/
def parseSignature (sig : Bytes) : Option (Int × Int) :=
  match parseElement 16 true sig with
  | none => none
  | some (b, _) =>
    match parseElement 2 false b with
    | none => none
    | some (r, b) =>
      match parseBigInt r, parseElement 2 false b with
      | some r, some (s, _) =>
        match parseBigInt s with
        | some s => some (r, s)
        | none => none
      | _, _ => none

/-- A length as cryptobyte writes it. -/
def asn1Length (n : Nat) : Bytes :=
  if n < 128 then [UInt8.ofNat n] else UInt8.ofNat (128 + (bigBytes n).length) :: bigBytes n

/-- `AddASN1` (cryptobyte) with the byte of the tag. -/
def asn1Element (tag : UInt8) (b : Bytes) : Bytes := tag :: (asn1Length b.length ++ b)

/-- `AddASN1BigInt` (cryptobyte) of a number that is not negative. -/
def asn1BigInt (n : Nat) : Bytes :=
  asn1Element 2 (match bigBytes n with
    | [] => [0]
    | x :: b => if x.toNat ≥ 128 then 0 :: x :: b else x :: b)

/-- The signature as `PrivateKey.Sign` (crypto/ecdsa) returns it. -/
def asn1Signature (r s : Nat) : Bytes := asn1Element 48 (asn1BigInt r ++ asn1BigInt s)

/-- `hashToInt` (crypto/ecdsa). -/
def hashToInt (c : Elliptic) (hash : Bytes) : Nat :=
  let bits := c.n.log2 + 1
  let hash := hash.take ((bits + 7) / 8)
  if hash.length * 8 > bits then setBytes hash / 2 ^ (hash.length * 8 - bits) else setBytes hash

/-- The inverse modulo N (`ModInverse`, `fermatInverse`). -/
def inverse (c : Elliptic) (k : Nat) : Nat := (Int.gcdA k c.n % c.n).toNat

/-- `ecdsa.Sign` (crypto/ecdsa) with the random numbers between 1 and N - 1 that it tries; `none` if none of them does. -/
def sign (c : Elliptic) (d : Nat) (hash : Bytes) : List Nat → Option (Nat × Nat)
  | [] => none
  | k :: ks =>
    let r := (c.baseMult (bigBytes k)).1 % c.n
    if r = 0 then sign c d hash ks
    else
      let s := (d * r + hashToInt c hash) * inverse c k % c.n
      if s = 0 then sign c d hash ks else some (r, s)

/-- `ecdsa.Verify` (crypto/ecdsa). -/
def verify (c : Elliptic) (q : Nat × Nat) (hash : Bytes) (r s : Int) : Bool :=
  if r ≤ 0 ∨ s ≤ 0 ∨ r ≥ c.n ∨ s ≥ c.n then false
  else
    let w := inverse c s.toNat
    let u1 := hashToInt c hash * w % c.n
    let u2 := r.toNat * w % c.n
    let t := c.add (c.baseMult (bigBytes u1)) (c.mult q (bigBytes u2))
    if t = (0, 0) then false else decide (t.1 % c.n = r.toNat)

/-- `PubKey`, x/authn/crypto/internal/ecdsa/pubkey.go:22-27. -/
structure PubKey where
  curve : Elliptic
  x : Nat
  y : Nat
  address : Option Bytes

/-- `Hash`, x/authn/crypto/internal/ecdsa/pubkey.go:88-107. -/
def addressHash (sha256 : Bytes → Bytes) (typ key : Bytes) : Bytes := sha256 (sha256 typ ++ key)

/-- `PubKey.Bytes`, x/authn/crypto/internal/ecdsa/pubkey.go:41-46. -/
def PubKey.bytes (pk : PubKey) : Out Bytes := marshalCompressed pk.curve pk.x pk.y

/-- `PubKey.Address`, x/authn/crypto/internal/ecdsa/pubkey.go:32-37: the address, and the key with the cache. -/
def PubKey.addressFor (sha256 : Bytes → Bytes) (pk : PubKey) (name : Bytes) : Out (Bytes × PubKey) :=
  match pk.address with
  | some a => .ret (a, pk)
  | none =>
    match pk.bytes with
    | .panic => .panic
    | .ret b => .ret (addressHash sha256 name b, { pk with address := some (addressHash sha256 name b) })

/-- `PubKey.VerifySignature`, x/authn/crypto/internal/ecdsa/pubkey.go:49-57. -/
def PubKey.verifySignature (sha256 : Bytes → Bytes) (pk : PubKey) (msg sig : Bytes) : Bool :=
  match parseSignature sig with
  | none => false
  | some (r, s) => verify pk.curve (pk.x, pk.y) (sha256 msg) r s

/-- `PubKey.Unmarshal`, x/authn/crypto/internal/ecdsa/pubkey.go:74-85: `none` for an error. The message of the second error
contains the first byte, so it panics if there is none. The cache is kept. -/
def PubKey.unmarshal (pk : PubKey) (bz : Bytes) (curve : Elliptic) (expectedSize : Nat) : Out (Option PubKey) :=
  if bz.length ≠ expectedSize then .ret none
  else match unmarshalCompressed curve bz with
    | some (x, y) => .ret (some { pk with curve := curve, x := x, y := y })
    | none => if bz = [] then .panic else .ret none

/-- `PrivKey`, x/authn/crypto/internal/ecdsa/privkey.go:21-23. -/
structure PrivKey where
  curve : Elliptic
  d : Nat
  x : Nat
  y : Nat

/-- `PrivKey.PubKey`, x/authn/crypto/internal/ecdsa/privkey.go:26-28. -/
def PrivKey.pubKey (sk : PrivKey) : PubKey := ⟨sk.curve, sk.x, sk.y, none⟩

/-- `PrivKey.Bytes`, x/authn/crypto/internal/ecdsa/privkey.go:31-39. -/
def PrivKey.bytes (sk : PrivKey) : Out Bytes := fillBytes sk.d sk.curve.byteLen

/-- `PrivKey.Sign`, x/authn/crypto/internal/ecdsa/privkey.go:42-45, with the random numbers. -/
def PrivKey.sign (sha256 : Bytes → Bytes) (sk : PrivKey) (msg : Bytes) (ks : List Nat) : Option Bytes :=
  match Nist.sign sk.curve sk.d (sha256 msg) ks with
  | none => none
  | some (r, s) => some (asn1Signature r s)

/-- `PrivKey.Unmarshal`, x/authn/crypto/internal/ecdsa/privkey.go:60-69: `none` for an error. -/
def PrivKey.unmarshal (bz : Bytes) (curve : Elliptic) (expectedSize : Nat) : Option PrivKey :=
  if bz.length ≠ expectedSize then none
  else some ⟨curve, setBytes bz, (curve.baseMult bz).1, (curve.baseMult bz).2⟩

/-- `GenPrivKey`, x/authn/crypto/internal/ecdsa/privkey.go:13-19, with the random number between 1 and N - 1 that
`ecdsa.GenerateKey` chooses. -/
def genPrivKey (curve : Elliptic) (k : Nat) : PrivKey :=
  ⟨curve, k, (curve.baseMult (bigBytes k)).1, (curve.baseMult (bigBytes k)).2⟩

end Verif.Nist
