import Verif.Model.Out
/-!
# Keys and signatures (x/authn/crypto/secp256k1, without build tag `libsecp256k1`)

`math/big` numbers that are never negative are `Nat`.  The hash function and the curve
arithmetic of `github.com/btcsuite/btcd/btcec` are parameters.
-/

namespace Verif

/-- The order of the base point, `btcec.S256().N`. -/
def curveN : Nat := 0xFFFFFFFFFFFFFFFFFFFFFFFFFFFFFFFEBAAEDCE6AF48A03BBFD25E8CD0364141

/-- `big.Int.SetBytes`: the number of a big-endian byte string. -/
def setBytes (b : Bytes) : Nat := b.foldl (fun n x => n * 256 + x.toNat) 0

/-- Base 256, least significant byte first, without leading zeros at the end. -/
def littleBytes : Nat → Nat → Bytes
  | 0, _ => []
  | fuel + 1, n => if n = 0 then [] else UInt8.ofNat (n % 256) :: littleBytes fuel (n / 256)

/-- `big.Int.Bytes`: big-endian without leading zeros; empty for zero.  (There are at most `n`
bytes.) -/
def bigBytes (n : Nat) : Bytes := (littleBytes n n).reverse

/-- `copy(buf[end-len(src):end], src)`: panics if the source is longer than `end`; the rest of the
buffer is kept. -/
def copyBefore (buf : Bytes) (last : Nat) (src : Bytes) : Out Bytes :=
  if src.length ≤ last then .ret (buf.take (last - src.length) ++ src ++ buf.drop last) else .panic

/-- `serializeSig` (x/authn/crypto/secp256k1/secp256k1_nocgo.go:62-70). -/
def serializeSig (r s : Nat) : Out Bytes :=
  match copyBefore (List.replicate 64 0) 32 (bigBytes r) with
  | .panic => .panic
  | .ret sig => copyBefore sig 64 (bigBytes s)

/-- `signatureFromBytes` (secp256k1_nocgo.go:53-58), for 64 bytes. -/
def signatureFromBytes (sig : Bytes) : Nat × Nat := (setBytes (sig.take 32), setBytes ((sig.take 64).drop 32))

/-- What the keys use of other packages: `sha256.Sum256`, `ripemd160`, `btcec.ParsePubKey` and
`btcec.Signature.Verify` of hash, r and s. -/
structure Curve where
  Point : Type
  sha256 : Bytes → Bytes
  ripemd160 : Bytes → Bytes
  parsePubKey : Bytes → Option Point
  verify : Point → Bytes → Nat → Nat → Bool

/-- `secp256k1halfN` (secp256k1_nocgo.go:17). -/
def curveHalfN : Nat := curveN >>> 1

/-- `PubKey.VerifySignature` (secp256k1_nocgo.go:33-49). -/
def verifySignature (c : Curve) (key msg sig : Bytes) : Bool :=
  if sig.length ≠ 64 then false
  else match c.parsePubKey key with
    | none => false
    | some pub =>
      let rs := signatureFromBytes sig
      if rs.2 > curveHalfN then false else c.verify pub (c.sha256 msg) rs.1 rs.2

/-- `GenPrivKeyFromSecret` (secp256k1.go:89-106). -/
def genPrivKeyFromSecret (sha256 : Bytes → Bytes) (secret : Bytes) : Out Bytes :=
  let fe := setBytes (sha256 secret) % (curveN - 1) + 1
  copyBefore (List.replicate 32 0) 32 (bigBytes fe)

/-- `genPrivKey` (secp256k1.go:56-75), reading from a source of bytes: blocks of 32 bytes until one
is a valid scalar; panics if the source ends.  The first argument bounds the number of blocks. -/
def genPrivKeyLoop : Nat → Bytes → Out Bytes
  | 0, _ => .panic
  | fuel + 1, rand =>
    if rand.length < 32 then .panic
    else
      let d := setBytes (rand.take 32)
      if 0 < d ∧ d < curveN then .ret (rand.take 32) else genPrivKeyLoop fuel (rand.drop 32)

/-- `genPrivKey` of a finite source of bytes. -/
def genPrivKey (rand : Bytes) : Out Bytes := genPrivKeyLoop (rand.length + 1) rand

/-- `PubKey.Address` (secp256k1.go:117-126). -/
def pubKeyAddress (c : Curve) (key : Bytes) : Out Bytes :=
  if key.length ≠ 33 then .panic else .ret (c.ripemd160 (c.sha256 key))

end Verif
