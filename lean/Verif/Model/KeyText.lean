import Verif.Model.Nist
/-!
# Keys of other curves in buffers and as text

`MarshalTo` and `String` of x/authn/crypto/internal/ecdsa. As in `Verif.Model.Nist` keys whose pointers are nil are left out.
-/

namespace Verif.Nist

/-- `copy(dst, src)` in Go: as many bytes as both have. -/
def copyInto (dst src : Bytes) : Bytes := src.take dst.length ++ dst.drop src.length

/-- `PubKey.MarshalTo`, x/authn/crypto/internal/ecdsa/pubkey.go:67-71: the buffer afterwards and the number returned; there
is never an error. -/
def PubKey.marshalTo (pk : PubKey) (buf : Bytes) : Out (Bytes × Nat) :=
  match pk.bytes with
  | .panic => .panic
  | .ret b => .ret (copyInto buf b, b.length)

/-- `PrivKey.MarshalTo`, x/authn/crypto/internal/ecdsa/privkey.go:53-57. -/
def PrivKey.marshalTo (sk : PrivKey) (buf : Bytes) : Out (Bytes × Nat) :=
  match sk.bytes with
  | .panic => .panic
  | .ret b => .ret (copyInto buf b, b.length)

/-- A digit of `%X`. -/
def hexDigit (n : Nat) : UInt8 := UInt8.ofNat (if n < 10 then 48 + n else 55 + n)

/-- `%X` of a slice of bytes. -/
def hexUpper (b : Bytes) : Bytes := b.flatMap fun x => [hexDigit (x.toNat / 16), hexDigit (x.toNat % 16)]

/-- `PubKey.String`, x/authn/crypto/internal/ecdsa/pubkey.go:60-62. -/
def PubKey.string (pk : PubKey) (name : Bytes) : Out Bytes :=
  match pk.bytes with
  | .panic => .panic
  | .ret b => .ret (name ++ 123 :: (hexUpper b ++ [125]))

/-- `PrivKey.String`, x/authn/crypto/internal/ecdsa/privkey.go:48-50. -/
def PrivKey.string (_ : PrivKey) (name : Bytes) : Bytes := name ++ b!"{-}"

end Verif.Nist
