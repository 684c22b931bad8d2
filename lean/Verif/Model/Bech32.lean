import Verif.Model.Bytes
/-!
# Addresses

`bech32.ConvertAndEncode` of github.com/cosmos/cosmos-sdk v0.42.4 (dependency, pinned in
/repo/go.mod; called at x/authn/tx/decoder.go:121): bytes are regrouped in groups of five bits,
padded with zero bits, and written as prefix, `1`, one letter for each group and six letters of
checksum (BIP 173).  The prefix is in lower case.
-/

namespace Verif

/-- Bits of a byte, most significant first. -/
def byteBits (b : UInt8) : List Bool := (List.range 8).map fun i => b.toNat.testBit (7 - i)

/-- The number with the given bits, most significant first. -/
def ofBits (l : List Bool) : Nat := l.foldl (fun n b => n * 2 + b.toNat) 0

/-- Groups of five bits, the last one padded with zeros. -/
def fives : List Bool → List Nat
  | a :: b :: c :: d :: e :: l => ofBits [a, b, c, d, e] :: fives l
  | [] => []
  | l => [ofBits (l ++ List.replicate (5 - l.length) false)]

/-- `bech32.ConvertBits(data, 8, 5, true)`. -/
def toFives (data : Bytes) : List Nat := fives (data.flatMap byteBits)

/-- The letters of BIP 173. -/
def bech32Letters : Bytes := b!"qpzry9x8gf2tvdw0s3jn54khce6mua7l"

/-- The generators of the checksum. -/
def bech32Gen : List Nat := [0x3b6a57b2, 0x26508e6d, 0x1ea119fa, 0x3d4233dd, 0x2a1462b3]

/-- One step of the checksum. -/
def polymodStep (chk v : Nat) : Nat :=
  let top := chk / 33554432
  (bech32Gen.zipIdx.foldl (fun c g => if top.testBit g.2 then c ^^^ g.1 else c)
    ((chk % 33554432) * 32 ^^^ v))

/-- The checksum as a number. -/
def polymod (values : List Nat) : Nat := values.foldl polymodStep 1

/-- The prefix as part of the checksum. -/
def expandPrefix (hrp : Bytes) : List Nat :=
  hrp.map (fun b => b.toNat / 32) ++ [0] ++ hrp.map (fun b => b.toNat % 32)

/-- The six groups of the checksum. -/
def bech32Checksum (hrp : Bytes) (data : List Nat) : List Nat :=
  let p := polymod (expandPrefix hrp ++ data ++ [0, 0, 0, 0, 0, 0]) ^^^ 1
  (List.range 6).map fun i => p / 32 ^ (5 - i) % 32

/-- `bech32.ConvertAndEncode`; groups of five bits always have a letter, so there is no error. -/
def bech32 (hrp data : Bytes) : Bytes :=
  hrp ++ [0x31] ++ (toFives data ++ bech32Checksum hrp (toFives data)).map
    fun v => bech32Letters.getD v 0

end Verif
