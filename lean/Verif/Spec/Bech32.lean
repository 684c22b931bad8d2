import Verif.Model.Bech32
/-!
# Addresses

The bits of a byte and the verification of BIP 173, independently of how addresses are written.
-/

namespace Verif.Spec

/-- The remainder of a polynomial with coefficients of five bits each, as BIP 173 computes it: for
each value the top five bits select generators. -/
def residue : Nat → List Nat → Nat
  | c, [] => c
  | c, v :: vs =>
    let t := c >>> 25
    residue ((c &&& 0x1ffffff) <<< 5 ^^^ v
      ^^^ (if t.testBit 0 then 0x3b6a57b2 else 0) ^^^ (if t.testBit 1 then 0x26508e6d else 0)
      ^^^ (if t.testBit 2 then 0x1ea119fa else 0) ^^^ (if t.testBit 3 then 0x3d4233dd else 0)
      ^^^ (if t.testBit 4 then 0x2a1462b3 else 0)) vs

/-- The value of a letter. -/
def letterValue (b : UInt8) : Option Nat :=
  (b!"qpzry9x8gf2tvdw0s3jn54khce6mua7l").findIdx? (· = b)

/-- A valid string of BIP 173 (in lower case): prefix, `1` and letters, at least six, with the
right checksum. -/
def ValidBech32 (hrp address : Bytes) : Prop :=
  ∃ letters values, address = hrp ++ 0x31 :: letters ∧ 6 ≤ letters.length ∧
    letters.map letterValue = values.map some ∧
    residue 1 (hrp.map (fun b => b.toNat >>> 5) ++ 0 :: (hrp.map (fun b => b.toNat &&& 31) ++ values)) = 1

end Verif.Spec
