import Verif.Spec.Curve
import Verif.Model.CField
/-!
# What the elements of the C library stand for
-/

namespace Verif.Spec

/-- The number of ten limbs of 26 bits. -/
def feNat (a : C.Fe) : Nat :=
  a.n0 + a.n1 * 2 ^ 26 + a.n2 * 2 ^ 52 + a.n3 * 2 ^ 78 + a.n4 * 2 ^ 104 + a.n5 * 2 ^ 130 + a.n6 * 2 ^ 156 +
    a.n7 * 2 ^ 182 + a.n8 * 2 ^ 208 + a.n9 * 2 ^ 234

/-- The element of the field. -/
def feVal (a : C.Fe) : SecpF := (feNat a : SecpF)

/-- The limbs are bounded by a magnitude, as `secp256k1_fe_verify` of field_10x26_impl.h:15-29 has it of a
number that is not normalized. -/
structure Mag (m : Nat) (a : C.Fe) : Prop where
  h0 : a.n0 ≤ 2 * m * 0x3FFFFFF
  h1 : a.n1 ≤ 2 * m * 0x3FFFFFF
  h2 : a.n2 ≤ 2 * m * 0x3FFFFFF
  h3 : a.n3 ≤ 2 * m * 0x3FFFFFF
  h4 : a.n4 ≤ 2 * m * 0x3FFFFFF
  h5 : a.n5 ≤ 2 * m * 0x3FFFFFF
  h6 : a.n6 ≤ 2 * m * 0x3FFFFFF
  h7 : a.n7 ≤ 2 * m * 0x3FFFFFF
  h8 : a.n8 ≤ 2 * m * 0x3FFFFFF
  h9 : a.n9 ≤ 2 * m * 0x3FFFFF

/-- The limbs are those of a number below the prime. -/
structure Normal (a : C.Fe) : Prop where
  h0 : a.n0 < 2 ^ 26
  h1 : a.n1 < 2 ^ 26
  h2 : a.n2 < 2 ^ 26
  h3 : a.n3 < 2 ^ 26
  h4 : a.n4 < 2 ^ 26
  h5 : a.n5 < 2 ^ 26
  h6 : a.n6 < 2 ^ 26
  h7 : a.n7 < 2 ^ 26
  h8 : a.n8 < 2 ^ 26
  h9 : a.n9 < 2 ^ 22
  lt : feNat a < secpP

/-- The limbs fit in 32 bits. -/
structure Fits (a : C.Fe) : Prop where
  h0 : a.n0 < 2 ^ 32
  h1 : a.n1 < 2 ^ 32
  h2 : a.n2 < 2 ^ 32
  h3 : a.n3 < 2 ^ 32
  h4 : a.n4 < 2 ^ 32
  h5 : a.n5 < 2 ^ 32
  h6 : a.n6 < 2 ^ 32
  h7 : a.n7 < 2 ^ 32
  h8 : a.n8 < 2 ^ 32
  h9 : a.n9 < 2 ^ 32

end Verif.Spec
