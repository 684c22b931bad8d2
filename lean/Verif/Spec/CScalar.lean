import Verif.Model.Secp
import Verif.Model.CScalar
/-!
# What the scalars of the C library stand for
-/

namespace Verif.Spec

/-- The number of eight limbs of 32 bits. -/
def scNat (a : C.Sc) : Nat :=
  a.d0 + a.d1 * 2 ^ 32 + a.d2 * 2 ^ 64 + a.d3 * 2 ^ 96 + a.d4 * 2 ^ 128 + a.d5 * 2 ^ 160 + a.d6 * 2 ^ 192 + a.d7 * 2 ^ 224

/-- The limbs fit into 32 bits. -/
structure ScFits (a : C.Sc) : Prop where
  h0 : a.d0 < 2 ^ 32
  h1 : a.d1 < 2 ^ 32
  h2 : a.d2 < 2 ^ 32
  h3 : a.d3 < 2 ^ 32
  h4 : a.d4 < 2 ^ 32
  h5 : a.d5 < 2 ^ 32
  h6 : a.d6 < 2 ^ 32
  h7 : a.d7 < 2 ^ 32

/-- A scalar: a number below the order of the group. -/
structure Scalar (a : C.Sc) : Prop where
  fits : ScFits a
  lt : scNat a < curveN

end Verif.Spec
