import Verif.Proofs.CProductMore
import Verif.Proofs.Ecdsa
/-!
# Products of scalars in the C library (C109)
-/

namespace Verif.Props
open Verif.C Verif.Spec Verif.Proofs

/-- **C109** The product modulo the order, of any eight limbs. -/
theorem C109_mul {a b : Sc} (ha : ScFits a) (hb : ScFits b) :
    Scalar (scMul a b) ∧ scNat (scMul a b) = scNat a * scNat b % curveN := mul_sc ha hb

/-- **C109** The square modulo the order. -/
theorem C109_sqr {a : Sc} (ha : ScFits a) : Scalar (scSqr a) ∧ scNat (scSqr a) = scNat a ^ 2 % curveN := sqr_sc ha

/-- **C109** The square is the product of a scalar and itself, limb by limb. -/
theorem C109_sqr_mul {a : Sc} (ha : ScFits a) : scSqr a = scMul a a := by
  obtain ⟨h1, h2⟩ := sqr_sc ha
  obtain ⟨h3, h4⟩ := mul_sc ha ha
  exact scNat_inj h1.fits h3.fits (by rw [h2, h4, pow_two])

/-- **C109** The inverse: one after a product with the scalar. Zero has itself. -/
theorem C109_inverse {a : Sc} (ha : Scalar a) :
    Scalar (scInverse a) ∧ (scNat a ≠ 0 → scNat a * scNat (scInverse a) % curveN = 1) ∧
      (scNat a = 0 → scNat (scInverse a) = 0) := by
  obtain ⟨h1, h2⟩ := inverse_sc ha
  refine ⟨h1, fun h0 => ?_, fun h0 => ?_⟩
  · have hz : ((scNat a : Nat) : ZMod curveN) ≠ 0 := by
      rw [Ne, ZMod.natCast_eq_zero_iff]
      exact fun hd => absurd (Nat.le_of_dvd (Nat.pos_of_ne_zero h0) hd) (Nat.not_le.mpr ha.lt)
    have : ((scNat a * scNat (scInverse a) : Nat) : ZMod curveN) = ((1 : Nat) : ZMod curveN) := by
      rw [Nat.cast_mul, h2, mul_inv_cancel₀ hz, Nat.cast_one]
    rw [(ZMod.natCast_eq_natCast_iff' _ _ _).mp this]
    decide +kernel
  · rw [h0, Nat.cast_zero, inv_zero, ZMod.natCast_eq_zero_iff] at h2
    exact Nat.eq_zero_of_dvd_of_lt h2 h1.lt

/-- A small scalar. -/
def smallSc : Sc := scSetInt 3

/-- All the limbs full: the greatest number read by the product. -/
def fullSc : Sc := ⟨2 ^ 32 - 1, 2 ^ 32 - 1, 2 ^ 32 - 1, 2 ^ 32 - 1, 2 ^ 32 - 1, 2 ^ 32 - 1, 2 ^ 32 - 1, 2 ^ 32 - 1⟩

example : ScFits fullSc := by constructor <;> decide
example : scNat (scMul fullSc fullSc) = (2 ^ 256 - 1) * (2 ^ 256 - 1) % curveN := by decide +kernel
example : scNat (scSqr fullSc) = (2 ^ 256 - 1) ^ 2 % curveN := by decide +kernel
example : scNat (scInverse smallSc) * 3 % curveN = 1 := by decide +kernel

end Verif.Props
