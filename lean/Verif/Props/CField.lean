import Verif.Proofs.CFieldMore
import Verif.Props.Points
/-!
# The field arithmetic of the C library
-/

namespace Verif.Props
open Verif.C Verif.Spec

/-- The product of any two elements of magnitude at most 8 is that of the field, of magnitude 1: no
intermediate result leaves its 64 bits. -/
theorem C105_mul {m k : Nat} (hm : m ≤ 8) (hk : k ≤ 8) {a b : Fe} (ha : Mag m a) (hb : Mag k b) :
    Mag 1 (feMul a b) ∧ feVal (feMul a b) = feVal a * feVal b := Proofs.mul_eq hm hk ha hb

/-- The square. -/
theorem C105_sqr {m : Nat} (hm : m ≤ 8) {a : Fe} (ha : Mag m a) :
    Mag 1 (feSqr a) ∧ feVal (feSqr a) = feVal a ^ 2 := Proofs.sqr_eq hm ha

/-- Sums, multiples and opposites, whose magnitudes add up. -/
theorem C105_linear {m k : Nat} {a b : Fe} (ha : Mag m a) (hb : Mag k b) :
    (m + k ≤ 32 → Mag (m + k) (feAdd a b) ∧ feVal (feAdd a b) = feVal a + feVal b) ∧
    (∀ n, m * n ≤ 32 → Mag (m * n) (feMulInt a n) ∧ feVal (feMulInt a n) = feVal a * (n : SecpF)) ∧
    (m ≤ 31 → Mag (m + 1) (feNegate a m) ∧ feVal (feNegate a m) = -feVal a) ∧
    (∀ n, n < 2 ^ 26 → Mag 1 (feSetInt n) ∧ feVal (feSetInt n) = (n : SecpF)) :=
  ⟨fun h => Proofs.add_eq h ha hb, fun _ h => Proofs.mulInt_eq h ha, fun h => Proofs.negate_eq h ha,
    fun _ h => Proofs.setInt_eq (by omega)⟩

/-- Elements of magnitude at most 31: the weak normalization keeps the value and gives magnitude 1, the
full one (in its two variants) gives the limbs of the number below the prime, and the tests for
zero (both) are exact. The code says 32 where this says 31, see `C105_normalize_fails`. -/
theorem C105_normalize_partial {m : Nat} (hm : m ≤ 31) {a : Fe} (ha : Mag m a) :
    (Mag 1 (feNormalizeWeak a) ∧ feVal (feNormalizeWeak a) = feVal a) ∧
    (Normal (feNormalize a) ∧ feVal (feNormalize a) = feVal a) ∧ feNormalizeVar a = feNormalize a ∧
    (feNormalizesToZero a = true ↔ feVal a = 0) ∧ (feNormalizesToZeroVar a = true ↔ feVal a = 0) := by
  obtain ⟨h1, h2, h3⟩ := Proofs.normalize_eq hm ha
  have hz := Proofs.normalizesToZero_eq hm ha
  exact ⟨Proofs.normalizeWeak_eq hm ha, ⟨h1, h2⟩, h3, hz, by rw [Proofs.normalizesToZeroVar_eq]; exact hz⟩

/-- Normalized elements have the limbs of their number: two of the same value are equal. -/
theorem C105_normal_unique {a b : Fe} (ha : Normal a) (hb : Normal b) (h : feVal a = feVal b) : a = b := by
  have hn : feNat a = feNat b := by
    have h' := (ZMod.natCast_eq_natCast_iff' _ _ _).1 h
    rwa [Nat.mod_eq_of_lt ha.lt, Nat.mod_eq_of_lt hb.lt] at h'
  have hg := fun l (hl : l < 10) => (Proofs.normal_get ha hl).trans ((congrArg (fun n => n / 2 ^ (26 * l) % 2 ^ 26) hn).trans
    (Proofs.normal_get hb hl).symm)
  obtain ⟨a0, a1, a2, a3, a4, a5, a6, a7, a8, a9⟩ := a
  obtain ⟨b0, b1, b2, b3, b4, b5, b6, b7, b8, b9⟩ := b
  have e0 := hg 0 (by decide)
  have e1 := hg 1 (by decide)
  have e2 := hg 2 (by decide)
  have e3 := hg 3 (by decide)
  have e4 := hg 4 (by decide)
  have e5 := hg 5 (by decide)
  have e6 := hg 6 (by decide)
  have e7 := hg 7 (by decide)
  have e8 := hg 8 (by decide)
  have e9 := hg 9 (by decide)
  simp only [Fe.get] at e0 e1 e2 e3 e4 e5 e6 e7 e8 e9
  rw [e0, e1, e2, e3, e4, e5, e6, e7, e8, e9]

/-- The largest element of magnitude 32. -/
def largest : Fe :=
  ⟨64 * 0x3FFFFFF, 64 * 0x3FFFFFF, 64 * 0x3FFFFFF, 64 * 0x3FFFFFF, 64 * 0x3FFFFFF, 64 * 0x3FFFFFF, 64 * 0x3FFFFFF,
    64 * 0x3FFFFFF, 64 * 0x3FFFFFF, 64 * 0x3FFFFF⟩

/-- `secp256k1_fe_verify` (field_10x26_impl.h:29) allows magnitude 32, but an element of that magnitude may
overflow 32 bits in the first pass of the normalization: its value changes. -/
theorem C105_normalize_fails : ∃ a : Fe, Mag 32 a ∧ feVal (feNormalizeWeak a) ≠ feVal a ∧
    feVal (feNormalize a) ≠ feVal a := by
  have hm : Mag 32 largest := ⟨by decide, by decide, by decide, by decide, by decide, by decide, by decide, by decide,
    by decide, by decide⟩
  have hne : ∀ x : Fe, feNat x % secpP ≠ feNat largest % secpP → feVal x ≠ feVal largest := fun x h he =>
    h ((ZMod.natCast_eq_natCast_iff' _ _ _).1 he)
  exact ⟨largest, hm, hne _ (by decide +kernel), hne _ (by decide +kernel)⟩

/-- 32 bytes are read as the big-endian number, and accepted exactly if it is below the prime; a
normalized element is written as the 32 bytes of its number. -/
theorem C105_bytes :
    (∀ b : Bytes, b.length = 32 → feNat (feSetB32 b).1 = setBytes b ∧ Mag 1 (feSetB32 b).1 ∧
      ((feSetB32 b).2 = true ↔ setBytes b < secpP)) ∧
    (∀ a : Fe, Normal a → (feGetB32 a).length = 32 ∧ setBytes (feGetB32 a) = feNat a) :=
  ⟨fun _ h => ⟨(Proofs.setB32_eq h).1, (Proofs.setB32_eq h).2.1, (Proofs.setB32_eq h).2.2.1⟩, fun _ h => Proofs.getB32_eq h⟩

/-- The inverse, zero being its own. -/
theorem C105_inv {m : Nat} (hm : m ≤ 8) {a : Fe} (ha : Mag m a) :
    Mag 1 (feInv a) ∧ feVal (feInv a) = (feVal a)⁻¹ := Proofs.inv_eq hm ha

/-- The square root is found exactly if there is one. -/
theorem C105_sqrt {m : Nat} (hm : m ≤ 8) {a : Fe} (ha : Mag m a) :
    Mag 1 (feSqrt a).1 ∧ ((feSqrt a).2 = true ↔ IsSquare (feVal a)) ∧
      ((feSqrt a).2 = true → feVal (feSqrt a).1 ^ 2 = feVal a) := Proofs.sqrt_eq hm ha

/-- The choice without a branch. -/
theorem C105_cmov {m k : Nat} (hm : m ≤ 32) (hk : k ≤ 32) {r a : Fe} (hr : Mag m r) (ha : Mag k a) :
    feCmov r a 0 = r ∧ feCmov r a 1 = a := Proofs.cmov_eq (Proofs.mag_fits hm hr) (Proofs.mag_fits hk ha)

/-- Limbs that do not stay below their bounds, and the number 3 with its inverse. -/
example : feMul (feSetInt 3) (feInv (feSetInt 3)) ≠ feSetInt 1 ∧
    feNormalize (feMul (feSetInt 3) (feInv (feSetInt 3))) = feSetInt 1 ∧
    feNormalize (feSqr (feSqrt (feSetInt 4)).1) = feSetInt 4 ∧ (feSqrt (feSetInt 4)).2 = true ∧
    (feSqrt (feNormalize (feNegate (feSetInt 4) 1))).2 = false ∧
    feGetB32 (feSetInt 258) = List.replicate 30 0 ++ [1, 2] := by decide +kernel

end Verif.Props
