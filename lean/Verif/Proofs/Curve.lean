import Verif.Model.Curve
import Verif.Spec.Curve
import Verif.Proofs.Primes
import Mathlib.FieldTheory.Finite.Basic
import Mathlib.Tactic.FieldSimp
import Mathlib.Tactic.LinearCombination
import Mathlib.Tactic.Ring
/-! # The formulas of curve.go in the field -/

set_option linter.unusedSectionVars false

namespace Verif
open Spec WeierstrassCurve

theorem secpP_eq : secpP = 0xFFFFFFFFFFFFFFFFFFFFFFFFFFFFFFFFFFFFFFFFFFFFFFFFFFFFFFFEFFFFFC2F := by decide +kernel

instance secpP_fact : Fact secpP.Prime := ⟨by rw [secpP_eq]; exact secpP_prime⟩

theorem curve_p : theCurve.p = (secpP : Int) := by decide +kernel

theorem secpP_pos : (0 : Int) < secpP := by decide +kernel

theorem cast_p : ((theCurve.p : Int) : SecpF) = 0 := by
  rw [curve_p]; simp

@[simp] theorem cast_mod (x : Int) : ((x % theCurve.p : Int) : SecpF) = x := by
  rw [curve_p]; exact ZMod.intCast_mod _ _

@[simp] theorem cast_addIfNeg (x : Int) : ((theCurve.addIfNeg x : Int) : SecpF) = x := by
  rw [BitCurve.addIfNeg]
  split
  · push_cast; rw [cast_p, add_zero]
  · rfl

theorem cast_eq_zero (x : Int) : (x : SecpF) = 0 ↔ theCurve.p ∣ x := by
  rw [curve_p]; exact ZMod.intCast_zmod_eq_zero_iff_dvd _ _ |>.trans Iff.rfl

theorem two_ne : (2 : SecpF) ≠ 0 := by
  intro h
  have : ((2 : ℤ) : SecpF) = 0 := by exact_mod_cast h
  exact absurd ((cast_eq_zero 2).1 this) (by decide +kernel)

theorem secp_equation (x y : SecpF) : secp.Equation x y ↔ y ^ 2 = x ^ 3 + 7 := by
  rw [Affine.equation_iff]
  simp [secp]

theorem secp_nonsingular (x y : SecpF) : secp.Nonsingular x y ↔ y ^ 2 = x ^ 3 + 7 := by
  rw [← secp_equation, Affine.equation_iff_nonsingular_of_Δ_ne_zero]
  have h : secp.Δ = ((-(16 * 27 * 49) : ℤ) : SecpF) := by
    simp [WeierstrassCurve.Δ, WeierstrassCurve.b₂, WeierstrassCurve.b₄, WeierstrassCurve.b₆, WeierstrassCurve.b₈, secp]
    ring
  rw [h, Ne, cast_eq_zero]
  decide +kernel

theorem negY_eq (x y : SecpF) : secp.negY x y = -y := by simp [secp]

/-- No point has y-coordinate 0: −7 is not a cube. -/
theorem no_zero_y {x : SecpF} (h : secp.Nonsingular x 0) : False := by
  rw [secp_nonsingular] at h
  have hx : x ≠ 0 := by
    rintro rfl
    have h7 : ((7 : ℤ) : SecpF) = 0 := by
      push_cast
      linear_combination -h
    exact absurd ((cast_eq_zero 7).1 h7) (by decide +kernel)
  have h1 : x ^ (secpP - 1) = 1 := ZMod.pow_card_sub_one_eq_one hx
  have h2 : secpP - 1 = 3 * ((secpP - 1) / 3) := by decide +kernel
  rw [h2, pow_mul, show x ^ 3 = ((secpP - 7 : ℕ) : SecpF) by
    rw [Nat.cast_sub (by decide +kernel)]
    simp only [CharP.cast_eq_zero]
    push_cast
    linear_combination -h] at h1
  have h3 : (((secpP - 7) ^ ((secpP - 1) / 3) : ℕ) : SecpF) = ((1 : ℕ) : SecpF) := by
    push_cast at h1 ⊢; exact h1
  rw [ZMod.natCast_eq_natCast_iff', ← powMod_spec _ 256 _ _ (by decide +kernel)] at h3
  exact absurd h3 (by decide +kernel)

theorem some_congr {x y x' y' : SecpF} {h : secp.Nonsingular x y} (hx : x = x') (hy : y = y') :
    ∃ h', Affine.Point.some x y h = Affine.Point.some x' y' h' := by
  subst hx hy
  exact ⟨h, rfl⟩

theorem Spec.HasCoords.jacobian {x y : Int} {q : secp.Point} (h : HasCoords x y q) : Jacobian (x, y, 1) q := by
  obtain ⟨h, rfl⟩ := h
  exact ⟨_, _, h, rfl, by simp, by simp, by simp⟩

/-- The z-coordinate of a sum. -/
theorem addJacobian_z (x1 y1 z1 x2 y2 z2 : Int) :
    ((theCurve.addJacobian x1 y1 z1 x2 y2 z2).2.2 : SecpF) = 2 * z1 * z2 * (x2 * z1 ^ 2 - x1 * z2 ^ 2) := by
  simp only [BitCurve.addJacobian, cast_mod, cast_addIfNeg, Int.cast_mul, Int.cast_sub, Int.cast_add]
  ring

theorem addJacobian_ok {x1 y1 z1 x2 y2 z2 : Int} {q1 q2 : secp.Point} (h1 : Jacobian (x1, y1, z1) q1)
    (h2 : Jacobian (x2, y2, z2) q2)
    (hz : ((theCurve.addJacobian x1 y1 z1 x2 y2 z2).2.2 : SecpF) ≠ 0) :
    Jacobian (theCurve.addJacobian x1 y1 z1 x2 y2 z2) (q1 + q2) := by
  obtain ⟨a1, b1, n1, rfl, hz1, hx1, hy1⟩ := h1
  obtain ⟨a2, b2, n2, rfl, hz2, hx2, hy2⟩ := h2
  have hz' := hz
  rw [addJacobian_z] at hz
  simp only at hz1 hz2 hx1 hx2 hy1 hy2
  have hne : a1 ≠ a2 := by
    rintro rfl
    apply hz
    rw [hx1, hx2]
    ring
  rw [Affine.Point.add_of_X_ne hne]
  refine ⟨_, _, _, rfl, hz', ?_, ?_⟩
  · rw [addJacobian_z, Affine.slope_of_X_ne hne]
    simp only [BitCurve.addJacobian, cast_mod, cast_addIfNeg, Int.cast_mul, Int.cast_sub, Affine.addX,
      hx1, hx2, hy1, hy2, secp, Int.cast_ofNat]
    have hd : a1 - a2 ≠ 0 := sub_ne_zero.2 hne
    field_simp
    ring
  · rw [addJacobian_z, Affine.slope_of_X_ne hne]
    simp only [BitCurve.addJacobian, cast_mod, cast_addIfNeg, Int.cast_mul, Int.cast_sub, Affine.addX,
      Affine.addY, Affine.negAddY, Affine.negY, hx1, hx2, hy1, hy2, secp, Int.cast_ofNat]
    have hd : a1 - a2 ≠ 0 := sub_ne_zero.2 hne
    field_simp
    ring

theorem doubleJacobian_z (x y z : Int) :
    ((theCurve.doubleJacobian x y z).2.2 : SecpF) = 2 * y * z := by
  simp only [BitCurve.doubleJacobian, cast_mod, Int.cast_mul, Int.cast_ofNat]
  ring

theorem doubleJacobian_ok {x y z : Int} {q : secp.Point} (h : Jacobian (x, y, z) q) :
    Jacobian (theCurve.doubleJacobian x y z) (q + q) := by
  obtain ⟨a, b, n, rfl, hz, hx, hy⟩ := h
  simp only at hz hx hy
  have hb : b ≠ 0 := fun e => no_zero_y (e ▸ n)
  have hne : b ≠ secp.negY a b := by
    rw [negY_eq]
    intro e
    have : 2 * b = 0 := by linear_combination e
    rcases mul_eq_zero.1 this with h | h
    · exact two_ne h
    · exact hb h
  have h2 := two_ne
  have hs : secp.slope a a b b = 3 * a ^ 2 / (2 * b) := by
    rw [Affine.slope_of_Y_ne rfl hne, negY_eq]
    simp only [secp]
    ring_nf
  rw [Affine.Point.add_self_of_Y_ne hne]
  refine ⟨_, _, _, rfl, ?_, ?_, ?_⟩
  · rw [doubleJacobian_z, hy]
    exact mul_ne_zero (mul_ne_zero h2 (mul_ne_zero hb (pow_ne_zero _ hz))) hz
  · rw [doubleJacobian_z, hs]
    simp only [BitCurve.doubleJacobian, cast_mod, Int.cast_mul, Int.cast_sub, Int.cast_add, Affine.addX, hx, hy, secp,
      Int.cast_ofNat]
    field_simp
    ring
  · rw [doubleJacobian_z, hs]
    simp only [BitCurve.doubleJacobian, cast_mod, Int.cast_mul, Int.cast_sub, Int.cast_add, Affine.addX,
      Affine.addY, Affine.negAddY, Affine.negY, hx, hy, secp, Int.cast_ofNat]
    field_simp
    ring

theorem modInverse_none {z : Int} : BitCurve.modInverse z theCurve.p = none ↔ (z : SecpF) = 0 := by
  rw [cast_eq_zero, BitCurve.modInverse]
  have hp : Nat.Prime theCurve.p.natAbs := by rw [curve_p]; exact secpP_fact.out
  constructor
  · intro h
    split at h
    · cases h
    · rename_i hg
      by_contra hd
      apply hg
      rw [Int.gcd_comm]
      exact (Nat.Prime.coprime_iff_not_dvd hp).2 fun e => hd (Int.natAbs_dvd_natAbs.1 e)
  · intro hd
    rw [if_neg]
    intro h
    have h1 : theCurve.p.natAbs ∣ Int.gcd z theCurve.p := Nat.dvd_gcd (Int.natAbs_dvd_natAbs.2 hd) dvd_rfl
    rw [h] at h1
    exact hp.one_lt.ne' (Nat.dvd_one.1 h1)

theorem modInverse_some {z i : Int} (h : BitCurve.modInverse z theCurve.p = some i) :
    (z : SecpF) ≠ 0 ∧ (i : SecpF) = (z : SecpF)⁻¹ := by
  have hz : (z : SecpF) ≠ 0 := fun e => by rw [modInverse_none.2 e] at h; cases h
  refine ⟨hz, ?_⟩
  rw [BitCurve.modInverse] at h
  split at h
  · rename_i hg
    cases h
    rw [cast_mod]
    have hb := Int.gcd_eq_gcd_ab z theCurve.p
    rw [hg] at hb
    have h1 : ((1 : ℤ) : SecpF) = (z : SecpF) * (Int.gcdA z theCurve.p : SecpF) := by
      have := congrArg (fun t : ℤ => (t : SecpF)) hb
      push_cast at this
      rw [cast_p] at this
      simpa using this
    push_cast at h1
    exact eq_inv_of_mul_eq_one_right h1.symm
  · cases h

theorem mod_range (x : Int) : 0 ≤ x % theCurve.p ∧ x % theCurve.p < secpP := by
  rw [curve_p]
  exact ⟨Int.emod_nonneg _ (by have := secpP_pos; omega), Int.emod_lt_of_pos _ secpP_pos⟩

/-- Leaving Jacobian coordinates. -/
theorem affine_ok {t : Int × Int × Int} {q : secp.Point} (h : Jacobian t q) :
    ∃ x y, theCurve.affineFromJacobian t = .ret (x, y) ∧ HasReduced x y q := by
  obtain ⟨x, y, z⟩ := t
  obtain ⟨a, b, n, rfl, hz, hx, hy⟩ := h
  simp only at hz hx hy
  simp only [BitCurve.affineFromJacobian]
  cases hi : BitCurve.modInverse z theCurve.p with
  | none => exact absurd (modInverse_none.1 hi) hz
  | some i =>
    refine ⟨_, _, rfl, ?_, mod_range _, mod_range _⟩
    obtain ⟨_, hi⟩ := modInverse_some hi
    refine some_congr ?_ ?_
    · rw [cast_mod]; push_cast; rw [hi, hx]; field_simp
    · rw [cast_mod]; push_cast; rw [hi, hy]; field_simp

theorem affine_panic {t : Int × Int × Int} : theCurve.affineFromJacobian t = .panic ↔ (t.2.2 : SecpF) = 0 := by
  obtain ⟨x, y, z⟩ := t
  rw [← modInverse_none]
  simp only [BitCurve.affineFromJacobian]
  cases BitCurve.modInverse z theCurve.p <;> simp

end Verif
