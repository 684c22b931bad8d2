import Mathlib.GroupTheory.Perm.Cycle.Type
import Verif.Props.Curve
/-!
# The points of the curve secp256k1

There are exactly N of them: N divides their number because the base point has order N, there are at
most two points for each x-coordinate, and there is no point of order two.
-/

namespace Verif.Props
open Verif Verif.Spec WeierstrassCurve

/-- Two opposite elements that are not zero have different parities. -/
theorem neg_parity {y : SecpF} (h : y ≠ 0) : (-y).val % 2 ≠ y.val % 2 := by
  rw [ZMod.neg_val, if_neg h]
  have h1 := ZMod.val_lt y
  have h2 : secpP % 2 = 1 := by decide +kernel
  omega

theorem point_parity {x y y' : SecpF} (h : secp.Nonsingular x y) (h' : secp.Nonsingular x y')
    (e : y.val % 2 = y'.val % 2) : y = y' := by
  have h1 := (secp_nonsingular x y).1 h
  have h2 := (secp_nonsingular x y').1 h'
  rcases sq_eq_sq_iff_eq_or_eq_neg.1 (h1.trans h2.symm) with h3 | h3
  · exact h3
  · exfalso
    refine neg_parity (y := y') (fun h0 => ?_) (by rw [← h3]; exact e)
    subst h0
    exact no_zero_y h'

/-- A point is determined by one coordinate and the parity of the other. -/
def packed : secp.Point → Option (SecpF × Bool)
  | .zero => none
  | .some x y _ => some (x, decide (y.val % 2 = 1))

theorem packed_inj : Function.Injective packed := by
  rintro (_ | ⟨x, y, h⟩) (_ | ⟨x', y', h'⟩) e
  · rfl
  · cases e
  · cases e
  · simp only [packed, Option.some.injEq, Prod.mk.injEq, decide_eq_decide] at e
    obtain ⟨rfl, e⟩ := e
    obtain rfl := point_parity h h' (by omega)
    rfl

instance : Finite secp.Point := Finite.of_injective packed packed_inj

theorem double_ne_zero {q : secp.Point} (h : q + q = 0) : q = 0 := by
  rcases q with _ | ⟨x, y, hn⟩
  · rfl
  · exfalso
    have e := eq_neg_of_add_eq_zero_left h
    rw [Affine.Point.neg_some] at e
    simp only [Affine.Point.some.injEq, true_and] at e
    rw [negY_eq] at e
    have h2 : 2 * y = 0 := by linear_combination e
    rcases mul_eq_zero.1 h2 with h2 | h2
    · exact two_ne h2
    · subst h2; exact no_zero_y hn

theorem card_points : Nat.card secp.Point = curveN := by
  have h1 : curveN ∣ Nat.card secp.Point := by
    have := addOrderOf_dvd_natCard basePoint
    rwa [C80_group.2.2.2] at this
  have h2 : Nat.card secp.Point ≤ 2 * secpP + 1 := by
    have := Nat.card_le_card_of_injective packed packed_inj
    rw [Finite.card_option, Nat.card_prod, Nat.card_zmod, show Nat.card Bool = 2 by simp] at this
    omega
  obtain ⟨k, hk⟩ := h1
  have h3 : 2 * secpP + 1 < 3 * curveN := by decide +kernel
  have h4 : 0 < Nat.card secp.Point := Nat.card_pos
  have hk3 : k < 3 := by
    by_contra hc
    have := Nat.mul_le_mul_left curveN (Nat.le_of_not_lt hc)
    omega
  have hk0 : k ≠ 0 := by rintro rfl; omega
  have hk2 : k ≠ 2 := by
    rintro rfl
    have : Fact (Nat.Prime 2) := ⟨Nat.prime_two⟩
    obtain ⟨q, hq⟩ := exists_prime_addOrderOf_dvd_card' (G := secp.Point) 2 ⟨curveN, by omega⟩
    have h5 := addOrderOf_nsmul_eq_zero q
    rw [hq, two_nsmul] at h5
    have := double_ne_zero h5
    rw [this, addOrderOf_zero] at hq
    omega
  have : k = 1 := by omega
  rw [hk, this, mul_one]

/-- **C80** The curve has exactly N points, and each is a multiple of the base point: every point but the
one at infinity is the public key of exactly one private key. -/
theorem C80_all_points (q : secp.Point) : curveN • q = 0 ∧ (q ≠ 0 → ∃! k, (0 < k ∧ k < curveN) ∧ q = k • basePoint) := by
  have hn : theCurve.n.toNat = curveN := by decide +kernel
  have hc := card_points
  refine ⟨by rw [← hc]; exact card_nsmul_eq_zero', fun hq => ?_⟩
  have ho := C80_group.2.2.2
  rw [hn] at ho
  have hm : q ∈ AddSubgroup.zmultiples basePoint := by
    rw [show AddSubgroup.zmultiples basePoint = ⊤ from (AddSubgroup.eq_top_of_card_eq _ (by
      rw [Nat.card_zmultiples, ho, hc]))]
    trivial
  obtain ⟨z, hz⟩ := hm
  have hpos : (0 : ℤ) < curveN := by decide +kernel
  have hr : (z % (curveN : ℤ)) • basePoint = q := by
    rw [← hz, ← ho, mod_addOrderOf_zsmul]
  have hz0 := Int.emod_nonneg z hpos.ne'
  have hz1 := Int.emod_lt_of_pos z hpos
  obtain ⟨k, hk⟩ := Int.eq_ofNat_of_zero_le hz0
  rw [hk] at hr hz1
  have hk1 : k < curveN := by exact_mod_cast hz1
  have hr : q = k • basePoint := by rw [← hr]; simp
  have hk0 : 0 < k := by
    rcases Nat.eq_zero_or_pos k with rfl | h
    · exact absurd (by rw [hr, zero_nsmul]) hq
    · exact h
  refine ⟨k, ⟨⟨hk0, hk1⟩, hr⟩, ?_⟩
  rintro l ⟨hl, hl'⟩
  exact (C80_public_keys ⟨hl.1, by rw [hn]; exact hl.2⟩ ⟨hk0, by rw [hn]; exact hk1⟩).2 (by rw [← hl', hr])

end Verif.Props
