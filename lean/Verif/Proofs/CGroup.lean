import Verif.Spec.CGroup
import Verif.Proofs.CFieldMore
import Verif.Props.Points
/-!
# The group of points of the C library: proofs
-/

namespace Verif.Proofs
open Verif.C Verif.Spec WeierstrassCurve

/-! ## The formulas, in the field -/

theorem jac_double {x y z : SecpF} {q : secp.Point} (h : Jac x y z q) :
    Jac (-(2 * y ^ 2 * x * 4) + (x ^ 2 * 3) ^ 2) (x ^ 2 * 3 * (2 * y ^ 2 * x * 6 + -(x ^ 2 * 3) ^ 2) + -((2 * y ^ 2) ^ 2 * 2))
      (z * y * 2) (q + q) := by
  obtain ⟨hz, a, b, n, rfl, hx, hy⟩ := h
  have hb : b ≠ 0 := fun e => no_zero_y (e ▸ n)
  have h2 := two_ne
  have hne : b ≠ secp.negY a b := by
    rw [negY_eq]
    intro e
    have : 2 * b = 0 := by linear_combination e
    rcases mul_eq_zero.1 this with h | h
    · exact h2 h
    · exact hb h
  have hs : secp.slope a a b b = 3 * a ^ 2 / (2 * b) := by
    rw [Affine.slope_of_Y_ne rfl hne, negY_eq]
    simp only [secp]
    ring_nf
  rw [Affine.Point.add_self_of_Y_ne hne]
  refine ⟨?_, _, _, _, rfl, ?_, ?_⟩
  · rw [hy]
    exact mul_ne_zero (mul_ne_zero hz (mul_ne_zero hb (pow_ne_zero _ hz))) h2
  · rw [hs]
    simp only [Affine.addX, hx, hy, secp]
    field_simp
    ring
  · rw [hs]
    simp only [Affine.addX, Affine.addY, Affine.negAddY, Affine.negY, hx, hy, secp]
    field_simp
    ring

/-- Two points that are brought to the same third coordinate, with different first coordinates. -/
theorem jac_add {u1 s1 u2 s2 w : SecpF} {q1 q2 : secp.Point} (h1 : Jac u1 s1 w q1) (h2 : Jac u2 s2 w q2)
    (hne : -u1 + u2 ≠ 0) :
    Jac (-(u1 * (-u1 + u2) ^ 2 * 2 + (-u1 + u2) * (-u1 + u2) ^ 2) + (-s1 + s2) ^ 2)
      ((-(-(u1 * (-u1 + u2) ^ 2 * 2 + (-u1 + u2) * (-u1 + u2) ^ 2) + (-s1 + s2) ^ 2) + u1 * (-u1 + u2) ^ 2) * (-s1 + s2) +
        -((-u1 + u2) * (-u1 + u2) ^ 2 * s1)) (w * (-u1 + u2)) (q1 + q2) := by
  obtain ⟨hw, a1, b1, n1, rfl, rfl, rfl⟩ := h1
  obtain ⟨-, a2, b2, n2, rfl, rfl, rfl⟩ := h2
  have hne' : a1 ≠ a2 := by
    rintro rfl
    exact hne (by ring)
  have hd : a1 - a2 ≠ 0 := sub_ne_zero.2 hne'
  rw [Affine.Point.add_of_X_ne hne']
  refine ⟨mul_ne_zero hw hne, _, _, _, rfl, ?_, ?_⟩
  · rw [Affine.slope_of_X_ne hne']
    simp only [Affine.addX, secp]
    field_simp
    ring
  · rw [Affine.slope_of_X_ne hne']
    simp only [Affine.addX, Affine.addY, Affine.negAddY, Affine.negY, secp]
    field_simp
    ring

/-- The same first coordinate: the points are the same or opposite. -/
theorem jac_same {u s1 s2 w : SecpF} {q1 q2 : secp.Point} (h1 : Jac u s1 w q1) (h2 : Jac u s2 w q2) :
    (s1 = s2 → q1 = q2) ∧ (s1 ≠ s2 → q1 + q2 = 0) := by
  obtain ⟨hw, a1, b1, n1, rfl, hx1, hy1⟩ := h1
  obtain ⟨-, a2, b2, n2, rfl, hx2, hy2⟩ := h2
  have hx : a1 = a2 := mul_right_cancel₀ (pow_ne_zero 2 hw) (hx1.symm.trans hx2)
  subst hx
  constructor
  · intro e
    have hy : b1 = b2 := mul_right_cancel₀ (pow_ne_zero 3 hw) (hy1.symm.trans (e.trans hy2))
    subst hy
    rfl
  · intro e
    apply Affine.Point.add_of_Y_eq rfl
    rcases Affine.Y_eq_of_X_eq n1.1 n2.1 rfl with h | h
    · exact absurd (by rw [hy1, hy2, h]) e
    · exact h

/-- A sum from a numerator `R` and a denominator `M` of the slope: `L` is the slope itself. -/
theorem jac_slope {a1 b1 a2 b2 w R M N L : SecpF} {n1 : secp.Nonsingular a1 b1} {n2 : secp.Nonsingular a2 b2}
    (hw : w ≠ 0) (hM : M ≠ 0) (hxy : ¬ (a1 = a2 ∧ b1 = secp.negY a2 b2)) (hL : secp.slope a1 a2 b1 b2 = L)
    (hR : R = L * w * M) (hN : N = M ^ 3 * (b1 + b2) * w ^ 3) (hl : L * (a2 - a1) = b2 - b1) :
    Jac ((R ^ 2 + -(M ^ 2 * (a1 * w ^ 2 + a2 * w ^ 2))) * 4)
      (-(((R ^ 2 + -(M ^ 2 * (a1 * w ^ 2 + a2 * w ^ 2))) * 2 + -(M ^ 2 * (a1 * w ^ 2 + a2 * w ^ 2))) * R + N) * 4)
      (w * M * 2) (Affine.Point.some a1 b1 n1 + Affine.Point.some a2 b2 n2) := by
  rw [Affine.Point.add_some hxy]
  refine ⟨mul_ne_zero (mul_ne_zero hw hM) two_ne, _, _, _, rfl, ?_, ?_⟩
  · rw [hL]
    simp only [Affine.addX, secp]
    rw [hR]
    ring
  · rw [hL]
    simp only [Affine.addX, Affine.addY, Affine.negAddY, Affine.negY, secp]
    rw [hR, hN]
    linear_combination (4 * M ^ 3 * w ^ 3) * hl

/-- The formula for all points, where the usual quotient is not 0/0. -/
theorem jac_unified {u1 s1 u2 s2 w : SecpF} {q1 q2 : secp.Point} (h1 : Jac u1 s1 w q1) (h2 : Jac u2 s2 w q2)
    {R M N : SecpF}
    (hc : (¬ (s1 + s2 = 0 ∧ (u1 + u2) ^ 2 + u1 * -u2 = 0) ∧ R = (u1 + u2) ^ 2 + u1 * -u2 ∧ M = s1 + s2 ∧ N = (M ^ 2) ^ 2) ∨
      ((s1 + s2 = 0 ∧ (u1 + u2) ^ 2 + u1 * -u2 = 0) ∧ R = s1 * 2 ∧ M = -u2 + u1 ∧ N = s1 + s2)) :
    (M = 0 → q1 + q2 = 0) ∧ (M ≠ 0 →
      Jac ((R ^ 2 + -(M ^ 2 * (u1 + u2))) * 4)
      (-(((R ^ 2 + -(M ^ 2 * (u1 + u2))) * 2 + -(M ^ 2 * (u1 + u2))) * R + N) * 4)
      (w * M * 2) (q1 + q2)) := by
  obtain ⟨hw, a1, b1, n1, rfl, rfl, rfl⟩ := h1
  obtain ⟨-, a2, b2, n2, rfl, rfl, rfl⟩ := h2
  have e1 := (secp_nonsingular a1 b1).1 n1
  have e2 := (secp_nonsingular a2 b2).1 n2
  have hw2 := pow_ne_zero 2 hw
  have hw3 := pow_ne_zero 3 hw
  have hw4 := pow_ne_zero 4 hw
  have hs : b1 * w ^ 3 + b2 * w ^ 3 = 0 ↔ b1 + b2 = 0 := by
    rw [← add_mul, mul_eq_zero]
    exact ⟨fun h => h.resolve_right hw3, Or.inl⟩
  have hr : (a1 * w ^ 2 + a2 * w ^ 2) ^ 2 + a1 * w ^ 2 * -(a2 * w ^ 2) = 0 ↔ a1 ^ 2 + a1 * a2 + a2 ^ 2 = 0 := by
    rw [show (a1 * w ^ 2 + a2 * w ^ 2) ^ 2 + a1 * w ^ 2 * -(a2 * w ^ 2) = (a1 ^ 2 + a1 * a2 + a2 ^ 2) * w ^ 4 by ring, mul_eq_zero]
    exact ⟨fun h => h.resolve_right hw4, Or.inl⟩
  rw [hs, hr] at hc
  have hcube : (b1 - b2) * (b1 + b2) = (a1 - a2) * (a1 ^ 2 + a1 * a2 + a2 ^ 2) := by
    linear_combination e1 - e2
  rcases hc with ⟨hd, hR, hM, hN⟩ | ⟨⟨hs0, hr0⟩, hR, hM, hN⟩
  · constructor
    · intro h0
      have hb : b1 + b2 = 0 := hs.1 (hM.symm.trans h0)
      have ha : a1 = a2 := by
        rw [hb, mul_zero] at hcube
        rcases mul_eq_zero.1 hcube.symm with h | h
        · exact sub_eq_zero.1 h
        · exact absurd ⟨hb, h⟩ hd
      exact Affine.Point.add_of_Y_eq ha (by rw [negY_eq]; linear_combination hb)
    · intro h0
      have hb : b1 + b2 ≠ 0 := fun h => h0 (hM.trans (hs.2 h))
      have hn : ¬ b1 = secp.negY a2 b2 := by
        rw [negY_eq]
        exact fun h => hb (by linear_combination h)
      have hxy : ¬ (a1 = a2 ∧ b1 = secp.negY a2 b2) := fun h => hn h.2
      have hL : secp.slope a1 a2 b1 b2 = (a1 ^ 2 + a1 * a2 + a2 ^ 2) / (b1 + b2) := by
        by_cases hx : a1 = a2
        · have hy : b1 = b2 := (Affine.Y_eq_of_X_eq n1.1 n2.1 hx).resolve_right hn
          rw [Affine.slope_of_Y_ne hx hn, negY_eq]
          subst hx hy
          simp only [secp]
          ring_nf
        · rw [Affine.slope_of_X_ne hx, div_eq_div_iff (sub_ne_zero.2 hx) hb, hcube]
          ring
      refine jac_slope hw h0 hxy hL ?_ ?_ ?_
      · rw [hR, hM]
        field_simp
        ring
      · rw [hN, hM]
        ring
      · field_simp
        linear_combination hcube
  · have hM' : M = (a1 - a2) * w ^ 2 := by rw [hM]; ring
    constructor
    · intro h0
      rw [hM', mul_eq_zero] at h0
      exact Affine.Point.add_of_Y_eq (sub_eq_zero.1 (h0.resolve_right hw2)) (by rw [negY_eq]; linear_combination hs0)
    · intro h0
      have ha : a1 ≠ a2 := fun h => h0 (by rw [hM', h, sub_self, zero_mul])
      have hd := sub_ne_zero.2 ha
      refine jac_slope hw h0 (fun h => ha h.1) (Affine.slope_of_X_ne ha) ?_ ?_ ?_
      · rw [hR, hM']
        field_simp
        linear_combination hs0
      · rw [hN]
        linear_combination (w ^ 3 - M ^ 3 * w ^ 3) * hs0
      · field_simp
        ring

theorem jac_scale {x y z k : SecpF} {q : secp.Point} (h : Jac x y z q) (hk : k ≠ 0) :
    Jac (x * k ^ 2) (y * k ^ 3) (z * k) q := by
  obtain ⟨hz, a, b, n, rfl, rfl, rfl⟩ := h
  exact ⟨mul_ne_zero hz hk, a, b, n, rfl, by ring, by ring⟩

theorem jac_neg {x y z : SecpF} {q : secp.Point} (h : Jac x y z q) : Jac x (-y) z (-q) := by
  obtain ⟨hz, a, b, n, rfl, rfl, rfl⟩ := h
  rw [Affine.Point.neg_some]
  exact ⟨hz, _, _, _, rfl, rfl, by rw [negY_eq]; ring⟩

theorem jac_ne_zero {x y z : SecpF} {q : secp.Point} (h : Jac x y z q) : q ≠ 0 := by
  obtain ⟨hz, a, b, n, rfl, rfl, rfl⟩ := h
  exact Affine.Point.some_ne_zero _

/-! ## Elements with their values -/

/-- An element of magnitude `m` with value `v`. -/
structure Is (m : Nat) (a : Fe) (v : SecpF) : Prop where
  mag : Mag m a
  val : feVal a = v

theorem Is.of {m : Nat} {a : Fe} (h : Mag m a) : Is m a (feVal a) := ⟨h, rfl⟩

theorem Is.mul {m k : Nat} {a b : Fe} {v w : SecpF} (ha : Is m a v) (hb : Is k b w) (hm : m ≤ 8) (hk : k ≤ 8) :
    Is 1 (feMul a b) (v * w) := by
  obtain ⟨h1, h2⟩ := mul_eq hm hk ha.mag hb.mag
  exact ⟨h1, by rw [h2, ha.val, hb.val]⟩

theorem Is.sqr {m : Nat} {a : Fe} {v : SecpF} (ha : Is m a v) (hm : m ≤ 8) : Is 1 (feSqr a) (v ^ 2) := by
  obtain ⟨h1, h2⟩ := sqr_eq hm ha.mag
  exact ⟨h1, by rw [h2, ha.val]⟩

theorem Is.add {m k : Nat} {a b : Fe} {v w : SecpF} (ha : Is m a v) (hb : Is k b w) (hm : m + k ≤ 32) :
    Is (m + k) (feAdd a b) (v + w) := by
  obtain ⟨h1, h2⟩ := add_eq hm ha.mag hb.mag
  exact ⟨h1, by rw [h2, ha.val, hb.val]⟩

theorem Is.neg {m : Nat} {a : Fe} {v : SecpF} (ha : Is m a v) (hm : m ≤ 31) : Is (m + 1) (feNegate a m) (-v) := by
  obtain ⟨h1, h2⟩ := negate_eq hm ha.mag
  exact ⟨h1, by rw [h2, ha.val]⟩

theorem Is.mulInt {m : Nat} {a : Fe} {v : SecpF} (ha : Is m a v) (k : Nat) (hm : m * k ≤ 32) :
    Is (m * k) (feMulInt a k) (v * (k : SecpF)) := by
  obtain ⟨h1, h2⟩ := mulInt_eq hm ha.mag
  exact ⟨h1, by rw [h2, ha.val]⟩

theorem Is.weak {m : Nat} {a : Fe} {v : SecpF} (ha : Is m a v) (hm : m ≤ 31) : Is 1 (feNormalizeWeak a) v := by
  obtain ⟨h1, h2⟩ := normalizeWeak_eq hm ha.mag
  exact ⟨h1, by rw [h2, ha.val]⟩

theorem Is.full {m : Nat} {a : Fe} {v : SecpF} (ha : Is m a v) (hm : m ≤ 31) : Is 1 (feNormalize a) v := by
  obtain ⟨h1, h2, -⟩ := normalize_eq hm ha.mag
  exact ⟨normal_mag h1, by rw [h2, ha.val]⟩

theorem Is.zero {m : Nat} {a : Fe} {v : SecpF} (ha : Is m a v) (hm : m ≤ 31) : feNormalizesToZero a = true ↔ v = 0 := by
  rw [normalizesToZero_eq hm ha.mag, ha.val]

theorem Is.zeroVar {m : Nat} {a : Fe} {v : SecpF} (ha : Is m a v) (hm : m ≤ 31) :
    feNormalizesToZeroVar a = true ↔ v = 0 := by
  rw [normalizesToZeroVar_eq, ha.zero hm]

theorem Is.inv {m : Nat} {a : Fe} {v : SecpF} (ha : Is m a v) (hm : m ≤ 8) : Is 1 (feInv a) v⁻¹ := by
  obtain ⟨h1, h2⟩ := inv_eq hm ha.mag
  exact ⟨h1, by rw [h2, ha.val]⟩

theorem Is.up {m : Nat} {a : Fe} {v : SecpF} (ha : Is m a v) {k : Nat} (h : m ≤ k) : Is k a v := ⟨mag_mono h ha.mag, ha.val⟩

theorem is_int (n : Nat) (h : n < 2 ^ 26) : Is 1 (feSetInt n) (n : SecpF) := by
  obtain ⟨h1, h2⟩ := setInt_eq (n := n) (by omega)
  exact ⟨h1, h2⟩

theorem is_one : Is 1 (feSetInt 1) 1 := ⟨(is_int 1 (by decide)).mag, by rw [(is_int 1 (by decide)).val]; norm_num⟩

theorem is_zero : Is 1 (feSetInt 0) 0 := ⟨(is_int 0 (by decide)).mag, by rw [(is_int 0 (by decide)).val]; norm_num⟩

theorem Is.cmov {m k : Nat} {r a : Fe} {v w : SecpF} (hr : Is m r v) (ha : Is k a w) (hm : m ≤ 32) (hk : k ≤ 32) (b : Bool) :
    Is (max m k) (feCmov r a b.toNat) (if b then w else v) := by
  obtain ⟨h0, h1⟩ := cmov_eq (mag_fits hm hr.mag) (mag_fits hk ha.mag)
  cases b
  · exact ⟨by rw [Bool.toNat_false, h0]; exact mag_mono (le_max_left _ _) hr.mag, by rw [Bool.toNat_false, h0, hr.val]; rfl⟩
  · exact ⟨by rw [Bool.toNat_true, h1]; exact mag_mono (le_max_right _ _) ha.mag, by rw [Bool.toNat_true, h1, ha.val]; rfl⟩

/-! ## The functions -/

theorem double_eq {u : SecpF} {r a : Gej} {q : secp.Point} (hr : a.infinity = true → GejMag r) (hm : GejMag a)
    (ha : GejRep u a q) :
    GejMag (gejDoubleVar r a).1 ∧ GejRep u (gejDoubleVar r a).1 (q + q) ∧ Mag 2 (gejDoubleVar r a).2 ∧
      (gejDoubleVar r a).1.infinity = a.infinity ∧
      (a.infinity = false → feVal (gejDoubleVar r a).1.z = feVal a.z * feVal (gejDoubleVar r a).2 ∧
        Mag 2 (gejDoubleVar r a).1.z) := by
  rw [gejDoubleVar]
  split
  case isTrue hi =>
    have hq : q = 0 := by rw [GejRep, if_pos hi] at ha; exact ha
    obtain ⟨h1, h2, h3⟩ := hr hi
    refine ⟨⟨h1, h2, h3⟩, ?_, (is_one.up (by decide)).mag, hi.symm, fun h => by rw [hi] at h; cases h⟩
    rw [GejRep, if_pos rfl, hq, add_zero]
  case isFalse hi =>
    rw [GejRep, if_neg hi] at ha
    have X := Is.of hm.x
    have Y := Is.of hm.y
    have Z := Is.of hm.z
    have RZ := (Y.weak (by decide)).mulInt 2 (by decide)
    have Z' := (Z.mul Y (by decide) (by decide)).mulInt 2 (by decide)
    have T1 := (X.sqr (by decide)).mulInt 3 (by decide)
    have T2 := T1.sqr (by decide)
    have T3 := (Y.sqr (by decide)).mulInt 2 (by decide)
    have T4 := (T3.sqr (by decide)).mulInt 2 (by decide)
    have T3' := T3.mul X (by decide) (by decide)
    have X' := ((T3'.mulInt 4 (by decide)).neg (by decide)).add T2 (by decide)
    have T3'' := (T3'.mulInt 6 (by decide)).add (T2.neg (by decide)) (by decide)
    have Y' := (T1.mul T3'' (by decide) (by decide)).add (T4.neg (by decide)) (by decide)
    refine ⟨⟨(X'.up (by decide)).mag, (Y'.up (by decide)).mag, (Z'.up (by decide)).mag⟩, ?_, RZ.mag, (by simpa using hi), fun _ => ⟨?_, Z'.mag⟩⟩
    · rw [GejRep, if_neg (by simp)]
      simp only
      have e1 := X'.val
      have e2 := Y'.val
      have e3 := Z'.val
      have hj := jac_double ha
      convert hj using 1
      · refine e1.trans ?_
        push_cast
        ring
      · refine e2.trans ?_
        push_cast
        ring
      · rw [e3]
        push_cast
        ring
    · simp only
      rw [Z'.val, RZ.val]
      ring

theorem addTail_eq {u1 s1 u2 s2 h i z : Fe} {w : SecpF} {q1 q2 : secp.Point} (H1 : Is 1 u1 (feVal u1)) (S1 : Is 1 s1 (feVal s1))
    (HH : Is 3 h (-feVal u1 + feVal u2)) (II : Is 3 i (-feVal s1 + feVal s2)) (hZ : Mag 1 z)
    (h1 : Jac (feVal u1) (feVal s1) w q1) (h2 : Jac (feVal u2) (feVal s2) w q2) (hne : -feVal u1 + feVal u2 ≠ 0)
    {u : SecpF} (hz : feVal z * u = w * (-feVal u1 + feVal u2)) :
    GejMag (addTail u1 s1 h i z) ∧ GejRep u (addTail u1 s1 h i z) (q1 + q2) := by
  have I2 := II.sqr (by decide)
  have H2 := HH.sqr (by decide)
  have H3 := HH.mul H2 (by decide) (by decide)
  have T := H1.mul H2 (by decide) (by decide)
  have X := (((T.mulInt 2 (by decide)).add H3 (by decide)).neg (by decide)).add I2 (by decide)
  have Y := ((X.neg (by decide)).add T (by decide)).mul II (by decide) (by decide)
  have N := (H3.mul S1 (by decide) (by decide)).neg (by decide)
  have Y' := Y.add N (by decide)
  refine ⟨⟨(X.up (by decide)).mag, (Y'.up (by decide)).mag, mag_mono (by decide) hZ⟩, ?_⟩
  rw [GejRep, if_neg (by simp [addTail])]
  have hj := jac_add h1 h2 hne
  convert hj using 1
  · refine X.val.trans ?_
    push_cast
    ring
  · refine Y'.val.trans ?_
    push_cast
    ring

  · exact hz

theorem rep_zero {u : SecpF} {a : Gej} {q : secp.Point} (hi : a.infinity = true) (h : GejRep u a q) : q = 0 := by
  rw [GejRep, if_pos hi] at h; exact h

theorem rep_jac {u : SecpF} {a : Gej} {q : secp.Point} (hi : ¬ a.infinity = true) (h : GejRep u a q) :
    Jac (feVal a.x) (feVal a.y) (feVal a.z * u) q := by
  rw [GejRep, if_neg hi] at h; exact h

theorem geRep_zero {u : SecpF} {a : Ge} {q : secp.Point} (hi : a.infinity = true) (h : GeRep u a q) : q = 0 := by
  rw [GeRep, if_pos hi] at h; exact h

theorem geRep_jac {u : SecpF} {a : Ge} {q : secp.Point} (hi : ¬ a.infinity = true) (h : GeRep u a q) :
    Jac (feVal a.x) (feVal a.y) u q := by
  rw [GeRep, if_neg hi] at h; exact h

theorem setGe_eq {u : SecpF} {b : Ge} {q : secp.Point} (hm : GeMag b) (hb : GeRep u b q) :
    GejMag (gejSetGe b) ∧ GejRep u (gejSetGe b) q := by
  refine ⟨⟨hm.x, hm.y, (is_one.up (by decide)).mag⟩, ?_⟩
  rw [GejRep, gejSetGe]
  simp only
  rw [is_one.val, one_mul]
  exact hb

/-- The two cases of points with the same first coordinate. -/
theorem same_eq {u : SecpF} {r a : Gej} {q1 q2 : secp.Point} {s1 s2 w : SecpF} (hr : GejMag r)
    (hm : GejMag a) (ha : GejRep u a q1) (hi : ¬ a.infinity = true) {u1 u2 : SecpF} (hu : -u1 + u2 = 0)
    (h1 : Jac u1 s1 w q1) (h2 : Jac u2 s2 w q2) {i : Fe} (I : Is 3 i (-s1 + s2)) :
    let out := if feNormalizesToZeroVar i then gejDoubleVar { r with infinity := false } a
      else ({ r with infinity := true }, feSetInt 0)
    GejMag out.1 ∧ GejRep u out.1 (q1 + q2) ∧ Mag 8 out.2 := by
  have hu' : u1 = u2 := by linear_combination -hu
  subst hu'
  obtain ⟨hs, hd⟩ := jac_same h1 h2
  simp only
  split
  case isTrue hz =>
    have e : s1 = s2 := by
      have := (I.zeroVar (by decide)).1 hz
      linear_combination -this
    obtain ⟨g1, g2, g3, -⟩ := double_eq (r := { r with infinity := false }) (fun h => absurd h hi) hm ha
    rw [← hs e]
    exact ⟨g1, g2, mag_mono (by decide) g3⟩
  case isFalse hz =>
    have e : s1 ≠ s2 := fun e => hz ((I.zeroVar (by decide)).2 (by rw [e]; ring))
    refine ⟨⟨hr.x, hr.y, hr.z⟩, ?_, (is_zero.up (by decide)).mag⟩
    rw [GejRep, if_pos rfl, hd e]

theorem addVar_eq {u : SecpF} {r a b : Gej} {q1 q2 : secp.Point} (hr : GejMag r) (hm : GejMag a) (hm' : GejMag b)
    (ha : GejRep u a q1) (hb : GejRep u b q2) :
    GejMag (gejAddVar r a b).1 ∧ GejRep u (gejAddVar r a b).1 (q1 + q2) ∧ Mag 8 (gejAddVar r a b).2 := by
  rw [gejAddVar]
  split
  case isTrue hi =>
    exact ⟨hm', by rw [rep_zero hi ha, zero_add]; exact hb, (is_zero.up (by decide)).mag⟩
  split
  case isTrue _ hi =>
    exact ⟨hm, by rw [rep_zero hi hb, add_zero]; exact ha, (is_one.up (by decide)).mag⟩
  case isFalse hi hi' =>
    have ja := rep_jac hi ha
    have jb := rep_jac hi' hb
    have hz1 : feVal a.z ≠ 0 := left_ne_zero_of_mul ja.1
    have hz2 : feVal b.z ≠ 0 := left_ne_zero_of_mul jb.1
    have Z22 := (Is.of hm'.z).sqr (by decide)
    have Z12 := (Is.of hm.z).sqr (by decide)
    have U1 := (Is.of hm.x).mul Z22 (by decide) (by decide)
    have U2 := (Is.of hm'.x).mul Z12 (by decide) (by decide)
    have S1 := ((Is.of hm.y).mul Z22 (by decide) (by decide)).mul (Is.of hm'.z) (by decide) (by decide)
    have S2 := ((Is.of hm'.y).mul Z12 (by decide) (by decide)).mul (Is.of hm.z) (by decide) (by decide)
    have H := (U1.neg (by decide)).add U2 (by decide)
    have I := (S1.neg (by decide)).add S2 (by decide)
    have w1 := jac_scale ja hz2
    have w2 := jac_scale jb hz1
    rw [show feVal b.z * u * feVal a.z = feVal a.z * u * feVal b.z by ring] at w2
    rw [show feVal a.y * feVal b.z ^ 3 = feVal a.y * feVal b.z ^ 2 * feVal b.z by ring] at w1
    rw [show feVal b.y * feVal a.z ^ 3 = feVal b.y * feVal a.z ^ 2 * feVal a.z by ring] at w2
    simp only
    split
    case isTrue hh =>
      exact same_eq hr hm ha hi ((H.zeroVar (by decide)).1 hh) w1 w2 I
    case isFalse hh =>
      have hne := fun h => hh ((H.zeroVar (by decide)).2 h)
      have HZ := H.mul (Is.of hm'.z) (by decide) (by decide)
      have ZZ := (Is.of hm.z).mul HZ (by decide) (by decide)
      rw [← U1.val, ← U2.val] at H hne
      rw [← S1.val, ← S2.val] at I
      rw [← U1.val, ← S1.val] at w1
      rw [← U2.val, ← S2.val] at w2
      obtain ⟨g1, g2⟩ := addTail_eq (Is.of U1.mag) (Is.of S1.mag) H I ZZ.mag w1 w2 hne (u := u) (by rw [ZZ.val, U1.val, U2.val]; ring)
      exact ⟨g1, g2, mag_mono (by decide) HZ.mag⟩

theorem addGeVar_eq {u : SecpF} {r a : Gej} {b : Ge} {q1 q2 : secp.Point} (hr : GejMag r) (hm : GejMag a) (hm' : GeMag b)
    (ha : GejRep u a q1) (hb : GeRep u b q2) :
    GejMag (gejAddGeVar r a b).1 ∧ GejRep u (gejAddGeVar r a b).1 (q1 + q2) ∧ Mag 8 (gejAddGeVar r a b).2 ∧
      (a.infinity = false → b.infinity = false → q1 ≠ q2 → q1 + q2 ≠ 0 → (gejAddGeVar r a b).1.infinity = false ∧
        feVal (gejAddGeVar r a b).1.z = feVal a.z * feVal (gejAddGeVar r a b).2 ∧ feVal (gejAddGeVar r a b).2 ≠ 0 ∧
        Mag 1 (gejAddGeVar r a b).1.z) := by
  rw [gejAddGeVar]
  split
  case isTrue hi =>
    have := setGe_eq hm' hb
    exact ⟨this.1, by rw [rep_zero hi ha, zero_add]; exact this.2, (is_zero.up (by decide)).mag, fun h => absurd hi (by simp [h])⟩
  split
  case isTrue _ hi =>
    exact ⟨hm, by rw [geRep_zero hi hb, add_zero]; exact ha, (is_one.up (by decide)).mag, fun _ h => absurd hi (by simp [h])⟩
  case isFalse hi hi' =>
    have ja := rep_jac hi ha
    have jb := geRep_jac hi' hb
    have hz1 : feVal a.z ≠ 0 := left_ne_zero_of_mul ja.1
    have Z12 := (Is.of hm.z).sqr (by decide)
    have U1 := (Is.of hm.x).weak (by decide)
    have U2 := (Is.of hm'.x).mul Z12 (by decide) (by decide)
    have S1 := (Is.of hm.y).weak (by decide)
    have S2 := ((Is.of hm'.y).mul Z12 (by decide) (by decide)).mul (Is.of hm.z) (by decide) (by decide)
    have H := (U1.neg (by decide)).add U2 (by decide)
    have I := (S1.neg (by decide)).add S2 (by decide)
    have w1 := ja
    have w2 := jac_scale jb hz1
    rw [mul_comm u] at w2
    rw [show feVal b.y * feVal a.z ^ 3 = feVal b.y * feVal a.z ^ 2 * feVal a.z by ring] at w2
    simp only
    split
    case isTrue hh =>
      have hu := (H.zeroVar (by decide)).1 hh
      obtain ⟨g1, g2, g3⟩ := same_eq hr hm ha hi hu w1 w2 I
      refine ⟨g1, g2, g3, fun _ _ n1 n2 => ?_⟩
      exfalso
      rw [show feVal b.x * feVal a.z ^ 2 = feVal a.x by linear_combination hu] at w2
      obtain ⟨k1, k2⟩ := jac_same w1 w2
      exact n2 (k2 fun e => n1 (k1 e))
    case isFalse hh =>
      have hne := fun h => hh ((H.zeroVar (by decide)).2 h)
      have hne' := hne
      have ZZ := (Is.of hm.z).mul H (by decide) (by decide)
      rw [← U1.val, ← U2.val] at hne
      have H' := H
      rw [← U1.val, ← U2.val] at H'
      rw [← S1.val, ← S2.val] at I
      rw [← U1.val, ← S1.val] at w1
      rw [← U2.val, ← S2.val] at w2
      obtain ⟨g1, g2⟩ := addTail_eq (Is.of U1.mag) (Is.of S1.mag) H' I ZZ.mag w1 w2 hne (u := u)
        (by rw [ZZ.val, U1.val, U2.val]; ring)
      refine ⟨g1, g2, mag_mono (by decide) H.mag, fun _ _ _ _ => ⟨rfl, ?_, ?_, ZZ.mag⟩⟩
      · rw [H.val]; exact ZZ.val
      · rw [H.val]; exact hne'

theorem addZinvVar_eq {u : SecpF} {r a : Gej} {b : Ge} {bzinv : Fe} {q1 q2 : secp.Point} (hr : GejMag r) (hm : GejMag a)
    (hm' : GeMag b) (hz : Mag 8 bzinv) (hz0 : feVal bzinv ≠ 0) (ha : GejRep u a q1) (hb : GeRep (u * (feVal bzinv)⁻¹) b q2) :
    GejMag (gejAddZinvVar r a b bzinv) ∧ GejRep u (gejAddZinvVar r a b bzinv) (q1 + q2) := by
  rw [gejAddZinvVar]
  split
  case isTrue hi =>
    exact ⟨hm, by rw [geRep_zero hi hb, add_zero]; exact ha⟩
  case isFalse hi' =>
  have jb := geRep_jac hi' hb
  split
  case isTrue hi =>
    have B2 := (Is.of hz).sqr (by decide)
    have B3 := B2.mul (Is.of hz) (by decide) (by decide)
    have X := (Is.of hm'.x).mul B2 (by decide) (by decide)
    have Y := (Is.of hm'.y).mul B3 (by decide) (by decide)
    refine ⟨⟨(X.up (by decide)).mag, (Y.up (by decide)).mag, (is_one.up (by decide)).mag⟩, ?_⟩
    rw [rep_zero hi ha, zero_add, GejRep, if_neg hi']
    simp only
    rw [X.val, Y.val, is_one.val]
    have := jac_scale jb hz0
    rw [mul_assoc, inv_mul_cancel₀ hz0, mul_one] at this
    rw [one_mul, show feVal b.y * (feVal bzinv ^ 2 * feVal bzinv) = feVal b.y * feVal bzinv ^ 3 by ring]
    exact this
  case isFalse hi =>
    have ja := rep_jac hi ha
    have hz1 : feVal a.z ≠ 0 := left_ne_zero_of_mul ja.1
    have AZ := (Is.of hm.z).mul (Is.of hz) (by decide) (by decide)
    have Z12 := AZ.sqr (by decide)
    have U1 := (Is.of hm.x).weak (by decide)
    have U2 := (Is.of hm'.x).mul Z12 (by decide) (by decide)
    have S1 := (Is.of hm.y).weak (by decide)
    have S2 := ((Is.of hm'.y).mul Z12 (by decide) (by decide)).mul AZ (by decide) (by decide)
    have H := (U1.neg (by decide)).add U2 (by decide)
    have I := (S1.neg (by decide)).add S2 (by decide)
    have w1 := ja
    have w2 := jac_scale jb (mul_ne_zero hz1 hz0)
    rw [show u * (feVal bzinv)⁻¹ * (feVal a.z * feVal bzinv) = feVal a.z * u by field_simp] at w2
    rw [show feVal b.y * (feVal a.z * feVal bzinv) ^ 3 = feVal b.y * (feVal a.z * feVal bzinv) ^ 2 * (feVal a.z * feVal bzinv) by ring] at w2
    simp only
    split
    case isTrue hh =>
      obtain ⟨g1, g2, -⟩ := same_eq hr hm ha hi ((H.zeroVar (by decide)).1 hh) w1 w2 I
      split
      case isTrue h => rw [if_pos h] at g1 g2; exact ⟨g1, g2⟩
      case isFalse h => rw [if_neg h] at g1 g2; exact ⟨g1, g2⟩
    case isFalse hh =>
      have hne := fun h => hh ((H.zeroVar (by decide)).2 h)
      have ZZ := (Is.of hm.z).mul H (by decide) (by decide)
      rw [← U1.val, ← U2.val] at H hne
      rw [← S1.val, ← S2.val] at I
      rw [← U1.val, ← S1.val] at w1
      rw [← U2.val, ← S2.val] at w2
      exact addTail_eq (Is.of U1.mag) (Is.of S1.mag) H I ZZ.mag w1 w2 hne (u := u)
        (by rw [ZZ.val, U1.val, U2.val]; ring)

/-- The addition without branches. -/
theorem addGe_eq {u : SecpF} {a : Gej} {b : Ge} {q1 q2 : secp.Point} (hm : GejMag a) (hm' : GeMag b) (hb : b.infinity = false)
    (ha : GejRep u a q1) (hb' : GeRep u b q2) :
    GejMag (gejAddGe a b) ∧ GejRep u (gejAddGe a b) (q1 + q2) := by
  have jb := geRep_jac (by simp [hb]) hb'
  have ZZ := (Is.of hm.z).sqr (by decide)
  have U1 := (Is.of hm.x).weak (by decide)
  have U2 := (Is.of hm'.x).mul ZZ (by decide) (by decide)
  have S1 := (Is.of hm.y).weak (by decide)
  have S2 := ((Is.of hm'.y).mul ZZ (by decide) (by decide)).mul (Is.of hm.z) (by decide) (by decide)
  have T := U1.add U2 (by decide)
  have M := S1.add S2 (by decide)
  have MA := U2.neg (by decide)
  have RR := (T.sqr (by decide)).add (U1.mul MA (by decide) (by decide)) (by decide)
  rw [gejAddGe]
  generalize hdeg : (feNormalizesToZero _ && feNormalizesToZero _) = deg
  have hdeg' : deg = true ↔ (feVal a.y + feVal b.y * feVal a.z ^ 2 * feVal a.z = 0 ∧
      (feVal a.x + feVal b.x * feVal a.z ^ 2) ^ 2 + feVal a.x * -(feVal b.x * feVal a.z ^ 2) = 0) := by
    rw [← hdeg, Bool.and_eq_true, M.zero (by decide), RR.zero (by decide)]
  have R : Is 2 _ _ := (S1.mulInt 2 (by decide)).cmov RR (by decide) (by decide) (!deg)
  have MM : Is 3 _ _ := (MA.add U1 (by decide)).cmov M (by decide) (by decide) (!deg)
  have N := MM.sqr (by decide)
  have Q := (N.mul T (by decide) (by decide)).neg (by decide)
  have N' : Is 2 _ _ := (N.sqr (by decide)).cmov M (by decide) (by decide) deg
  have Z := (Is.of hm.z).mul MM (by decide) (by decide)
  have hinf := Z.zero (by decide)
  have Z2 := Z.mulInt 2 (by decide)
  have X := ((R.sqr (by decide)).add Q (by decide)).weak (by decide)
  have TT : Is 3 _ _ := (((X.mulInt 2 (by decide)).add Q (by decide)).mul R (by decide) (by decide)).add N' (by decide)
  have Y := (TT.neg (by decide)).weak (by decide)
  have X4 := (X.mulInt 4 (by decide)).cmov (Is.of hm'.x) (by decide) (by decide) a.infinity
  have Y4 := (Y.mulInt 4 (by decide)).cmov (Is.of hm'.y) (by decide) (by decide) a.infinity
  have Z4 := Z2.cmov is_one (by decide) (by decide) a.infinity
  refine ⟨⟨(X4.up (by decide)).mag, (Y4.up (by decide)).mag, (Z4.up (by decide)).mag⟩, ?_⟩
  by_cases hi : a.infinity = true
  · rw [GejRep, if_neg (by simp [hi])]
    have e1 := X4.val
    have e2 := Y4.val
    have e3 := Z4.val
    rw [if_pos hi] at e1 e2 e3
    rw [rep_zero hi ha, zero_add]
    dsimp only
    rw [e1, e2, e3, one_mul]
    exact jb
  · have ja := rep_jac hi ha
    have hz1 : feVal a.z ≠ 0 := left_ne_zero_of_mul ja.1
    have w2 := jac_scale jb hz1
    rw [mul_comm u] at w2
    rw [show feVal b.y * feVal a.z ^ 3 = feVal b.y * feVal a.z ^ 2 * feVal a.z by ring] at w2
    have hiF : a.infinity = false := by simpa using hi
    have key := jac_unified ja w2
      (R := if (!deg) = true then (feVal a.x + feVal b.x * feVal a.z ^ 2) ^ 2 + feVal a.x * -(feVal b.x * feVal a.z ^ 2) else feVal a.y * (2 : Nat))
      (M := if (!deg) = true then feVal a.y + feVal b.y * feVal a.z ^ 2 * feVal a.z else -(feVal b.x * feVal a.z ^ 2) + feVal a.x)
      (N := if deg = true then feVal a.y + feVal b.y * feVal a.z ^ 2 * feVal a.z else
        ((if (!deg) = true then feVal a.y + feVal b.y * feVal a.z ^ 2 * feVal a.z else -(feVal b.x * feVal a.z ^ 2) + feVal a.x) ^ 2) ^ 2)
      (by
        cases deg
        · exact Or.inl ⟨fun h => by simpa using hdeg'.2 h, by simp, by simp, by simp⟩
        · exact Or.inr ⟨hdeg'.1 rfl, by simp, by simp, by simp⟩)
    have e1 := X4.val
    have e2 := Y4.val
    have e3 := Z4.val
    rw [if_neg hi] at e1 e2 e3
    rw [GejRep]
    simp only
    rw [e1, e2, e3]
    simp only [hiF, Bool.not_false, Bool.and_true]
    clear e1 e2 e3 X4 Y4 Z4 X Y Z2 TT N' N Q R hdeg
    generalize (if (!deg) = true then feVal a.y + feVal b.y * feVal a.z ^ 2 * feVal a.z else -(feVal b.x * feVal a.z ^ 2) + feVal a.x) = MV at *
    generalize (if (!deg) = true then (feVal a.x + feVal b.x * feVal a.z ^ 2) ^ 2 + feVal a.x * -(feVal b.x * feVal a.z ^ 2) else feVal a.y * (2 : Nat)) = RV at *
    rw [mul_eq_zero] at hinf
    split
    case isTrue h0 =>
      exact key.1 ((hinf.1 h0).resolve_left hz1)
    case isFalse h0 =>
      have hM : MV ≠ 0 := fun h => h0 (hinf.2 (Or.inr h))
      convert key.2 hM using 1
      · push_cast
        ring
      · push_cast
        ring
      · push_cast
        ring

end Verif.Proofs
