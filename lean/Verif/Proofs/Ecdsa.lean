import Verif.Spec.Ecdsa
import Verif.Model.Ecdsa
import Verif.Props.Points
import Verif.Props.Secp
/-!
# Signatures of secp256k1: lemmas
-/

namespace Verif.Btcec
open Verif Verif.Spec Verif.Props WeierstrassCurve

/-- The point is represented. -/
def IsPoint : Pt → secp.Point → Prop
  | none, q => q = 0
  | some c, q => HasReduced c.1 c.2 q

theorem reduced_eq {a b : Int} (ha : 0 ≤ a ∧ a < secpP) (hb : 0 ≤ b ∧ b < secpP) (h : (a : SecpF) = b) : a = b := by
  have h := (ZMod.intCast_eq_intCast_iff _ _ _).1 h
  rwa [Int.ModEq, Int.emod_eq_of_lt ha.1 ha.2, Int.emod_eq_of_lt hb.1 hb.2] at h

theorem double_ok {a : Pt} {q : secp.Point} (h : IsPoint a q) : IsPoint (double a) (q + q) := by
  cases a with
  | none => rw [show q = 0 from h, add_zero]; rfl
  | some c =>
    obtain ⟨x, y⟩ := c
    obtain ⟨x', y', e, h'⟩ := C79_double (HasReduced.coords h)
    simp only [double, e]
    exact h'

theorem add_ok {a b : Pt} {p q : secp.Point} (h : IsPoint a p) (h' : IsPoint b q) : IsPoint (add a b) (p + q) := by
  cases a with
  | none => rw [show p = 0 from h, zero_add]; exact h'
  | some c =>
    cases b with
    | none => rw [show q = 0 from h', add_zero]; exact h
    | some d =>
      obtain ⟨x1, y1⟩ := c
      obtain ⟨x2, y2⟩ := d
      have hr1 := HasReduced.x_range h
      have hr2 := HasReduced.x_range h'
      have hr3 := HasReduced.y_range h
      have hr4 := HasReduced.y_range h'
      simp only at hr1 hr2 hr3 hr4
      simp only [add]
      by_cases hx : x1 = x2
      · subst hx
        rw [if_pos rfl]
        by_cases hy : y1 = y2
        · subst hy
          rw [if_pos rfl]
          have : p = q := point_inj (HasReduced.coords h) (HasReduced.coords h')
          subst this
          exact double_ok (a := some (x1, y1)) h
        · rw [if_neg hy]
          obtain ⟨n1, rfl⟩ := HasReduced.coords h
          obtain ⟨n2, rfl⟩ := HasReduced.coords h'
          simp only at n1 n2
          have hne : (y1 : SecpF) ≠ y2 := fun e => hy (reduced_eq hr3 hr4 e)
          have e1 := (secp_nonsingular _ _).1 n1
          have e2 := (secp_nonsingular _ _).1 n2
          have hopp : (y1 : SecpF) = secp.negY (x1 : SecpF) (y2 : SecpF) := by
            rw [negY_eq]
            exact (sq_eq_sq_iff_eq_or_eq_neg.1 (e1.trans e2.symm)).resolve_left hne
          exact Affine.Point.add_of_Y_eq rfl hopp
      · rw [if_neg hx]
        have hd : ¬ theCurve.p ∣ x1 - x2 := by
          rw [← cast_eq_zero]
          intro e
          push_cast at e
          exact hx (reduced_eq hr1 hr2 (sub_eq_zero.1 e))
        obtain ⟨x, y, e, hxy⟩ := C79_add_partial (HasReduced.coords h) (HasReduced.coords h') hd
        simp only at e
        rw [e]
        exact hxy

theorem mulLoop_ok {a : Pt} {q : secp.Point} (h : IsPoint a q) : ∀ (f k : Nat), k < 2 ^ f → IsPoint (mulLoop f k a) (k • q)
  | 0, k, hk => by
    obtain rfl : k = 0 := by simpa using hk
    rw [zero_nsmul]; rfl
  | f + 1, k, hk => by
    have ih := double_ok (mulLoop_ok h f (k / 2) (by rw [pow_succ] at hk; omega))
    rw [← two_nsmul, ← mul_nsmul'] at ih
    simp only [mulLoop]
    split
    · have := add_ok ih h
      rwa [← succ_nsmul, show 2 * (k / 2) + 1 = k by omega] at this
    · rwa [show 2 * (k / 2) = k by omega] at ih

theorem mul_ok {a : Pt} {q : secp.Point} (h : IsPoint a q) (k : Nat) : IsPoint (mul k a) (k • q) :=
  mulLoop_ok h _ k Nat.lt_log2_self

theorem base_reduced : HasReduced theCurve.gx theCurve.gy basePoint := C80_group.2.2.1

theorem mulBase_ok (k : Nat) : IsPoint (mulBase k) (k • basePoint) := mul_ok (a := some (theCurve.gx, theCurve.gy)) base_reduced k

/-! ## Scalars -/

instance : Fact curveN.Prime := ⟨secpN_prime⟩

theorem nsmul_cast {a b : Nat} (h : (a : ZMod curveN) = b) (q : secp.Point) : a • q = b • q := by
  have key : ∀ a : Nat, (a % curveN) • q = a • q := by
    intro a
    conv_rhs => rw [← Nat.mod_add_div a curveN, add_nsmul, mul_nsmul, (C80_all_points q).1, nsmul_zero, add_zero]
  rw [← key a, ← key b, (ZMod.natCast_eq_natCast_iff' a b curveN).1 h]

theorem cast_ne {s : Nat} (h : 0 < s ∧ s < curveN) : (s : ZMod curveN) ≠ 0 := by
  rw [Ne, ZMod.natCast_eq_zero_iff]
  exact Nat.not_dvd_of_pos_of_lt h.1 h.2

theorem inverse_cast {s : Nat} (h : (s : ZMod curveN) ≠ 0) : ((inverse s : Nat) : ZMod curveN) = (s : ZMod curveN)⁻¹ := by
  have hpos : (0 : ℤ) < curveN := by decide +kernel
  have hc : Int.gcd s curveN = 1 := by
    rw [Int.gcd_natCast_natCast, Nat.gcd_comm]
    exact (Nat.Prime.coprime_iff_not_dvd secpN_prime).2 (by rwa [Ne, ZMod.natCast_eq_zero_iff] at h)
  have hb := Int.gcd_eq_gcd_ab s curveN
  rw [hc] at hb
  have h1 : (s : ZMod curveN) * (Int.gcdA s curveN : ZMod curveN) = 1 := by
    have := congrArg (fun t : ℤ => (t : ZMod curveN)) hb
    push_cast at this
    rw [CharP.cast_eq_zero (ZMod curveN) curveN, zero_mul, add_zero] at this
    exact this.symm
  have h2 : (((inverse s : Nat) : ℤ) : ZMod curveN) = (Int.gcdA s curveN : ZMod curveN) := by
    rw [inverse, Int.toNat_of_nonneg (Int.emod_nonneg _ hpos.ne')]
    exact ZMod.intCast_mod _ _
  rw [Int.cast_natCast] at h2
  rw [h2]
  exact eq_inv_of_mul_eq_one_right h1

theorem one_iff {s w : Nat} : s * w % curveN = 1 ↔ (s : ZMod curveN) * w = 1 := by
  have h1 : 1 % curveN = 1 := by decide +kernel
  constructor
  · intro h
    have := (ZMod.natCast_eq_natCast_iff' (s * w) 1 curveN).2 (by rw [h, h1])
    push_cast at this
    exact this
  · intro h
    have := (ZMod.natCast_eq_natCast_iff' (s * w) 1 curveN).1 (by push_cast; exact h)
    rwa [h1] at this

/-! ## Verification -/

theorem reduced_val {x y : Int} {q : secp.Point} (h : HasReduced x y q) :
    ∃ a b n, q = .some a b n ∧ x = (a.val : Nat) ∧ y = (b.val : Nat) := by
  have key : ∀ {a : Int}, 0 ≤ a ∧ a < secpP → a = ((a : SecpF).val : Nat) := by
    intro a ha
    refine reduced_eq ha ⟨by omega, by exact_mod_cast ZMod.val_lt _⟩ ?_
    simp
  obtain ⟨⟨n, rfl⟩, hx, hy⟩ := h
  exact ⟨_, _, n, rfl, key hx, key hy⟩

theorem verify_iff {x y : Int} {q : secp.Point} (h : HasReduced x y q) (hash : Bytes) (r s : Nat) :
    verify (x, y) hash r s = true ↔ Valid q (hashNumber hash) r s := by
  rw [verify]
  by_cases hr : r = 0 ∨ s = 0 ∨ r ≥ curveN ∨ s ≥ curveN
  · rw [if_pos hr]
    refine ⟨fun h => (by cases h), fun hv => ?_⟩
    have := hv.r_range
    have := hv.s_range
    omega
  · rw [if_neg hr]
    have hs : 0 < s ∧ s < curveN := by omega
    have hsc := cast_ne hs
    have hw := inverse_cast hsc
    have hp := add_ok (mulBase_ok (hashToInt hash * inverse s % curveN)) (mul_ok (a := some (x, y)) h (r * inverse s % curveN))
    have hu : ∀ {w : Nat}, s * w % curveN = 1 → (hashToInt hash * inverse s % curveN) • basePoint +
        (r * inverse s % curveN) • q = (hashNumber hash * w) • basePoint + (r * w) • q := by
      intro w h1
      have e : (w : ZMod curveN) = (s : ZMod curveN)⁻¹ := eq_inv_of_mul_eq_one_right (one_iff.1 h1)
      congr 1
      · refine nsmul_cast ?_ _
        rw [ZMod.natCast_mod]
        push_cast
        rw [hw, e]; rfl
      · refine nsmul_cast ?_ _
        rw [ZMod.natCast_mod]
        push_cast
        rw [hw, e]
    have hi : s * inverse s % curveN = 1 := one_iff.2 (by rw [hw]; exact mul_inv_cancel₀ hsc)
    simp only
    generalize add (mulBase (hashToInt hash * inverse s % curveN)) (mul (r * inverse s % curveN) (some (x, y))) = a at hp
    have hpt : ∀ {w : Nat}, s * w % curveN = 1 → IsPoint a ((hashNumber hash * w) • basePoint + (r * w) • q) :=
      fun h1 => by rw [← hu h1]; exact hp
    clear hp hu
    cases a with
    | none =>
      refine ⟨fun h => (by cases h), fun hv => ?_⟩
      obtain ⟨w, h1, a, b, n, e, _⟩ := hv.point
      have := hpt h1
      rw [e] at this
      exact absurd this (Affine.Point.some_ne_zero _)
    | some c =>
      obtain ⟨cx, cy⟩ := c
      have hmod : ∀ a : SecpF, (((a.val : Nat) : Int) % (curveN : Int)).toNat = a.val % curveN := fun a => by
        rw [← Int.natCast_mod, Int.toNat_natCast]
      simp only [decide_eq_true_eq]
      constructor
      · intro he
        obtain ⟨a, b, n, e, rfl, _⟩ := reduced_val (hpt hi)
        exact ⟨by omega, hs, _, hi, a, b, n, e, by rw [← hmod]; exact he⟩
      · rintro ⟨_, _, w, h1, a, b, n, e, hx⟩
        have h2 := hpt h1
        rw [e] at h2
        obtain ⟨a', b', n', e', rfl, _⟩ := reduced_val h2
        injection e' with e1 e2
        subst e1
        rw [hmod, hx]

/-! ## Signing -/

theorem half_odd : curveN % 2 = 1 := by decide +kernel

theorem sign_valid {k d r s : Nat} {hash : Bytes} (hk : 0 < k ∧ k < curveN) (h : sign k d hash = some (r, s)) :
    Valid (d • basePoint) (hashNumber hash) r s ∧ s ≤ curveN / 2 := by
  have hn : theCurve.n.toNat = curveN := by decide +kernel
  have hpos : 0 < curveN := by decide +kernel
  have hodd := half_odd
  have hR := mulBase_ok k
  have hne : k • basePoint ≠ 0 := (C80_public_keys ⟨hk.1, by rw [hn]; exact hk.2⟩ ⟨hk.1, by rw [hn]; exact hk.2⟩).1
  simp only [sign] at h
  generalize mulBase k = R at hR h
  cases R with
  | none => exact absurd hR hne
  | some c =>
    obtain ⟨cx, cy⟩ := c
    obtain ⟨a, b, n, e, rfl, rfl⟩ := reduced_val hR
    have hmod : (((a.val : Nat) : Int) % (curveN : Int)).toNat = a.val % curveN := by
      rw [← Int.natCast_mod, Int.toNat_natCast]
    simp only [coords, hmod] at h
    split at h
    · cases h
    · rename_i hr0
      generalize hs0 : (d * (a.val % curveN) + hashToInt hash) * inverse k % curveN = s0 at h
      have hlt : s0 < curveN := by rw [← hs0]; exact Nat.mod_lt _ hpos
      generalize hs1 : (if s0 > curveN / 2 then curveN - s0 else s0) = s1 at h
      by_cases hsn : s1 = 0
      · rw [if_pos hsn] at h
        cases h
      · rw [if_neg hsn] at h
        simp only [Option.some.injEq, Prod.mk.injEq] at h
        obtain ⟨rfl, rfl⟩ := h
        have hkc := cast_ne hk
        have hs0c : (s0 : ZMod curveN) * k = d * ((a.val % curveN : Nat) : ZMod curveN) + hashNumber hash := by
          rw [← hs0, ZMod.natCast_mod]
          push_cast
          rw [inverse_cast hkc, mul_assoc, inv_mul_cancel₀ hkc, mul_one]
          rfl
        generalize hr : a.val % curveN = r at hr0 hs0c
        have hrlt : r < curveN := by rw [← hr]; exact Nat.mod_lt _ hpos
        have hs : 0 < s1 ∧ s1 < curveN ∧ s1 ≤ curveN / 2 := by
          split at hs1 <;> omega
        have hsum : ∀ w : Nat, (hashNumber hash * w) • basePoint + (r * w) • (d • basePoint) =
            ((hashNumber hash + d * r) * w) • basePoint := by
          intro w
          rw [← mul_nsmul, ← add_nsmul]
          congr 1
          ring
        refine ⟨⟨⟨by omega, hrlt⟩, ⟨hs.1, hs.2.1⟩, ?_⟩, hs.2.2⟩
        have hsc := cast_ne ⟨hs.1, hs.2.1⟩
        have hi : s1 * inverse s1 % curveN = 1 := one_iff.2 (by rw [inverse_cast hsc]; exact mul_inv_cancel₀ hsc)
        refine ⟨inverse s1, hi, ?_⟩
        rw [hsum]
        have hone := one_iff.1 hi
        split at hs1
        · have hneg : (s1 : ZMod curveN) = -(s0 : ZMod curveN) := by
            rw [← hs1, Nat.cast_sub hlt.le, CharP.cast_eq_zero (ZMod curveN) curveN, zero_sub]
          have h0 : ((hashNumber hash + d * r) * inverse s1) • basePoint + k • basePoint = 0 := by
            rw [← add_nsmul]
            refine (nsmul_cast (b := 0) ?_ _).trans (zero_nsmul _)
            push_cast
            rw [hneg] at hone
            linear_combination (-(inverse s1 : ZMod curveN)) * hs0c - (k : ZMod curveN) * hone
          rw [eq_neg_of_add_eq_zero_left h0, e, Affine.Point.neg_some]
          exact ⟨_, _, _, rfl, hr⟩
        · subst hs1
          have h0 : ((hashNumber hash + d * r) * inverse s0) • basePoint = k • basePoint := by
            refine nsmul_cast ?_ _
            push_cast
            linear_combination (-(inverse s0 : ZMod curveN)) * hs0c + (k : ZMod curveN) * hone
          rw [h0, e]
          exact ⟨_, _, _, rfl, hr⟩

/-! ## Public keys -/

theorem p_toNat : theCurve.p.toNat = secpP := by rw [curve_p, Int.toNat_natCast]

theorem powP_eq : ∀ (f a e : Nat), powP f a e = powMod secpP f a e
  | 0, _, _ => show 1 = 1 % secpP by decide +kernel
  | f + 1, a, e => by
    simp only [powP, powMod, p_toNat, powP_eq f]

theorem powP_cast (a : Nat) : ((powP 256 a ((secpP + 1) / 4) : Nat) : SecpF) = (a : SecpF) ^ ((secpP + 1) / 4) ∧
    powP 256 a ((secpP + 1) / 4) < secpP := by
  have hpos : 0 < secpP := by decide +kernel
  rw [powP_eq, powMod_spec _ 256 _ _ (by decide +kernel)]
  exact ⟨by rw [ZMod.natCast_mod, Nat.cast_pow], Nat.mod_lt _ hpos⟩

theorem val_natCast_lt {n : Nat} (h : n < secpP) : ((n : Nat) : SecpF).val = n := by
  rw [ZMod.val_natCast, Nat.mod_eq_of_lt h]

theorem decompress_iff (n : Nat) (odd : Bool) (c : Int × Int) : decompress n odd = some c ↔
    ∃ b, secp.Nonsingular (n : SecpF) b ∧ odd = decide (b.val % 2 = 1) ∧
      c = (((n : SecpF).val : Int), (b.val : Int)) := by
  obtain ⟨hc, hlt⟩ := powP_cast ((n * n * n + 7) % secpP)
  have hpos : 0 < secpP := by decide +kernel
  simp only [decompress, p_toNat]
  generalize powP 256 ((n * n * n + 7) % secpP) ((secpP + 1) / 4) = y0 at hc hlt
  rw [ZMod.natCast_mod] at hc
  push_cast at hc
  have hval : n % secpP = (n : SecpF).val := by rw [ZMod.val_natCast]
  have hcast : ∀ y : Nat, y * y % secpP = (n * n * n + 7) % secpP ↔ secp.Nonsingular (n : SecpF) (y : SecpF) := by
    intro y
    rw [← ZMod.natCast_eq_natCast_iff', secp_nonsingular]
    push_cast
    rw [show (y : SecpF) * y = (y : SecpF) ^ 2 by ring, show (n : SecpF) * n * n = (n : SecpF) ^ 3 by ring]
  constructor
  · generalize hy : (if odd = decide (y0 % 2 = 1) then y0 else (secpP - y0) % secpP) = y
    have hylt : y < secpP := by
      rw [← hy]; split
      · exact hlt
      · exact Nat.mod_lt _ hpos
    intro h
    by_cases h1 : y * y % secpP = (n * n * n + 7) % secpP
    · rw [if_neg (not_not.2 h1)] at h
      by_cases h2 : odd = decide (y % 2 = 1)
      · rw [if_pos h2] at h
        cases h
        refine ⟨(y : SecpF), (hcast y).1 h1, ?_, ?_⟩
        · rw [val_natCast_lt hylt]; exact h2
        · rw [val_natCast_lt hylt, hval]
      · rw [if_neg h2] at h; cases h
    · rw [if_pos h1] at h; cases h
  · rintro ⟨b, hb, rfl, rfl⟩
    have e := (secp_nonsingular _ _).1 hb
    have hb0 : b ≠ 0 := fun h => by subst h; exact no_zero_y hb
    have hy : (if decide (b.val % 2 = 1) = decide (y0 % 2 = 1) then y0 else (secpP - y0) % secpP) = b.val := by
      have hsq : ((y0 : SecpF)) ^ 2 = b ^ 2 := by
        rw [hc, show (n : SecpF) * n * n + 7 = b ^ 2 by rw [e]; ring, ← pow_mul, ← pow_mul,
          show 2 * ((secpP + 1) / 4 * 2) = (secpP - 1) + 2 by decide +kernel, pow_add,
          ZMod.pow_card_sub_one_eq_one hb0, one_mul]
      have hn1 : secp.Nonsingular (n : SecpF) (y0 : SecpF) := (secp_nonsingular _ _).2 (by rw [hsq, e])
      have hv := val_natCast_lt hlt
      split
      · rename_i hp
        rw [decide_eq_decide] at hp
        rw [point_parity hb hn1 (by rw [hv]; omega), hv]
      · rename_i hp
        rw [decide_eq_decide] at hp
        have hn2 : secp.Nonsingular (n : SecpF) (-(y0 : SecpF)) := (secp_nonsingular _ _).2 (by rw [neg_sq, hsq, e])
        have h0 : (y0 : SecpF) ≠ 0 := fun h => by rw [h] at hn1; exact no_zero_y hn1
        have hpar := neg_parity h0
        have hv' : (-(y0 : SecpF)).val = (secpP - y0) % secpP := by rw [ZMod.neg_val', hv]
        rw [point_parity hb hn2 (by rw [hv] at hpar; omega), hv']
    rw [hy, if_neg (not_not.2 ((hcast _).2 (by simpa using hb))), if_pos rfl, hval]

theorem parity_byte (f : UInt8) (P : Prop) [Decidable P] : (f - f % 2 = 2 ∧ decide (f % 2 = 1) = decide P) ↔
    f = if P then 3 else 2 := by
  have key : ∀ f : UInt8, (f - f % 2 = 2 ∧ f % 2 = 1 ↔ f = 3) ∧ (f - f % 2 = 2 ∧ ¬ f % 2 = 1 ↔ f = 2) := by
    have h : ∀ n : Fin 256, (UInt8.ofFin n - UInt8.ofFin n % 2 = 2 ∧ UInt8.ofFin n % 2 = 1 ↔ UInt8.ofFin n = 3) ∧
        (UInt8.ofFin n - UInt8.ofFin n % 2 = 2 ∧ ¬ UInt8.ofFin n % 2 = 1 ↔ UInt8.ofFin n = 2) := by decide +kernel
    exact fun f => h f.toFin
  by_cases h : P
  · rw [if_pos h, ← (key f).1]; simp [h]
  · rw [if_neg h, ← (key f).2]; simp [h]

theorem long_byte (f : UInt8) (P : Prop) [Decidable P] :
    (¬ (f - f % 2 ≠ 4 ∧ f - f % 2 ≠ 6) ∧ ¬ (f - f % 2 = 6 ∧ decide (f % 2 = 1) ≠ decide P)) ↔
    f = 4 ∨ f = 5 ∨ f = if P then 7 else 6 := by
  have key : ∀ f : UInt8, ((¬ (f - f % 2 ≠ 4 ∧ f - f % 2 ≠ 6) ∧ ¬ (f - f % 2 = 6 ∧ ¬ f % 2 = 1)) ↔ f = 4 ∨ f = 5 ∨ f = 7) ∧
      ((¬ (f - f % 2 ≠ 4 ∧ f - f % 2 ≠ 6) ∧ ¬ (f - f % 2 = 6 ∧ f % 2 = 1)) ↔ f = 4 ∨ f = 5 ∨ f = 6) := by
    intro f
    have h : ∀ n : Fin 256, (fun f : UInt8 => ((¬ (f - f % 2 ≠ 4 ∧ f - f % 2 ≠ 6) ∧ ¬ (f - f % 2 = 6 ∧ ¬ f % 2 = 1)) ↔ f = 4 ∨ f = 5 ∨ f = 7) ∧
      ((¬ (f - f % 2 ≠ 4 ∧ f - f % 2 ≠ 6) ∧ ¬ (f - f % 2 = 6 ∧ f % 2 = 1)) ↔ f = 4 ∨ f = 5 ∨ f = 6)) (UInt8.ofFin n) := by
      decide +kernel
    exact h f.toFin
  by_cases h : P
  · rw [if_pos h, ← (key f).1]; simp [h]
  · rw [if_neg h, ← (key f).2]; simp [h]

theorem parse_iff (b : Bytes) (c : Int × Int) : parsePubKey b = some c ↔ ∃ q, HasReduced c.1 c.2 q ∧ IsKey b q := by
  have hred : ∀ {x y : SecpF} (h : secp.Nonsingular x y), HasReduced (x.val : Nat) (y.val : Nat) (.some x y h) := by
    intro x y h
    have hv : ∀ c : SecpF, (((c.val : Nat) : Int) : SecpF) = c := fun c => by simp
    have hr : ∀ c : SecpF, (0 : Int) ≤ (c.val : Nat) ∧ ((c.val : Nat) : Int) < secpP := fun c =>
      ⟨by omega, by exact_mod_cast ZMod.val_lt c⟩
    exact ⟨some_congr (hv x).symm (hv y).symm, hr x, hr y⟩
  have hback : ∀ {q : secp.Point}, HasReduced c.1 c.2 q → IsKey b q → ∃ x y, secp.Nonsingular x y ∧
      c = ((x.val : Int), (y.val : Int)) ∧
      ((b.length = 33 ∧ b.head? = some (if y.val % 2 = 1 then 3 else 2) ∧ (setBytes b.tail : SecpF) = x) ∨
      (b.length = 65 ∧ (b.head? = some 4 ∨ b.head? = some 5 ∨ b.head? = some (if y.val % 2 = 1 then 7 else 6)) ∧
        setBytes (b.tail.take 32) = x.val ∧ setBytes (b.tail.drop 32) = y.val)) := by
    rintro q h ⟨x, y, n, rfl, hk⟩
    refine ⟨x, y, n, ?_, hk⟩
    obtain ⟨e1, e2⟩ := coords_inj h (hred n)
    exact Prod.ext e1 e2
  cases b with
  | nil =>
    refine ⟨fun h => (by cases h), ?_⟩
    rintro ⟨q, h, hk⟩
    obtain ⟨x, y, _, _, hk⟩ := hback h hk
    simp at hk
  | cons f l =>
    simp only [parsePubKey]
    by_cases h64 : l.length = 64
    · rw [if_pos h64]
      have hl := long_byte f (setBytes (l.drop 32) % 2 = 1)
      by_cases h1 : f - f % 2 ≠ 4 ∧ f - f % 2 ≠ 6
      · rw [if_pos h1]
        refine ⟨fun h => (by cases h), ?_⟩
        rintro ⟨q, h, hk⟩
        obtain ⟨x, y, _, _, hk⟩ := hback h hk
        simp only [List.length_cons, h64, List.head?_cons, Option.some.injEq, List.tail_cons] at hk
        rcases hk with ⟨hk, _⟩ | ⟨_, hk, _, e⟩
        · omega
        · rw [← e] at hk
          exact absurd h1 (hl.2 hk).1
      · rw [if_neg h1]
        by_cases h2 : f - f % 2 = 6 ∧ decide (f % 2 = 1) ≠ decide (setBytes (l.drop 32) % 2 = 1)
        · rw [if_pos h2]
          refine ⟨fun h => (by cases h), ?_⟩
          rintro ⟨q, h, hk⟩
          obtain ⟨x, y, _, _, hk⟩ := hback h hk
          simp only [List.length_cons, h64, List.head?_cons, Option.some.injEq, List.tail_cons] at hk
          rcases hk with ⟨hk, _⟩ | ⟨_, hk, _, e⟩
          · omega
          · rw [← e] at hk
            exact absurd h2 (hl.2 hk).2
        · rw [if_neg h2]
          have hf := hl.1 ⟨h1, h2⟩
          constructor
          · intro h
            by_cases h3 : (setBytes (l.take 32) : Int) ≥ theCurve.p ∨ (setBytes (l.drop 32) : Int) ≥ theCurve.p
            · rw [if_pos h3] at h; cases h
            · rw [if_neg h3] at h
              rw [curve_p] at h3
              by_cases h4 : theCurve.isOnCurve (setBytes (l.take 32)) (setBytes (l.drop 32)) = true
              · rw [if_pos h4] at h
                cases h
                obtain ⟨q, hq⟩ := on_curve_point h4
                have hx : ((setBytes (l.take 32) : ℕ) : SecpF).val = setBytes (l.take 32) := val_natCast_lt (by omega)
                have hy : ((setBytes (l.drop 32) : ℕ) : SecpF).val = setBytes (l.drop 32) := val_natCast_lt (by omega)
                obtain ⟨n, e⟩ := hq
                refine ⟨q, ⟨⟨n, e⟩, by simp only; omega, by simp only; omega⟩, _, _, n, e, .inr ⟨by simp [h64], ?_, ?_, ?_⟩⟩
                · simp only [List.head?_cons, Option.some.injEq, Int.cast_natCast, hy]
                  exact hf
                · simp only [List.tail_cons, Int.cast_natCast, hx]
                · simp only [List.tail_cons, Int.cast_natCast, hy]
              · rw [if_neg h4] at h; cases h
          · rintro ⟨q, h, hk⟩
            obtain ⟨x, y, hn, rfl, hk⟩ := hback h hk
            simp only [List.length_cons, h64, List.head?_cons, Option.some.injEq, List.tail_cons] at hk
            rcases hk with ⟨hk, _⟩ | ⟨_, hk, e1, e2⟩
            · omega
            · rw [e1, e2, curve_p, if_neg, if_pos]
              · exact C79_closed (hred hn)
              · have := ZMod.val_lt x
                have := ZMod.val_lt y
                omega
    · rw [if_neg h64]
      by_cases h32 : l.length = 32
      · rw [if_pos h32]
        constructor
        · intro h
          by_cases hf : f - f % 2 ≠ 2
          · rw [if_pos hf] at h; cases h
          · rw [if_neg hf] at h
            obtain ⟨b, hb, e, rfl⟩ := (decompress_iff _ _ _).1 h
            refine ⟨_, hred hb, _, _, hb, rfl, .inl ⟨by simp [h32], ?_, rfl⟩⟩
            rw [List.head?_cons, (parity_byte f (b.val % 2 = 1)).1 ⟨not_not.1 hf, e⟩]
        · rintro ⟨q, h, hk⟩
          obtain ⟨x, y, hb, rfl, hk⟩ := hback h hk
          simp only [List.length_cons, h32, List.head?_cons, Option.some.injEq, List.tail_cons] at hk
          rcases hk with ⟨_, hk, e⟩ | ⟨hk, _⟩
          · obtain ⟨hf, ho⟩ := (parity_byte f (y.val % 2 = 1)).2 hk
            rw [if_neg (not_not.2 hf)]
            subst e
            exact (decompress_iff _ _ _).2 ⟨y, hb, ho, rfl⟩
          · omega
      · rw [if_neg h32]
        refine ⟨fun h => (by cases h), ?_⟩
        rintro ⟨q, h, hk⟩
        obtain ⟨x, y, _, _, hk⟩ := hback h hk
        simp only [List.length_cons] at hk
        rcases hk with ⟨hk, _⟩ | ⟨hk, _⟩ <;> omega

end Verif.Btcec
