import Verif.Spec.CScalar
import Verif.Proofs.CFieldMore
/-!
# The scalars of the C library: proofs
-/

namespace Verif.Proofs
open Verif.C Verif.Spec

theorem and_mask32 (x : Nat) : x &&& 0xFFFFFFFF = x % 4294967296 := Nat.and_two_pow_sub_one_eq_mod x 32

theorem shr32 (x : Nat) : x >>> 32 = x / 4294967296 := Nat.shiftRight_eq_div_pow x 32

/-- One place of an addition with carry. -/
theorem place_eq {c x : Nat} (hc : c < 2 ^ 32) (hx : x < 2 ^ 63) :
    ∃ r c', u64 (c + x) &&& 0xFFFFFFFF = r ∧ u64 (c + x) >>> 32 = c' ∧ r < 2 ^ 32 ∧ c' < 2 ^ 32 ∧ c + x = r + 2 ^ 32 * c' := by
  rw [u64_of_lt (by omega), and_mask32, shr32]
  exact ⟨_, _, rfl, rfl, by omega, by omega, by omega⟩

theorem chain_eq {x : Sc} (h0 : x.d0 < 2 ^ 63) (h1 : x.d1 < 2 ^ 63) (h2 : x.d2 < 2 ^ 63) (h3 : x.d3 < 2 ^ 63) (h4 : x.d4 < 2 ^ 63)
    (h5 : x.d5 < 2 ^ 63) (h6 : x.d6 < 2 ^ 63) (h7 : x.d7 < 2 ^ 63) :
    ScFits (chain 0xFFFFFFFF x).1 ∧ scNat (chain 0xFFFFFFFF x).1 + 2 ^ 256 * (chain 0xFFFFFFFF x).2 = scNat x := by
  obtain ⟨d0, d1, d2, d3, d4, d5, d6, d7⟩ := x
  simp only at *
  obtain ⟨r0, c0, a0, b0, k0, l0, e0⟩ := place_eq (c := 0) (by decide) h0
  rw [Nat.zero_add] at a0 b0 e0
  obtain ⟨r1, c1, a1, b1, k1, l1, e1⟩ := place_eq l0 h1
  obtain ⟨r2, c2, a2, b2, k2, l2, e2⟩ := place_eq l1 h2
  obtain ⟨r3, c3, a3, b3, k3, l3, e3⟩ := place_eq l2 h3
  obtain ⟨r4, c4, a4, b4, k4, l4, e4⟩ := place_eq l3 h4
  obtain ⟨r5, c5, a5, b5, k5, l5, e5⟩ := place_eq l4 h5
  obtain ⟨r6, c6, a6, b6, k6, l6, e6⟩ := place_eq l5 h6
  obtain ⟨r7, c7, a7, b7, k7, l7, e7⟩ := place_eq l6 h7
  have e : chain 0xFFFFFFFF ⟨d0, d1, d2, d3, d4, d5, d6, d7⟩ = (⟨r0, r1, r2, r3, r4, r5, r6, r7⟩, c7) := by
    simp only [chain, b0, a0, b1, a1, b2, a2, b3, a3, b4, a4, b5, a5, b6, a6, b7, a7]
  rw [e]
  refine ⟨⟨k0, k1, k2, k3, k4, k5, k6, k7⟩, ?_⟩
  clear e a0 b0 a1 b1 a2 b2 a3 b3 a4 b4 a5 b5 a6 b6 a7 b7 k0 k1 k2 k3 k4 k5 k6 k7 l0 l1 l2 l3 l4 l5 l6 l7 h0 h1 h2 h3 h4 h5 h6 h7
  simp only [scNat]
  omega

theorem chain_zero (x : Sc) : (chain 0 x).1 = ⟨0, 0, 0, 0, 0, 0, 0, 0⟩ := by
  simp only [chain, Nat.and_zero]

theorem scNat_lt {a : Sc} (h : ScFits a) : scNat a < 2 ^ 256 := by
  obtain ⟨h0, h1, h2, h3, h4, h5, h6, h7⟩ := h
  simp only [scNat]
  omega

/-! ## Comparisons -/

theorem cmp_lt {yes no : Bool} {A M d n : Nat} (hy : yes = true ↔ M < A) (hn : no = true ↔ A < M) (hd : d < 2 ^ 32) (hn' : n < 2 ^ 32) :
    (no || (decide (d < n) && !yes)) = true ↔ A * 2 ^ 32 + d < M * 2 ^ 32 + n := by
  rw [Bool.or_eq_true, Bool.and_eq_true, decide_eq_true_eq, Bool.not_eq_true', ← Bool.not_eq_true, hy, hn]
  omega

theorem cmp_gt {yes no : Bool} {A M d n : Nat} (hy : yes = true ↔ M < A) (hn : no = true ↔ A * 2 ^ 32 + d < M * 2 ^ 32 + n)
    (hd : d < 2 ^ 32) (hn' : n < 2 ^ 32) :
    (yes || (decide (d > n) && !no)) = true ↔ M * 2 ^ 32 + n < A * 2 ^ 32 + d := by
  rw [Bool.or_eq_true, Bool.and_eq_true, decide_eq_true_eq, Bool.not_eq_true', ← Bool.not_eq_true, hy, hn]
  omega

theorem cmp_ge {yes no : Bool} {A M d n : Nat} (hy : yes = true ↔ M < A) (hn : no = true ↔ A < M)
    (hd : d < 2 ^ 32) (hn' : n < 2 ^ 32) :
    (yes || (decide (d ≥ n) && !no)) = true ↔ M * 2 ^ 32 + n ≤ A * 2 ^ 32 + d := by
  rw [Bool.or_eq_true, Bool.and_eq_true, decide_eq_true_eq, Bool.not_eq_true', ← Bool.not_eq_true, hy, hn]
  omega

theorem cmp_gt' {yes no : Bool} {A M d n : Nat} (hy : yes = true ↔ M < A) (hn : no = true ↔ A < M)
    (hd : d < 2 ^ 32) (hn' : n < 2 ^ 32) :
    (yes || (decide (d > n) && !no)) = true ↔ M * 2 ^ 32 + n < A * 2 ^ 32 + d := by
  rw [Bool.or_eq_true, Bool.and_eq_true, decide_eq_true_eq, Bool.not_eq_true', ← Bool.not_eq_true, hy, hn]
  omega

theorem cmp_max {yes : Bool} {A M d : Nat} (hy : yes = true ↔ M < A) (hd : d < 2 ^ 32) :
    yes = true ↔ M * 2 ^ 32 + 0xFFFFFFFF < A * 2 ^ 32 + d := by
  rw [hy]; omega

theorem checkOverflow_eq {a : Sc} (h : ScFits a) : scCheckOverflow a = true ↔ curveN ≤ scNat a := by
  obtain ⟨h0, h1, h2, h3, h4, h5, h6, h7⟩ := h
  obtain ⟨d0, d1, d2, d3, d4, d5, d6, d7⟩ := a
  simp only at *
  have f : ∀ x y : Nat, (false = true ↔ y < x) ↔ ¬ y < x := fun x y => by simp
  have n7 : decide (d7 < 0xFFFFFFFF) = true ↔ d7 < 0xFFFFFFFF := by simp
  have y7 : false = true ↔ 0xFFFFFFFF < d7 := by simp; omega
  have n6 := cmp_lt y7 n7 h6 (show 0xFFFFFFFF < 2 ^ 32 by decide)
  have y6 := cmp_max y7 h6
  have n5 := cmp_lt y6 n6 h5 (show 0xFFFFFFFF < 2 ^ 32 by decide)
  have y5 := cmp_max y6 h5
  have n4 := cmp_lt y5 n5 h4 (show 0xFFFFFFFE < 2 ^ 32 by decide)
  have y4 := cmp_gt y5 n4 h4 (show 0xFFFFFFFE < 2 ^ 32 by decide)
  have n3 := cmp_lt y4 n4 h3 (show 0xBAAEDCE6 < 2 ^ 32 by decide)
  have y3 := cmp_gt y4 n3 h3 (show 0xBAAEDCE6 < 2 ^ 32 by decide)
  have n2 := cmp_lt y3 n3 h2 (show 0xAF48A03B < 2 ^ 32 by decide)
  have y2 := cmp_gt y3 n2 h2 (show 0xAF48A03B < 2 ^ 32 by decide)
  have n1 := cmp_lt y2 n2 h1 (show 0xBFD25E8C < 2 ^ 32 by decide)
  have y1 := cmp_gt y2 n1 h1 (show 0xBFD25E8C < 2 ^ 32 by decide)
  have y0 := cmp_ge y1 n1 h0 (show 0xD0364141 < 2 ^ 32 by decide)
  simp only [Bool.not_false, Bool.and_true, Bool.false_or] at y0
  simp only [scCheckOverflow, orderLimbs, scNat, curveN]
  refine y0.trans ?_
  clear n7 y7 n6 y6 n5 y5 n4 y4 n3 y3 n2 y2 n1 y1 y0 h0 h1 h2 h3 h4 h5 h6 h7 f
  omega

theorem isHigh_eq {a : Sc} (h : ScFits a) : scIsHigh a = true ↔ curveN / 2 < scNat a := by
  obtain ⟨h0, h1, h2, h3, h4, h5, h6, h7⟩ := h
  obtain ⟨d0, d1, d2, d3, d4, d5, d6, d7⟩ := a
  simp only at *
  have n7 : decide (d7 < 0x7FFFFFFF) = true ↔ d7 < 0x7FFFFFFF := by simp
  have y7 : (decide (d7 > 0x7FFFFFFF) && !decide (d7 < 0x7FFFFFFF)) = true ↔ 0x7FFFFFFF < d7 := by simp; omega
  have n6 := cmp_lt y7 n7 h6 (show 0xFFFFFFFF < 2 ^ 32 by decide)
  have y6 := cmp_max y7 h6
  have n5 := cmp_lt y6 n6 h5 (show 0xFFFFFFFF < 2 ^ 32 by decide)
  have y5 := cmp_max y6 h5
  have n4 := cmp_lt y5 n5 h4 (show 0xFFFFFFFF < 2 ^ 32 by decide)
  have y4 := cmp_max y5 h4
  have n3 := cmp_lt y4 n4 h3 (show 0x5D576E73 < 2 ^ 32 by decide)
  have y3 := cmp_gt y4 n3 h3 (show 0x5D576E73 < 2 ^ 32 by decide)
  have n2 := cmp_lt y3 n3 h2 (show 0x57A4501D < 2 ^ 32 by decide)
  have y2 := cmp_gt y3 n2 h2 (show 0x57A4501D < 2 ^ 32 by decide)
  have n1 := cmp_lt y2 n2 h1 (show 0xDFE92F46 < 2 ^ 32 by decide)
  have y1 := cmp_gt y2 n1 h1 (show 0xDFE92F46 < 2 ^ 32 by decide)
  have y0 := cmp_gt' y1 n1 h0 (show 0x681B20A0 < 2 ^ 32 by decide)
  have e : curveN / 2 = 0x7FFFFFFFFFFFFFFFFFFFFFFFFFFFFFFF5D576E7357A4501DDFE92F46681B20A0 := by decide +kernel
  rw [e]
  simp only [scIsHigh, halfLimbs, scNat]
  refine y0.trans ?_
  clear n7 y7 n6 y6 n5 y5 n4 y4 n3 y3 n2 y2 n1 y1 y0 h0 h1 h2 h3 h4 h5 h6 h7 e
  omega

theorem isZero_eq {a : Sc} : scIsZero a = true ↔ scNat a = 0 := by
  obtain ⟨d0, d1, d2, d3, d4, d5, d6, d7⟩ := a
  simp only [scIsZero, beq_iff_eq, Nat.or_eq_zero_iff, scNat]
  omega

theorem scNat_inj {a b : Sc} (ha : ScFits a) (hb : ScFits b) (h : scNat a = scNat b) : a = b := by
  obtain ⟨h0, h1, h2, h3, h4, h5, h6, h7⟩ := ha
  obtain ⟨i0, i1, i2, i3, i4, i5, i6, i7⟩ := hb
  obtain ⟨a0, a1, a2, a3, a4, a5, a6, a7⟩ := a
  obtain ⟨b0, b1, b2, b3, b4, b5, b6, b7⟩ := b
  simp only [scNat] at *
  simp only [Sc.mk.injEq]
  omega

theorem xor_eq_zero' {x y : Nat} : x ^^^ y = 0 ↔ x = y := by
  refine ⟨fun h => ?_, fun h => by rw [h, Nat.xor_self]⟩
  have := congrArg (· ^^^ y) h
  simpa [Nat.xor_assoc] using this

theorem isOne_eq {a : Sc} : scIsOne a = true ↔ scNat a = 1 := by
  obtain ⟨d0, d1, d2, d3, d4, d5, d6, d7⟩ := a
  simp only [scIsOne, beq_iff_eq, Nat.or_eq_zero_iff, scNat, xor_eq_zero']
  omega

theorem isEven_eq {a : Sc} : scIsEven a = true ↔ scNat a % 2 = 0 := by
  obtain ⟨d0, d1, d2, d3, d4, d5, d6, d7⟩ := a
  simp only [scIsEven, beq_iff_eq, Nat.and_one_is_mod, scNat]
  omega

/-! ## Arithmetic -/

theorem orderComplement_eq : orderComplement = ⟨0x2FC9BEBF, 0x402DA173, 0x50B75FC4, 0x45512319, 1, 0, 0, 0⟩ := by decide

theorem reduce_eq {a : Sc} (h : ScFits a) {o : Nat} (ho : o ≤ 1) :
    ScFits (scReduce a o) ∧ scNat (scReduce a o) = (scNat a + o * (2 ^ 256 - curveN)) % 2 ^ 256 := by
  have hl := scNat_lt h
  obtain ⟨h0, h1, h2, h3, h4, h5, h6, h7⟩ := h
  rw [scReduce, orderComplement_eq]
  have hu : ∀ {x : Nat}, x < 2 ^ 32 → u32 (o * x) = o * x ∧ o * x < 2 ^ 32 := fun {x} hx => by
    have : o * x < 2 ^ 32 := lt_of_le_of_lt (Nat.mul_le_mul_right x ho) (by omega)
    exact ⟨u32_of_lt this, this⟩
  obtain ⟨a0, b0⟩ := hu (x := 0x2FC9BEBF) (by decide)
  obtain ⟨a1, b1⟩ := hu (x := 0x402DA173) (by decide)
  obtain ⟨a2, b2⟩ := hu (x := 0x50B75FC4) (by decide)
  obtain ⟨a3, b3⟩ := hu (x := 0x45512319) (by decide)
  obtain ⟨a4, b4⟩ := hu (x := 1) (by decide)
  simp only
  rw [a0, a1, a2, a3, a4]
  obtain ⟨g1, g2⟩ := chain_eq (x := ⟨a.d0 + o * 0x2FC9BEBF, a.d1 + o * 0x402DA173, a.d2 + o * 0x50B75FC4, a.d3 + o * 0x45512319,
    a.d4 + o * 1, a.d5, a.d6, a.d7⟩) (by simp only; omega) (by simp only; omega) (by simp only; omega) (by simp only; omega)
    (by simp only; omega) (by simp only; omega) (by simp only; omega) (by simp only; omega)
  refine ⟨g1, ?_⟩
  have hv : scNat ⟨a.d0 + o * 0x2FC9BEBF, a.d1 + o * 0x402DA173, a.d2 + o * 0x50B75FC4, a.d3 + o * 0x45512319,
    a.d4 + o * 1, a.d5, a.d6, a.d7⟩ = scNat a + o * (2 ^ 256 - curveN) := by
    simp only [scNat, curveN]
    omega
  rw [← hv, ← g2, Nat.add_mul_mod_self_left, Nat.mod_eq_of_lt (scNat_lt g1)]

theorem reduce_scalar {a : Sc} (h : ScFits a) :
    Scalar (scReduce a (scCheckOverflow a).toNat) ∧ scNat (scReduce a (scCheckOverflow a).toNat) = scNat a % curveN := by
  obtain ⟨g1, g2⟩ := reduce_eq h (o := (scCheckOverflow a).toNat) (by cases scCheckOverflow a <;> decide)
  have hl := scNat_lt h
  have hc := checkOverflow_eq h
  have key : scNat (scReduce a (scCheckOverflow a).toNat) = scNat a % curveN := by
    rw [g2]
    cases ho : scCheckOverflow a
    · rw [ho] at hc
      have : scNat a < curveN := by simpa using hc
      rw [Bool.toNat_false, Nat.zero_mul, Nat.add_zero, Nat.mod_eq_of_lt hl, Nat.mod_eq_of_lt this]
    · rw [ho] at hc
      have : curveN ≤ scNat a := hc.1 rfl
      rw [Bool.toNat_true, Nat.one_mul, Nat.mod_eq_sub_mod this]
      have e : scNat a + (2 ^ 256 - curveN) = (scNat a - curveN) + 2 ^ 256 := by
        simp only [curveN] at *; omega
      rw [e, Nat.add_mod_right, Nat.mod_eq_of_lt (by omega), Nat.mod_eq_of_lt (by simp only [curveN] at *; omega)]
  exact ⟨⟨g1, by rw [key]; exact Nat.mod_lt _ (by decide)⟩, key⟩

theorem add_sc {a b : Sc} (ha : Scalar a) (hb : Scalar b) :
    Scalar (scAdd a b).1 ∧ scNat (scAdd a b).1 = (scNat a + scNat b) % curveN := by
  obtain ⟨⟨h0, h1, h2, h3, h4, h5, h6, h7⟩, la⟩ := ha
  obtain ⟨⟨i0, i1, i2, i3, i4, i5, i6, i7⟩, lb⟩ := hb
  rw [scAdd]
  obtain ⟨g1, g2⟩ := chain_eq (x := ⟨a.d0 + b.d0, a.d1 + b.d1, a.d2 + b.d2, a.d3 + b.d3, a.d4 + b.d4, a.d5 + b.d5, a.d6 + b.d6,
    a.d7 + b.d7⟩) (by simp only; omega) (by simp only; omega) (by simp only; omega) (by simp only; omega)
    (by simp only; omega) (by simp only; omega) (by simp only; omega) (by simp only; omega)
  have e : scNat ⟨a.d0 + b.d0, a.d1 + b.d1, a.d2 + b.d2, a.d3 + b.d3, a.d4 + b.d4, a.d5 + b.d5, a.d6 + b.d6,
    a.d7 + b.d7⟩ = scNat a + scNat b := by
    simp only [scNat]; omega
  rw [e] at g2
  clear e h0 h1 h2 h3 h4 h5 h6 h7 i0 i1 i2 i3 i4 i5 i6 i7
  simp only
  generalize (chain 0xFFFFFFFF _).1 = r at *
  generalize (chain 0xFFFFFFFF _).2 = c at *
  have hl := scNat_lt g1
  have hc := checkOverflow_eq g1
  by_cases hc0 : c = 0
  · subst hc0
    rw [Nat.mul_zero, Nat.add_zero] at g2
    rw [Nat.zero_add, ← g2]
    exact reduce_scalar g1
  · have hc1 : c = 1 := by
      simp only [curveN] at la lb
      omega
    subst hc1
    have ho : scCheckOverflow r = false := by
      rw [← Bool.not_eq_true, hc]
      simp only [curveN] at *
      omega
    rw [ho]
    obtain ⟨k1, k2⟩ := reduce_eq g1 (o := 1) (by decide)
    have hv : (scNat a + scNat b) % curveN = scNat a + scNat b - curveN := by
      rw [Nat.mod_eq_sub_mod (by simp only [curveN] at *; omega), Nat.mod_eq_of_lt (by simp only [curveN] at *; omega)]
    have hv' : scNat (scReduce r (1 + false.toNat)) = scNat a + scNat b - curveN := by
      refine k2.trans ?_
      rw [Nat.mod_eq_of_lt (by simp only [curveN] at *; omega)]
      simp only [curveN] at *
      omega
    exact ⟨⟨k1, by rw [hv']; simp only [curveN] at *; omega⟩, hv'.trans hv.symm⟩

theorem bitOf_eq {q r i : Nat} (hr : r < 32) : bitOf (32 * q + r) i = if q = i then 2 ^ r else 0 := by
  have e1 : (32 * q + r) >>> 5 = q := by rw [Nat.shiftRight_eq_div_pow]; omega
  have e2 : (32 * q + r) &&& 0x1F = r := by
    rw [show 0x1F = 2 ^ 5 - 1 by rfl, Nat.and_two_pow_sub_one_eq_mod]; omega
  rw [bitOf, e1, e2, Nat.one_shiftLeft, u32_of_lt (Nat.pow_lt_pow_right (by decide) hr)]

theorem chain_same {a : Sc} (ha : ScFits a) : (chain 0xFFFFFFFF a).1 = a := by
  obtain ⟨g1, g2⟩ := chain_eq (x := a) (by have := ha.h0; omega) (by have := ha.h1; omega) (by have := ha.h2; omega)
    (by have := ha.h3; omega) (by have := ha.h4; omega) (by have := ha.h5; omega) (by have := ha.h6; omega) (by have := ha.h7; omega)
  have hl := scNat_lt ha
  have hv : scNat (chain 0xFFFFFFFF a).1 = scNat a := by omega
  exact scNat_inj g1 ha hv

theorem flagBit_false : u32 (false.toNat + 0xFFFFFFFF) &&& 0x100 = 256 := by decide

theorem flagBit_true : u32 (true.toNat + 0xFFFFFFFF) &&& 0x100 = 0 := by decide

/-- One limb is increased. -/
theorem addBit_nat (a : Sc) {q : Nat} (hq : q < 8) (p : Nat) :
    scNat ⟨a.d0 + (if q = 0 then p else 0), a.d1 + (if q = 1 then p else 0), a.d2 + (if q = 2 then p else 0),
      a.d3 + (if q = 3 then p else 0), a.d4 + (if q = 4 then p else 0), a.d5 + (if q = 5 then p else 0),
      a.d6 + (if q = 6 then p else 0), a.d7 + (if q = 7 then p else 0)⟩ = scNat a + 2 ^ (32 * q) * p := by
  simp only [scNat]
  rcases (by omega : q = 0 ∨ q = 1 ∨ q = 2 ∨ q = 3 ∨ q = 4 ∨ q = 5 ∨ q = 6 ∨ q = 7) with rfl | rfl | rfl | rfl | rfl | rfl | rfl | rfl
  · simp only [if_true, if_false, Nat.add_zero, OfNat.zero_ne_ofNat, zero_ne_one]
    omega
  · simp only [if_true, if_false, Nat.add_zero, OfNat.one_ne_ofNat, one_ne_zero]
    omega
  all_goals
    simp only [if_true, Nat.reduceEqDiff, if_false, Nat.add_zero, OfNat.ofNat_ne_zero, OfNat.ofNat_ne_one]
    omega

theorem bitOf_none {q r i : Nat} (hr : r < 32) (hi : i < 8) : bitOf (32 * q + r + 256) i = 0 := by
  rw [show 32 * q + r + 256 = 32 * (q + 8) + r by omega, bitOf_eq hr, if_neg (by omega)]

theorem caddBit_false {a : Sc} (ha : ScFits a) (bit : Nat) : scCaddBit a bit false = a := by
  obtain ⟨q, r, hr, rfl⟩ : ∃ q r, r < 32 ∧ bit = 32 * q + r := ⟨bit / 32, bit % 32, Nat.mod_lt _ (by decide), by omega⟩
  rw [scCaddBit, flagBit_false]
  simp only [bitOf_none hr (show 0 < 8 by decide), bitOf_none hr (show 1 < 8 by decide), bitOf_none hr (show 2 < 8 by decide),
    bitOf_none hr (show 3 < 8 by decide), bitOf_none hr (show 4 < 8 by decide), bitOf_none hr (show 5 < 8 by decide),
    bitOf_none hr (show 6 < 8 by decide), bitOf_none hr (show 7 < 8 by decide), Nat.add_zero]
  exact chain_same ha

theorem caddBit_limbs {a : Sc} (ha : ScFits a) {q r : Nat} (hr : r < 32) (hq : q < 8) :
    ∃ c, ScFits (scCaddBit a (32 * q + r) true) ∧
      scNat (scCaddBit a (32 * q + r) true) + 2 ^ 256 * c = scNat a + 2 ^ (32 * q) * 2 ^ r := by
  rw [scCaddBit, flagBit_true]
  have p32 : 2 ^ r < 2 ^ 32 := Nat.pow_lt_pow_right (by decide) hr
  simp only [Nat.add_zero, bitOf_eq hr]
  generalize 2 ^ r = p at *
  have hi : ∀ x i, x < 2 ^ 32 → x + (if q = i then p else 0) < 2 ^ 63 := fun x i hx => by split <;> omega
  obtain ⟨g1, g2⟩ := chain_eq (x := ⟨a.d0 + (if q = 0 then p else 0), a.d1 + (if q = 1 then p else 0), a.d2 + (if q = 2 then p else 0),
    a.d3 + (if q = 3 then p else 0), a.d4 + (if q = 4 then p else 0), a.d5 + (if q = 5 then p else 0),
    a.d6 + (if q = 6 then p else 0), a.d7 + (if q = 7 then p else 0)⟩)
    (hi _ 0 ha.h0) (hi _ 1 ha.h1) (hi _ 2 ha.h2) (hi _ 3 ha.h3) (hi _ 4 ha.h4) (hi _ 5 ha.h5) (hi _ 6 ha.h6) (hi _ 7 ha.h7)
  rw [addBit_nat a hq p] at g2
  exact ⟨_, g1, g2⟩

theorem no_carry {x c y : Nat} (h : x + 2 ^ 256 * c = y) (hy : y < 2 ^ 256) : x = y := by omega

/-- A sum with a power of two that fits into 256 bits. -/
theorem caddBit_true {a : Sc} (ha : ScFits a) {bit : Nat} (hb : bit < 256) (h : scNat a + 2 ^ bit < 2 ^ 256) :
    ScFits (scCaddBit a bit true) ∧ scNat (scCaddBit a bit true) = scNat a + 2 ^ bit := by
  have e : bit = 32 * (bit / 32) + bit % 32 := (Nat.div_add_mod bit 32).symm
  obtain ⟨c, g1, g2⟩ := caddBit_limbs ha (q := bit / 32) (Nat.mod_lt bit (by decide)) (Nat.div_lt_of_lt_mul hb)
  rw [← Nat.pow_add, ← e] at g2
  rw [← e] at g1
  exact ⟨g1, no_carry g2 h⟩

theorem caddBit_eq {a : Sc} (ha : ScFits a) {bit : Nat} (hb : bit < 256) {flag : Bool} (h : flag = true → scNat a + 2 ^ bit < 2 ^ 256) :
    ScFits (scCaddBit a bit flag) ∧ scNat (scCaddBit a bit flag) = scNat a + if flag then 2 ^ bit else 0 := by
  cases flag
  · rw [caddBit_false ha, if_neg (by decide), Nat.add_zero]; exact ⟨ha, rfl⟩
  · rw [if_pos rfl]; exact caddBit_true ha hb (h rfl)

theorem nonzeroMask_eq (a : Sc) : nonzeroMask a = if scNat a = 0 then 0 else 0xFFFFFFFF := by
  rw [nonzeroMask]
  split
  case isTrue h => rw [isZero_eq.2 h]; decide
  case isFalse h =>
    have : scIsZero a = false := by rw [← Bool.not_eq_true, isZero_eq]; exact h
    rw [this]; decide

theorem not32_eq {x : Nat} (h : x < 2 ^ 32) : not32 x = 2 ^ 32 - 1 - x := by
  rw [not32, u32_of_lt h]
  omega

theorem negate_sc {a : Sc} (ha : Scalar a) :
    Scalar (scNegate a) ∧ scNat (scNegate a) = if scNat a = 0 then 0 else curveN - scNat a := by
  obtain ⟨⟨h0, h1, h2, h3, h4, h5, h6, h7⟩, la⟩ := ha
  rw [scNegate, nonzeroMask_eq]
  split
  case isTrue h =>
    rw [chain_zero]
    exact ⟨⟨⟨by decide, by decide, by decide, by decide, by decide, by decide, by decide, by decide⟩, by decide⟩, rfl⟩
  case isFalse h =>
    simp only [orderLimbs, not32_eq h0, not32_eq h1, not32_eq h2, not32_eq h3, not32_eq h4, not32_eq h5, not32_eq h6, not32_eq h7]
    obtain ⟨g1, g2⟩ := chain_eq (x := ⟨2 ^ 32 - 1 - a.d0 + 0xD0364141 + 1, 2 ^ 32 - 1 - a.d1 + 0xBFD25E8C, 2 ^ 32 - 1 - a.d2 + 0xAF48A03B,
      2 ^ 32 - 1 - a.d3 + 0xBAAEDCE6, 2 ^ 32 - 1 - a.d4 + 0xFFFFFFFE, 2 ^ 32 - 1 - a.d5 + 0xFFFFFFFF, 2 ^ 32 - 1 - a.d6 + 0xFFFFFFFF,
      2 ^ 32 - 1 - a.d7 + 0xFFFFFFFF⟩) (by simp only; omega) (by simp only; omega) (by simp only; omega) (by simp only; omega)
      (by simp only; omega) (by simp only; omega) (by simp only; omega) (by simp only; omega)
    have ev : scNat ⟨2 ^ 32 - 1 - a.d0 + 0xD0364141 + 1, 2 ^ 32 - 1 - a.d1 + 0xBFD25E8C, 2 ^ 32 - 1 - a.d2 + 0xAF48A03B,
      2 ^ 32 - 1 - a.d3 + 0xBAAEDCE6, 2 ^ 32 - 1 - a.d4 + 0xFFFFFFFE, 2 ^ 32 - 1 - a.d5 + 0xFFFFFFFF, 2 ^ 32 - 1 - a.d6 + 0xFFFFFFFF,
      2 ^ 32 - 1 - a.d7 + 0xFFFFFFFF⟩ + scNat a = 2 ^ 256 + curveN := by
      simp only [scNat, curveN]
      clear g1 g2 la h
      omega
    have hl := scNat_lt g1
    have hv : scNat (chain 0xFFFFFFFF ⟨2 ^ 32 - 1 - a.d0 + 0xD0364141 + 1, 2 ^ 32 - 1 - a.d1 + 0xBFD25E8C, 2 ^ 32 - 1 - a.d2 + 0xAF48A03B,
      2 ^ 32 - 1 - a.d3 + 0xBAAEDCE6, 2 ^ 32 - 1 - a.d4 + 0xFFFFFFFE, 2 ^ 32 - 1 - a.d5 + 0xFFFFFFFF, 2 ^ 32 - 1 - a.d6 + 0xFFFFFFFF,
      2 ^ 32 - 1 - a.d7 + 0xFFFFFFFF⟩).1 = curveN - scNat a := by
      simp only [curveN] at *
      omega
    exact ⟨⟨g1, by rw [hv]; omega⟩, hv⟩

theorem xor_full {x : Nat} (h : x < 2 ^ 32) : x ^^^ 0xFFFFFFFF = not32 x := by
  rw [not32_eq h]
  refine Nat.eq_of_testBit_eq fun i => ?_
  rw [Nat.testBit_xor, show 0xFFFFFFFF = 2 ^ 32 - 1 by rfl, Nat.testBit_two_pow_sub_one, show 2 ^ 32 - 1 - x = 2 ^ 32 - (x + 1) by omega,
    Nat.testBit_two_pow_sub_succ h]
  by_cases hi : i < 32
  · simp [hi]
  · have : x.testBit i = false := Nat.testBit_lt_two_pow (lt_of_lt_of_le h (Nat.pow_le_pow_right (by decide) (by omega)))
    simp [hi, this]

theorem condNegate_eq {a : Sc} (ha : ScFits a) (flag : Bool) :
    scCondNegate a flag = if flag then (scNegate a, -1) else (a, 1) := by
  cases flag
  · have z : ∀ x y : Nat, (x ^^^ 0) + (y &&& 0) = x := fun x y => by rw [Nat.xor_zero, Nat.and_zero]; rfl
    simp only [scCondNegate, Bool.false_eq_true, if_false, if_true, z]
    refine Prod.ext ?_ (by simp)
    simp only
    rw [nonzeroMask_eq]
    split
    case isTrue h =>
      rw [chain_zero]
      exact scNat_inj (a := ⟨0, 0, 0, 0, 0, 0, 0, 0⟩)
        ⟨by decide, by decide, by decide, by decide, by decide, by decide, by decide, by decide⟩ ha (by rw [h]; rfl)
    case isFalse h => exact chain_same ha
  · simp only [scCondNegate, if_true, scNegate]
    refine Prod.ext ?_ (by simp)
    simp only [xor_full ha.h0, xor_full ha.h1, xor_full ha.h2, xor_full ha.h3, xor_full ha.h4, xor_full ha.h5, xor_full ha.h6,
      xor_full ha.h7]
    rfl

theorem shl_u32 {x n : Nat} (hn : n ≤ 32) : u32 (x <<< (32 - n)) = 2 ^ (32 - n) * (x % 2 ^ n) := by
  have e : 2 ^ 32 = 2 ^ (32 - n) * 2 ^ n := by rw [← Nat.pow_add]; congr 1; omega
  rw [u32, Nat.shiftLeft_eq, Nat.mul_comm, e, Nat.mul_mod_mul_left]

theorem shr_limb {x y n : Nat} (hn : n ≤ 32) (hx : x < 2 ^ 32) :
    ∃ q r, u32 ((x >>> n) + u32 (y <<< (32 - n))) = q ∧ q < 2 ^ 32 ∧ r = x % 2 ^ n ∧ 2 ^ n * q + r = x + 2 ^ 32 * (y % 2 ^ n) := by
  rw [shl_u32 hn, Nat.shiftRight_eq_div_pow]
  have e : 2 ^ n * 2 ^ (32 - n) = 2 ^ 32 := by rw [← Nat.pow_add]; congr 1; omega
  have hm := Nat.div_add_mod x (2 ^ n)
  have hd : x / 2 ^ n < 2 ^ (32 - n) := by
    rw [Nat.div_lt_iff_lt_mul (Nat.two_pow_pos n), Nat.mul_comm, e]; exact hx
  have hr : y % 2 ^ n < 2 ^ n := Nat.mod_lt _ (Nat.two_pow_pos n)
  have hlt : x / 2 ^ n + 2 ^ (32 - n) * (y % 2 ^ n) < 2 ^ 32 := by
    calc x / 2 ^ n + 2 ^ (32 - n) * (y % 2 ^ n) < 2 ^ (32 - n) + 2 ^ (32 - n) * (y % 2 ^ n) := Nat.add_lt_add_right hd _
      _ = 2 ^ (32 - n) * (y % 2 ^ n + 1) := by ring
      _ ≤ 2 ^ (32 - n) * 2 ^ n := Nat.mul_le_mul_left _ hr
      _ = 2 ^ 32 := by rw [Nat.mul_comm, e]
  rw [u32_of_lt hlt]
  refine ⟨_, _, rfl, hlt, rfl, ?_⟩
  rw [Nat.mul_add, ← Nat.mul_assoc, e]
  omega

theorem shrInt_eq {a : Sc} (ha : ScFits a) {n : Nat} (h16 : n < 16) :
    ScFits (scShrInt a n).2 ∧ (scShrInt a n).1 = scNat a % 2 ^ n ∧ scNat (scShrInt a n).2 = scNat a / 2 ^ n := by
  obtain ⟨h0, h1, h2, h3, h4, h5, h6, h7⟩ := ha
  obtain ⟨d0, d1, d2, d3, d4, d5, d6, d7⟩ := a
  simp only at *
  have hn : n ≤ 32 := by omega
  obtain ⟨q0, r0, a0, l0, m0, e0⟩ := shr_limb (y := d1) hn h0
  obtain ⟨q1, r1, a1, l1, m1, e1⟩ := shr_limb (y := d2) hn h1
  obtain ⟨q2, r2, a2, l2, m2, e2⟩ := shr_limb (y := d3) hn h2
  obtain ⟨q3, r3, a3, l3, m3, e3⟩ := shr_limb (y := d4) hn h3
  obtain ⟨q4, r4, a4, l4, m4, e4⟩ := shr_limb (y := d5) hn h4
  obtain ⟨q5, r5, a5, l5, m5, e5⟩ := shr_limb (y := d6) hn h5
  obtain ⟨q6, r6, a6, l6, m6, e6⟩ := shr_limb (y := d7) hn h6
  have l7 : d7 >>> n < 2 ^ 32 := by
    rw [Nat.shiftRight_eq_div_pow]
    exact lt_of_le_of_lt (Nat.div_le_self _ _) h7
  have e7 := Nat.div_add_mod d7 (2 ^ n)
  rw [← Nat.shiftRight_eq_div_pow] at e7
  have e : scShrInt ⟨d0, d1, d2, d3, d4, d5, d6, d7⟩ n = (r0, ⟨q0, q1, q2, q3, q4, q5, q6, d7 >>> n⟩) := by
    have hr : d0 &&& ((1 <<< n) - 1) = r0 := by rw [Nat.one_shiftLeft, Nat.and_two_pow_sub_one_eq_mod, m0]
    simp only [scShrInt, a0, a1, a2, a3, a4, a5, a6, hr]
  rw [e]
  have hr : r0 < 2 ^ n := by rw [m0]; exact Nat.mod_lt _ (Nat.two_pow_pos n)
  have key : scNat ⟨d0, d1, d2, d3, d4, d5, d6, d7⟩ = 2 ^ n * scNat ⟨q0, q1, q2, q3, q4, q5, q6, d7 >>> n⟩ + r0 := by
    rw [← m1] at e0
    rw [← m2] at e1
    rw [← m3] at e2
    rw [← m4] at e3
    rw [← m5] at e4
    rw [← m6] at e5
    generalize d7 >>> n = q7 at *
    generalize d7 % 2 ^ n = r7 at *
    clear e l0 l1 l2 l3 l4 l5 l6 l7 a0 a1 a2 a3 a4 a5 a6 m0 m1 m2 m3 m4 m5 m6 h0 h1 h2 h3 h4 h5 h6 h7 hr
    simp only [scNat, Nat.mul_add, ← Nat.mul_assoc]
    generalize 2 ^ n = p at *
    generalize p * q0 = q0' at *
    generalize p * q1 = q1' at *
    generalize p * q2 = q2' at *
    generalize p * q3 = q3' at *
    generalize p * q4 = q4' at *
    generalize p * q5 = q5' at *
    generalize p * q6 = q6' at *
    generalize p * q7 = q7' at *
    omega
  refine ⟨⟨l0, l1, l2, l3, l4, l5, l6, l7⟩, ?_, ?_⟩
  · rw [key, Nat.mul_add_mod, Nat.mod_eq_of_lt hr]
  · rw [key, Nat.mul_add_div (Nat.two_pow_pos n), Nat.div_eq_of_lt hr, Nat.add_zero]

/-! ## Bytes -/

theorem or_shift {a b k : Nat} (h : a < 2 ^ k) : a ||| b <<< k = a + 2 ^ k * b := by
  rw [Nat.shiftLeft_eq, Nat.mul_comm, Nat.or_comm, ← Nat.two_pow_add_eq_or_of_lt h, Nat.add_comm]

theorem be32_eq {b : Bytes} (hb : b.length = 32) {i : Nat} (hi : i < 8) :
    be32 b (28 - 4 * i) = setBytes b / 2 ^ (32 * i) % 2 ^ 32 := by
  have byte : ∀ k, k < 32 → (b.getD (31 - k) 0).toNat = setBytes b / 2 ^ (32 * (k / 4)) / 2 ^ (8 * (k % 4)) % 256 := by
    intro k hk
    have := getD_setBytes b k (by omega)
    rw [hb] at this
    rw [show 31 - k = 32 - 1 - k by omega, this, Nat.div_div_eq_div_mul, ← Nat.pow_add, show 256 = 2 ^ 8 by rfl, ← Nat.pow_mul]
    congr 3
    omega
  have b0 := byte (4 * i) (by omega)
  have b1 := byte (4 * i + 1) (by omega)
  have b2 := byte (4 * i + 2) (by omega)
  have b3 := byte (4 * i + 3) (by omega)
  rw [show 4 * i / 4 = i by omega, show 4 * i % 4 = 0 by omega] at b0
  rw [show (4 * i + 1) / 4 = i by omega, show (4 * i + 1) % 4 = 1 by omega] at b1
  rw [show (4 * i + 2) / 4 = i by omega, show (4 * i + 2) % 4 = 2 by omega] at b2
  rw [show (4 * i + 3) / 4 = i by omega, show (4 * i + 3) % 4 = 3 by omega] at b3
  rw [be32, show 28 - 4 * i + 3 = 31 - 4 * i by omega, show 28 - 4 * i + 2 = 31 - (4 * i + 1) by omega,
    show 28 - 4 * i + 1 = 31 - (4 * i + 2) by omega, show 28 - 4 * i = 31 - (4 * i + 3) by omega, b0, b1, b2, b3]
  generalize setBytes b / 2 ^ (32 * i) = N
  rw [or_shift (k := 8) (by omega), or_shift (k := 16) (by omega), or_shift (k := 24) (by omega)]
  omega

theorem setB32_sc {b : Bytes} (hb : b.length = 32) :
    Scalar (scSetB32 b).1 ∧ scNat (scSetB32 b).1 = setBytes b % curveN ∧ ((scSetB32 b).2 = true ↔ curveN ≤ setBytes b) := by
  have hN := setBytes_lt256 hb
  have e0 := be32_eq hb (i := 0) (by decide)
  have e1 := be32_eq hb (i := 1) (by decide)
  have e2 := be32_eq hb (i := 2) (by decide)
  have e3 := be32_eq hb (i := 3) (by decide)
  have e4 := be32_eq hb (i := 4) (by decide)
  have e5 := be32_eq hb (i := 5) (by decide)
  have e6 := be32_eq hb (i := 6) (by decide)
  have e7 := be32_eq hb (i := 7) (by decide)
  norm_num at e0 e1 e2 e3 e4 e5 e6 e7
  have hf : ScFits ⟨be32 b 28, be32 b 24, be32 b 20, be32 b 16, be32 b 12, be32 b 8, be32 b 4, be32 b 0⟩ :=
    ⟨by simp only; omega, by simp only; omega, by simp only; omega, by simp only; omega,
      by simp only; omega, by simp only; omega, by simp only; omega, by simp only; omega⟩
  have hv : scNat ⟨be32 b 28, be32 b 24, be32 b 20, be32 b 16, be32 b 12, be32 b 8, be32 b 4, be32 b 0⟩ = setBytes b := by
    simp only [scNat]
    clear hf
    omega
  obtain ⟨g1, g2⟩ := reduce_scalar hf
  have hc := checkOverflow_eq hf
  rw [hv] at g2 hc
  exact ⟨g1, g2, hc⟩

theorem limbBytes_eq {d : Nat} (h : d < 2 ^ 32) : (limbBytes d).length = 4 ∧ setBytes (limbBytes d) = d := by
  refine ⟨rfl, ?_⟩
  simp only [limbBytes, setBytes, List.foldl, UInt8.toNat_ofNat', Nat.shiftRight_eq_div_pow]
  omega

theorem getB32_sc {a : Sc} (ha : ScFits a) : (scGetB32 a).length = 32 ∧ setBytes (scGetB32 a) = scNat a := by
  refine ⟨rfl, ?_⟩
  rw [scGetB32]
  simp only [Verif.Props.setBytes_append, (limbBytes_eq ha.h0).1, (limbBytes_eq ha.h1).1, (limbBytes_eq ha.h2).1, (limbBytes_eq ha.h3).1,
    (limbBytes_eq ha.h4).1, (limbBytes_eq ha.h5).1, (limbBytes_eq ha.h6).1,
    (limbBytes_eq ha.h0).2, (limbBytes_eq ha.h1).2, (limbBytes_eq ha.h2).2, (limbBytes_eq ha.h3).2, (limbBytes_eq ha.h4).2,
    (limbBytes_eq ha.h5).2, (limbBytes_eq ha.h6).2, (limbBytes_eq ha.h7).2, scNat]
  omega

end Verif.Proofs
