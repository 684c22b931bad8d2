import Verif.Proofs.CMult
/-!
# The scalars of the C library (C107)
-/

namespace Verif.Props
open Verif.C Verif.Spec Verif.Proofs

/-- **C107** Reading 32 bytes reduces the number once, and tells if it was not below the order. -/
theorem C107_read {b : Bytes} (hb : b.length = 32) :
    Scalar (scSetB32 b).1 ∧ scNat (scSetB32 b).1 = setBytes b % curveN ∧ ((scSetB32 b).2 = true ↔ curveN ≤ setBytes b) :=
  setB32_sc hb

/-- **C107** The bytes of a scalar: 32, of the same number. -/
theorem C107_write {a : Sc} (ha : ScFits a) : (scGetB32 a).length = 32 ∧ setBytes (scGetB32 a) = scNat a := getB32_sc ha

/-- **C107** What is written is read again. -/
theorem C107_round {a : Sc} (ha : Scalar a) : scSetB32 (scGetB32 a) = (a, false) := by
  obtain ⟨w1, w2⟩ := getB32_sc ha.fits
  obtain ⟨r1, r2, r3⟩ := setB32_sc w1
  rw [w2, Nat.mod_eq_of_lt ha.lt] at r2
  refine Prod.ext (scNat_inj r1.fits ha.fits r2) ?_
  have := ha.lt
  rw [← Bool.not_eq_true, r3, w2]
  omega

/-- **C107** The sum modulo the order. -/
theorem C107_add {a b : Sc} (ha : Scalar a) (hb : Scalar b) :
    Scalar (scAdd a b).1 ∧ scNat (scAdd a b).1 = (scNat a + scNat b) % curveN := add_sc ha hb

/-- **C107** The opposite modulo the order, always or on a condition. -/
theorem C107_negate {a : Sc} (ha : Scalar a) (flag : Bool) :
    Scalar (scNegate a) ∧ (scNat a + scNat (scNegate a)) % curveN = 0 ∧
      scCondNegate a flag = if flag then (scNegate a, -1) else (a, 1) := by
  obtain ⟨h1, h2⟩ := negate_sc ha
  refine ⟨h1, ?_, condNegate_eq ha.fits flag⟩
  rw [h2]
  have := ha.lt
  split
  case isTrue h => rw [h]; decide
  case isFalse h => rw [Nat.add_sub_of_le this.le, Nat.mod_self]

/-- **C107** The comparisons with zero, one, half the order and the order, and the parity. -/
theorem C107_compare {a : Sc} (ha : ScFits a) :
    (scIsZero a = true ↔ scNat a = 0) ∧ (scIsOne a = true ↔ scNat a = 1) ∧ (scIsEven a = true ↔ scNat a % 2 = 0) ∧
    (scIsHigh a = true ↔ curveN / 2 < scNat a) ∧ (scCheckOverflow a = true ↔ curveN ≤ scNat a) :=
  ⟨isZero_eq, isOne_eq, isEven_eq, isHigh_eq ha, checkOverflow_eq ha⟩

/-- **C107** A power of two is added exactly, if there is room for it. -/
theorem C107_add_bit {a : Sc} (ha : ScFits a) {bit : Nat} (hb : bit < 256) {flag : Bool}
    (h : flag = true → scNat a + 2 ^ bit < 2 ^ 256) :
    ScFits (scCaddBit a bit flag) ∧ scNat (scCaddBit a bit flag) = scNat a + if flag then 2 ^ bit else 0 :=
  caddBit_eq ha hb h

/-- **C107** A shift: what remains and what is shifted out. -/
theorem C107_shift {a : Sc} (ha : ScFits a) {n : Nat} (hn : n < 16) :
    ScFits (scShrInt a n).2 ∧ scNat a = (scShrInt a n).1 + 2 ^ n * scNat (scShrInt a n).2 ∧ (scShrInt a n).1 < 2 ^ n := by
  obtain ⟨h1, h2, h3⟩ := shrInt_eq ha hn
  exact ⟨h1, by rw [h2, h3]; exact (Nat.mod_add_div _ _).symm, by rw [h2]; exact Nat.mod_lt _ (Nat.two_pow_pos n)⟩

/-- **C107** The words of a scalar: 65 odd ones between -15 and 15, of which the number is the scalar and the skew
modulo the order. The skew is 1 or 2. -/
theorem C107_words {s : Sc} (hs : Scalar s) :
    (wnafConst s 4).1.length = 65 ∧ (∀ d ∈ (wnafConst s 4).1, d % 2 = 1 ∧ -16 < d ∧ d < 16) ∧
      ((wnafConst s 4).2 = 1 ∨ (wnafConst s 4).2 = 2) ∧
      ∃ k : Int, (wnafConst s 4).1.foldr (fun d r => d + 16 * r) 0 = scNat s + (wnafConst s 4).2 + k * curveN := by
  obtain ⟨h1, h2, h3, h4⟩ := wnaf_eq hs
  have e : ∀ l : List Int, l.foldr (fun d r => d + 16 * r) 0 = wordsValue l := by
    intro l
    induction l with
    | nil => rfl
    | cons d l ih => rw [List.foldr_cons, ih, wordsValue]
  refine ⟨h1, h2, h3, ?_⟩
  rw [e]
  rcases h4 with h | h
  · exact ⟨0, by rw [h]; ring⟩
  · exact ⟨-1, by rw [h]; ring⟩

/-- The greatest scalar. -/
def greatest : Sc := scNegate (scSetInt 1)

/-- Its words begin with one and a skew of two; reading the order itself gives zero. -/
example : scNat greatest = curveN - 1 ∧ scIsHigh greatest = true ∧ (wnafConst greatest 4).2 = 2 ∧
    (wnafConst greatest 4).1.take 3 = [-15, -15, -15] ∧ (wnafConst greatest 4).1.getLast? = some 1 ∧
    scSetB32 (scGetB32 orderLimbs) = (scSetInt 0, true) ∧
    scNat (scAdd greatest greatest).1 = curveN - 2 ∧ (wnafConst (scSetInt 5) 4).1.take 2 = [-9, -15] := by decide +kernel

end Verif.Props
