import Mathlib.Tactic.LinearCombination
import Verif.Spec.CField
/-!
# The field arithmetic of the C library
-/

namespace Verif.Proofs
open Verif.C Verif.Spec

theorem low26_eq (x : Nat) : low26 x = x % 67108864 := Nat.and_two_pow_sub_one_eq_mod x 26
theorem low22_eq (x : Nat) : low22 x = x % 4194304 := Nat.and_two_pow_sub_one_eq_mod x 22
theorem shr26 (x : Nat) : x >>> 26 = x / 67108864 := Nat.shiftRight_eq_div_pow x 26
theorem shr22 (x : Nat) : x >>> 22 = x / 4194304 := Nat.shiftRight_eq_div_pow x 22
theorem shl6 (x : Nat) : x <<< 6 = x * 64 := Nat.shiftLeft_eq x 6
theorem u32_eq (x : Nat) : u32 x = x % 4294967296 := rfl
theorem u64_eq (x : Nat) : u64 x = x % 18446744073709551616 := rfl
theorem u32_of_lt {x : Nat} (h : x < 4294967296) : u32 x = x := Nat.mod_eq_of_lt h
theorem u64_of_lt {x : Nat} (h : x < 18446744073709551616) : u64 x = x := Nat.mod_eq_of_lt h

/-- The limbs leave room for a carry. -/
structure Room (t : Fe) : Prop where
  h0 : t.n0 < 4294967296
  h1 : t.n1 < 4294967296 - 64
  h2 : t.n2 < 4294967296 - 64
  h3 : t.n3 < 4294967296 - 64
  h4 : t.n4 < 4294967296 - 64
  h5 : t.n5 < 4294967296 - 64
  h6 : t.n6 < 4294967296 - 64
  h7 : t.n7 < 4294967296 - 64
  h8 : t.n8 < 4294967296 - 64
  h9 : t.n9 < 4294967296 - 64

theorem carry_limb {t c : Nat} (ht : t < 4294967296 - 64) (hc : c < 4294967296) :
    u32 (t + (c >>> 26)) = t + c / 67108864 := by
  rw [shr26, u32_of_lt]
  omega

theorem carry_eq {t : Fe} (h : Room t) :
    feNat (carry t) = feNat t ∧ (carry t).n0 < 67108864 ∧ (carry t).n1 < 67108864 ∧ (carry t).n2 < 67108864 ∧
      (carry t).n3 < 67108864 ∧ (carry t).n4 < 67108864 ∧ (carry t).n5 < 67108864 ∧ (carry t).n6 < 67108864 ∧
      (carry t).n7 < 67108864 ∧ (carry t).n8 < 67108864 ∧ (carry t).n9 < t.n9 + 64 := by
  obtain ⟨h0, h1, h2, h3, h4, h5, h6, h7, h8, h9⟩ := h
  obtain ⟨n0, n1, n2, n3, n4, n5, n6, n7, n8, n9⟩ := t
  simp only at *
  simp only [carry, low26_eq]
  rw [carry_limb h1 h0]
  generalize e1 : n1 + n0 / 67108864 = t1
  have b1 : t1 < 4294967296 := by omega
  rw [carry_limb h2 b1]
  generalize e2 : n2 + t1 / 67108864 = t2
  have b2 : t2 < 4294967296 := by omega
  rw [carry_limb h3 b2]
  generalize e3 : n3 + t2 / 67108864 = t3
  have b3 : t3 < 4294967296 := by omega
  rw [carry_limb h4 b3]
  generalize e4 : n4 + t3 / 67108864 = t4
  have b4 : t4 < 4294967296 := by omega
  rw [carry_limb h5 b4]
  generalize e5 : n5 + t4 / 67108864 = t5
  have b5 : t5 < 4294967296 := by omega
  rw [carry_limb h6 b5]
  generalize e6 : n6 + t5 / 67108864 = t6
  have b6 : t6 < 4294967296 := by omega
  rw [carry_limb h7 b6]
  generalize e7 : n7 + t6 / 67108864 = t7
  have b7 : t7 < 4294967296 := by omega
  rw [carry_limb h8 b7]
  generalize e8 : n8 + t7 / 67108864 = t8
  have b8 : t8 < 4294967296 := by omega
  rw [carry_limb h9 b8]
  refine ⟨?_, Nat.mod_lt _ (by decide), Nat.mod_lt _ (by decide), Nat.mod_lt _ (by decide),
    Nat.mod_lt _ (by decide), Nat.mod_lt _ (by decide), Nat.mod_lt _ (by decide), Nat.mod_lt _ (by decide),
    Nat.mod_lt _ (by decide), Nat.mod_lt _ (by decide), by omega⟩
  simp only [feNat]
  omega

theorem secpP_val : secpP = 2 ^ 256 - 4294968273 := by decide

theorem two256 : ((2 : SecpF) ^ 256) = 4294968273 := by
  have h : ((2 ^ 256 : Nat) : SecpF) = ((secpP + 4294968273 : Nat) : SecpF) := congrArg _ (by decide)
  push_cast at h
  rw [show ((secpP : Nat) : SecpF) = 0 from ZMod.natCast_self secpP, zero_add] at h
  exact_mod_cast h

/-- The limbs of an element of magnitude at most 31. -/
theorem fold_room {m : Nat} (hm : m ≤ 31) {a : Fe} (h : Mag m a) :
    Room (fold a) ∧ (fold a).n9 < 4194304 ∧ feNat a = feNat (fold a) + (a.n9 / 4194304) * secpP := by
  obtain ⟨h0, h1, h2, h3, h4, h5, h6, h7, h8, h9⟩ := h
  obtain ⟨n0, n1, n2, n3, n4, n5, n6, n7, n8, n9⟩ := a
  simp only at *
  have hx : n9 / 4194304 < 62 := by omega
  have e0 : u32 (n0 + n9 / 4194304 * 977) = n0 + n9 / 4194304 * 977 := u32_of_lt (by omega)
  have e1' : u32 (n9 / 4194304 * 64) = n9 / 4194304 * 64 := u32_of_lt (by omega)
  have e1 : u32 (n1 + n9 / 4194304 * 64) = n1 + n9 / 4194304 * 64 := u32_of_lt (by omega)
  simp only [fold, shr22, shl6, low22_eq, e0, e1', e1, feNat, secpP_val]
  refine ⟨⟨by simp only; omega, by simp only; omega, by simp only; omega, by simp only; omega,
    by simp only; omega, by simp only; omega, by simp only; omega, by simp only; omega,
    by simp only; omega, by simp only; omega⟩, by omega, by omega⟩

/-- After the first pass: the same element, limbs of 26 bits, at most one bit too many at the top. -/
theorem pass_eq {m : Nat} (hm : m ≤ 31) {a : Fe} (h : Mag m a) :
    feNat a = feNat (carry (fold a)) + (a.n9 / 4194304) * secpP ∧
      (carry (fold a)).n0 < 67108864 ∧ (carry (fold a)).n1 < 67108864 ∧ (carry (fold a)).n2 < 67108864 ∧
      (carry (fold a)).n3 < 67108864 ∧ (carry (fold a)).n4 < 67108864 ∧ (carry (fold a)).n5 < 67108864 ∧
      (carry (fold a)).n6 < 67108864 ∧ (carry (fold a)).n7 < 67108864 ∧ (carry (fold a)).n8 < 67108864 ∧
      (carry (fold a)).n9 < 4194304 + 64 := by
  obtain ⟨hr, h9, hv⟩ := fold_room hm h
  obtain ⟨he, g⟩ := carry_eq hr
  refine ⟨by rw [he]; exact hv, g.1, g.2.1, g.2.2.1, g.2.2.2.1, g.2.2.2.2.1, g.2.2.2.2.2.1, g.2.2.2.2.2.2.1,
    g.2.2.2.2.2.2.2.1, g.2.2.2.2.2.2.2.2.1, ?_⟩
  have := g.2.2.2.2.2.2.2.2.2
  omega

theorem feVal_add_mul (n k : Nat) : ((n + k * secpP : Nat) : SecpF) = (n : SecpF) := by
  push_cast
  rw [show ((secpP : Nat) : SecpF) = 0 from ZMod.natCast_self secpP]
  ring

theorem normalizeWeak_eq {m : Nat} (hm : m ≤ 31) {a : Fe} (h : Mag m a) :
    Mag 1 (feNormalizeWeak a) ∧ feVal (feNormalizeWeak a) = feVal a := by
  obtain ⟨hv, g0, g1, g2, g3, g4, g5, g6, g7, g8, g9⟩ := pass_eq hm h
  refine ⟨?_, ?_⟩
  · rw [feNormalizeWeak]
    exact ⟨by omega, by omega, by omega, by omega, by omega, by omega, by omega, by omega, by omega, by omega⟩
  · rw [feVal, feVal, hv, feVal_add_mul, feNormalizeWeak]

theorem and_eq_ones {x y : Nat} (hx : x ≤ 0x3FFFFFF) (hy : y ≤ 0x3FFFFFF) :
    x &&& y = 0x3FFFFFF ↔ x = 0x3FFFFFF ∧ y = 0x3FFFFFF := by
  constructor
  · intro h
    have h1 : x &&& y ≤ x := Nat.and_le_left
    have h2 : x &&& y ≤ y := Nat.and_le_right
    omega
  · rintro ⟨rfl, rfl⟩
    decide

theorem and_lt_ones {x y : Nat} (hx : x ≤ 0x3FFFFFF) : x &&& y ≤ 0x3FFFFFF :=
  le_trans Nat.and_le_left hx

/-- The number is that of limbs of 26 bits, the top one of at most 23. -/
structure Passed (t : Fe) : Prop where
  h0 : t.n0 ≤ 0x3FFFFFF
  h1 : t.n1 ≤ 0x3FFFFFF
  h2 : t.n2 ≤ 0x3FFFFFF
  h3 : t.n3 ≤ 0x3FFFFFF
  h4 : t.n4 ≤ 0x3FFFFFF
  h5 : t.n5 ≤ 0x3FFFFFF
  h6 : t.n6 ≤ 0x3FFFFFF
  h7 : t.n7 ≤ 0x3FFFFFF
  h8 : t.n8 ≤ 0x3FFFFFF
  h9 : t.n9 < 4194304 + 64

theorem pass_passed {m : Nat} (hm : m ≤ 31) {a : Fe} (h : Mag m a) : Passed (carry (fold a)) := by
  obtain ⟨-, g0, g1, g2, g3, g4, g5, g6, g7, g8, g9⟩ := pass_eq hm h
  exact ⟨by omega, by omega, by omega, by omega, by omega, by omega, by omega, by omega, by omega, by omega⟩

/-- Lines 67-68: the comparison with the prime. -/
theorem overPrime_eq {t : Fe} (h : Passed t) : overPrime t = if secpP ≤ feNat t then 1 else 0 := by
  obtain ⟨h0, h1, h2, h3, h4, h5, h6, h7, h8, h9⟩ := h
  obtain ⟨n0, n1, n2, n3, n4, n5, n6, n7, n8, n9⟩ := t
  simp only at *
  have hm : (n2 &&& n3 &&& n4 &&& n5 &&& n6 &&& n7 &&& n8) = 0x3FFFFFF ↔
      n2 = 0x3FFFFFF ∧ n3 = 0x3FFFFFF ∧ n4 = 0x3FFFFFF ∧ n5 = 0x3FFFFFF ∧ n6 = 0x3FFFFFF ∧ n7 = 0x3FFFFFF ∧
        n8 = 0x3FFFFFF := by
    rw [and_eq_ones (and_lt_ones (and_lt_ones (and_lt_ones (and_lt_ones (and_lt_ones h2))))) h8,
      and_eq_ones (and_lt_ones (and_lt_ones (and_lt_ones (and_lt_ones h2)))) h7,
      and_eq_ones (and_lt_ones (and_lt_ones (and_lt_ones h2))) h6,
      and_eq_ones (and_lt_ones (and_lt_ones h2)) h5, and_eq_ones (and_lt_ones h2) h4, and_eq_ones h2 h3]
    tauto
  simp only [overPrime, hm, shr22, shr26, feNat, secpP_val]
  by_cases hc : n9 = 0x3FFFFF ∧ (n2 = 0x3FFFFFF ∧ n3 = 0x3FFFFFF ∧ n4 = 0x3FFFFFF ∧ n5 = 0x3FFFFFF ∧
      n6 = 0x3FFFFFF ∧ n7 = 0x3FFFFFF ∧ n8 = 0x3FFFFFF) ∧ n1 + 0x40 + (n0 + 0x3D1) / 67108864 > 0x3FFFFFF
  · rw [if_pos hc]
    obtain ⟨rfl, ⟨rfl, rfl, rfl, rfl, rfl, rfl, rfl⟩, hlow⟩ := hc
    rw [if_pos (by omega)]
    rfl
  · rw [if_neg hc]
    by_cases h22 : 4194304 ≤ n9
    · rw [show n9 / 4194304 = 1 by omega, if_pos (by omega)]
      rfl
    · rw [show n9 / 4194304 = 0 by omega, if_neg]
      · rfl
      · omega

theorem normalize_eq {m : Nat} (hm : m ≤ 31) {a : Fe} (h : Mag m a) :
    Normal (feNormalize a) ∧ feVal (feNormalize a) = feVal a ∧ feNormalizeVar a = feNormalize a := by
  have hv := (pass_eq hm h).1
  have hp := pass_passed hm h
  rw [feVal, feVal, hv, feVal_add_mul, feNormalize, feNormalizeVar]
  generalize carry (fold a) = t at hp hv
  have ho := overPrime_eq hp
  obtain ⟨h0, h1, h2, h3, h4, h5, h6, h7, h8, h9⟩ := hp
  by_cases hc : secpP ≤ feNat t
  · rw [if_pos hc] at ho
    simp only [ho]
    have e0 : u32 (t.n0 + 1 * 977) = t.n0 + 977 := u32_of_lt (by omega)
    have e1 : u32 (t.n1 + u32 (1 <<< 6)) = t.n1 + 64 := u32_of_lt (by show t.n1 + 64 < _; omega)
    simp only [e0, e1]
    have hr : Room { t with n0 := t.n0 + 977, n1 := t.n1 + 64 } :=
      ⟨by simp only; omega, by simp only; omega, by simp only; omega, by simp only; omega, by simp only; omega,
        by simp only; omega, by simp only; omega, by simp only; omega, by simp only; omega, by simp only; omega⟩
    obtain ⟨he, g0, g1, g2, g3, g4, g5, g6, g7, g8, g9⟩ := carry_eq hr
    generalize carry { t with n0 := t.n0 + 977, n1 := t.n1 + 64 } = t' at *
    have hN : feNat { t' with n9 := low22 t'.n9 } + secpP = feNat t := by
      simp only [feNat, secpP_val, low22_eq] at *
      omega
    refine ⟨⟨g0, g1, g2, g3, g4, g5, g6, g7, g8, ?_, ?_⟩, ?_, rfl⟩
    · simp only [low22_eq]
      omega
    · simp only [feNat, secpP_val] at *
      omega
    · rw [← hN]
      push_cast
      rw [show ((secpP : Nat) : SecpF) = 0 from ZMod.natCast_self secpP, add_zero]
  · rw [if_neg hc] at ho
    simp only [ho]
    have e0 : u32 (t.n0 + 0 * 977) = t.n0 := u32_of_lt (by omega)
    have e1 : u32 (t.n1 + u32 (0 <<< 6)) = t.n1 := u32_of_lt (by show t.n1 + 0 < _; omega)
    simp only [e0, e1]
    have hr : Room t := ⟨by omega, by omega, by omega, by omega, by omega, by omega, by omega, by omega, by omega,
      by omega⟩
    have hct : carry t = t := by
      obtain ⟨n0, n1, n2, n3, n4, n5, n6, n7, n8, n9⟩ := t
      simp only at *
      have hz : ∀ x, x ≤ 0x3FFFFFF → x >>> 26 = 0 := fun x hx => by rw [shr26]; omega
      have hl : ∀ x, x ≤ 0x3FFFFFF → low26 x = x := fun x hx => by rw [low26_eq]; omega
      have hu : ∀ x, x ≤ 0x3FFFFFF → u32 (x + 0) = x := fun x hx => u32_of_lt (by omega)
      simp only [carry, hz n0 h0, hu n1 h1, hz n1 h1, hu n2 h2, hz n2 h2, hu n3 h3, hz n3 h3, hu n4 h4, hz n4 h4,
        hu n5 h5, hz n5 h5, hu n6 h6, hz n6 h6, hu n7 h7, hz n7 h7, hu n8 h8, hz n8 h8, hu n9 (by omega),
        hl n0 h0, hl n1 h1, hl n2 h2, hl n3 h3, hl n4 h4, hl n5 h5, hl n6 h6, hl n7 h7, hl n8 h8]
    have h9' : t.n9 < 4194304 := by
      simp only [feNat, secpP_val] at hc
      omega
    have hl9 : low22 t.n9 = t.n9 := by rw [low22_eq]; omega
    have e : ({ carry t with n9 := low22 (carry t).n9 } : Fe) = t := by rw [hct, hl9]
    refine ⟨?_, ?_, ?_⟩
    · show Normal { carry t with n9 := low22 (carry t).n9 }
      rw [e]
      exact ⟨by omega, by omega, by omega, by omega, by omega, by omega, by omega, by omega, by omega, by omega,
        by omega⟩
    · show ((feNat { carry t with n9 := low22 (carry t).n9 } : Nat) : SecpF) = _
      rw [e]
    · show (if (0 : Nat) ≠ 0 then _ else t) = ({ carry t with n9 := low22 (carry t).n9 } : Fe)
      rw [e]
      rfl

/-- The value is zero in the field exactly if the number is zero or the prime. -/
theorem passed_zero {t : Fe} (h : Passed t) : ((feNat t : Nat) : SecpF) = 0 ↔ feNat t = 0 ∨ feNat t = secpP := by
  rw [ZMod.natCast_eq_zero_iff]
  have hlt : feNat t < 2 * secpP := by
    obtain ⟨h0, h1, h2, h3, h4, h5, h6, h7, h8, h9⟩ := h
    simp only [feNat, secpP_val]
    omega
  constructor
  · rintro ⟨k, hk⟩
    have : k < 2 := by
      by_contra hk2
      have : secpP * 2 ≤ secpP * k := Nat.mul_le_mul (le_refl _) (by omega)
      omega
    interval_cases k
    · exact .inl (by omega)
    · exact .inr (by omega)
  · rintro (e | e) <;> rw [e]
    exact dvd_zero _

theorem xor_ones {x k : Nat} (c : Nat) (hc : c = 0x3FFFFFF ^^^ k) : x ^^^ k = 0x3FFFFFF ↔ x = c := by
  subst hc
  constructor
  · intro h
    rw [← h, Nat.xor_assoc, Nat.xor_self, Nat.xor_zero]
  · rintro rfl
    rw [Nat.xor_assoc, Nat.xor_self, Nat.xor_zero]

theorem xor_le {x k : Nat} (hx : x ≤ 0x3FFFFFF) (hk : k ≤ 0x3FFFFFF) : x ^^^ k ≤ 0x3FFFFFF :=
  Nat.le_of_lt_succ (Nat.xor_lt_two_pow (n := 26) (Nat.lt_succ_of_le hx) (Nat.lt_succ_of_le hk))

theorem normalizesToZero_eq {m : Nat} (hm : m ≤ 31) {a : Fe} (h : Mag m a) :
    feNormalizesToZero a = true ↔ feVal a = 0 := by
  have hv := (pass_eq hm h).1
  have hp := pass_passed hm h
  rw [feVal, hv, feVal_add_mul, passed_zero hp, feNormalizesToZero]
  generalize carry (fold a) = t at hp hv
  obtain ⟨h0, h1, h2, h3, h4, h5, h6, h7, h8, h9⟩ := hp
  simp only [Bool.or_eq_true, beq_iff_eq, Nat.or_eq_zero_iff]
  have b0 : t.n0 ^^^ 0x3D0 ≤ 0x3FFFFFF := xor_le h0 (by decide)
  have b1 : t.n1 ^^^ 0x40 ≤ 0x3FFFFFF := xor_le h1 (by decide)
  have b9 : t.n9 ^^^ 0x3C00000 ≤ 0x3FFFFFF := xor_le (by omega) (by decide)
  rw [and_eq_ones (and_lt_ones (and_lt_ones (and_lt_ones (and_lt_ones (and_lt_ones (and_lt_ones (and_lt_ones
      (and_lt_ones b0)))))))) b9,
    and_eq_ones (and_lt_ones (and_lt_ones (and_lt_ones (and_lt_ones (and_lt_ones (and_lt_ones
      (and_lt_ones b0))))))) h8,
    and_eq_ones (and_lt_ones (and_lt_ones (and_lt_ones (and_lt_ones (and_lt_ones (and_lt_ones b0)))))) h7,
    and_eq_ones (and_lt_ones (and_lt_ones (and_lt_ones (and_lt_ones (and_lt_ones b0))))) h6,
    and_eq_ones (and_lt_ones (and_lt_ones (and_lt_ones (and_lt_ones b0)))) h5,
    and_eq_ones (and_lt_ones (and_lt_ones (and_lt_ones b0))) h4,
    and_eq_ones (and_lt_ones (and_lt_ones b0)) h3, and_eq_ones (and_lt_ones b0) h2, and_eq_ones b0 b1,
    xor_ones 0x3FFFC2F (by decide), xor_ones 0x3FFFFBF (by decide), xor_ones 0x3FFFFF (by decide)]
  simp only [feNat, secpP_val]
  omega

/-- The early return of the variant is no answer that the whole would not give. -/
theorem normalizesToZeroVar_eq (a : Fe) : feNormalizesToZeroVar a = feNormalizesToZero a := by
  rw [feNormalizesToZeroVar]
  split
  case isFalse => rfl
  case isTrue h =>
    obtain ⟨hz, ho⟩ := h
    symm
    rw [Bool.eq_false_iff]
    intro ht
    have hn : (carry (fold a)).n0 = low26 (u32 (a.n0 + (a.n9 >>> 22) * 0x3D1)) := rfl
    rw [← hn] at hz ho
    have b : (carry (fold a)).n0 ^^^ 0x3D0 ≤ 0x3FFFFFF :=
      xor_le (by rw [hn, low26_eq]; omega) (by decide)
    simp only [feNormalizesToZero, Bool.or_eq_true, beq_iff_eq, Nat.or_eq_zero_iff] at ht
    rcases ht with ht | ht
    · exact hz (by tauto)
    · refine ho (Nat.le_antisymm b ?_)
      have hle : ∀ {x y : Nat}, 0x3FFFFFF ≤ x &&& y → 0x3FFFFFF ≤ x := fun h => le_trans h Nat.and_le_left
      exact hle (hle (hle (hle (hle (hle (hle (hle (hle (ge_of_eq ht)))))))))

theorem add_eq {m k : Nat} (hm : m + k ≤ 32) {r a : Fe} (hr : Mag m r) (ha : Mag k a) :
    Mag (m + k) (feAdd r a) ∧ feVal (feAdd r a) = feVal r + feVal a := by
  obtain ⟨h0, h1, h2, h3, h4, h5, h6, h7, h8, h9⟩ := hr
  obtain ⟨g0, g1, g2, g3, g4, g5, g6, g7, g8, g9⟩ := ha
  have e : feAdd r a = ⟨r.n0 + a.n0, r.n1 + a.n1, r.n2 + a.n2, r.n3 + a.n3, r.n4 + a.n4, r.n5 + a.n5, r.n6 + a.n6,
      r.n7 + a.n7, r.n8 + a.n8, r.n9 + a.n9⟩ := by
    simp only [feAdd]
    rw [u32_of_lt (by omega), u32_of_lt (by omega), u32_of_lt (by omega), u32_of_lt (by omega), u32_of_lt (by omega),
      u32_of_lt (by omega), u32_of_lt (by omega), u32_of_lt (by omega), u32_of_lt (by omega), u32_of_lt (by omega)]
  rw [e]
  refine ⟨⟨by simp only; omega, by simp only; omega, by simp only; omega, by simp only; omega, by simp only; omega,
    by simp only; omega, by simp only; omega, by simp only; omega, by simp only; omega, by simp only; omega⟩, ?_⟩
  simp only [feVal, feNat]
  push_cast
  ring

theorem mulInt_eq {m k : Nat} (hm : m * k ≤ 32) {r : Fe} (hr : Mag m r) :
    Mag (m * k) (feMulInt r k) ∧ feVal (feMulInt r k) = feVal r * (k : SecpF) := by
  obtain ⟨h0, h1, h2, h3, h4, h5, h6, h7, h8, h9⟩ := hr
  have hb : ∀ {x : Nat}, x ≤ 2 * m * 67108863 → x * k ≤ 2 * (m * k) * 67108863 := fun {x} hx =>
    le_trans (Nat.mul_le_mul hx (le_refl k)) (le_of_eq (by ring))
  have hb9 : ∀ {x : Nat}, x ≤ 2 * m * 4194303 → x * k ≤ 2 * (m * k) * 4194303 := fun {x} hx =>
    le_trans (Nat.mul_le_mul hx (le_refl k)) (le_of_eq (by ring))
  have l0 := hb h0
  have l1 := hb h1
  have l2 := hb h2
  have l3 := hb h3
  have l4 := hb h4
  have l5 := hb h5
  have l6 := hb h6
  have l7 := hb h7
  have l8 := hb h8
  have l9 := hb9 h9
  have e : feMulInt r k = ⟨r.n0 * k, r.n1 * k, r.n2 * k, r.n3 * k, r.n4 * k, r.n5 * k, r.n6 * k,
      r.n7 * k, r.n8 * k, r.n9 * k⟩ := by
    simp only [feMulInt]
    generalize m * k = mk at *
    rw [u32_of_lt (by omega), u32_of_lt (by omega), u32_of_lt (by omega), u32_of_lt (by omega), u32_of_lt (by omega),
      u32_of_lt (by omega), u32_of_lt (by omega), u32_of_lt (by omega), u32_of_lt (by omega), u32_of_lt (by omega)]
  rw [e]
  refine ⟨⟨l0, l1, l2, l3, l4, l5, l6, l7, l8, l9⟩, ?_⟩
  simp only [feVal, feNat]
  push_cast
  ring

theorem sub32_eq {x y : Nat} (hx : x < 4294967296) (hy : y ≤ x) : sub32 x y = x - y := by
  simp only [sub32, u32]
  omega

theorem negate_eq {m : Nat} (hm : m ≤ 31) {a : Fe} (ha : Mag m a) :
    Mag (m + 1) (feNegate a m) ∧ feVal (feNegate a m) = -feVal a := by
  obtain ⟨h0, h1, h2, h3, h4, h5, h6, h7, h8, h9⟩ := ha
  have e : feNegate a m = ⟨0x3FFFC2F * 2 * (m + 1) - a.n0, 0x3FFFFBF * 2 * (m + 1) - a.n1,
      0x3FFFFFF * 2 * (m + 1) - a.n2, 0x3FFFFFF * 2 * (m + 1) - a.n3, 0x3FFFFFF * 2 * (m + 1) - a.n4,
      0x3FFFFFF * 2 * (m + 1) - a.n5, 0x3FFFFFF * 2 * (m + 1) - a.n6, 0x3FFFFFF * 2 * (m + 1) - a.n7,
      0x3FFFFFF * 2 * (m + 1) - a.n8, 0x03FFFFF * 2 * (m + 1) - a.n9⟩ := by
    simp only [feNegate]
    rw [sub32_eq (by omega) (by omega), sub32_eq (by omega) (by omega), sub32_eq (by omega) (by omega),
      sub32_eq (by omega) (by omega), sub32_eq (by omega) (by omega), sub32_eq (by omega) (by omega),
      sub32_eq (by omega) (by omega), sub32_eq (by omega) (by omega), sub32_eq (by omega) (by omega),
      sub32_eq (by omega) (by omega)]
  have hv : feNat (feNegate a m) + feNat a = 0 + 2 * (m + 1) * secpP := by
    rw [e]
    simp only [feNat, secpP_val]
    omega
  refine ⟨?_, ?_⟩
  · rw [e]
    exact ⟨by simp only; omega, by simp only; omega, by simp only; omega, by simp only; omega, by simp only; omega,
      by simp only; omega, by simp only; omega, by simp only; omega, by simp only; omega, by simp only; omega⟩
  · have h : ((feNat (feNegate a m) + feNat a : Nat) : SecpF) = 0 := by
      rw [hv, feVal_add_mul]
      rfl
    push_cast at h
    exact eq_neg_of_add_eq_zero_left h

theorem mag_mono {m k : Nat} (h : m ≤ k) {a : Fe} (ha : Mag m a) : Mag k a := by
  have hb : ∀ {x c : Nat}, x ≤ 2 * m * c → x ≤ 2 * k * c := fun hx =>
    le_trans hx (Nat.mul_le_mul (Nat.mul_le_mul (le_refl 2) h) (le_refl _))
  exact ⟨hb ha.h0, hb ha.h1, hb ha.h2, hb ha.h3, hb ha.h4, hb ha.h5, hb ha.h6, hb ha.h7, hb ha.h8, hb ha.h9⟩

theorem normal_mag {a : Fe} (h : Normal a) : Mag 1 a := by
  obtain ⟨h0, h1, h2, h3, h4, h5, h6, h7, h8, h9, hlt⟩ := h
  clear hlt
  refine ⟨?_, ?_, ?_, ?_, ?_, ?_, ?_, ?_, ?_, ?_⟩ <;> omega

theorem setInt_eq {n : Nat} (h : n ≤ 2 * 0x3FFFFFF) : Mag 1 (feSetInt n) ∧ feVal (feSetInt n) = (n : SecpF) := by
  have e : u32 n = n := u32_of_lt (by omega)
  refine ⟨⟨by rw [feSetInt, e]; omega, Nat.zero_le _, Nat.zero_le _, Nat.zero_le _, Nat.zero_le _, Nat.zero_le _,
    Nat.zero_le _, Nat.zero_le _, Nat.zero_le _, Nat.zero_le _⟩, ?_⟩
  simp only [feVal, feNat, feSetInt, e]
  simp

/-- One step of the product: nothing is lost, and the accumulators stay small. -/
theorem colStep_eq {c d pc pd : Nat} (hc : c < 2 ^ 38) (hd : d < 2 ^ 38) (hpc : pc ≤ 9 * 2 ^ 60)
    (hpd : pd ≤ 9 * 2 ^ 60) :
    ∃ c' d' t u, colStep c d pc pd = ⟨c', d', t⟩ ∧ c' < 2 ^ 38 ∧ d' < 2 ^ 38 ∧ t < 67108864 ∧
      67108864 * c' + t = c + pc + u * (15632 + 1024 * 67108864) ∧ d + pd = 67108864 * d' + u := by
  simp only [colStep, low26_eq, shr26]
  rw [u64_of_lt (x := d + pd) (by omega), u64_of_lt (x := c + pc) (by omega)]
  have hu : (d + pd) % 67108864 < 67108864 := Nat.mod_lt _ (by decide)
  rw [u64_of_lt (x := c + pc + (d + pd) % 67108864 * 15632) (by omega)]
  rw [u64_of_lt (x := (c + pc + (d + pd) % 67108864 * 15632) / 67108864 + (d + pd) % 67108864 * 1024) (by omega)]
  exact ⟨_, _, _, (d + pd) % 67108864, rfl, by omega, by omega, Nat.mod_lt _ (by decide), by omega, by omega⟩

/-- The end of the product. -/
theorem finishCols_eq {c d t0 t1 t2 t3 t4 t5 t6 t7 t8 t9 : Nat} (hc : c < 2 ^ 38) (hd : d < 2 ^ 27)
    (h0 : t0 < 67108864) (h1 : t1 < 67108864) (h2 : t2 < 67108864) (h9 : t9 < 67108864) :
    ∃ r0 r1 r2 r9 x y e f, finishCols c d t0 t1 t2 t3 t4 t5 t6 t7 t8 t9 =
        ⟨r0, r1, r2, t3, t4, t5, t6, t7, t8, r9⟩ ∧ r0 < 67108864 ∧ r1 < 67108864 ∧ r2 < 2 * 67108863 ∧ r9 < 4194304 ∧
      c + (d * 15632 + t9) = 4194304 * x + r9 ∧ y = x + d * 16384 ∧ y * 977 + t0 = 67108864 * e + r0 ∧
      e + (y * 64 + t1) = 67108864 * f + r1 ∧ r2 = f + t2 := by
  have e1 : (0x400 : Nat) <<< 4 = 16384 := by decide
  have e2 : (0x3D10 : Nat) >>> 4 = 977 := by decide
  have e3 : (0x400 : Nat) >>> 4 = 64 := by decide
  have hm : ∀ x, x &&& (67108863 >>> 4) = x % 4194304 := fun x => low22_eq x
  simp only [finishCols, hm, e1, e2, e3, low26_eq, shr26, shr22]
  rw [u64_of_lt (x := d * 15632 + t9) (by omega), u64_of_lt (x := c + (d * 15632 + t9)) (by omega)]
  have F1 : c + (d * 15632 + t9) = 4194304 * ((c + (d * 15632 + t9)) / 4194304) +
    (c + (d * 15632 + t9)) % 4194304 := by omega
  have br9 : (c + (d * 15632 + t9)) % 4194304 < 4194304 := Nat.mod_lt _ (by decide)
  have bx : (c + (d * 15632 + t9)) / 4194304 < 2 ^ 21 := by omega
  generalize (c + (d * 15632 + t9)) / 4194304 = x at *
  generalize (c + (d * 15632 + t9)) % 4194304 = r9 at *
  rw [u64_of_lt (x := x + d * 16384) (by omega)]
  have bY : x + d * 16384 < 2 ^ 42 := by omega
  generalize Y : x + d * 16384 = y at *
  rw [u64_of_lt (x := y * 977 + t0) (by omega)]
  have F2 : y * 977 + t0 = 67108864 * ((y * 977 + t0) / 67108864) + (y * 977 + t0) % 67108864 := by omega
  have br0 : (y * 977 + t0) % 67108864 < 67108864 := Nat.mod_lt _ (by decide)
  have be : (y * 977 + t0) / 67108864 < 2 ^ 27 := by omega
  generalize (y * 977 + t0) / 67108864 = e at *
  generalize (y * 977 + t0) % 67108864 = r0 at *
  rw [u64_of_lt (x := y * 64 + t1) (by omega), u64_of_lt (x := e + (y * 64 + t1)) (by omega)]
  have F3 : e + (y * 64 + t1) = 67108864 * ((e + (y * 64 + t1)) / 67108864) + (e + (y * 64 + t1)) % 67108864 := by
    omega
  have br1 : (e + (y * 64 + t1)) % 67108864 < 67108864 := Nat.mod_lt _ (by decide)
  have bf : (e + (y * 64 + t1)) / 67108864 < 2 ^ 23 := by omega
  generalize (e + (y * 64 + t1)) / 67108864 = f at *
  generalize (e + (y * 64 + t1)) % 67108864 = r1 at *
  rw [u64_of_lt (x := f + t2) (by omega), u32_of_lt (x := f + t2) (by omega)]
  exact ⟨r0, r1, f + t2, r9, x, y, e, f, rfl, br0, br1, by omega, br9, F1, Y.symm, F2, F3, rfl⟩

/-- The number of the sums of products. -/
def colsVal (p : Cols) : SecpF :=
    (p.p0 : SecpF) * (2 ^ 26) ^ 0 + (p.p1 : SecpF) * (2 ^ 26) ^ 1 + (p.p2 : SecpF) * (2 ^ 26) ^ 2 + (p.p3 : SecpF) * (2 ^ 26) ^ 3 +
    (p.p4 : SecpF) * (2 ^ 26) ^ 4 + (p.p5 : SecpF) * (2 ^ 26) ^ 5 + (p.p6 : SecpF) * (2 ^ 26) ^ 6 + (p.p7 : SecpF) * (2 ^ 26) ^ 7 +
    (p.p8 : SecpF) * (2 ^ 26) ^ 8 + (p.p9 : SecpF) * (2 ^ 26) ^ 9 + (p.p10 : SecpF) * (2 ^ 26) ^ 10 + (p.p11 : SecpF) * (2 ^ 26) ^ 11 +
    (p.p12 : SecpF) * (2 ^ 26) ^ 12 + (p.p13 : SecpF) * (2 ^ 26) ^ 13 + (p.p14 : SecpF) * (2 ^ 26) ^ 14 + (p.p15 : SecpF) * (2 ^ 26) ^ 15 +
    (p.p16 : SecpF) * (2 ^ 26) ^ 16 + (p.p17 : SecpF) * (2 ^ 26) ^ 17 + (p.p18 : SecpF) * (2 ^ 26) ^ 18

theorem natCast_congr {x y : Nat} (h : x = y) : (x : SecpF) = (y : SecpF) := congrArg _ h

/-- The bounds of the sums of products. -/
structure ColsBound (p : Cols) : Prop where
  h0 : p.p0 ≤ 9 * 2 ^ 60
  h1 : p.p1 ≤ 9 * 2 ^ 60
  h2 : p.p2 ≤ 9 * 2 ^ 60
  h3 : p.p3 ≤ 9 * 2 ^ 60
  h4 : p.p4 ≤ 9 * 2 ^ 60
  h5 : p.p5 ≤ 9 * 2 ^ 60
  h6 : p.p6 ≤ 9 * 2 ^ 60
  h7 : p.p7 ≤ 9 * 2 ^ 60
  h8 : p.p8 ≤ 9 * 2 ^ 60
  h9 : p.p9 ≤ 9 * 2 ^ 60
  h10 : p.p10 ≤ 9 * 2 ^ 60
  h11 : p.p11 ≤ 9 * 2 ^ 60
  h12 : p.p12 ≤ 9 * 2 ^ 60
  h13 : p.p13 ≤ 9 * 2 ^ 60
  h14 : p.p14 ≤ 9 * 2 ^ 60
  h15 : p.p15 ≤ 9 * 2 ^ 60
  h16 : p.p16 ≤ 9 * 2 ^ 60
  h17 : p.p17 ≤ 2 ^ 58
  h18 : p.p18 ≤ 2 ^ 52

theorem bound_trans {x a b : Nat} (h : x ≤ a) (hab : a ≤ b) : x ≤ b := le_trans h hab

theorem d8_lt {d p d' u : Nat} (hd : d < 2 ^ 38) (hp : p ≤ 2 ^ 58) (h : d + p = 67108864 * d' + u) : d' < 2 ^ 33 := by
  omega

theorem d9_lt {d p d' u : Nat} (hd : d < 2 ^ 33) (hp : p ≤ 2 ^ 52) (h : d + p = 67108864 * d' + u) : d' < 2 ^ 27 := by
  omega

theorem first_col {p : Nat} (hp : p ≤ 9 * 2 ^ 60) :
    ∃ d t, u64 p = p ∧ p >>> 26 = d ∧ low26 p = t ∧ d < 2 ^ 38 ∧ t < 67108864 ∧ p = 67108864 * d + t := by
  refine ⟨_, _, u64_of_lt (by omega), rfl, rfl, ?_, ?_, ?_⟩ <;> simp only [low26_eq, shr26] <;> omega

theorem reduceCols_eq {p : Cols} (h : ColsBound p) :
    Mag 1 (reduceCols p) ∧ feVal (reduceCols p) = colsVal p := by
  obtain ⟨h0, h1, h2, h3, h4, h5, h6, h7, h8, h9, h10, h11, h12, h13, h14, h15, h16, h17, h18⟩ := h
  obtain ⟨d0, t9, k1, k2, k3, b0, ht9, P9⟩ := first_col h9
  obtain ⟨c1, d1, t0, u0, e0, hc1, b1, ht0, E0, D0⟩ :=
    colStep_eq (c := 0) (d := d0) (by decide) b0 h0 h10
  obtain ⟨c2, d2, t1, u1, e1, hc2, b2, ht1, E1, D1⟩ :=
    colStep_eq (c := c1) (d := d1) hc1 b1 h1 h11
  obtain ⟨c3, d3, t2, u2, e2, hc3, b3, ht2, E2, D2⟩ :=
    colStep_eq (c := c2) (d := d2) hc2 b2 h2 h12
  obtain ⟨c4, d4, t3, u3, e3, hc4, b4, ht3, E3, D3⟩ :=
    colStep_eq (c := c3) (d := d3) hc3 b3 h3 h13
  obtain ⟨c5, d5, t4, u4, e4, hc5, b5, ht4, E4, D4⟩ :=
    colStep_eq (c := c4) (d := d4) hc4 b4 h4 h14
  obtain ⟨c6, d6, t5, u5, e5, hc6, b6, ht5, E5, D5⟩ :=
    colStep_eq (c := c5) (d := d5) hc5 b5 h5 h15
  obtain ⟨c7, d7, t6, u6, e6, hc7, b7, ht6, E6, D6⟩ :=
    colStep_eq (c := c6) (d := d6) hc6 b6 h6 h16
  obtain ⟨c8, d8, t7, u7, e7, hc8, b8, ht7, E7, D7⟩ :=
    colStep_eq (c := c7) (d := d7) hc7 b7 h7 (bound_trans h17 (by decide))
  obtain ⟨c9, d9, t8, u8, e8, hc9, b9, ht8, E8, D8⟩ :=
    colStep_eq (c := c8) (d := d8) hc8 b8 h8 (bound_trans h18 (by decide))
  have hd9 := d9_lt (d8_lt b7 h17 D7) h18 D8
  obtain ⟨r0, r1, r2, r9, x, y, e, f, eF, br0, br1, br2, br9, F1, Y, F2, F3, R2⟩ :=
    finishCols_eq (t3 := t3) (t4 := t4) (t5 := t5) (t6 := t6) (t7 := t7) (t8 := t8) hc9 hd9 ht0 ht1 ht2 ht9
  have hr : reduceCols p = ⟨r0, r1, r2, t3, t4, t5, t6, t7, t8, r9⟩ := by
    simp only [reduceCols, k1, k2, k3, e0, e1, e2, e3, e4, e5, e6, e7, e8, eF]
  rw [hr]
  refine ⟨⟨Nat.le_of_lt (lt_trans br0 (by decide)), Nat.le_of_lt (lt_trans br1 (by decide)), Nat.le_of_lt br2,
    Nat.le_of_lt (lt_trans ht3 (by decide)), Nat.le_of_lt (lt_trans ht4 (by decide)),
    Nat.le_of_lt (lt_trans ht5 (by decide)), Nat.le_of_lt (lt_trans ht6 (by decide)),
    Nat.le_of_lt (lt_trans ht7 (by decide)), Nat.le_of_lt (lt_trans ht8 (by decide)),
    Nat.le_of_lt (lt_trans br9 (by decide))⟩, ?_⟩
  simp only [feVal, feNat, colsVal]
  have T := two256
  clear h0 h1 h2 h3 h4 h5 h6 h7 h8 h9 h10 h11 h12 h13 h14 h15 h16 h17 h18 k1 k2 k3 e0 e1 e2 e3 e4 e5 e6 e7 e8 eF hr
  replace P9 := natCast_congr P9
  replace E0 := natCast_congr E0
  replace D0 := natCast_congr D0
  replace E1 := natCast_congr E1
  replace D1 := natCast_congr D1
  replace E2 := natCast_congr E2
  replace D2 := natCast_congr D2
  replace E3 := natCast_congr E3
  replace D3 := natCast_congr D3
  replace E4 := natCast_congr E4
  replace D4 := natCast_congr D4
  replace E5 := natCast_congr E5
  replace D5 := natCast_congr D5
  replace E6 := natCast_congr E6
  replace D6 := natCast_congr D6
  replace E7 := natCast_congr E7
  replace D7 := natCast_congr D7
  replace E8 := natCast_congr E8
  replace D8 := natCast_congr D8
  replace F1 := natCast_congr F1
  replace F2 := natCast_congr F2
  replace F3 := natCast_congr F3
  replace Y := natCast_congr Y
  replace R2 := natCast_congr R2
  push_cast at P9 E0 D0 E1 D1 E2 D2 E3 D3 E4 D4 E5 D5 E6 D6 E7 D7 E8 D8 F1 F2 F3 Y R2 ⊢
  linear_combination (exp := 1) -F2 - 67108864 * F3 + 2 ^ 52 * R2 - 2 ^ 234 * F1 + 4294968273 * Y +
    2 ^ 0 * E0 - 2 ^ 0 * (15632 + 1024 * 67108864) * D0 +
    2 ^ 26 * E1 - 2 ^ 26 * (15632 + 1024 * 67108864) * D1 +
    2 ^ 52 * E2 - 2 ^ 52 * (15632 + 1024 * 67108864) * D2 +
    2 ^ 78 * E3 - 2 ^ 78 * (15632 + 1024 * 67108864) * D3 +
    2 ^ 104 * E4 - 2 ^ 104 * (15632 + 1024 * 67108864) * D4 +
    2 ^ 130 * E5 - 2 ^ 130 * (15632 + 1024 * 67108864) * D5 +
    2 ^ 156 * E6 - 2 ^ 156 * (15632 + 1024 * 67108864) * D6 +
    2 ^ 182 * E7 - 2 ^ 182 * (15632 + 1024 * 67108864) * D7 +
    2 ^ 208 * E8 - 2 ^ 208 * (15632 + 1024 * 67108864) * D8 -
    2 ^ 234 * P9 + (-(x : SecpF) - 16 * (2 ^ 0 * (p.p10 : SecpF) + 2 ^ 26 * (p.p11 : SecpF) + 2 ^ 52 * (p.p12 : SecpF) +
       2 ^ 78 * (p.p13 : SecpF) + 2 ^ 104 * (p.p14 : SecpF) + 2 ^ 130 * (p.p15 : SecpF) +
       2 ^ 156 * (p.p16 : SecpF) + 2 ^ 182 * (p.p17 : SecpF) + 2 ^ 208 * (p.p18 : SecpF)) -
      16 * (d0 : SecpF) - 16384 * (d9 : SecpF)) * T

theorem prod_le {x y : Nat} (hx : x ≤ 2 ^ 30) (hy : y ≤ 2 ^ 30) : x * y ≤ 2 ^ 60 :=
  le_trans (Nat.mul_le_mul hx hy) (by decide)
theorem prod_le_top {x y : Nat} (hx : x ≤ 2 ^ 30) (hy : y ≤ 2 ^ 26) : x * y ≤ 2 ^ 56 :=
  le_trans (Nat.mul_le_mul hx hy) (by decide)
theorem prod_top_le {x y : Nat} (hx : x ≤ 2 ^ 26) (hy : y ≤ 2 ^ 30) : x * y ≤ 2 ^ 56 :=
  le_trans (Nat.mul_le_mul hx hy) (by decide)
theorem prod_top_top {x y : Nat} (hx : x ≤ 2 ^ 26) (hy : y ≤ 2 ^ 26) : x * y ≤ 2 ^ 52 :=
  le_trans (Nat.mul_le_mul hx hy) (by decide)
theorem dbl_le {x y : Nat} (hx : x ≤ 2 ^ 30) (hy : y ≤ 2 ^ 30) : x * 2 * y ≤ 2 ^ 61 :=
  le_trans (Nat.mul_le_mul (Nat.mul_le_mul hx (le_refl 2)) hy) (by decide)
theorem dbl_le_top {x y : Nat} (hx : x ≤ 2 ^ 30) (hy : y ≤ 2 ^ 26) : x * 2 * y ≤ 2 ^ 57 :=
  le_trans (Nat.mul_le_mul (Nat.mul_le_mul hx (le_refl 2)) hy) (by decide)

/-- The bounds of the comments of field_10x26_impl.h:446-465. -/
structure MulBound (a : Fe) : Prop where
  h0 : a.n0 ≤ 2 ^ 30
  h1 : a.n1 ≤ 2 ^ 30
  h2 : a.n2 ≤ 2 ^ 30
  h3 : a.n3 ≤ 2 ^ 30
  h4 : a.n4 ≤ 2 ^ 30
  h5 : a.n5 ≤ 2 ^ 30
  h6 : a.n6 ≤ 2 ^ 30
  h7 : a.n7 ≤ 2 ^ 30
  h8 : a.n8 ≤ 2 ^ 30
  h9 : a.n9 ≤ 2 ^ 26

theorem mag_mulBound {m : Nat} (hm : m ≤ 8) {a : Fe} (h : Mag m a) : MulBound a := by
  obtain ⟨h0, h1, h2, h3, h4, h5, h6, h7, h8, h9⟩ := mag_mono hm h
  exact ⟨le_trans h0 (by decide), le_trans h1 (by decide), le_trans h2 (by decide), le_trans h3 (by decide),
    le_trans h4 (by decide), le_trans h5 (by decide), le_trans h6 (by decide), le_trans h7 (by decide),
    le_trans h8 (by decide), le_trans h9 (by decide)⟩

theorem mulCols_bound {a b : Fe} (ha : MulBound a) (hb : MulBound b) : ColsBound (mulCols a b) where
  h0 := le_trans (prod_le ha.h0 hb.h0) (by decide)
  h1 := le_trans (Nat.add_le_add (prod_le ha.h0 hb.h1) (prod_le ha.h1 hb.h0)) (by decide)
  h2 := le_trans (Nat.add_le_add (Nat.add_le_add (prod_le ha.h0 hb.h2) (prod_le ha.h1 hb.h1)) (prod_le ha.h2
      hb.h0)) (by decide)
  h3 := le_trans (Nat.add_le_add (Nat.add_le_add (Nat.add_le_add (prod_le ha.h0 hb.h3) (prod_le ha.h1
      hb.h2)) (prod_le ha.h2 hb.h1)) (prod_le ha.h3 hb.h0)) (by decide)
  h4 := le_trans (Nat.add_le_add (Nat.add_le_add (Nat.add_le_add (Nat.add_le_add (prod_le ha.h0 hb.h4)
      (prod_le ha.h1 hb.h3)) (prod_le ha.h2 hb.h2)) (prod_le ha.h3 hb.h1)) (prod_le ha.h4 hb.h0)) (by
      decide)
  h5 := le_trans (Nat.add_le_add (Nat.add_le_add (Nat.add_le_add (Nat.add_le_add (Nat.add_le_add (prod_le
      ha.h0 hb.h5) (prod_le ha.h1 hb.h4)) (prod_le ha.h2 hb.h3)) (prod_le ha.h3 hb.h2)) (prod_le ha.h4
      hb.h1)) (prod_le ha.h5 hb.h0)) (by decide)
  h6 := le_trans (Nat.add_le_add (Nat.add_le_add (Nat.add_le_add (Nat.add_le_add (Nat.add_le_add
      (Nat.add_le_add (prod_le ha.h0 hb.h6) (prod_le ha.h1 hb.h5)) (prod_le ha.h2 hb.h4)) (prod_le ha.h3
      hb.h3)) (prod_le ha.h4 hb.h2)) (prod_le ha.h5 hb.h1)) (prod_le ha.h6 hb.h0)) (by decide)
  h7 := le_trans (Nat.add_le_add (Nat.add_le_add (Nat.add_le_add (Nat.add_le_add (Nat.add_le_add
      (Nat.add_le_add (Nat.add_le_add (prod_le ha.h0 hb.h7) (prod_le ha.h1 hb.h6)) (prod_le ha.h2 hb.h5))
      (prod_le ha.h3 hb.h4)) (prod_le ha.h4 hb.h3)) (prod_le ha.h5 hb.h2)) (prod_le ha.h6 hb.h1)) (prod_le
      ha.h7 hb.h0)) (by decide)
  h8 := le_trans (Nat.add_le_add (Nat.add_le_add (Nat.add_le_add (Nat.add_le_add (Nat.add_le_add
      (Nat.add_le_add (Nat.add_le_add (Nat.add_le_add (prod_le ha.h0 hb.h8) (prod_le ha.h1 hb.h7)) (prod_le
      ha.h2 hb.h6)) (prod_le ha.h3 hb.h5)) (prod_le ha.h4 hb.h4)) (prod_le ha.h5 hb.h3)) (prod_le ha.h6
      hb.h2)) (prod_le ha.h7 hb.h1)) (prod_le ha.h8 hb.h0)) (by decide)
  h9 := le_trans (Nat.add_le_add (Nat.add_le_add (Nat.add_le_add (Nat.add_le_add (Nat.add_le_add
      (Nat.add_le_add (Nat.add_le_add (Nat.add_le_add (Nat.add_le_add (prod_le_top ha.h0 hb.h9) (prod_le
      ha.h1 hb.h8)) (prod_le ha.h2 hb.h7)) (prod_le ha.h3 hb.h6)) (prod_le ha.h4 hb.h5)) (prod_le ha.h5
      hb.h4)) (prod_le ha.h6 hb.h3)) (prod_le ha.h7 hb.h2)) (prod_le ha.h8 hb.h1)) (prod_top_le ha.h9
      hb.h0)) (by decide)
  h10 := le_trans (Nat.add_le_add (Nat.add_le_add (Nat.add_le_add (Nat.add_le_add (Nat.add_le_add
      (Nat.add_le_add (Nat.add_le_add (Nat.add_le_add (prod_le_top ha.h1 hb.h9) (prod_le ha.h2 hb.h8))
      (prod_le ha.h3 hb.h7)) (prod_le ha.h4 hb.h6)) (prod_le ha.h5 hb.h5)) (prod_le ha.h6 hb.h4)) (prod_le
      ha.h7 hb.h3)) (prod_le ha.h8 hb.h2)) (prod_top_le ha.h9 hb.h1)) (by decide)
  h11 := le_trans (Nat.add_le_add (Nat.add_le_add (Nat.add_le_add (Nat.add_le_add (Nat.add_le_add
      (Nat.add_le_add (Nat.add_le_add (prod_le_top ha.h2 hb.h9) (prod_le ha.h3 hb.h8)) (prod_le ha.h4
      hb.h7)) (prod_le ha.h5 hb.h6)) (prod_le ha.h6 hb.h5)) (prod_le ha.h7 hb.h4)) (prod_le ha.h8 hb.h3))
      (prod_top_le ha.h9 hb.h2)) (by decide)
  h12 := le_trans (Nat.add_le_add (Nat.add_le_add (Nat.add_le_add (Nat.add_le_add (Nat.add_le_add
      (Nat.add_le_add (prod_le_top ha.h3 hb.h9) (prod_le ha.h4 hb.h8)) (prod_le ha.h5 hb.h7)) (prod_le ha.h6
      hb.h6)) (prod_le ha.h7 hb.h5)) (prod_le ha.h8 hb.h4)) (prod_top_le ha.h9 hb.h3)) (by decide)
  h13 := le_trans (Nat.add_le_add (Nat.add_le_add (Nat.add_le_add (Nat.add_le_add (Nat.add_le_add
      (prod_le_top ha.h4 hb.h9) (prod_le ha.h5 hb.h8)) (prod_le ha.h6 hb.h7)) (prod_le ha.h7 hb.h6))
      (prod_le ha.h8 hb.h5)) (prod_top_le ha.h9 hb.h4)) (by decide)
  h14 := le_trans (Nat.add_le_add (Nat.add_le_add (Nat.add_le_add (Nat.add_le_add (prod_le_top ha.h5 hb.h9)
      (prod_le ha.h6 hb.h8)) (prod_le ha.h7 hb.h7)) (prod_le ha.h8 hb.h6)) (prod_top_le ha.h9 hb.h5)) (by
      decide)
  h15 := le_trans (Nat.add_le_add (Nat.add_le_add (Nat.add_le_add (prod_le_top ha.h6 hb.h9) (prod_le ha.h7
      hb.h8)) (prod_le ha.h8 hb.h7)) (prod_top_le ha.h9 hb.h6)) (by decide)
  h16 := le_trans (Nat.add_le_add (Nat.add_le_add (prod_le_top ha.h7 hb.h9) (prod_le ha.h8 hb.h8))
      (prod_top_le ha.h9 hb.h7)) (by decide)
  h17 := le_trans (Nat.add_le_add (prod_le_top ha.h8 hb.h9) (prod_top_le ha.h9 hb.h8)) (by decide)
  h18 := le_trans (prod_top_top ha.h9 hb.h9) (by decide)

theorem sqrCols_bound {a : Fe} (ha : MulBound a) : ColsBound (sqrCols a) := by
  have hb : ∀ {x : Nat}, x ≤ 2 ^ 30 → u32 (x * 2) = x * 2 := fun hx => u32_of_lt (by omega)
  simp only [sqrCols, hb ha.h0, hb ha.h1, hb ha.h2, hb ha.h3, hb ha.h4, hb ha.h5, hb ha.h6, hb ha.h7, hb ha.h8]
  exact {
    h0 := le_trans (prod_le ha.h0 ha.h0) (by decide)
    h1 := le_trans (dbl_le ha.h0 ha.h1) (by decide)
    h2 := le_trans (Nat.add_le_add (dbl_le ha.h0 ha.h2) (prod_le ha.h1 ha.h1)) (by decide)
    h3 := le_trans (Nat.add_le_add (dbl_le ha.h0 ha.h3) (dbl_le ha.h1 ha.h2)) (by decide)
    h4 := le_trans (Nat.add_le_add (Nat.add_le_add (dbl_le ha.h0 ha.h4) (dbl_le ha.h1 ha.h3)) (prod_le ha.h2
      ha.h2)) (by decide)
    h5 := le_trans (Nat.add_le_add (Nat.add_le_add (dbl_le ha.h0 ha.h5) (dbl_le ha.h1 ha.h4)) (dbl_le ha.h2
      ha.h3)) (by decide)
    h6 := le_trans (Nat.add_le_add (Nat.add_le_add (Nat.add_le_add (dbl_le ha.h0 ha.h6) (dbl_le ha.h1
      ha.h5)) (dbl_le ha.h2 ha.h4)) (prod_le ha.h3 ha.h3)) (by decide)
    h7 := le_trans (Nat.add_le_add (Nat.add_le_add (Nat.add_le_add (dbl_le ha.h0 ha.h7) (dbl_le ha.h1
      ha.h6)) (dbl_le ha.h2 ha.h5)) (dbl_le ha.h3 ha.h4)) (by decide)
    h8 := le_trans (Nat.add_le_add (Nat.add_le_add (Nat.add_le_add (Nat.add_le_add (dbl_le ha.h0 ha.h8)
      (dbl_le ha.h1 ha.h7)) (dbl_le ha.h2 ha.h6)) (dbl_le ha.h3 ha.h5)) (prod_le ha.h4 ha.h4)) (by decide)
    h9 := le_trans (Nat.add_le_add (Nat.add_le_add (Nat.add_le_add (Nat.add_le_add (dbl_le_top ha.h0 ha.h9)
      (dbl_le ha.h1 ha.h8)) (dbl_le ha.h2 ha.h7)) (dbl_le ha.h3 ha.h6)) (dbl_le ha.h4 ha.h5)) (by decide)
    h10 := le_trans (Nat.add_le_add (Nat.add_le_add (Nat.add_le_add (Nat.add_le_add (dbl_le_top ha.h1 ha.h9)
      (dbl_le ha.h2 ha.h8)) (dbl_le ha.h3 ha.h7)) (dbl_le ha.h4 ha.h6)) (prod_le ha.h5 ha.h5)) (by decide)
    h11 := le_trans (Nat.add_le_add (Nat.add_le_add (Nat.add_le_add (dbl_le_top ha.h2 ha.h9) (dbl_le ha.h3
      ha.h8)) (dbl_le ha.h4 ha.h7)) (dbl_le ha.h5 ha.h6)) (by decide)
    h12 := le_trans (Nat.add_le_add (Nat.add_le_add (Nat.add_le_add (dbl_le_top ha.h3 ha.h9) (dbl_le ha.h4
      ha.h8)) (dbl_le ha.h5 ha.h7)) (prod_le ha.h6 ha.h6)) (by decide)
    h13 := le_trans (Nat.add_le_add (Nat.add_le_add (dbl_le_top ha.h4 ha.h9) (dbl_le ha.h5 ha.h8)) (dbl_le
      ha.h6 ha.h7)) (by decide)
    h14 := le_trans (Nat.add_le_add (Nat.add_le_add (dbl_le_top ha.h5 ha.h9) (dbl_le ha.h6 ha.h8)) (prod_le
      ha.h7 ha.h7)) (by decide)
    h15 := le_trans (Nat.add_le_add (dbl_le_top ha.h6 ha.h9) (dbl_le ha.h7 ha.h8)) (by decide)
    h16 := le_trans (Nat.add_le_add (dbl_le_top ha.h7 ha.h9) (prod_le ha.h8 ha.h8)) (by decide)
    h17 := le_trans (dbl_le_top ha.h8 ha.h9) (by decide)
    h18 := le_trans (prod_top_top ha.h9 ha.h9) (by decide) }

theorem mul_eq {m k : Nat} (hm : m ≤ 8) (hk : k ≤ 8) {a b : Fe} (ha : Mag m a) (hb : Mag k b) :
    Mag 1 (feMul a b) ∧ feVal (feMul a b) = feVal a * feVal b := by
  obtain ⟨h1, h2⟩ := reduceCols_eq (mulCols_bound (mag_mulBound hm ha) (mag_mulBound hk hb))
  refine ⟨h1, h2.trans ?_⟩
  simp only [colsVal, mulCols, feVal, feNat]
  push_cast
  ring

theorem sqr_eq {m : Nat} (hm : m ≤ 8) {a : Fe} (ha : Mag m a) :
    Mag 1 (feSqr a) ∧ feVal (feSqr a) = feVal a ^ 2 := by
  obtain ⟨h1, h2⟩ := reduceCols_eq (sqrCols_bound (mag_mulBound hm ha))
  refine ⟨h1, h2.trans ?_⟩
  have hb : ∀ {x : Nat}, x ≤ 2 ^ 30 → u32 (x * 2) = x * 2 := fun hx => u32_of_lt (by omega)
  have ha := mag_mulBound hm ha
  simp only [colsVal, sqrCols, feVal, feNat, hb ha.h0, hb ha.h1, hb ha.h2, hb ha.h3, hb ha.h4, hb ha.h5, hb ha.h6,
    hb ha.h7, hb ha.h8]
  push_cast
  ring

end Verif.Proofs
