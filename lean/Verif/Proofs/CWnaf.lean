import Verif.Model.CEcmult
import Verif.Proofs.CScalar
/-!
# The digits of scalars in the C library: proofs
-/

namespace Verif.Proofs
open Verif.C Verif.Spec

/-! ## Bits -/

theorem limb_eq {a : Sc} (h : ScFits a) {i : Nat} (hi : i < 8) : a.limb i = scNat a / 2 ^ (32 * i) % 2 ^ 32 := by
  obtain ⟨h0, h1, h2, h3, h4, h5, h6, h7⟩ := h
  rw [scNat]
  have : i = 0 ∨ i = 1 ∨ i = 2 ∨ i = 3 ∨ i = 4 ∨ i = 5 ∨ i = 6 ∨ i = 7 := by omega
  rcases this with rfl | rfl | rfl | rfl | rfl | rfl | rfl | rfl <;> (simp only [Sc.limb]; omega)

theorem limb_bit {a : Sc} (h : ScFits a) {i : Nat} (hi : i < 8) (j : Nat) :
    (a.limb i).testBit j = (decide (j < 32) && (scNat a).testBit (32 * i + j)) := by
  rw [limb_eq h hi, Nat.testBit_mod_two_pow, Nat.testBit_div_two_pow, Nat.add_comm]

theorem and_31 (o : Nat) : o &&& 0x1F = o % 32 := Nat.and_two_pow_sub_one_eq_mod o 5

theorem shr_5 (o : Nat) : o >>> 5 = o / 32 := Nat.shiftRight_eq_div_pow o 5

theorem getBits_eq {a : Sc} (h : ScFits a) {o c : Nat} (ho : o % 32 + c ≤ 32) (h8 : o < 256) :
    scGetBits a o c = scNat a / 2 ^ o % 2 ^ c := by
  refine Nat.eq_of_testBit_eq fun i => ?_
  rw [scGetBits, and_31, shr_5, Nat.one_shiftLeft, Nat.testBit_and, Nat.testBit_shiftRight, Nat.testBit_two_pow_sub_one,
    limb_bit h (by omega), Nat.testBit_mod_two_pow, Nat.testBit_div_two_pow]
  by_cases hi : i < c
  · rw [show 32 * (o / 32) + (o % 32 + i) = i + o by omega]
    simp [hi, show o % 32 + i < 32 by omega]
  · simp [hi]

theorem getBitsVar_eq {a : Sc} (h : ScFits a) {o c : Nat} (hc0 : 0 < c) (hc : c < 32) (h8 : o + c ≤ 256) :
    scGetBitsVar a o c = scNat a / 2 ^ o % 2 ^ c := by
  rw [scGetBitsVar, shr_5, shr_5]
  split
  case isTrue e => exact getBits_eq h (by omega) (by omega)
  case isFalse e =>
    refine Nat.eq_of_testBit_eq fun i => ?_
    rw [and_31, Nat.one_shiftLeft, Nat.testBit_and, Nat.testBit_or, Nat.testBit_shiftRight, Nat.testBit_two_pow_sub_one,
      limb_bit h (by omega), Nat.testBit_mod_two_pow, Nat.testBit_div_two_pow]
    by_cases hi : i < c
    · rw [show u32 (a.limb (o / 32 + 1) <<< (32 - o % 32)) = a.limb (o / 32 + 1) <<< (32 - o % 32) % 2 ^ 32 from rfl,
        Nat.testBit_mod_two_pow, Nat.testBit_shiftLeft, limb_bit h (by omega), show 32 * (o / 32) + (o % 32 + i) = i + o by omega]
      by_cases hr : o % 32 + i < 32
      · simp [hi, hr, show ¬ i ≥ 32 - o % 32 by omega]
      · rw [show 32 * (o / 32 + 1) + (i - (32 - o % 32)) = i + o by omega]
        simp [hi, hr, show i ≥ 32 - o % 32 by omega, show i < 32 by omega, show i - (32 - o % 32) < 32 by omega]
    · simp [hi]

/-! ## Digits -/

/-- The number that digits stand for, the lowest first. -/
def bitsValue : List Int → Int
  | [] => 0
  | d :: l => d + 2 * bitsValue l

theorem bitsValue_zeros (l : List Int) : ∀ k : Nat, bitsValue (List.replicate k 0 ++ l) = 2 ^ k * bitsValue l
  | 0 => by simp
  | k + 1 => by rw [List.replicate_succ, List.cons_append, bitsValue, bitsValue_zeros l k]; ring

theorem bitsValue_drop : ∀ (l : List Int) (i : Nat), bitsValue (l.drop i) = l.getD i 0 + 2 * bitsValue (l.drop (i + 1))
  | [], i => by simp [bitsValue]
  | d :: l, 0 => by simp [bitsValue]
  | d :: l, i + 1 => by
    rw [List.drop_succ_cons, List.drop_succ_cons, List.getD_cons_succ]
    exact bitsValue_drop l i

theorem bitsValue_none : ∀ (l : List Int) (i : Nat), (∀ j, i ≤ j → l.getD j 0 = 0) → bitsValue (l.drop i) = 0
  | [], i, _ => by simp [bitsValue]
  | d :: l, 0, h => by
    have h0 : d = 0 := h 0 (by omega)
    rw [List.drop_zero, bitsValue, h0]
    have := bitsValue_none l 0 (fun j _ => by have := h (j + 1) (by omega); rwa [List.getD_cons_succ] at this)
    rw [List.drop_zero] at this
    rw [this]; rfl
  | d :: l, i + 1, h => by
    rw [List.drop_succ_cons]
    exact bitsValue_none l i (fun j hj => by have := h (j + 1) (by omega); rwa [List.getD_cons_succ] at this)

/-- A digit for a table of `2 ^ (w - 2)` odd multiples. -/
def Digit (w : Nat) (d : Int) : Prop := d = 0 ∨ d % 2 = 1 ∧ -(2 ^ (w - 1) : Int) < d ∧ d < 2 ^ (w - 1)

/-- The arithmetic of one digit: `V` is what is left of the number, `now` the bits that are taken. -/
theorem digit_step {V c now w : Nat} (hw : 2 ≤ w) (hn0 : 0 < now) (hn : now ≤ w) (hc : c ≤ 1) (hne : V % 2 ≠ c)
    (htop : now < w → V < 2 ^ (now - 1)) : ∃ c' : Nat, ((V % 2 ^ now + c) >>> (w - 1)) &&& 1 = c' ∧ c' ≤ 1 ∧
      (V < 2 ^ (now - 1) → c' = 0) ∧ (now < w → c' = 0) ∧
      ∀ sign : Int, sign = 1 ∨ sign = -1 → Digit w (sign * (((V % 2 ^ now + c : Nat) : Int) - (c' <<< w : Nat))) ∧
      sign * (((V % 2 ^ now + c : Nat) : Int) - (c' <<< w : Nat)) + 2 ^ now * (sign * ((V / 2 ^ now + c' : Nat) : Int)) = sign * ((V + c : Nat) : Int) := by
  obtain ⟨m, rfl⟩ : ∃ m, now = m + 1 := ⟨now - 1, by omega⟩
  obtain ⟨v, rfl⟩ : ∃ v, w = v + 2 := ⟨w - 2, by omega⟩
  rw [Nat.and_one_is_mod, Nat.shiftRight_eq_div_pow]
  simp only [Nat.add_sub_cancel, show v + 2 - 1 = v + 1 by omega] at *
  have hmod := Nat.mod_lt V (show 0 < 2 ^ (m + 1) by positivity)
  have hdm := Nat.div_add_mod V (2 ^ (m + 1))
  have hodd : V % 2 ^ (m + 1) % 2 = V % 2 := Nat.mod_mod_of_dvd _ ⟨2 ^ m, by rw [pow_succ, Nat.mul_comm]⟩
  have hle : 2 ^ (m + 1) ≤ 2 ^ (v + 2) := Nat.pow_le_pow_right (by decide) hn
  have hA : (2 : Nat) ^ (m + 1) = 2 * 2 ^ m := by rw [pow_succ, Nat.mul_comm]
  have hB : (2 : Nat) ^ (v + 1) = 2 * 2 ^ v := by rw [pow_succ, Nat.mul_comm]
  have hC : (2 : Nat) ^ (v + 2) = 4 * 2 ^ v := by rw [pow_add, Nat.mul_comm]; rfl
  have hV0 : V < 2 ^ m → V % 2 ^ (m + 1) = V := fun h => Nat.mod_eq_of_lt (by omega)
  have hmv : m + 1 < v + 2 → 2 ^ m ≤ 2 ^ v := fun h => Nat.pow_le_pow_right (by decide) (by omega)
  have heq : ¬ m + 1 < v + 2 → m = v + 1 := fun h => by omega
  generalize hD : V / 2 ^ (m + 1) = D at *
  generalize hR : V % 2 ^ (m + 1) = R at *
  have hR' : (R + c) % 2 = 1 := by omega
  have hlt : R + c < 2 ^ (v + 2) := by omega
  have hq : (R + c) / 2 ^ (v + 1) % 2 = if 2 ^ (v + 1) ≤ R + c then 1 else 0 := by
    split
    case isTrue h =>
      have : (R + c) / 2 ^ (v + 1) = 1 := Nat.div_eq_of_lt_le (by omega) (by omega)
      rw [this]
    case isFalse h => rw [Nat.div_eq_of_lt (by omega)]
  have small : V < 2 ^ m → ¬ 2 ^ (v + 1) ≤ R + c := by
    intro h h'
    have := hV0 h
    by_cases hlt' : m + 1 < v + 2
    · have := hmv hlt'; have : 0 < 2 ^ v := by positivity
      omega
    · have := heq hlt'; subst this; omega
  refine ⟨_, rfl, by omega, fun h => by rw [hq, if_neg (small h)], fun h => by rw [hq, if_neg (small (htop h))], ?_⟩
  intro sign hs
  rw [hq]
  have vpos : 0 < 2 ^ v := by positivity
  have hBz : ((2 : Int) ^ (v + 1)) = 2 * ((2 ^ v : Nat) : Int) := by push_cast; ring
  have hAz : ((2 : Int) ^ (m + 1)) = ((2 ^ (m + 1) : Nat) : Int) := by push_cast; ring
  rw [Digit, show v + 2 - 1 = v + 1 by omega, hBz, hAz]
  have hVz : (V : Int) = ((2 ^ (m + 1) : Nat) : Int) * D + R := by rw [← hdm]; push_cast; ring
  split
  case isTrue h =>
    have hm : m = v + 1 := by
      by_contra hne'
      exact small (htop (by omega)) h
    subst hm
    rw [Nat.one_shiftLeft]
    refine ⟨.inr ?_, ?_⟩
    · rcases hs with rfl | rfl <;> omega
    · push_cast at hVz ⊢; rw [hVz]; ring
  case isFalse h =>
    rw [Nat.zero_shiftLeft]
    refine ⟨.inr ?_, ?_⟩
    · rcases hs with rfl | rfl <;> omega
    · push_cast at hVz ⊢; rw [hVz]; ring

/-- What the digits from a position on are. -/
structure Digits (w : Nat) (v : Int) (bit last : Nat) (r : List Int × Nat) : Prop where
  length : r.1.length = 256 - bit
  value : bitsValue r.1 = v
  digit : ∀ d ∈ r.1, Digit w d
  last_le : last ≤ r.2
  zero : ∀ j, r.2 ≤ bit + j → r.1.getD j 0 = 0

theorem wnafVarLoop_eq {s : Sc} (hs : ScFits s) (h255 : scNat s < 2 ^ 255) {w : Nat} (hw : 2 ≤ w) (hw' : w < 32) {sign : Int}
    (hsign : sign = 1 ∨ sign = -1) : ∀ fuel bit carry last : Nat, 256 ≤ bit + fuel → bit ≤ 256 → carry ≤ 1 → (bit = 256 → carry = 0) →
    last ≤ bit → Digits w (sign * ((scNat s / 2 ^ bit + carry : Nat) : Int)) bit last (wnafVarLoop s w 256 sign fuel bit carry last) := by
  intro fuel
  induction fuel with
  | zero =>
    intro bit carry last h1 h2 _ h4 _
    have hb : bit = 256 := by omega
    have hc := h4 hb
    subst hb hc
    rw [wnafVarLoop, Nat.div_eq_of_lt (by omega)]
    exact ⟨rfl, by simp [bitsValue], by simp, le_refl _, by simp⟩
  | succ fuel ih =>
    intro bit carry last h1 h2 h3 h4 h5
    rw [wnafVarLoop]
    by_cases hb : bit < 256
    case neg =>
      have hb : bit = 256 := by omega
      have hc := h4 hb
      subst hb hc
      rw [if_neg (by decide), Nat.div_eq_of_lt (by omega)]
      exact ⟨rfl, by simp [bitsValue], by simp, le_refl _, by simp⟩
    rw [if_pos hb]
    have hbit : scGetBits s bit 1 = scNat s / 2 ^ bit % 2 := by rw [getBits_eq hs (by omega) hb, pow_one]
    have top : ∀ k, 0 < k → bit + k = 256 → scNat s / 2 ^ bit < 2 ^ (k - 1) := fun k h0 hk => by
      rw [Nat.div_lt_iff_lt_mul (by positivity), ← pow_add, show k - 1 + bit = 255 by omega]
      exact h255
    rw [hbit]
    by_cases he : scNat s / 2 ^ bit % 2 = carry
    · simp only [if_pos he]
      have hd : scNat s / 2 ^ (bit + 1) = scNat s / 2 ^ bit / 2 := by rw [Nat.div_div_eq_div_mul, pow_succ]
      obtain ⟨i1, i2, i3, i4, i5⟩ := ih (bit + 1) carry last (by omega) (by omega) h3 (fun h => by
        have h0 : scNat s / 2 ^ bit = 0 := Nat.lt_one_iff.1 (top 1 (by decide) h)
        rw [h0] at he
        exact he.symm) (by omega)
      generalize wnafVarLoop s w 256 sign fuel (bit + 1) carry last = r at *
      refine ⟨by rw [List.length_cons, i1]; omega, ?_, ?_, i4, ?_⟩
      · rw [bitsValue, i2, hd]
        generalize scNat s / 2 ^ bit = V at *
        have : (V : Int) = 2 * ((V / 2 : Nat) : Int) + carry := by omega
        push_cast at this ⊢
        rw [this]
        have e : (2 * ((V : Int) / 2) + (carry : Int)) / 2 = (V : Int) / 2 := by omega
        rcases hsign with rfl | rfl <;> omega
      · intro d hd
        rcases List.mem_cons.1 hd with rfl | hd
        · exact .inl rfl
        · exact i3 d hd
      · intro j hj
        cases j with
        | zero => rfl
        | succ j => rw [List.getD_cons_succ]; exact i5 j (by omega)
    · simp only [if_neg he]
      obtain ⟨now, hnow⟩ : ∃ now, (if w > 256 - bit then 256 - bit else w) = now := ⟨_, rfl⟩
      rw [hnow]
      have hn : 0 < now ∧ now ≤ w ∧ bit + now ≤ 256 ∧ (now < w → bit + now = 256) := by split at hnow <;> omega
      obtain ⟨n1, n2, n3, n4⟩ := hn
      rw [getBitsVar_eq hs n1 (by omega) n3]
      obtain ⟨c', e1, e2, e3, e4, e5⟩ := digit_step hw n1 n2 h3 he (fun h => top now n1 (n4 h))
      rw [e1]
      obtain ⟨e6, e7⟩ := e5 sign hsign
      have hd : scNat s / 2 ^ (bit + now) = scNat s / 2 ^ bit / 2 ^ now := by rw [Nat.div_div_eq_div_mul, pow_add]
      obtain ⟨i1, i2, i3, i4, i5⟩ := ih (bit + now) c' (bit + 1) (by omega) n3 e2 (fun h => e3 (top now n1 h)) (by omega)
      generalize wnafVarLoop s w 256 sign fuel (bit + now) c' (bit + 1) = r at *
      generalize sign * (((scNat s / 2 ^ bit % 2 ^ now + carry : Nat) : Int) - (c' <<< w : Nat)) = d at *
      obtain ⟨m, rfl⟩ : ∃ m, now = m + 1 := ⟨now - 1, by omega⟩
      rw [Nat.add_sub_cancel]
      refine ⟨?_, ?_, ?_, by omega, ?_⟩
      · simp only [List.cons_append, List.length_cons, List.length_append, List.length_replicate, i1]; omega
      · simp only [List.cons_append]
        rw [bitsValue, bitsValue_zeros, i2, hd, ← e7]
        ring
      · intro x hx
        rcases List.mem_cons.1 hx with rfl | hx
        · exact e6
        · rcases List.mem_append.1 hx with hx | hx
          · exact .inl (List.eq_of_mem_replicate hx)
          · exact i3 x hx
      · intro j hj
        simp only at hj
        cases j with
        | zero => omega
        | succ j =>
          simp only [List.cons_append]
          rw [List.getD_cons_succ]
          by_cases hjm : j < m
          · rw [List.getD_eq_getElem?_getD, List.getElem?_append_left (by simpa using hjm), List.getElem?_replicate, if_pos hjm]
            rfl
          · rw [List.getD_eq_getElem?_getD, List.getElem?_append_right (by simpa using hjm), List.length_replicate,
              ← List.getD_eq_getElem?_getD]
            exact i5 _ (by omega)

/-- The digits of a scalar stand for it, or for it minus the order. -/
theorem wnafVar_eq {a : Sc} (ha : Scalar a) {w : Nat} (hw : 2 ≤ w) (hw' : w < 32) :
    ∃ v : Int, (v = scNat a ∨ v = scNat a - (curveN : Int)) ∧ Digits w v 0 0 (wnafVar 256 a w) := by
  rw [wnafVar, getBits_eq ha.fits (by decide) (by decide)]
  have hl := scNat_lt ha.fits
  split
  case isTrue h =>
    obtain ⟨n1, n2⟩ := negate_sc ha
    have hge : 2 ^ 255 ≤ scNat a := by
      by_contra hc
      rw [Nat.div_eq_of_lt (by omega)] at h
      exact h rfl
    rw [if_neg (by omega)] at n2
    have hN : curveN < 2 ^ 256 := by decide +kernel
    have hlt := ha.lt
    have := wnafVarLoop_eq n1.fits (by rw [n2]; omega) hw hw' (.inr rfl) 256 0 0 0 (by decide) (by decide) (by decide) (fun _ => rfl) (le_refl _)
    refine ⟨_, .inr ?_, this⟩
    rw [n2, pow_zero, Nat.div_one]
    omega
  case isFalse h =>
    have hlt : scNat a < 2 ^ 255 := by
      have : scNat a / 2 ^ 255 < 2 := by omega
      omega
    have := wnafVarLoop_eq ha.fits hlt hw hw' (.inl rfl) 256 0 0 0 (by decide) (by decide) (by decide) (fun _ => rfl) (le_refl _)
    refine ⟨_, .inl ?_, this⟩
    rw [pow_zero, Nat.div_one]
    omega

end Verif.Proofs
