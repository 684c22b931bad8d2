import Verif.Proofs.CField
import Verif.Props.Secp
import Mathlib.FieldTheory.Finite.Basic
/-!
# Bytes, choices, inverses and square roots of the field of the C library
-/

namespace Verif.Proofs
open Verif.C Verif.Spec Verif.Props

/-- A byte of a big-endian number. -/
theorem getD_setBytes : ∀ (a : Bytes) (i : Nat), i < a.length →
    (a.getD (a.length - 1 - i) 0).toNat = setBytes a / 256 ^ i % 256 := by
  intro a
  induction a using List.reverseRecOn with
  | nil => intro i hi; exact absurd hi (Nat.not_lt_zero _)
  | append_singleton l x ih =>
    intro i hi
    rw [setBytes_append]
    have hx : setBytes [x] = x.toNat := by simp [setBytes]
    have hx' : x.toNat < 256 := x.toNat_lt
    simp only [List.length_append, List.length_cons, List.length_nil, hx] at hi ⊢
    cases i with
    | zero =>
      have : l.length + (0 + 1) - 1 - 0 = l.length := by omega
      rw [this]
      simp only [List.getD_eq_getElem?_getD, List.getElem?_concat_length, Option.getD_some]
      omega
    | succ i =>
      have h1 : l.length + (0 + 1) - 1 - (i + 1) = l.length - 1 - i := by omega
      have h2 := ih i (by omega)
      rw [h1, List.getD_eq_getElem?_getD, List.getElem?_append_left (by omega), ← List.getD_eq_getElem?_getD, h2,
        pow_succ' 256 i, ← Nat.div_div_eq_div_mul]
      congr 2
      omega

/-- What the limbs hold after `k` pieces of two bits. -/
def Pieces (N k : Nat) (n : Nat → Nat) : Prop := ∀ l, n l = N % 2 ^ (2 * k) / 2 ^ (26 * l) % 2 ^ 26

theorem pieces_step {N k : Nat} {n : Nat → Nat} (h : Pieces N k n) {q : Nat} (hq : q = N / 2 ^ (2 * k) % 4)
    {n' : Nat → Nat} (hn : ∀ l, n' l = if l = 2 * k / 26 then n l ||| (q <<< (2 * k % 26)) else n l) :
    Pieces N (k + 1) n' := by
  intro l
  rw [hn l, h l]
  have hs : N % 2 ^ (2 * (k + 1)) = N % 2 ^ (2 * k) + 2 ^ (2 * k) * q := by
    rw [hq, show 2 * (k + 1) = 2 * k + 2 by ring, pow_add, show (2 : Nat) ^ 2 = 4 from rfl, Nat.mod_mul]
  have hq4 : q < 4 := by rw [hq]; exact Nat.mod_lt _ (by decide)
  have hV : N % 2 ^ (2 * k) < 2 ^ (2 * k) := Nat.mod_lt _ (Nat.two_pow_pos _)
  rw [hs]
  generalize N % 2 ^ (2 * k) = V at *
  have hLs : 2 * k = 26 * (2 * k / 26) + 2 * k % 26 := by omega
  have hs24 : 2 * k % 26 ≤ 24 := by omega
  generalize 2 * k / 26 = L at *
  generalize 2 * k % 26 = s at *
  rw [hLs] at hV ⊢
  rcases lt_trichotomy l L with hl | hl | hl
  · rw [if_neg (by omega)]
    obtain ⟨j, rfl⟩ : ∃ j, L = l + 1 + j := ⟨L - l - 1, by omega⟩
    have : 2 ^ (26 * (l + 1 + j) + s) * q = 2 ^ (26 * l) * (2 ^ 26 * (2 ^ (26 * j + s) * q)) := by ring
    rw [this, Nat.add_mul_div_left _ _ (Nat.two_pow_pos _), Nat.add_mul_mod_self_left]
  · subst hl
    rw [if_pos rfl]
    have : 2 ^ (26 * l + s) * q = 2 ^ (26 * l) * (2 ^ s * q) := by ring
    rw [this, Nat.add_mul_div_left _ _ (Nat.two_pow_pos _)]
    have hVl : V / 2 ^ (26 * l) < 2 ^ s := by
      rw [Nat.div_lt_iff_lt_mul (Nat.two_pow_pos _), ← pow_add]
      rwa [add_comm]
    have hs26 : 2 ^ s * 4 ≤ 2 ^ 26 := by
      calc 2 ^ s * 4 = 2 ^ (s + 2) := (pow_add 2 s 2).symm
        _ ≤ 2 ^ 26 := Nat.pow_le_pow_right (by decide) (by omega)
    have hprod : 2 ^ s * q ≤ 2 ^ s * 3 := Nat.mul_le_mul (le_refl _) (by omega)
    rw [Nat.mod_eq_of_lt (a := V / 2 ^ (26 * l)) (by omega),
      Nat.mod_eq_of_lt (a := V / 2 ^ (26 * l) + 2 ^ s * q) (by omega), Nat.or_comm,
      ← Nat.shiftLeft_add_eq_or_of_lt hVl, Nat.shiftLeft_eq]
    ring
  · rw [if_neg (by omega)]
    have hb : 2 ^ (26 * L + s) * 4 ≤ 2 ^ (26 * l) := by
      calc 2 ^ (26 * L + s) * 4 = 2 ^ (26 * L + s + 2) := (pow_add 2 (26 * L + s) 2).symm
        _ ≤ 2 ^ (26 * l) := Nat.pow_le_pow_right (by decide) (by omega)
    have hprod : 2 ^ (26 * L + s) * q ≤ 2 ^ (26 * L + s) * 3 := Nat.mul_le_mul (le_refl _) (by omega)
    rw [Nat.div_eq_of_lt (a := V) (by omega), Nat.div_eq_of_lt (by omega)]

theorem pieces_byte {a : Bytes} (ha : a.length = 32) {i : Nat} (hi : i < 32) {n : Nat → Nat}
    (h : Pieces (setBytes a) (4 * i) n) :
    Pieces (setBytes a) (4 * (i + 1)) ((List.range 4).foldl (fun n j => setB32Step a n i j) n) := by
  have hb : (a.getD (31 - i) 0).toNat = setBytes a / 256 ^ i % 256 := by
    have := getD_setBytes a i (by omega)
    rwa [ha] at this
  have step : ∀ {j : Nat}, j < 4 → ∀ {n : Nat → Nat}, Pieces (setBytes a) (4 * i + j) n →
      Pieces (setBytes a) (4 * i + (j + 1)) (setB32Step a n i j) := by
    intro j hj n hn
    refine pieces_step hn (q := ((a.getD (31 - i) 0).toNat >>> (2 * j)) &&& 0x3) ?_ fun l => ?_
    · have h3 : ∀ x : Nat, x &&& 0x3 = x % 4 := fun x => Nat.and_two_pow_sub_one_eq_mod x 2
      rw [h3, Nat.shiftRight_eq_div_pow, hb, show 2 * (4 * i + j) = 8 * i + 2 * j by ring, pow_add,
        ← Nat.div_div_eq_div_mul, show (2 : Nat) ^ (8 * i) = 256 ^ i from pow_mul 2 8 i]
      generalize setBytes a / 256 ^ i = M
      interval_cases j <;> simp only [Nat.mul_zero, Nat.mul_one, pow_zero, Nat.reduceMul, Nat.reducePow] <;> omega
    · simp only [setB32Step, show 8 * i + 2 * j = 2 * (4 * i + j) by ring]
  have e : (List.range 4).foldl (fun n j => setB32Step a n i j) n =
      setB32Step a (setB32Step a (setB32Step a (setB32Step a n i 0) i 1) i 2) i 3 := rfl
  rw [e]
  exact step (by decide) (step (by decide) (step (by decide) (step (by decide) h)))

theorem setB32Limbs_eq {a : Bytes} (ha : a.length = 32) (l : Nat) :
    setB32Limbs a l = setBytes a / 2 ^ (26 * l) % 2 ^ 26 := by
  have h : ∀ i ≤ 32, Pieces (setBytes a) (4 * i)
      ((List.range i).foldl (fun n i => (List.range 4).foldl (fun n j => setB32Step a n i j) n) (fun _ => 0)) := by
    intro i
    induction i with
    | zero => intro _ l; simp [Nat.mod_one]
    | succ i ih =>
      intro hi
      rw [List.range_succ (n := i), List.foldl_append]
      exact pieces_byte ha (by omega) (ih (by omega))
  have := h 32 (le_refl _) l
  rw [setB32Limbs, this, Nat.mod_eq_of_lt (a := setBytes a)]
  have := setBytes_lt a
  rw [ha] at this
  exact lt_of_lt_of_le this (by decide)

/-- The limbs of a number of 256 bits. -/
theorem limbs_sum {N : Nat} (h : N < 2 ^ 256) :
    N % 2 ^ 26 + N / 2 ^ 26 % 2 ^ 26 * 2 ^ 26 + N / 2 ^ 52 % 2 ^ 26 * 2 ^ 52 + N / 2 ^ 78 % 2 ^ 26 * 2 ^ 78 +
      N / 2 ^ 104 % 2 ^ 26 * 2 ^ 104 + N / 2 ^ 130 % 2 ^ 26 * 2 ^ 130 + N / 2 ^ 156 % 2 ^ 26 * 2 ^ 156 +
      N / 2 ^ 182 % 2 ^ 26 * 2 ^ 182 + N / 2 ^ 208 % 2 ^ 26 * 2 ^ 208 + N / 2 ^ 234 % 2 ^ 26 * 2 ^ 234 = N := by
  omega

theorem setBytes_lt256 {a : Bytes} (ha : a.length = 32) : setBytes a < 2 ^ 256 := by
  have := setBytes_lt a
  rw [ha] at this
  exact lt_of_lt_of_le this (by decide)

/-- Line 335: the comparison with the prime. -/
theorem flag_eq {r : Fe} (h : Passed r) (h9 : r.n9 < 4194304) :
    (!(r.n9 == 0x3FFFFF && (r.n8 &&& r.n7 &&& r.n6 &&& r.n5 &&& r.n4 &&& r.n3 &&& r.n2) == 0x3FFFFFF &&
      decide (r.n1 + 0x40 + ((r.n0 + 0x3D1) >>> 26) > 0x3FFFFFF))) = true ↔ feNat r < secpP := by
  have ho := overPrime_eq h
  have h22 : r.n9 >>> 22 = 0 := by rw [shr22]; omega
  have hand : (r.n8 &&& r.n7 &&& r.n6 &&& r.n5 &&& r.n4 &&& r.n3 &&& r.n2) =
      (r.n2 &&& r.n3 &&& r.n4 &&& r.n5 &&& r.n6 &&& r.n7 &&& r.n8) := by ac_rfl
  rw [overPrime, h22, Nat.zero_or] at ho
  rw [hand]
  simp only [Bool.not_eq_true', Bool.and_eq_false_iff, beq_eq_false_iff_ne, decide_eq_false_iff_not]
  by_cases hc : r.n9 = 0x3FFFFF ∧ (r.n2 &&& r.n3 &&& r.n4 &&& r.n5 &&& r.n6 &&& r.n7 &&& r.n8) = 0x3FFFFFF ∧
      r.n1 + 0x40 + ((r.n0 + 0x3D1) >>> 26) > 0x3FFFFFF
  · rw [if_pos hc] at ho
    constructor
    · intro hf
      exact absurd hc (by tauto)
    · intro hlt
      rw [if_neg (Nat.not_le.2 hlt)] at ho
      exact absurd ho (by decide)
  · rw [if_neg hc] at ho
    constructor
    · intro _
      by_contra hlt
      rw [if_pos (Nat.not_lt.1 hlt)] at ho
      exact absurd ho (by decide)
    · intro _
      tauto

theorem small_limbs {n : Nat → Nat} (hb : ∀ l, n l ≤ 0x3FFFFFF) (h9 : n 9 < 4194304) :
    Passed ⟨n 0, n 1, n 2, n 3, n 4, n 5, n 6, n 7, n 8, n 9⟩ ∧
      Mag 1 ⟨n 0, n 1, n 2, n 3, n 4, n 5, n 6, n 7, n 8, n 9⟩ := by
  have hb2 : ∀ l, n l ≤ 2 * 1 * 0x3FFFFFF := fun l => le_trans (hb l) (by decide)
  exact ⟨⟨hb 0, hb 1, hb 2, hb 3, hb 4, hb 5, hb 6, hb 7, hb 8, lt_trans h9 (by decide)⟩,
    ⟨hb2 0, hb2 1, hb2 2, hb2 3, hb2 4, hb2 5, hb2 6, hb2 7, hb2 8, le_of_lt (lt_trans h9 (by decide))⟩⟩

theorem setB32_eq {a : Bytes} (ha : a.length = 32) :
    feNat (feSetB32 a).1 = setBytes a ∧ Mag 1 (feSetB32 a).1 ∧
      ((feSetB32 a).2 = true ↔ setBytes a < secpP) ∧ (setBytes a < secpP → Normal (feSetB32 a).1) := by
  have hl := setB32Limbs_eq ha
  have hN := setBytes_lt256 ha
  have e : (feSetB32 a).1 = ⟨setB32Limbs a 0, setB32Limbs a 1, setB32Limbs a 2, setB32Limbs a 3, setB32Limbs a 4,
      setB32Limbs a 5, setB32Limbs a 6, setB32Limbs a 7, setB32Limbs a 8, setB32Limbs a 9⟩ := rfl
  have hb : ∀ l, setB32Limbs a l ≤ 0x3FFFFFF := fun l => by
    have := Nat.mod_lt (setBytes a / 2 ^ (26 * l)) (Nat.two_pow_pos 26)
    rw [← hl] at this
    omega
  have h9 : setB32Limbs a 9 < 4194304 := by
    have h : setBytes a / 2 ^ 234 % 2 ^ 26 < 4194304 := by omega
    rwa [← hl 9] at h
  have hv : feNat (feSetB32 a).1 = setBytes a := by
    rw [e]
    simp only [feNat, hl]
    refine Eq.trans ?_ (limbs_sum hN)
    simp only [Nat.mul_zero, pow_zero, Nat.div_one, Nat.mul_one, Nat.reduceMul]
  have hP : Passed (feSetB32 a).1 := by
    rw [e]
    exact (small_limbs hb h9).1
  have h9' : (feSetB32 a).1.n9 < 4194304 := h9
  refine ⟨hv, ?_, ?_, ?_⟩
  · rw [e]
    exact (small_limbs hb h9).2
  · have := flag_eq hP h9'
    rwa [hv] at this
  · intro hlt
    obtain ⟨g0, g1, g2, g3, g4, g5, g6, g7, g8, -⟩ := hP
    generalize (feSetB32 a).1 = r at *
    refine ⟨?_, ?_, ?_, ?_, ?_, ?_, ?_, ?_, ?_, ?_, by rw [hv]; exact hlt⟩ <;> clear hv hlt <;> omega

/-- A limb of a normalized element. -/
theorem normal_get {a : Fe} (h : Normal a) {l : Nat} (hl : l < 10) :
    a.get l = feNat a / 2 ^ (26 * l) % 2 ^ 26 := by
  obtain ⟨h0, h1, h2, h3, h4, h5, h6, h7, h8, h9, -⟩ := h
  obtain ⟨n0, n1, n2, n3, n4, n5, n6, n7, n8, n9⟩ := a
  simp only [feNat] at *
  interval_cases l <;> simp only [Fe.get, Nat.mul_zero, pow_zero, Nat.div_one, Nat.mul_one, Nat.reduceMul] <;> omega

theorem or_pieces (q0 q1 q2 q3 : Nat) (h0 : q0 < 4) (h1 : q1 < 4) (h2 : q2 < 4) (h3 : q3 < 4) :
    (((0 ||| (q0 <<< 0)) ||| (q1 <<< 2)) ||| (q2 <<< 4)) ||| (q3 <<< 6) = q0 + 4 * q1 + 16 * q2 + 64 * q3 := by
  have h : ∀ a b c d : Fin 4, (((0 ||| (a.val <<< 0)) ||| (b.val <<< 2)) ||| (c.val <<< 4)) ||| (d.val <<< 6) =
      a.val + 4 * b.val + 16 * c.val + 64 * d.val := by decide +kernel
  exact h ⟨q0, h0⟩ ⟨q1, h1⟩ ⟨q2, h2⟩ ⟨q3, h3⟩

theorem getB32Byte_eq {a : Fe} (h : Normal a) {i : Nat} (hi : i < 32) :
    getB32Byte a i = feNat a / 256 ^ i % 256 := by
  have h3 : ∀ x : Nat, x &&& 0x3 = x % 4 := fun x => Nat.and_two_pow_sub_one_eq_mod x 2
  have piece : ∀ j < 4, ((a.get ((8 * i + 2 * j) / 26) >>> ((8 * i + 2 * j) % 26)) &&& 0x3) =
      feNat a / 256 ^ i / 4 ^ j % 4 := by
    intro j hj
    rw [h3, normal_get h (by omega), Nat.shiftRight_eq_div_pow]
    have e : 2 ^ (26 * ((8 * i + 2 * j) / 26)) * 2 ^ ((8 * i + 2 * j) % 26) = 256 ^ i * 4 ^ j := by
      rw [← pow_add, show 26 * ((8 * i + 2 * j) / 26) + (8 * i + 2 * j) % 26 = 8 * i + 2 * j by omega, pow_add,
        pow_mul, pow_mul]
      rfl
    have hs : (8 * i + 2 * j) % 26 ≤ 24 := by omega
    rw [Nat.div_div_eq_div_mul, ← e, ← Nat.div_div_eq_div_mul]
    generalize (8 * i + 2 * j) % 26 = s at *
    generalize feNat a / 2 ^ (26 * ((8 * i + 2 * j) / 26)) = M at *
    interval_cases s <;> simp only [pow_zero, Nat.reducePow, Nat.div_one] <;> omega
  have e : getB32Byte a i =
      (((0 ||| (((a.get ((8 * i + 2 * 0) / 26) >>> ((8 * i + 2 * 0) % 26)) &&& 0x3) <<< 0)) |||
        (((a.get ((8 * i + 2 * 1) / 26) >>> ((8 * i + 2 * 1) % 26)) &&& 0x3) <<< 2)) |||
        (((a.get ((8 * i + 2 * 2) / 26) >>> ((8 * i + 2 * 2) % 26)) &&& 0x3) <<< 4)) |||
        (((a.get ((8 * i + 2 * 3) / 26) >>> ((8 * i + 2 * 3) % 26)) &&& 0x3) <<< 6) := rfl
  rw [e, piece 0 (by decide), piece 1 (by decide), piece 2 (by decide), piece 3 (by decide),
    or_pieces _ _ _ _ (Nat.mod_lt _ (by decide)) (Nat.mod_lt _ (by decide)) (Nat.mod_lt _ (by decide))
      (Nat.mod_lt _ (by decide))]
  generalize feNat a / 256 ^ i = M
  simp only [pow_zero, Nat.reducePow, Nat.div_one]
  omega

/-- The number of bytes given from the top. -/
theorem setBytes_digits (N : Nat) : ∀ n : Nat,
    setBytes ((List.range n).map fun k => UInt8.ofNat (N / 256 ^ (n - 1 - k) % 256)) = N % 256 ^ n := by
  intro n
  induction n generalizing N with
  | zero => simp [setBytes, Nat.mod_one]
  | succ n ih =>
    rw [List.range_succ, List.map_append, setBytes_append]
    have h1 : (List.range n).map (fun k => UInt8.ofNat (N / 256 ^ (n + 1 - 1 - k) % 256)) =
        (List.range n).map fun k => UInt8.ofNat (N / 256 / 256 ^ (n - 1 - k) % 256) := by
      refine List.map_congr_left fun k hk => ?_
      have hk' := List.mem_range.1 hk
      rw [show n + 1 - 1 - k = (n - 1 - k) + 1 by omega, pow_succ' 256 (n - 1 - k), Nat.div_div_eq_div_mul]
    have h2 : setBytes ([n].map fun k => UInt8.ofNat (N / 256 ^ (n + 1 - 1 - k) % 256)) = N % 256 := by
      simp only [setBytes, List.map_cons, List.map_nil, List.foldl_cons, List.foldl_nil, Nat.zero_mul, Nat.zero_add,
        Nat.add_sub_cancel, Nat.sub_self, pow_zero, Nat.div_one, UInt8.toNat_ofNat']
      omega
    rw [h1, ih, h2]
    simp only [List.map_cons, List.map_nil, List.length_cons, List.length_nil, Nat.zero_add, pow_one]
    rw [pow_succ', Nat.mod_mul]
    ring

theorem getB32_eq {a : Fe} (h : Normal a) : (feGetB32 a).length = 32 ∧ setBytes (feGetB32 a) = feNat a := by
  refine ⟨by simp [feGetB32], ?_⟩
  have e : feGetB32 a = (List.range 32).map fun k => UInt8.ofNat (feNat a / 256 ^ (32 - 1 - k) % 256) := by
    refine List.map_congr_left fun k hk => ?_
    rw [getB32Byte_eq h (by omega)]
  rw [e, setBytes_digits, Nat.mod_eq_of_lt]
  exact lt_of_lt_of_le h.lt (by decide)

theorem and_ones32 {x : Nat} (h : x < 2 ^ 32) : x &&& 0xFFFFFFFF = x :=
  (Nat.and_two_pow_sub_one_eq_mod x 32).trans (Nat.mod_eq_of_lt h)

theorem cmov32_zero {r a : Nat} (hr : r < 2 ^ 32) : cmov32 r a 0 = r := by
  show (r &&& 0xFFFFFFFF) ||| (a &&& 0) = r
  rw [and_ones32 hr, Nat.and_zero, Nat.or_zero]

theorem cmov32_one {r a : Nat} (ha : a < 2 ^ 32) : cmov32 r a 1 = a := by
  show (r &&& 0) ||| (a &&& 0xFFFFFFFF) = a
  rw [and_ones32 ha, Nat.and_zero, Nat.zero_or]

theorem mag_fits {m : Nat} (hm : m ≤ 32) {a : Fe} (h : Mag m a) : Fits a := by
  obtain ⟨h0, h1, h2, h3, h4, h5, h6, h7, h8, h9⟩ := mag_mono hm h
  refine ⟨?_, ?_, ?_, ?_, ?_, ?_, ?_, ?_, ?_, ?_⟩ <;> omega

theorem cmov_eq {r a : Fe} (hr : Fits r) (ha : Fits a) : feCmov r a 0 = r ∧ feCmov r a 1 = a := by
  constructor
  · simp only [feCmov, cmov32_zero hr.h0, cmov32_zero hr.h1, cmov32_zero hr.h2, cmov32_zero hr.h3, cmov32_zero hr.h4,
      cmov32_zero hr.h5, cmov32_zero hr.h6, cmov32_zero hr.h7, cmov32_zero hr.h8, cmov32_zero hr.h9]
  · simp only [feCmov, cmov32_one ha.h0, cmov32_one ha.h1, cmov32_one ha.h2, cmov32_one ha.h3, cmov32_one ha.h4,
      cmov32_one ha.h5, cmov32_one ha.h6, cmov32_one ha.h7, cmov32_one ha.h8, cmov32_one ha.h9]

/-- A small element with the value of a power. -/
def IsPow (v : SecpF) (e : Nat) (x : Fe) : Prop := Mag 1 x ∧ feVal x = v ^ e

theorem IsPow.sqr {v : SecpF} {e : Nat} {x : Fe} (h : IsPow v e x) : IsPow v (2 * e) (feSqr x) := by
  obtain ⟨h1, h2⟩ := sqr_eq (by decide) h.1
  exact ⟨h1, by rw [h2, h.2, ← pow_mul, Nat.mul_comm]⟩

theorem IsPow.sqrN {v : SecpF} : ∀ (n : Nat) {e : Nat} {x : Fe}, IsPow v e x → IsPow v (2 ^ n * e) (feSqrN n x)
  | 0, e, x, h => by simpa [feSqrN] using h
  | n + 1, e, x, h => by
    have := IsPow.sqrN n h.sqr
    rwa [show 2 ^ n * (2 * e) = 2 ^ (n + 1) * e by ring] at this

theorem IsPow.mul {v : SecpF} {e f : Nat} {x y : Fe} (h : IsPow v e x) (g : IsPow v f y) :
    IsPow v (e + f) (feMul x y) := by
  obtain ⟨h1, h2⟩ := mul_eq (by decide) (by decide) h.1 g.1
  exact ⟨h1, by rw [h2, h.2, g.2, pow_add]⟩

theorem IsPow.to {v : SecpF} {e : Nat} (f : Nat) {x : Fe} (h : IsPow v e x) (hef : e = f) : IsPow v f x := hef ▸ h

theorem powers_eq {m : Nat} (hm : m ≤ 8) {a : Fe} (ha : Mag m a) :
    IsPow (feVal a) (2 ^ 2 - 1) (fePowers a).1 ∧ IsPow (feVal a) (2 ^ 22 - 1) (fePowers a).2.1 ∧
      IsPow (feVal a) (2 ^ 223 - 1) (fePowers a).2.2 := by
  have hmulA : ∀ {e x}, IsPow (feVal a) e x → IsPow (feVal a) (e + 1) (feMul x a) := fun {e x} h => by
    obtain ⟨h1, h2⟩ := mul_eq (by decide) hm h.1 ha
    exact ⟨h1, by rw [h2, h.2, pow_succ]⟩
  have hs : IsPow (feVal a) 2 (feSqr a) := sqr_eq hm ha
  have x2 := hmulA hs
  have x3 := hmulA x2.sqr
  have x6 := (x3.sqrN 3).mul x3
  have x9 := (x6.sqrN 3).mul x3
  have x11 := ((x9.sqrN 2).mul x2).to (2 ^ 11 - 1) (by decide)
  have x22 := ((x11.sqrN 11).mul x11).to (2 ^ 22 - 1) (by decide)
  have x44 := ((x22.sqrN 22).mul x22).to (2 ^ 44 - 1) (by decide)
  have x88 := ((x44.sqrN 44).mul x44).to (2 ^ 88 - 1) (by decide)
  have x176 := ((x88.sqrN 88).mul x88).to (2 ^ 176 - 1) (by decide)
  have x220 := ((x176.sqrN 44).mul x44).to (2 ^ 220 - 1) (by decide)
  have x223 := ((x220.sqrN 3).mul x3).to (2 ^ 223 - 1) (by decide)
  exact ⟨x2.to (2 ^ 2 - 1) (by decide), x22, x223⟩

theorem inv_eq [Fact secpP.Prime] {m : Nat} (hm : m ≤ 8) {a : Fe} (ha : Mag m a) :
    Mag 1 (feInv a) ∧ feVal (feInv a) = (feVal a)⁻¹ := by
  obtain ⟨p2, p22, p223⟩ := powers_eq hm ha
  have hmulA : ∀ {e x}, IsPow (feVal a) e x → IsPow (feVal a) (e + 1) (feMul x a) := fun {e x} h => by
    obtain ⟨h1, h2⟩ := mul_eq (by decide) hm h.1 ha
    exact ⟨h1, by rw [h2, h.2, pow_succ]⟩
  have t := ((hmulA (((p223.sqrN 23).mul p22).sqrN 5)).sqrN 3).mul p2
  have t' := t.sqrN 2
  obtain ⟨h1, h2⟩ := mul_eq hm (by decide) ha t'.1
  refine ⟨h1, h2.trans ?_⟩
  rw [t'.2, ← pow_succ']
  have e : 2 ^ 2 * (2 ^ 3 * (2 ^ 5 * (2 ^ 23 * (2 ^ 223 - 1) + (2 ^ 22 - 1)) + 1) + (2 ^ 2 - 1)) + 1 = secpP - 2 := by
    decide
  rw [e]
  by_cases h0 : feVal a = 0
  · rw [h0, inv_zero, zero_pow (by decide)]
  · refine eq_inv_of_mul_eq_one_left ?_
    rw [← pow_succ, show secpP - 2 + 1 = secpP - 1 by decide]
    exact ZMod.pow_card_sub_one_eq_one h0

theorem equal_eq {m : Nat} (hm : m ≤ 8) {a b : Fe} (ha : Mag 1 a) (hb : Mag m b) :
    feEqual a b = true ↔ feVal a = feVal b := by
  obtain ⟨h1, h2⟩ := negate_eq (by decide) ha
  obtain ⟨h3, h4⟩ := add_eq (by omega) h1 hb
  rw [feEqual, normalizesToZero_eq (by omega) h3, h4, h2, neg_add_eq_zero]

theorem sqrt_eq [Fact secpP.Prime] {m : Nat} (hm : m ≤ 8) {a : Fe} (ha : Mag m a) :
    Mag 1 (feSqrt a).1 ∧ ((feSqrt a).2 = true ↔ IsSquare (feVal a)) ∧
      ((feSqrt a).2 = true → feVal (feSqrt a).1 ^ 2 = feVal a) := by
  obtain ⟨p2, p22, p223⟩ := powers_eq hm ha
  have t := ((((((p223.sqrN 23).mul p22).sqrN 6).mul p2).sqr).sqr).to ((secpP + 1) / 4) (by decide)
  have tr : IsPow (feVal a) ((secpP + 1) / 4) (feSqrt a).1 := t
  have hsq := tr.sqr
  have h2 : (feSqrt a).2 = true ↔ feVal (feSqrt a).1 ^ 2 = feVal a := by
    have : (feSqrt a).2 = feEqual (feSqr (feSqrt a).1) a := rfl
    rw [this, equal_eq hm hsq.1 ha, (sqr_eq (by decide) tr.1).2]
  refine ⟨tr.1, ⟨fun h => ?_, ?_⟩, h2.1⟩
  · exact ⟨feVal (feSqrt a).1, by rw [← pow_two, h2.1 h]⟩
  · rintro ⟨w, hw⟩
    rw [h2, tr.2, hw, ← pow_two, ← pow_mul, ← pow_mul]
    have e : 2 * ((secpP + 1) / 4 * 2) = secpP + 1 := by decide
    rw [e, pow_succ, ZMod.pow_card, pow_two]

end Verif.Proofs
