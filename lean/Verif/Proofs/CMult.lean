import Verif.Model.CMult
import Verif.Proofs.CScalar
import Verif.Proofs.CGroupMore
/-!
# The multiplication of points of the C library: proofs
-/

namespace Verif.Proofs
open Verif.C Verif.Spec WeierstrassCurve

/-! ## The words of a scalar -/

/-- The number of the words. -/
def wordsValue : List Int → Int
  | [] => 0
  | d :: rest => d + 16 * wordsValue rest

/-- A word: odd, between -15 and 15. -/
def Word (d : Int) : Prop := d % 2 = 1 ∧ -16 < d ∧ d < 16

theorem wnafLoop_eq {gs : Int} (hg : gs = 1 ∨ gs = -1) : ∀ (n : Nat) (s : Sc) (u : Int), ScFits s → scNat s < 16 ^ n →
    u % 2 = 1 → 0 < u → u < 16 →
    (wnafLoop 4 gs n s u).length = n + 1 ∧ (∀ d ∈ wnafLoop 4 gs n s u, Word d) ∧
      wordsValue (wnafLoop 4 gs n s u) = gs * (u + 16 * (scNat s : Int)) := by
  intro n
  induction n with
  | zero =>
    intro s u _ hl h1 h2 h3
    have h0 : scNat s = 0 := by rw [pow_zero] at hl; omega
    refine ⟨rfl, ?_, ?_⟩
    · intro d hd
      rw [wnafLoop, List.mem_singleton] at hd
      subst hd
      rcases hg with rfl | rfl
      · exact ⟨by omega, by omega, by omega⟩
      · exact ⟨by omega, by omega, by omega⟩
    · rw [h0]
      simp only [wnafLoop, wordsValue]
      push_cast
      ring
  | succ n ih =>
    intro s u hs hl h1 h2 h3
    obtain ⟨f1, f2, f3⟩ := shrInt_eq hs (n := 4) (by decide)
    rw [wnafLoop, if_pos h2]
    generalize scShrInt s 4 = r at *
    have hr : r.1 < 16 := by rw [f2]; exact Nat.mod_lt _ (by decide)
    have hl' : scNat r.2 < 16 ^ n := by
      rw [f3]
      refine Nat.div_lt_of_lt_mul ?_
      rw [pow_succ] at hl
      omega
    have hv : scNat s = r.1 + 16 * scNat r.2 := by
      rw [f2, f3]; exact (Nat.mod_add_div _ _).symm
    rw [Nat.and_one_is_mod, show ((1 <<< 4 : Nat) : Int) = 16 by rfl]
    obtain ⟨e, he, he'⟩ : ∃ e : Int, (if r.1 % 2 = 0 then (1 : Int) else 0) = e ∧
        (r.1 % 2 = 0 ∧ e = 1 ∨ r.1 % 2 = 1 ∧ e = 0) := by
      by_cases h : r.1 % 2 = 0
      · exact ⟨1, by rw [if_pos h], .inl ⟨h, rfl⟩⟩
      · exact ⟨0, by rw [if_neg h], .inr ⟨by omega, rfl⟩⟩
    rw [he]
    have hu : ((r.1 : Int) + (2 * 1 - 1) * e) % 2 = 1 ∧ 0 < (r.1 : Int) + (2 * 1 - 1) * e ∧ (r.1 : Int) + (2 * 1 - 1) * e < 16 := by
      omega
    obtain ⟨g1, g2, g3⟩ := ih r.2 _ f1 hl' hu.1 hu.2.1 hu.2.2
    refine ⟨by rw [List.length_cons, g1], ?_, ?_⟩
    · intro d hd
      rcases List.mem_cons.1 hd with rfl | hd
      · rcases hg with rfl | rfl
        · exact ⟨by omega, by omega, by omega⟩
        · exact ⟨by omega, by omega, by omega⟩
      · exact g2 d hd
    · rw [wordsValue, g3, hv]
      push_cast
      ring

theorem curveN_odd : curveN % 2 = 1 := by decide +kernel

/-- What the words are made of: an odd number below 2^256. -/
theorem wnaf_start {s : Sc} (hs : Scalar s) :
    ∃ (c : Sc) (gs : Int) (k : Nat), wnafConst s 4 = (wnafLoop 4 gs 64 (scShrInt c 4).2 (scShrInt c 4).1, k) ∧ ScFits c ∧
      scNat c % 2 = 1 ∧ (gs = 1 ∨ gs = -1) ∧ (k = 1 ∨ k = 2) ∧
      (gs * (scNat c : Int) = scNat s + k ∨ gs * (scNat c : Int) = scNat s + k - curveN) := by
  have hlt := hs.lt
  have hN := curveN_odd
  have hN2 : curveN + 2 < 2 ^ 256 := by decide +kernel
  have hev := isEven_eq (a := s)
  have hhi := isHigh_eq hs.fits
  obtain ⟨m1, m2⟩ := negate_sc hs
  have hone := isOne_eq (a := scNegate s)
  rw [m2] at hone
  have hone' : scIsOne (scNegate s) = true ↔ scNat s = curveN - 1 := by
    rw [hone]
    have : 1 < curveN := by decide +kernel
    split <;> omega
  rw [wnafConst]
  by_cases hi : scIsHigh s = true
  · have hs2 := hhi.1 hi
    by_cases he : scIsEven s = true
    · have hs3 := hev.1 he
      by_cases ho : scIsOne (scNegate s) = true
      · -- minus one
        have hv := hone'.1 ho
        have hc := condNegate_eq hs.fits true
        rw [if_pos rfl] at hc
        refine ⟨scNegate s, 1, 2, ?_, m1.fits, ?_, .inl rfl, .inr rfl, ?_⟩
        · simp only [hi, he, ho, Bool.not_true, Bool.xor_false, Bool.toNat_true, caddBit_false hs.fits, hc]
          rfl
        · rw [m2, if_neg (by omega)]; omega
        · rw [m2, if_neg (by omega)]; right; omega
      · have ho' : scIsOne (scNegate s) = false := by simpa using ho
        have hv : scNat s ≠ curveN - 1 := fun h => ho (hone'.2 h)
        obtain ⟨a1, a2⟩ := caddBit_true hs.fits (bit := 1) (by decide) (by omega)
        have hsc : Scalar (scCaddBit s 1 true) := ⟨a1, by omega⟩
        obtain ⟨n1, n2⟩ := negate_sc hsc
        have hc := condNegate_eq a1 true
        rw [if_pos rfl] at hc
        refine ⟨scNegate (scCaddBit s 1 true), -1, 2, ?_, n1.fits, ?_, .inr rfl, .inr rfl, ?_⟩
        · simp only [hi, he, ho', Bool.not_true, Bool.not_false, Bool.xor_false, Bool.toNat_true, hc]
          rfl
        · rw [n2, if_neg (by omega)]; omega
        · rw [n2, if_neg (by omega)]; right; omega
    · have he' : scIsEven s = false := by simpa using he
      have hs3 : scNat s % 2 = 1 := by
        have : ¬ scNat s % 2 = 0 := fun h => he (hev.2 h)
        omega
      have hv : scNat s ≠ curveN - 1 := by omega
      have ho' : scIsOne (scNegate s) = false := by
        rw [← Bool.not_eq_true, hone']; exact hv
      obtain ⟨a1, a2⟩ := caddBit_true hs.fits (bit := 0) (by decide) (by omega)
      have hsc : Scalar (scCaddBit s 0 true) := ⟨a1, by omega⟩
      obtain ⟨n1, n2⟩ := negate_sc hsc
      have hc := condNegate_eq a1 true
      rw [if_pos rfl] at hc
      refine ⟨scNegate (scCaddBit s 0 true), -1, 1, ?_, n1.fits, ?_, .inr rfl, .inl rfl, ?_⟩
      · simp only [hi, he', ho', Bool.not_false, Bool.xor_true, Bool.not_true, Bool.toNat_false, hc]
        rfl
      · rw [n2, if_neg (by omega)]; omega
      · rw [n2, if_neg (by omega)]; right; omega
  · have hi' : scIsHigh s = false := by simpa using hi
    have hs2 : scNat s ≤ curveN / 2 := by
      have : ¬ curveN / 2 < scNat s := fun h => hi (hhi.2 h)
      omega
    have hb : 2 < curveN / 2 := by decide +kernel
    have hv : scNat s ≠ curveN - 1 := by omega
    have ho' : scIsOne (scNegate s) = false := by
      rw [← Bool.not_eq_true, hone']; exact hv
    by_cases he : scIsEven s = true
    · have hs3 := hev.1 he
      obtain ⟨a1, a2⟩ := caddBit_true hs.fits (bit := 0) (by decide) (by omega)
      have hc := condNegate_eq a1 false
      rw [if_neg (by decide)] at hc
      refine ⟨scCaddBit s 0 true, 1, 1, ?_, a1, ?_, .inl rfl, .inl rfl, ?_⟩
      · simp only [hi', he, ho', Bool.not_false, Bool.not_true, Bool.xor_false, Bool.toNat_false, hc]
        rfl
      · omega
      · left; omega
    · have he' : scIsEven s = false := by simpa using he
      have hs3 : scNat s % 2 = 1 := by
        have : ¬ scNat s % 2 = 0 := fun h => he (hev.2 h)
        omega
      obtain ⟨a1, a2⟩ := caddBit_true hs.fits (bit := 1) (by decide) (by omega)
      have hc := condNegate_eq a1 false
      rw [if_neg (by decide)] at hc
      refine ⟨scCaddBit s 1 true, 1, 2, ?_, a1, ?_, .inl rfl, .inr rfl, ?_⟩
      · simp only [hi', he', ho', Bool.not_false, Bool.xor_true, Bool.toNat_true, hc]
        rfl
      · omega
      · left; omega

theorem wnaf_eq {s : Sc} (hs : Scalar s) :
    (wnafConst s 4).1.length = 65 ∧ (∀ d ∈ (wnafConst s 4).1, Word d) ∧ ((wnafConst s 4).2 = 1 ∨ (wnafConst s 4).2 = 2) ∧
      (wordsValue (wnafConst s 4).1 = scNat s + (wnafConst s 4).2 ∨
        wordsValue (wnafConst s 4).1 = scNat s + (wnafConst s 4).2 - curveN) := by
  obtain ⟨c, gs, k, e, hc, ho, hg, hk, hv⟩ := wnaf_start hs
  rw [e]
  obtain ⟨f1, f2, f3⟩ := shrInt_eq hc (n := 4) (by decide)
  have hl := scNat_lt hc
  have hsum : (scNat c : Int) = (scShrInt c 4).1 + 16 * (scNat (scShrInt c 4).2 : Int) := by
    have := Nat.mod_add_div (scNat c) (2 ^ 4)
    rw [f2, f3]
    omega
  have hlt : scNat (scShrInt c 4).2 < 16 ^ 64 := by
    rw [f3]; exact lt_of_le_of_lt (Nat.div_le_self _ _) (lt_of_lt_of_le hl (by decide +kernel))
  have hm : scNat c % 2 ^ 4 < 2 ^ 4 := Nat.mod_lt _ (by decide)
  obtain ⟨g1, g2, g3⟩ := wnafLoop_eq hg 64 (scShrInt c 4).2 ((scShrInt c 4).1 : Int) f1 hlt (by omega) (by omega) (by omega)
  refine ⟨g1, g2, hk, ?_⟩
  simp only
  rw [g3, ← hsum]
  exact hv

/-! ## The table of odd multiples -/

/-- The content of the place of the result is not read if the sum is not the point at infinity. -/
theorem addGeVar_junk {r r' a : Gej} {b : Ge} (ha : a.infinity = false) (hb : b.infinity = false)
    (h : (gejAddGeVar r' a b).1.infinity = false) : gejAddGeVar r a b = gejAddGeVar r' a b := by
  simp only [gejAddGeVar, ha, hb, Bool.false_eq_true, if_false] at h ⊢
  split
  case isFalse h1 => rfl
  case isTrue h1 =>
    rw [if_pos h1] at h
    split
    case isTrue h2 => rw [gejDoubleVar, gejDoubleVar, if_neg (by simp [ha]), if_neg (by simp [ha])]
    case isFalse h2 =>
      rw [if_neg h2] at h
      cases h

/-- The sum of two different points that are not opposite, whatever was in the place of the result. -/
theorem addGeVar_ne {u : SecpF} {r a : Gej} {b : Ge} {q1 q2 : secp.Point} (hm : GejMag a) (hm' : GeMag b)
    (ha : GejRep u a q1) (hb : GeRep u b q2) (ia : a.infinity = false) (ib : b.infinity = false) (h1 : q1 ≠ q2) (h2 : q1 + q2 ≠ 0) :
    GejMag (gejAddGeVar r a b).1 ∧ GejRep u (gejAddGeVar r a b).1 (q1 + q2) ∧ Mag 8 (gejAddGeVar r a b).2 ∧
      (gejAddGeVar r a b).1.infinity = false ∧
      feVal (gejAddGeVar r a b).1.z = feVal a.z * feVal (gejAddGeVar r a b).2 ∧ feVal (gejAddGeVar r a b).2 ≠ 0 := by
  obtain ⟨g1, g2, g3, g4⟩ := addGeVar_eq hm hm hm' ha hb
  obtain ⟨k1, k2, k3, -⟩ := g4 ia ib h1 h2
  rw [addGeVar_junk (r' := a) ia ib k1]
  exact ⟨g1, g2, g3, k1, k2, k3⟩

/-- The third coordinate of the last point. -/
def lastZ (prev : Gej) (l : List (Gej × Fe)) : Fe := ((l.getLast?.map Prod.fst).getD prev).z

theorem oddLoop_eq {D : SecpF} {d : Ge} {P : secp.Point} {prej : Nat → Gej} (hd : GeMag d) (hdi : d.infinity = false)
    (hdr : GeRep D d (P + P)) : ∀ (n i k : Nat) (prev : Gej) (zr : Fe), GejMag prev → prev.infinity = false →
    GejRep D prev (k • P) → Mag 8 zr → feVal zr ≠ 0 →
    (∀ j, j < n → (k + 2 * j) • P ≠ P + P ∧ (k + 2 * j + 2) • P ≠ 0) →
    (globalzTable ((prev, zr) :: oddLoop prej d prev i n)).1.length = n + 1 ∧
    (∀ j g, (globalzTable ((prev, zr) :: oddLoop prej d prev i n)).1[j]? = some g →
      GeMag g ∧ g.infinity = false ∧ GeRep (feVal (lastZ prev (oddLoop prej d prev i n)) * D) g ((k + 2 * j) • P)) ∧
    Mag 8 (globalzTable ((prev, zr) :: oddLoop prej d prev i n)).2 ∧
    feVal (globalzTable ((prev, zr) :: oddLoop prej d prev i n)).2 ≠ 0 ∧
    feVal (globalzTable ((prev, zr) :: oddLoop prej d prev i n)).2 * feVal prev.z =
      feVal (lastZ prev (oddLoop prej d prev i n)) * feVal zr ∧
    Mag 8 (lastZ prev (oddLoop prej d prev i n)) := by
  intro n
  induction n with
  | zero =>
    intro i k prev zr hp hpi hpr hz hz0 _
    rw [oddLoop, globalzTable]
    refine ⟨rfl, ?_, hz, hz0, ?_, hp.z⟩
    · intro j g hg
      cases j with
      | succ j => cases hg
      | zero =>
        obtain rfl := Option.some.inj hg
        refine ⟨⟨hp.x, hp.y⟩, rfl, ?_⟩
        rw [GejRep, if_neg (by simp [hpi])] at hpr
        exact hpr
    · exact mul_comm _ _
  | succ n ih =>
    intro i k prev zr hp hpi hpr hz hz0 hne
    obtain ⟨n1, n2⟩ := hne 0 (by omega)
    have hadd : (k + 2 * 0 + 2) • P = k • P + (P + P) := by rw [add_nsmul, Nat.mul_zero, Nat.add_zero, two_nsmul]
    rw [hadd] at n2
    obtain ⟨a1, a2, a3, a4, a5, a6⟩ := addGeVar_ne (r := prej i) hp hd hpr hdr hpi hdi (by simpa using n1) n2
    rw [← hadd] at a2
    obtain ⟨t1, t2, t3, t4, t5, t6⟩ := ih (i + 1) (k + 2) (gejAddGeVar (prej i) prev d).1 (gejAddGeVar (prej i) prev d).2 a1 a4
      (by simpa using a2) a3 a6 (fun j hj => by
        have := hne (j + 1) (by omega)
        rwa [show k + 2 * (j + 1) = k + 2 + 2 * j by ring] at this)
    have hl : lastZ prev (oddLoop prej d prev i (n + 1)) =
        lastZ (gejAddGeVar (prej i) prev d).1 (oddLoop prej d (gejAddGeVar (prej i) prev d).1 (i + 1) n) := by
      rw [oddLoop, lastZ, lastZ]
      generalize oddLoop prej d (gejAddGeVar (prej i) prev d).1 (i + 1) n = l
      cases l with
      | nil => rfl
      | cons x xs => rfl
    rw [hl]
    rw [oddLoop]
    rw [show (gejAddGeVar (prej i) prev d) = ((gejAddGeVar (prej i) prev d).1, (gejAddGeVar (prej i) prev d).2) from rfl]
    rw [globalzTable]
    simp only
    generalize globalzTable (((gejAddGeVar (prej i) prev d).1, (gejAddGeVar (prej i) prev d).2) ::
      oddLoop prej d (gejAddGeVar (prej i) prev d).1 (i + 1) n) = T at *
    generalize lastZ (gejAddGeVar (prej i) prev d).1 (oddLoop prej d (gejAddGeVar (prej i) prev d).1 (i + 1) n) = L at *
    have key : feVal T.2 * feVal prev.z = feVal L := by
      rw [a5, ← mul_assoc] at t5
      exact mul_right_cancel₀ a6 t5
    refine ⟨by rw [List.length_cons, t1], ?_, ?_, ?_, ?_, t6⟩
    · intro j g hg
      cases j with
      | zero =>
        obtain rfl := Option.some.inj hg
        obtain ⟨z1, z2, z3⟩ := zinv_eq (k := feVal L * D) hp t3 hpr (fun _ => ⟨t4, by rw [← key]; ring⟩)
        exact ⟨⟨mag_mono (by decide) z1, mag_mono (by decide) z2⟩, hpi, z3⟩
      | succ j =>
        have := t2 j g hg
        rwa [show k + 2 * (j + 1) = k + 2 + 2 * j by ring]
    · exact (((Is.of t3).mul (Is.of hz) (by decide) (by decide)).up (by decide)).mag
    · rw [((Is.of t3).mul (Is.of hz) (by decide) (by decide)).val]
      exact mul_ne_zero t4 hz0
    · rw [((Is.of t3).mul (Is.of hz) (by decide) (by decide)).val, ← key]
      ring

/-- The table: the odd multiples up to 15, all with the same third coordinate. -/
theorem oddTable_eq {st : Stack} {a : Ge} {P : secp.Point} (hm : GeMag a) (hi : a.infinity = false) (ha : GeRep 1 a P)
    (hne : ∀ k : Nat, 0 < k → k < 20 → k • P ≠ 0) :
    (oddTable st (gejSetGe a)).1.length = 8 ∧ Mag 8 (oddTable st (gejSetGe a)).2 ∧ feVal (oddTable st (gejSetGe a)).2 ≠ 0 ∧
    ∀ j g, (oddTable st (gejSetGe a)).1[j]? = some g →
      GeMag g ∧ g.infinity = false ∧ GeRep (feVal (oddTable st (gejSetGe a)).2) g ((1 + 2 * j) • P) := by
  obtain ⟨m1, r1⟩ := setGe_eq hm ha
  have hi' : (gejSetGe a).infinity = false := hi
  obtain ⟨d1, d2, -, d4, d5⟩ := double_eq (r := st.d) (fun h => by rw [hi'] at h; cases h) m1 r1
  rw [hi'] at d4
  have hz := (d5 hi').2
  rw [GejRep, if_neg (by simp [d4]), mul_one] at d2
  have hz0 := d2.1
  rw [oddTable, oddMultiples]
  simp only
  rw [show tableSize windowA - 1 = 7 from rfl]
  generalize (gejDoubleVar st.d (gejSetGe a)).1 = d at *
  have hdg : GeRep (feVal d.z) ⟨d.x, d.y, false⟩ (P + P) := by
    rw [GeRep, if_neg (by simp)]; exact d2
  obtain ⟨z1, z2, z3⟩ := zinv_eq (k := feVal (gejSetGe a).z * feVal d.z) (v := 1) m1 d1.z r1 (fun _ => ⟨hz0, by ring⟩)
  have hf : GejRep (feVal d.z) ⟨(geSetGejZinv (gejSetGe a) d.z).x, (geSetGejZinv (gejSetGe a) d.z).y, (gejSetGe a).z, false⟩ (1 • P) := by
    rw [GejRep, if_neg (by simp), one_nsmul]
    rw [GeRep, if_neg (by exact (by simp [hi'] : ¬ (gejSetGe a).infinity = true))] at z3
    exact z3
  obtain ⟨t1, t2, t3, t4, t5, t6⟩ := oddLoop_eq (prej := st.prej) (d := ⟨d.x, d.y, false⟩) ⟨d1.x, d1.y⟩ rfl hdg 7 1 1
    ⟨(geSetGejZinv (gejSetGe a) d.z).x, (geSetGejZinv (gejSetGe a) d.z).y, (gejSetGe a).z, false⟩ d.z
    ⟨mag_mono (by decide) z1, mag_mono (by decide) z2, m1.z⟩ rfl hf d1.z hz0 (fun j hj => by
      constructor
      · intro h
        rw [← two_nsmul] at h
        by_cases h0 : j = 0
        · subst h0
          have : (2 : ℕ) • P = 1 • P + 1 • P := by rw [one_nsmul, two_nsmul]
          rw [this] at h
          refine hne 1 (by decide) (by decide) ?_
          have h' : 1 • P = 1 • P + 1 • P := h
          exact (left_eq_add.1 h')
        · refine hne (2 * j - 1) (by omega) (by omega) ?_
          have : (1 + 2 * j) = (2 * j - 1) + 2 := by omega
          rw [this, add_nsmul] at h
          exact add_eq_right.1 h
      · exact hne _ (by omega) (by omega))
  have hG := ((Is.of t6).mul (Is.of d1.z) (by decide) (by decide))
  have hn0 : feVal (gejSetGe a).z ≠ 0 := by rw [show (gejSetGe a).z = feSetInt 1 from rfl, is_one.val]; exact one_ne_zero
  refine ⟨t1, ?_, ?_, ?_⟩
  · exact (hG.up (by decide)).mag
  · refine (show feVal (feMul (lastZ _ _) d.z) ≠ 0 from ?_)
    rw [hG.val]
    refine mul_ne_zero ?_ hz0
    intro h0
    rw [h0, zero_mul] at t5
    exact mul_ne_zero t4 hn0 t5
  · intro j g hg
    obtain ⟨g1, g2, g3⟩ := t2 j g hg
    refine ⟨g1, g2, ?_⟩
    refine (show GeRep (feVal (feMul (lastZ _ _) d.z)) g _ from ?_)
    rw [hG.val]
    exact g3

end Verif.Proofs
