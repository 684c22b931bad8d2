import Verif.Model.CEcmult
import Verif.Proofs.CMultMore
import Verif.Proofs.CWnaf
import Verif.Props.CGroup
/-!
# The sum of two multiples in the C library: proofs
-/

namespace Verif.Proofs
open Verif.C Verif.Spec Verif.Props WeierstrassCurve

/-! ## The multiples of the base point -/

theorem lastZ_succ {prej : Nat → Gej} {d : Ge} {prev : Gej} {i n : Nat} : lastZ prev (oddLoop prej d prev i (n + 1)) =
    lastZ (gejAddGeVar (prej i) prev d).1 (oddLoop prej d (gejAddGeVar (prej i) prev d).1 (i + 1) n) := by
  rw [oddLoop, lastZ, lastZ]
  generalize oddLoop prej d (gejAddGeVar (prej i) prev d).1 (i + 1) n = l
  cases l with
  | nil => rfl
  | cons x xs => rfl

theorem setLoop_eq {D : SecpF} {d : Ge} {P : secp.Point} {prej : Nat → Gej} {z : Fe} (hd : GeMag d) (hdi : d.infinity = false)
    (hdr : GeRep D d (P + P)) (hmz : Mag 8 z) : ∀ (n i k : Nat) (prev : Gej) (zr : Fe), GejMag prev → prev.infinity = false →
    GejRep D prev (k • P) → Mag 8 zr →
    (∀ j, j < n → (k + 2 * j) • P ≠ P + P ∧ (k + 2 * j + 2) • P ≠ 0) →
    feVal z = feVal (lastZ prev (oddLoop prej d prev i n)) * D →
    (setTable z ((prev, zr) :: oddLoop prej d prev i n)).1.length = n + 1 ∧
    (∀ j g, (setTable z ((prev, zr) :: oddLoop prej d prev i n)).1[j]? = some g →
      GeMag g ∧ g.infinity = false ∧ GeRep 1 g ((k + 2 * j) • P)) ∧
    Is 8 (setTable z ((prev, zr) :: oddLoop prej d prev i n)).2 ((feVal prev.z * D)⁻¹ * feVal zr) := by
  intro n
  induction n with
  | zero =>
    intro i k prev zr hp hpi hpr hz _ hl
    rw [oddLoop] at hl ⊢
    rw [setTable]
    have hl' : feVal z = feVal prev.z * D := hl
    have hz0 : feVal z ≠ 0 := by rw [hl']; exact (rep_jac (by simp [hpi]) hpr).1
    have Z := (Is.of hmz).inv (by decide)
    obtain ⟨z1, z2, z3⟩ := zinv_eq (k := 1) hp (mag_mono (by decide) Z.mag) hpr (fun _ => ⟨by rw [Z.val]; exact inv_ne_zero hz0, by
      rw [Z.val, ← hl', mul_inv_cancel₀ hz0]⟩)
    refine ⟨rfl, ?_, ?_⟩
    · intro j g hg
      cases j with
      | succ j => cases hg
      | zero =>
        obtain rfl := Option.some.inj hg
        exact ⟨⟨mag_mono (by decide) z1, mag_mono (by decide) z2⟩, hpi, z3⟩
    · have := (Z.mul (Is.of hz) (by decide) (by decide)).up (k := 8) (by decide)
      rwa [hl'] at this
  | succ n ih =>
    intro i k prev zr hp hpi hpr hz hne hl
    obtain ⟨n1, n2⟩ := hne 0 (by omega)
    have hadd : (k + 2 * 0 + 2) • P = k • P + (P + P) := by rw [add_nsmul, Nat.mul_zero, Nat.add_zero, two_nsmul]
    rw [hadd] at n2
    obtain ⟨a1, a2, a3, a4, a5, a6⟩ := addGeVar_ne (r := prej i) hp hd hpr hdr hpi hdi (by simpa using n1) n2
    rw [← hadd] at a2
    rw [lastZ_succ] at hl
    obtain ⟨t1, t2, t3⟩ := ih (i + 1) (k + 2) (gejAddGeVar (prej i) prev d).1 (gejAddGeVar (prej i) prev d).2 a1 a4
      (by simpa using a2) a3 (fun j hj => by
        have := hne (j + 1) (by omega)
        rwa [show k + 2 * (j + 1) = k + 2 + 2 * j by ring] at this) hl
    rw [oddLoop]
    rw [show (gejAddGeVar (prej i) prev d) = ((gejAddGeVar (prej i) prev d).1, (gejAddGeVar (prej i) prev d).2) from rfl]
    rw [setTable]
    simp only
    generalize setTable z (((gejAddGeVar (prej i) prev d).1, (gejAddGeVar (prej i) prev d).2) ::
      oddLoop prej d (gejAddGeVar (prej i) prev d).1 (i + 1) n) = T at *
    have hzp := (rep_jac (by simp [hpi]) hpr).1
    have key : feVal T.2 = (feVal prev.z * D)⁻¹ := by
      rw [t3.val, a5]
      have h1 := left_ne_zero_of_mul hzp
      have h2 := right_ne_zero_of_mul hzp
      field_simp
    refine ⟨by rw [List.length_cons, t1], ?_, ?_⟩
    · intro j g hg
      cases j with
      | zero =>
        obtain rfl := Option.some.inj hg
        obtain ⟨z1, z2, z3⟩ := zinv_eq (k := 1) hp t3.mag hpr (fun _ => ⟨by rw [key]; exact inv_ne_zero hzp, by
          rw [key, mul_inv_cancel₀ hzp]⟩)
        exact ⟨⟨mag_mono (by decide) z1, mag_mono (by decide) z2⟩, hpi, z3⟩
      | succ j =>
        have := t2 j g hg
        rwa [show k + 2 * (j + 1) = k + 2 + 2 * j by ring]
    · rw [← key]
      exact ((Is.of t3.mag).mul (Is.of hz) (by decide) (by decide)).up (by decide)

/-- Odd multiples in storage. -/
structure StoredTable (P : secp.Point) (n : Nat) (pre : List GeStorage) : Prop where
  length : pre.length = n
  entry : ∀ j s, pre[j]? = some s → GeMag (geFromStorage s) ∧ GeRep 1 (geFromStorage s) ((1 + 2 * j) • P)

theorem storageTable_eq {st : Stack} {n : Nat} (hn : 0 < n) {a : Ge} {P : secp.Point} (hm : GeMag a) (hi : a.infinity = false) (ha : GeRep 1 a P)
    (hne : ∀ k : Nat, 0 < k → k < 2 * n + 2 → k • P ≠ 0) : StoredTable P n (storageTable st n (gejSetGe a)) := by
  obtain ⟨m1, r1⟩ := setGe_eq hm ha
  have hi' : (gejSetGe a).infinity = false := hi
  obtain ⟨d1, d2, -, d4, d5⟩ := double_eq (r := st.d) (fun h => by rw [hi'] at h; cases h) m1 r1
  rw [hi'] at d4
  have hz := (d5 hi').2
  rw [GejRep, if_neg (by simp [d4]), mul_one] at d2
  have hz0 := d2.1
  rw [storageTable, oddMultiples]
  simp only
  generalize (gejDoubleVar st.d (gejSetGe a)).1 = d at *
  have hdg : GeRep (feVal d.z) ⟨d.x, d.y, false⟩ (P + P) := by
    rw [GeRep, if_neg (by simp)]; exact d2
  obtain ⟨z1, z2, z3⟩ := zinv_eq (k := feVal (gejSetGe a).z * feVal d.z) (v := 1) m1 d1.z r1 (fun _ => ⟨hz0, by ring⟩)
  have hf : GejRep (feVal d.z) ⟨(geSetGejZinv (gejSetGe a) d.z).x, (geSetGejZinv (gejSetGe a) d.z).y, (gejSetGe a).z, false⟩ (1 • P) := by
    rw [GejRep, if_neg (by simp), one_nsmul]
    rw [GeRep, if_neg (by exact (by simp [hi'] : ¬ (gejSetGe a).infinity = true))] at z3
    exact z3
  have hne' : ∀ j, j < n - 1 → (1 + 2 * j) • P ≠ P + P ∧ (1 + 2 * j + 2) • P ≠ 0 := fun j hj => by
    constructor
    · intro h
      rw [← two_nsmul] at h
      by_cases h0 : j = 0
      · subst h0
        have : (2 : ℕ) • P = 1 • P + 1 • P := by rw [one_nsmul, two_nsmul]
        rw [this] at h
        refine hne 1 (by decide) (by omega) ?_
        have h' : 1 • P = 1 • P + 1 • P := h
        exact (left_eq_add.1 h')
      · refine hne (2 * j - 1) (by omega) (by omega) ?_
        have : (1 + 2 * j) = (2 * j - 1) + 2 := by omega
        rw [this, add_nsmul] at h
        exact add_eq_right.1 h
    · exact hne _ (by omega) (by omega)
  have M1 : GejMag ⟨(geSetGejZinv (gejSetGe a) d.z).x, (geSetGejZinv (gejSetGe a) d.z).y, (gejSetGe a).z, false⟩ :=
    ⟨mag_mono (by decide) z1, mag_mono (by decide) z2, m1.z⟩
  have hfi : (⟨(geSetGejZinv (gejSetGe a) d.z).x, (geSetGejZinv (gejSetGe a) d.z).y, (gejSetGe a).z, false⟩ : Gej).infinity = false := rfl
  generalize (⟨(geSetGejZinv (gejSetGe a) d.z).x, (geSetGejZinv (gejSetGe a) d.z).y, (gejSetGe a).z, false⟩ : Gej) = first at *
  obtain ⟨-, -, -, -, -, t6⟩ := oddLoop_eq (prej := st.prej) (d := ⟨d.x, d.y, false⟩) ⟨d1.x, d1.y⟩ rfl hdg (n - 1) 1 1
    first d.z M1 hfi hf d1.z hz0 hne'
  have hG := ((Is.of t6).mul (Is.of d1.z) (by decide) (by decide))
  obtain ⟨s1, s2, -⟩ := setLoop_eq (z := feMul (lastZ first (oddLoop st.prej ⟨d.x, d.y, false⟩ first 1 (n - 1))) d.z) (prej := st.prej)
    (d := ⟨d.x, d.y, false⟩) ⟨d1.x, d1.y⟩ rfl hdg (mag_mono (by decide) hG.mag) (n - 1) 1 1 first d.z M1 hfi hf d1.z hne' hG.val
  rw [lastZ] at s1 s2
  refine ⟨by rw [List.length_map, s1]; omega, fun j s hs => ?_⟩
  rw [List.getElem?_map] at hs
  obtain ⟨g', hg', rfl⟩ := Option.map_eq_some_iff.1 hs
  obtain ⟨k1, k2, k3⟩ := s2 j g' hg'
  exact geStorage_eq k1 k2 k3

theorem constG_eq : GeMag constG ∧ GeRep 1 constG basePoint := by
  have hm : Mag 1 constG.x ∧ Mag 1 constG.y := by
    constructor <;> (refine ⟨?_, ?_, ?_, ?_, ?_, ?_, ?_, ?_, ?_, ?_⟩ <;> decide +kernel)
  refine ⟨⟨mag_mono (by decide) hm.1, mag_mono (by decide) hm.2⟩, ?_⟩
  rw [GeRep, if_neg (by decide)]
  have hx : feNat constG.x = theCurve.gx.toNat := by decide +kernel
  have hy : feNat constG.y = theCurve.gy.toNat := by decide +kernel
  refine ⟨one_ne_zero, _, _, base_nonsingular, rfl, ?_, ?_⟩
  · rw [feVal, hx, one_pow, mul_one, ← Int.cast_natCast, Int.toNat_of_nonneg (by decide +kernel)]
  · rw [feVal, hy, one_pow, mul_one, ← Int.cast_natCast, Int.toNat_of_nonneg (by decide +kernel)]

theorem base_ne : basePoint ≠ 0 := Affine.Point.some_ne_zero _

/-- The table that is kept with the context. -/
theorem contextTable_eq (st : Stack) : StoredTable basePoint 16384 (contextTable st) := by
  have hN : 40000 < curveN := by decide +kernel
  rw [contextTable, show tableSize windowG = 16384 from rfl]
  exact storageTable_eq (by decide) constG_eq.1 rfl constG_eq.2 fun k h1 h2 =>
    multiple_ne (Nat.not_dvd_of_pos_of_lt h1 (by omega)) base_ne

/-! ## The entries that are read -/

theorem digit_index {w : Nat} (hw : 2 ≤ w) {n : Int} (hd : Digit w n) (hn : n ≠ 0) : ∃ j : Nat, j < 2 ^ (w - 2) ∧
    (0 < n ∧ n = ((1 + 2 * j : Nat) : Int) ∧ ((n - 1).tdiv 2).toNat = j ∨
      ¬ 0 < n ∧ n = -((1 + 2 * j : Nat) : Int) ∧ ((-n - 1).tdiv 2).toNat = j) := by
  obtain ⟨h1, h2, h3⟩ := hd.resolve_left hn
  have e : (2 : Int) ^ (w - 1) = 2 * ((2 ^ (w - 2) : Nat) : Int) := by
    rw [show w - 1 = w - 2 + 1 by omega, pow_succ]; push_cast; ring
  rw [e] at h2 h3
  generalize 2 ^ (w - 2) = B at *
  by_cases h0 : 0 < n
  · refine ⟨((n - 1) / 2).toNat, by omega, .inl ⟨h0, by omega, ?_⟩⟩
    rw [Int.tdiv_eq_ediv_of_nonneg (by omega)]
  · refine ⟨((-n - 1) / 2).toNat, by omega, .inr ⟨h0, by omega, ?_⟩⟩
    rw [Int.tdiv_eq_ediv_of_nonneg (by omega)]

theorem tableGetGe_eq {Z : SecpF} {P : secp.Point} {pre : List Ge} (hl : pre.length = 8)
    (he : ∀ j g, pre[j]? = some g → GeMag g ∧ GeRep Z g ((1 + 2 * j) • P)) {n : Int} (hd : Digit 5 n) (hn : n ≠ 0) :
    GeMag (tableGetGe pre n) ∧ GeRep Z (tableGetGe pre n) (n • P) := by
  obtain ⟨j, hj, h⟩ := digit_index (by decide) hd hn
  obtain ⟨g, hg⟩ : ∃ g, pre[j]? = some g := ⟨_, List.getElem?_eq_getElem (by rw [hl]; exact hj)⟩
  obtain ⟨m1, m2⟩ := he j g hg
  rw [tableGetGe]
  rcases h with ⟨h0, e1, e2⟩ | ⟨h0, e1, e2⟩
  · rw [if_pos h0, e2, List.getD_eq_getElem?_getD, hg, Option.getD_some, e1, natCast_zsmul]
    exact ⟨m1, m2⟩
  · rw [if_neg h0, e2, List.getD_eq_getElem?_getD, hg, Option.getD_some, e1, neg_zsmul, natCast_zsmul]
    obtain ⟨n1, n2, -⟩ := geNeg_eq m1 m2
    exact ⟨n1, n2⟩

theorem tableGetStorage_eq {P : secp.Point} {pre : List GeStorage} (h : StoredTable P 16384 pre) {n : Int} (hd : Digit 16 n) (hn : n ≠ 0) :
    GeMag (tableGetStorage pre n) ∧ GeRep 1 (tableGetStorage pre n) (n • P) := by
  obtain ⟨j, hj, hc⟩ := digit_index (by decide) hd hn
  obtain ⟨g, hg⟩ : ∃ g, pre[j]? = some g := ⟨_, List.getElem?_eq_getElem (by rw [h.length]; exact hj)⟩
  obtain ⟨m1, m2⟩ := h.entry j g hg
  rw [tableGetStorage]
  rcases hc with ⟨h0, e1, e2⟩ | ⟨h0, e1, e2⟩
  · rw [if_pos h0, e2, List.getD_eq_getElem?_getD, hg, Option.getD_some, e1, natCast_zsmul]
    exact ⟨m1, m2⟩
  · rw [if_neg h0, e2, List.getD_eq_getElem?_getD, hg, Option.getD_some, e1, neg_zsmul, natCast_zsmul]
    obtain ⟨n1, n2, -⟩ := geNeg_eq m1 m2
    exact ⟨n1, n2⟩

/-! ## The sum -/

theorem getD_digit {w : Nat} {l : List Int} (h : ∀ d ∈ l, Digit w d) (i : Nat) : Digit w (l.getD i 0) := by
  rw [List.getD_eq_getElem?_getD]
  cases hg : l[i]? with
  | none => exact .inl rfl
  | some d => exact h d (List.mem_of_getElem? hg)

theorem ecmultLoop_eq {Z : Fe} {P Q : secp.Point} {preA : List Ge} {preG : List GeStorage} {na ng : List Int × Nat} {va vg : Int}
    (hZ : Mag 8 Z) (hZ0 : feVal Z ≠ 0) (hl : preA.length = 8)
    (he : ∀ j g, preA[j]? = some g → GeMag g ∧ GeRep (feVal Z) g ((1 + 2 * j) • P)) (hG : StoredTable Q 16384 preG)
    (ha : Digits 5 va 0 0 na) (hg : Digits 16 vg 0 0 ng) : ∀ (i : Nat) (r : Gej), GejMag r →
    GejRep (feVal Z) r (bitsValue (na.1.drop i) • P + bitsValue (ng.1.drop i) • Q) →
    GejMag (ecmultLoop preA preG Z na ng i r) ∧ GejRep (feVal Z) (ecmultLoop preA preG Z na ng i r) (va • P + vg • Q) := by
  intro i
  induction i with
  | zero =>
    intro r h1 h2
    rw [List.drop_zero, List.drop_zero, ha.value, hg.value] at h2
    exact ⟨h1, h2⟩
  | succ i ih =>
    intro r h1 h2
    rw [ecmultLoop]
    obtain ⟨d1, d2, -⟩ := double_eq (r := r) (fun _ => h1) h1 h2
    generalize (gejDoubleVar r r).1 = d at *
    have s1 : GejMag (if i < na.2 ∧ na.1.getD i 0 ≠ 0 then (gejAddGeVar d d (tableGetGe preA (na.1.getD i 0))).1 else d) ∧
        GejRep (feVal Z) (if i < na.2 ∧ na.1.getD i 0 ≠ 0 then (gejAddGeVar d d (tableGetGe preA (na.1.getD i 0))).1 else d)
          (bitsValue (na.1.drop i) • P + (2 * bitsValue (ng.1.drop (i + 1))) • Q) := by
      have e : bitsValue (na.1.drop i) • P + (2 * bitsValue (ng.1.drop (i + 1))) • Q =
          (bitsValue (na.1.drop (i + 1)) • P + bitsValue (ng.1.drop (i + 1)) • Q +
            (bitsValue (na.1.drop (i + 1)) • P + bitsValue (ng.1.drop (i + 1)) • Q)) + na.1.getD i 0 • P := by
        rw [bitsValue_drop na.1 i]; module
      rw [e]
      split
      case isTrue h =>
        obtain ⟨t1, t2⟩ := tableGetGe_eq hl he (getD_digit ha.digit i) h.2
        obtain ⟨a1, a2, -⟩ := addGeVar_eq d1 d1 t1 d2 t2
        exact ⟨a1, a2⟩
      case isFalse h =>
        have h0 : na.1.getD i 0 = 0 := by
          by_cases hi : i < na.2
          · by_contra hc; exact h ⟨hi, hc⟩
          · exact ha.zero i (by omega)
        rw [h0, zero_zsmul, add_zero]
        exact ⟨d1, d2⟩
    obtain ⟨b1, b2⟩ := s1
    generalize (if i < na.2 ∧ na.1.getD i 0 ≠ 0 then (gejAddGeVar d d (tableGetGe preA (na.1.getD i 0))).1 else d) = b at *
    have e : bitsValue (na.1.drop i) • P + bitsValue (ng.1.drop i) • Q =
        (bitsValue (na.1.drop i) • P + (2 * bitsValue (ng.1.drop (i + 1))) • Q) + ng.1.getD i 0 • Q := by
      rw [bitsValue_drop ng.1 i]; module
    refine ih _ ?_ ?_
    all_goals
      split
      case isTrue h =>
        obtain ⟨t1, t2⟩ := tableGetStorage_eq hG (getD_digit hg.digit i) h.2
        obtain ⟨a1, a2⟩ := addZinvVar_eq b1 b1 t1 hZ hZ0 b2 (by rw [mul_inv_cancel₀ hZ0]; exact t2)
        first
        | exact a1
        | rw [e]; exact a2
      case isFalse h =>
        have h0 : ng.1.getD i 0 = 0 := by
          by_cases hi : i < ng.2
          · by_contra hc; exact h ⟨hi, hc⟩
          · exact hg.zero i (by omega)
        rw [h0, zero_zsmul, add_zero] at e
        first
        | exact b1
        | rw [e]; exact b2

theorem digits_zsmul {P : secp.Point} {a : Sc} {v : Int} (h : v = scNat a ∨ v = scNat a - (curveN : Int)) : v • P = scNat a • P := by
  have h0 : ((curveN : Nat) : Int) • P = 0 := by rw [natCast_zsmul]; exact (C80_all_points P).1
  rcases h with rfl | rfl
  · rw [natCast_zsmul]
  · rw [sub_zsmul, h0, natCast_zsmul, neg_zero, add_zero]

theorem infinity_eq (u : SecpF) : GejMag gejSetInfinity ∧ GejRep u gejSetInfinity 0 := by
  refine ⟨⟨?_, ?_, ?_⟩, by rw [GejRep, if_pos (by rfl)]⟩ <;> exact (is_zero.up (by decide)).mag

/-- The sum of two multiples. -/
theorem ecmult_eq {st : Stack} {preG : List GeStorage} {Q : secp.Point} (hG : StoredTable Q 16384 preG) {a : Ge} {P : secp.Point}
    (hm : GeMag a) (hi : a.infinity = false) (ha : GeRep 1 a P) (hP : P ≠ 0) {na ng : Sc} (hna : Scalar na) (hng : Scalar ng) :
    GejMag (ecmult st preG (gejSetGe a) na ng) ∧ GejRep 1 (ecmult st preG (gejSetGe a) na ng) (scNat na • P + scNat ng • Q) := by
  have hN : 20 < curveN := by decide +kernel
  have hne : ∀ k : Nat, 0 < k → k < 20 → k • P ≠ 0 := fun k h1 h2 =>
    multiple_ne (Nat.not_dvd_of_pos_of_lt h1 (by omega)) hP
  obtain ⟨t1, t2, t3, t4⟩ := oddTable_eq (st := st) hm hi ha hne
  obtain ⟨va, ea, da⟩ := wnafVar_eq hna (w := 5) (by decide) (by decide)
  obtain ⟨vg, eg, dg⟩ := wnafVar_eq hng (w := 16) (by decide) (by decide)
  rw [ecmult, show windowA = 5 from rfl, show windowG = 16 from rfl]
  generalize wnafVar 256 na 5 = A at *
  generalize wnafVar 256 ng 16 = B at *
  generalize oddTable st (gejSetGe a) = T at *
  obtain ⟨n, hn⟩ : ∃ n, (if B.2 > A.2 then B.2 else A.2) = n := ⟨_, rfl⟩
  rw [hn]
  have hle : A.2 ≤ n ∧ B.2 ≤ n := by split at hn <;> omega
  obtain ⟨i1, i2⟩ := infinity_eq (feVal T.2)
  obtain ⟨r1, r2⟩ := ecmultLoop_eq t2 t3 t1 (fun j g h => ⟨(t4 j g h).1, (t4 j g h).2.2⟩) hG da dg n gejSetInfinity i1 (by
    rw [bitsValue_none A.1 n (fun j hj => da.zero j (by omega)), bitsValue_none B.1 n (fun j hj => dg.zero j (by omega)),
      zero_zsmul, zero_zsmul, add_zero]
    exact i2)
  rw [digits_zsmul ea, digits_zsmul eg] at r2
  generalize ecmultLoop T.1 preG T.2 A B n gejSetInfinity = r at *
  split
  case isTrue h =>
    refine ⟨r1, ?_⟩
    rw [GejRep, if_pos h] at r2 ⊢
    exact r2
  case isFalse h =>
    have hz := (Is.of r1.z).mul (Is.of t2) (by decide) (by decide)
    refine ⟨⟨r1.x, r1.y, (hz.up (by decide)).mag⟩, ?_⟩
    rw [GejRep] at r2 ⊢
    simp only
    rw [hz.val, mul_one]
    exact r2

end Verif.Proofs
