import Verif.Proofs.CMult
import Verif.Props.Ecdsa
/-!
# The multiplication of points of the C library: more proofs
-/

namespace Verif.Proofs
open Verif.C Verif.Spec Verif.Props WeierstrassCurve

theorem geMag_fits {g : Ge} (h : GeMag g) : GeFits g := ⟨mag_fits (by decide) h.x, mag_fits (by decide) h.y⟩

/-- One step of the loop over the table. -/
def getStep (idx : Int) (r : Ge) (p : Ge × Nat) : Ge :=
  { r with
    x := feCmov r.x p.1.x (decide ((p.2 : Int) = idx)).toNat
    y := feCmov r.y p.1.y (decide ((p.2 : Int) = idx)).toNat }

theorem getFold_eq (idx : Int) : ∀ (pre : List Ge) (k : Nat) (r : Ge), GeFits r → (∀ g ∈ pre, GeFits g) →
    GeFits ((pre.zipIdx k).foldl (getStep idx) r) ∧
    (∀ j g, pre[j]? = some g → ((k + j : Nat) : Int) = idx →
      ((pre.zipIdx k).foldl (getStep idx) r).x = g.x ∧ ((pre.zipIdx k).foldl (getStep idx) r).y = g.y) ∧
    (idx < k → ((pre.zipIdx k).foldl (getStep idx) r).x = r.x ∧ ((pre.zipIdx k).foldl (getStep idx) r).y = r.y) := by
  intro pre
  induction pre with
  | nil =>
    intro k r hr _
    exact ⟨hr, fun j g h => (by cases h), fun _ => ⟨rfl, rfl⟩⟩
  | cons p pre ih =>
    intro k r hr hp
    rw [List.zipIdx_cons, List.foldl_cons]
    have hp1 := hp p List.mem_cons_self
    obtain ⟨x0, x1⟩ := cmov_eq hr.x hp1.x
    obtain ⟨y0, y1⟩ := cmov_eq hr.y hp1.y
    have hs : (getStep idx r (p, k)).x = (if (k : Int) = idx then p.x else r.x) ∧
        (getStep idx r (p, k)).y = (if (k : Int) = idx then p.y else r.y) := by
      by_cases h : (k : Int) = idx
      · simp only [getStep, h, decide_true, Bool.toNat_true, if_true, x1, y1, and_self]
      · simp only [getStep, h, decide_false, Bool.toNat_false, if_false, x0, y0, and_self]
    have hf : GeFits (getStep idx r (p, k)) := by
      refine ⟨?_, ?_⟩
      · rw [hs.1]; split
        · exact hp1.x
        · exact hr.x
      · rw [hs.2]; split
        · exact hp1.y
        · exact hr.y
    obtain ⟨g1, g2, g3⟩ := ih (k + 1) (getStep idx r (p, k)) hf (fun g hg => hp g (List.mem_cons_of_mem _ hg))
    refine ⟨g1, ?_, ?_⟩
    · intro j g hj hi
      cases j with
      | zero =>
        obtain rfl := Option.some.inj hj
        obtain ⟨e1, e2⟩ := g3 (by omega)
        rw [e1, e2, hs.1, hs.2, if_pos (by omega), if_pos (by omega)]
        exact ⟨rfl, rfl⟩
      | succ j => exact g2 j g hj (by rw [← hi]; push_cast; ring)
    · intro hi
      obtain ⟨e1, e2⟩ := g3 (by omega)
      rw [e1, e2, hs.1, hs.2, if_neg (by omega), if_neg (by omega)]
      exact ⟨rfl, rfl⟩

/-- A table of odd multiples with the same third coordinate. -/
structure OddTable (Z : SecpF) (P : secp.Point) (pre : List Ge) : Prop where
  length : pre.length = 8
  entry : ∀ j g, pre[j]? = some g → Mag 8 g.x ∧ Mag 1 g.y ∧ g.infinity = false ∧ GeRep Z g ((1 + 2 * j) • P)

theorem tableGet_eq {Z : SecpF} {P : secp.Point} {pre : List Ge} (h : OddTable Z P pre) {r : Ge} (hr : GeFits r) {n : Int} (hn : Word n) :
    GeMag (tableGet r pre n) ∧ (tableGet r pre n).infinity = false ∧ GeRep Z (tableGet r pre n) (n • P) := by
  obtain ⟨n1, n2, n3⟩ := hn
  obtain ⟨b, j, hj, hb, hb'⟩ : ∃ (b : Bool) (j : Nat), j < 8 ∧ n * ((if n > 0 then 1 else 0) * 2 - 1) = 1 + 2 * (j : Int) ∧
      (b = false ∧ n = 1 + 2 * j ∨ b = true ∧ n = -(1 + 2 * j)) := by
    by_cases h0 : n > 0
    · exact ⟨false, ((n - 1) / 2).toNat, by omega, by rw [if_pos h0]; omega, .inl ⟨rfl, by omega⟩⟩
    · exact ⟨true, ((-n - 1) / 2).toNat, by omega, by rw [if_neg h0]; omega, .inr ⟨rfl, by omega⟩⟩
  have hd : decide (n ≠ 1 + 2 * (j : Int)) = b := by
    rcases hb' with ⟨rfl, e⟩ | ⟨rfl, e⟩
    · simp [e]
    · simp only [ne_eq, decide_eq_true_eq]; omega
  have hdiv : (1 + 2 * (j : Int)).tdiv 2 = j := by
    rw [Int.tdiv_eq_ediv_of_nonneg (by omega)]; omega
  obtain ⟨g, hg⟩ : ∃ g, pre[j]? = some g := ⟨_, List.getElem?_eq_getElem (by rw [h.length]; exact hj)⟩
  obtain ⟨m1, m2, m3, m4⟩ := h.entry j g hg
  have hpre : ∀ g ∈ pre, GeFits g := fun g hg => by
    obtain ⟨i, hi⟩ := List.getElem?_of_mem hg
    obtain ⟨k1, k2, -, -⟩ := h.entry i g hi
    exact ⟨mag_fits (by decide) k1, mag_fits (by decide) k2⟩
  obtain ⟨-, f2, -⟩ := getFold_eq (j : Int) pre 0 r hr hpre
  obtain ⟨e1, e2⟩ := f2 j g hg (by simp)
  have he : tableGet r pre n = ⟨g.x, feCmov g.y (feNegate g.y 1) b.toNat, false⟩ := by
    rw [tableGet]
    rw [hb, hdiv, hd]
    rw [show (fun (r : Ge) (p : Ge × Nat) => ({ r with
      x := feCmov r.x p.1.x (decide ((p.2 : Int) = (j : Int))).toNat
      y := feCmov r.y p.1.y (decide ((p.2 : Int) = (j : Int))).toNat } : Ge)) = getStep (j : Int) from rfl, e1, e2]
  rw [he]
  have N := (Is.of m2).neg (by decide)
  have C : Is 2 _ _ := (Is.of m2).cmov N (by decide) (by decide) b
  refine ⟨⟨m1, (C.up (by decide)).mag⟩, rfl, ?_⟩
  rw [GeRep, if_neg (by simp)]
  simp only
  rw [C.val]
  have jac := geRep_jac (by simp [m3]) m4
  rcases hb' with ⟨rfl, e⟩ | ⟨rfl, e⟩
  · rw [if_neg (by decide), e, show ((1 + 2 * j : Int)) = ((1 + 2 * j : Nat) : Int) by push_cast; rfl, natCast_zsmul]
    exact jac
  · rw [if_pos rfl, e, neg_zsmul, show ((1 + 2 * j : Int)) = ((1 + 2 * j : Nat) : Int) by push_cast; rfl, natCast_zsmul]
    exact jac_neg jac

theorem doubleTimes_eq {u : SecpF} : ∀ (n : Nat) (r : Gej) (q : secp.Point), GejMag r → GejRep u r q →
    GejMag (doubleTimes n r) ∧ GejRep u (doubleTimes n r) (2 ^ n • q) := by
  intro n
  induction n with
  | zero => intro r q h1 h2; rw [pow_zero, one_nsmul]; exact ⟨h1, h2⟩
  | succ n ih =>
    intro r q h1 h2
    obtain ⟨d1, d2, -⟩ := double_eq (fun _ => h1) h1 h2
    rw [doubleTimes, pow_succ, mul_nsmul', two_nsmul]
    exact ih _ _ d1 d2

theorem multWords_eq {Z : SecpF} {P : secp.Point} {pre : List Ge} (h : OddTable Z P pre) {tmpa : Ge} (ht : GeFits tmpa) :
    ∀ l : List Int, (∀ d ∈ l, Word d) → l ≠ [] → GejMag (multWords tmpa pre l).1 ∧
      GejRep Z (multWords tmpa pre l).1 (wordsValue l • P) ∧ GeFits (multWords tmpa pre l).2 := by
  intro l
  induction l with
  | nil => intro _ h; exact absurd rfl h
  | cons n l ih =>
    intro hw _
    cases l with
    | nil =>
      obtain ⟨g1, g2, g3⟩ := tableGet_eq h ht (hw n List.mem_cons_self)
      obtain ⟨s1, s2⟩ := setGe_eq g1 g3
      refine ⟨s1, ?_, geMag_fits g1⟩
      rw [wordsValue, wordsValue, mul_zero, add_zero]
      exact s2
    | cons m l =>
      obtain ⟨i1, i2, i3⟩ := ih (fun d hd => hw d (List.mem_cons_of_mem _ hd)) (by simp)
      rw [multWords]
      simp only
      obtain ⟨d1, d2⟩ := doubleTimes_eq 4 _ _ i1 i2
      obtain ⟨g1, g2, g3⟩ := tableGet_eq h i3 (hw n List.mem_cons_self)
      obtain ⟨a1, a2⟩ := addGe_eq d1 g1 g2 d2 g3
      refine ⟨a1, ?_, geMag_fits g1⟩
      have e : wordsValue (n :: m :: l) • P = 2 ^ 4 • wordsValue (m :: l) • P + n • P := by
        rw [wordsValue, add_zsmul, add_comm, mul_smul, ← natCast_zsmul]
        norm_num
      rw [e]
      exact a2

/-- The table that is read. -/
theorem oddTable_weak {st : Stack} {a : Ge} {P : secp.Point} (hm : GeMag a) (hi : a.infinity = false) (ha : GeRep 1 a P)
    (hne : ∀ k : Nat, 0 < k → k < 20 → k • P ≠ 0) :
    OddTable (feVal (oddTable st (gejSetGe a)).2) P
      ((oddTable st (gejSetGe a)).1.map fun g => { g with y := feNormalizeWeak g.y }) := by
  obtain ⟨t1, t2, t3, t4⟩ := oddTable_eq (st := st) hm hi ha hne
  refine ⟨by rw [List.length_map, t1], ?_⟩
  intro j g hg
  rw [List.getElem?_map] at hg
  obtain ⟨g', hg', rfl⟩ := Option.map_eq_some_iff.1 hg
  obtain ⟨k1, k2, k3⟩ := t4 j g' hg'
  have W := (Is.of k1.y).weak (by decide)
  refine ⟨k1.x, W.mag, k2, ?_⟩
  have jac := geRep_jac (by simp [k2]) k3
  rw [GeRep, if_neg (by simp [k2])]
  simp only
  rw [W.val]
  exact jac

theorem ecmultConst_eq {st : Stack} {a : Ge} {P : secp.Point} (hst : GeFits st.tmpa) (hm : GeMag a) (hi : a.infinity = false)
    (ha : GeRep 1 a P) (hP : P ≠ 0) {s : Sc} (hs : Scalar s) :
    GejMag (ecmultConst st a s) ∧ GejRep 1 (ecmultConst st a s) (scNat s • P) := by
  have hN : 20 < curveN := by decide +kernel
  have hne : ∀ k : Nat, 0 < k → k < 20 → k • P ≠ 0 := fun k h1 h2 =>
    multiple_ne (Nat.not_dvd_of_pos_of_lt h1 (by omega)) hP
  have T := oddTable_weak (st := st) hm hi ha hne
  obtain ⟨-, t2, t3, -⟩ := oddTable_eq (st := st) hm hi ha hne
  obtain ⟨w1, w2, w3, w4⟩ := wnaf_eq hs
  obtain ⟨r1, r2, -⟩ := multWords_eq T hst (wnafConst s 4).1 w2 (fun h => by rw [h] at w1; cases w1)
  rw [ecmultConst]
  rw [show windowA - 1 = 4 from rfl]
  generalize (multWords st.tmpa _ (wnafConst s 4).1).1 = r at *
  generalize (oddTable st (gejSetGe a)).2 = Z at *
  -- the third coordinate
  have hz := (Is.of r1.z).mul (Is.of t2) (by decide) (by decide)
  have R1 : GejMag { r with z := feMul r.z Z } := ⟨r1.x, r1.y, (hz.up (by decide)).mag⟩
  have R2 : GejRep 1 { r with z := feMul r.z Z } (wordsValue (wnafConst s 4).1 • P) := by
    rw [GejRep] at r2 ⊢
    simp only
    rw [hz.val, mul_one]
    exact r2
  -- the correction
  obtain ⟨m1, m2⟩ := setGe_eq hm ha
  have hi' : (gejSetGe a).infinity = false := hi
  obtain ⟨d1, d2, -, d4, -⟩ := double_eq (r := gejSetGe a) (fun _ => m1) m1 m2
  obtain ⟨x1, x2, x3⟩ := setGej_eq d1 d2
  have C1 : GeMag (geSetGej (gejDoubleVar (gejSetGe a) (gejSetGe a)).1) := ⟨mag_mono (by decide) x1, mag_mono (by decide) x2⟩
  have Ci : (geSetGej (gejDoubleVar (gejSetGe a) (gejSetGe a)).1).infinity = false := d4.trans hi'
  rw [geStorageCmov_eq hm C1]
  have hc : ∃ c, (if decide ((wnafConst s 4).2 = 2) = true then geToStorage (geSetGej (gejDoubleVar (gejSetGe a) (gejSetGe a)).1)
      else geToStorage a) = geToStorage c ∧ GeMag c ∧ c.infinity = false ∧ GeRep 1 c ((wnafConst s 4).2 • P) := by
    rcases w3 with h | h
    · rw [h]; exact ⟨a, rfl, hm, hi, by rw [one_nsmul]; exact ha⟩
    · rw [h]; exact ⟨_, rfl, C1, Ci, by rw [two_nsmul]; exact x3⟩
  obtain ⟨c, e, c1, c2, c3⟩ := hc
  rw [e]
  obtain ⟨s1, s2⟩ := geStorage_eq c1 c2 c3
  obtain ⟨n1, n2, n3⟩ := geNeg_eq s1 s2
  obtain ⟨a1, a2⟩ := addGe_eq R1 n1 n3 R2 n2
  refine ⟨a1, ?_⟩
  have ev : wordsValue (wnafConst s 4).1 • P + -((wnafConst s 4).2 • P) = scNat s • P := by
    have h0 : ((curveN : Nat) : Int) • P = 0 := by rw [natCast_zsmul]; exact (C80_all_points P).1
    rcases w4 with h | h
    · rw [h, add_zsmul, natCast_zsmul, natCast_zsmul]; abel
    · rw [h, sub_zsmul, add_zsmul, h0, natCast_zsmul, natCast_zsmul]; abel
  rw [← ev]
  exact a2

theorem val_natCast {n : Nat} (h : n < secpP) : ((n : SecpF)).val = n := by
  rw [ZMod.val_natCast, Nat.mod_eq_of_lt h]

/-- The multiplication of the C library, whatever is in the variables that are not initialized. -/
theorem extScalarMul_eq {st : Stack} (hst : GeFits st.tmpa) : Multiplies (extScalarMul st) := by
  constructor
  · intro point scalar hl h
    have ht : scalar.take 32 = scalar := List.take_of_length_le (by omega)
    obtain ⟨s1, s2, s3⟩ := setB32_sc hl
    rw [extScalarMul, ht]
    simp only
    rw [if_pos]
    rw [Bool.or_eq_true, s3, isZero_eq, s2]
    rcases h with h | h
    · right; rw [h]; rfl
    · left; exact h
  · intro point scalar q x y hp hl hq h0 hN hr
    have ht : scalar.take 32 = scalar := List.take_of_length_le (by omega)
    have ht' : (point.drop 32).take 32 = point.drop 32 := List.take_of_length_le (by rw [List.length_drop]; omega)
    obtain ⟨s1, s2, s3⟩ := setB32_sc hl
    rw [Nat.mod_eq_of_lt hN] at s2
    have hl1 : (point.take 32).length = 32 := by rw [List.length_take]; omega
    have hl2 : (point.drop 32).length = 32 := by rw [List.length_drop]; omega
    obtain ⟨x1, x2, -, -⟩ := setB32_eq hl1
    obtain ⟨y1, y2, -, -⟩ := setB32_eq hl2
    rw [extScalarMul, ht, ht']
    simp only
    rw [if_neg (by rw [Bool.or_eq_true, s3, isZero_eq, s2]; omega)]
    obtain ⟨⟨hn, rfl⟩, -, -⟩ := hq
    have ha : GeRep 1 (geSetXy (feSetB32 (point.take 32)).1 (feSetB32 (point.drop 32)).1)
        (Affine.Point.some ((setBytes (point.take 32) : Int) : SecpF) ((setBytes (point.drop 32) : Int) : SecpF) hn) := by
      rw [GeRep, geSetXy, if_neg (by simp)]
      refine ⟨one_ne_zero, _, _, hn, rfl, ?_, ?_⟩
      · simp only [feVal, x1]; push_cast; ring
      · simp only [feVal, y1]; push_cast; ring
    obtain ⟨e1, e2⟩ := ecmultConst_eq hst (a := geSetXy (feSetB32 (point.take 32)).1 (feSetB32 (point.drop 32)).1)
      ⟨mag_mono (by decide) x2, mag_mono (by decide) y2⟩ rfl ha (Affine.Point.some_ne_zero _) s1
    rw [s2] at e2
    generalize ecmultConst st _ _ = r at *
    obtain ⟨g1, g2, g3⟩ := setGej_eq e1 e2
    obtain ⟨⟨hn', hq'⟩, hx, hy⟩ := hr
    rw [hq'] at g3
    have hi : (geSetGej r).infinity = false := by
      by_contra hc
      rw [GeRep, if_pos (by simpa using hc)] at g3
      exact Affine.Point.some_ne_zero _ g3
    rw [GeRep, if_neg (by simp [hi])] at g3
    obtain ⟨-, X, Y, h', eq, ex, ey⟩ := g3
    injection eq with eX eY
    obtain ⟨n1, n2, -⟩ := normalize_eq (by decide) g1
    obtain ⟨k1, k2, -⟩ := normalize_eq (by decide) g2
    obtain ⟨b1, b2⟩ := getB32_eq n1
    obtain ⟨c1, c2⟩ := getB32_eq k1
    have fin : ∀ {f : Fe} {z : Int}, Normal f → 0 ≤ z ∧ z < secpP → feVal f = (z : SecpF) → (feNat f : Int) = z := by
      intro f z hf hz he
      obtain ⟨m, rfl⟩ := Int.eq_ofNat_of_zero_le hz.1
      have hm : m < secpP := by exact_mod_cast hz.2
      rw [feVal] at he
      have he : ((feNat f : Nat) : SecpF) = ((m : Nat) : SecpF) := by rw [he]; push_cast; rfl
      have := congrArg ZMod.val he
      rw [val_natCast hf.lt, val_natCast hm] at this
      exact_mod_cast this
    refine ⟨_, rfl, ?_, ?_⟩
    · rw [List.take_left' b1, b2]
      exact fin n1 hx (by rw [n2, ex, ← eX]; ring)
    · rw [List.drop_left' b1, c2]
      exact fin k1 hy (by rw [k2, ey, ← eY]; ring)

end Verif.Proofs
