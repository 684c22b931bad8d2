import Verif.Proofs.CGroup
/-!
# The group of points of the C library: the other functions
-/

namespace Verif.Proofs
open Verif.C Verif.Spec WeierstrassCurve

theorem geNeg_eq {u : SecpF} {a : Ge} {q : secp.Point} (hm : GeMag a) (h : GeRep u a q) :
    GeMag (geNeg a) ∧ GeRep u (geNeg a) (-q) ∧ (geNeg a).infinity = a.infinity := by
  have Y := ((Is.of hm.y).weak (by decide)).neg (by decide)
  refine ⟨⟨hm.x, (Y.up (by decide)).mag⟩, ?_, rfl⟩
  by_cases hi : a.infinity = true
  · rw [GeRep, if_pos (by exact hi), geRep_zero hi h, neg_zero]
  · rw [GeRep, if_neg (by exact hi), show feVal (geNeg a).y = -feVal a.y from Y.val]
    exact jac_neg (geRep_jac hi h)

theorem gejNeg_eq {u : SecpF} {a : Gej} {q : secp.Point} (hm : GejMag a) (h : GejRep u a q) :
    GejMag (gejNeg a) ∧ GejRep u (gejNeg a) (-q) := by
  have Y := ((Is.of hm.y).weak (by decide)).neg (by decide)
  refine ⟨⟨hm.x, (Y.up (by decide)).mag, hm.z⟩, ?_⟩
  by_cases hi : a.infinity = true
  · rw [GejRep, if_pos (by exact hi), rep_zero hi h, neg_zero]
  · rw [GejRep, if_neg (by exact hi), show feVal (gejNeg a).y = -feVal a.y from Y.val]
    exact jac_neg (rep_jac hi h)

theorem zinv_eq {k v : SecpF} {a : Gej} {zi : Fe} {q : secp.Point} (hm : GejMag a) (hz : Mag 8 zi) (h : GejRep v a q)
    (hk : a.infinity = false → feVal zi ≠ 0 ∧ feVal a.z * v * feVal zi = k) :
    Mag 1 (geSetGejZinv a zi).x ∧ Mag 1 (geSetGejZinv a zi).y ∧ GeRep k (geSetGejZinv a zi) q := by
  have Z2 := (Is.of hz).sqr (by decide)
  have Z3 := Z2.mul (Is.of hz) (by decide) (by decide)
  have X := (Is.of hm.x).mul Z2 (by decide) (by decide)
  have Y := (Is.of hm.y).mul Z3 (by decide) (by decide)
  refine ⟨X.mag, Y.mag, ?_⟩
  by_cases hi : a.infinity = true
  · rw [GeRep, if_pos (by exact hi)]
    exact rep_zero hi h
  · obtain ⟨h0, hk⟩ := hk (by simpa using hi)
    rw [GeRep, if_neg (by exact hi), show feVal (geSetGejZinv a zi).x = _ from X.val,
      show feVal (geSetGejZinv a zi).y = _ from Y.val, ← hk,
      show feVal a.y * (feVal zi ^ 2 * feVal zi) = feVal a.y * feVal zi ^ 3 by ring]
    exact jac_scale (rep_jac hi h) h0

theorem setGej_eq {u : SecpF} {a : Gej} {q : secp.Point} (hm : GejMag a) (h : GejRep u a q) :
    Mag 1 (geSetGej a).x ∧ Mag 1 (geSetGej a).y ∧ GeRep u (geSetGej a) q := by
  have Z := (Is.of hm.z).inv (by decide)
  have Z2 := Z.sqr (by decide)
  have Z3 := Z.mul Z2 (by decide) (by decide)
  have X := (Is.of hm.x).mul Z2 (by decide) (by decide)
  have Y := (Is.of hm.y).mul Z3 (by decide) (by decide)
  refine ⟨X.mag, Y.mag, ?_⟩
  by_cases hi : a.infinity = true
  · rw [GeRep, if_pos (by exact hi)]
    exact rep_zero hi h
  · have ja := rep_jac hi h
    have h0 : feVal a.z ≠ 0 := left_ne_zero_of_mul ja.1
    rw [GeRep, if_neg (by exact hi), show feVal (geSetGej a).x = _ from X.val, show feVal (geSetGej a).y = _ from Y.val,
      show feVal a.y * ((feVal a.z)⁻¹ * (feVal a.z)⁻¹ ^ 2) = feVal a.y * (feVal a.z)⁻¹ ^ 3 by ring]
    have := jac_scale ja (inv_ne_zero h0)
    rwa [show feVal a.z * u * (feVal a.z)⁻¹ = u by field_simp] at this

theorem rescale_eq {u : SecpF} {a : Gej} {s : Fe} {q : secp.Point} (hm : GejMag a) (hs : Mag 8 s) (h0 : feVal s ≠ 0)
    (h : GejRep u a q) : GejMag (gejRescale a s) ∧ GejRep u (gejRescale a s) q := by
  have Z2 := (Is.of hs).sqr (by decide)
  have X := (Is.of hm.x).mul Z2 (by decide) (by decide)
  have Y := ((Is.of hm.y).mul Z2 (by decide) (by decide)).mul (Is.of hs) (by decide) (by decide)
  have Z := (Is.of hm.z).mul (Is.of hs) (by decide) (by decide)
  refine ⟨⟨(X.up (by decide)).mag, (Y.up (by decide)).mag, (Z.up (by decide)).mag⟩, ?_⟩
  by_cases hi : a.infinity = true
  · rw [GejRep, if_pos (by exact hi)]
    exact rep_zero hi h
  · rw [GejRep, if_neg (by exact hi), show feVal (gejRescale a s).x = _ from X.val, show feVal (gejRescale a s).y = _ from Y.val,
      show feVal (gejRescale a s).z = _ from Z.val,
      show feVal a.y * feVal s ^ 2 * feVal s = feVal a.y * feVal s ^ 3 by ring,
      show feVal a.z * feVal s * u = feVal a.z * u * feVal s by ring]
    exact jac_scale (rep_jac hi h) h0

theorem geValid_eq {a : Ge} (hm : GeMag a) : geIsValidVar a = true ↔ a.infinity = false ∧ ∃ q, GeRep 1 a q := by
  by_cases hi : a.infinity = true
  · rw [geIsValidVar, if_pos hi, hi]
    simp
  · have hi' : a.infinity = false := by simpa using hi
    have Y2 := (Is.of hm.y).sqr (by decide)
    have X3 := ((Is.of hm.x).sqr (by decide)).mul (Is.of hm.x) (by decide) (by decide)
    have R := (X3.add (is_int 7 (by decide)) (by decide)).weak (by decide)
    rw [geIsValidVar, if_neg hi]
    simp only [hi', true_and, curveB]
    rw [show feEqual (feSqr a.y) (feNormalizeWeak (feAdd (feMul (feSqr a.x) a.x) (feSetInt 7))) = true ↔ _ from
      equal_eq (by decide) Y2.mag R.mag, Y2.val, R.val]
    constructor
    · intro h
      have e : feVal a.y ^ 2 = feVal a.x ^ 3 + 7 := by
        rw [h]; push_cast; ring
      refine ⟨Affine.Point.some _ _ ((secp_nonsingular _ _).2 e), ?_⟩
      rw [GeRep, if_neg hi]
      exact ⟨one_ne_zero, _, _, _, rfl, by ring, by ring⟩
    · rintro ⟨q, hq⟩
      obtain ⟨-, x, y, n, -, hx, hy⟩ := geRep_jac hi hq
      have := (secp_nonsingular _ _).1 n
      rw [hx, hy]
      push_cast
      linear_combination this

theorem gejValid_eq {a : Gej} (hm : GejMag a) (hz : feVal a.z ≠ 0) :
    gejIsValidVar a = true ↔ a.infinity = false ∧ ∃ q, GejRep 1 a q := by
  by_cases hi : a.infinity = true
  · rw [gejIsValidVar, if_pos hi, hi]
    simp
  · have hi' : a.infinity = false := by simpa using hi
    have Y2 := (Is.of hm.y).sqr (by decide)
    have X3 := ((Is.of hm.x).sqr (by decide)).mul (Is.of hm.x) (by decide) (by decide)
    have Z2 := (Is.of hm.z).sqr (by decide)
    have Z6 := ((Z2.sqr (by decide)).mul Z2 (by decide) (by decide)).mulInt 7 (by decide)
    have R := (X3.add Z6 (by decide)).weak (by decide)
    rw [gejIsValidVar, if_neg hi]
    simp only [hi', true_and, curveB]
    rw [show feEqual (feSqr a.y) (feNormalizeWeak (feAdd (feMul (feSqr a.x) a.x)
        (feMulInt (feMul (feSqr (feSqr a.z)) (feSqr a.z)) 7))) = true ↔ _ from
      equal_eq (by decide) Y2.mag R.mag, Y2.val, R.val]
    constructor
    · intro h
      have e : (feVal a.y / feVal a.z ^ 3) ^ 2 = (feVal a.x / feVal a.z ^ 2) ^ 3 + 7 := by
        push_cast at h
        field_simp
        linear_combination h
      refine ⟨Affine.Point.some _ _ ((secp_nonsingular _ _).2 e), ?_⟩
      rw [GejRep, if_neg hi, mul_one]
      exact ⟨hz, _, _, _, rfl, by field_simp, by field_simp⟩
    · rintro ⟨q, hq⟩
      obtain ⟨-, x, y, n, -, hx, hy⟩ := rep_jac hi hq
      have := (secp_nonsingular _ _).1 n
      rw [hx, hy]
      push_cast
      linear_combination (feVal a.z) ^ 6 * this

theorem eqX_eq {a : Gej} {x : Fe} {X Y : SecpF} {h : secp.Nonsingular X Y} (hx : Mag 8 x) (hm : GejMag a) (hi : a.infinity = false)
    (ha : GejRep 1 a (Affine.Point.some X Y h)) : gejEqXVar x a = true ↔ feVal x = X := by
  have R := ((Is.of hm.z).sqr (by decide)).mul (Is.of hx) (by decide) (by decide)
  have X2 := (Is.of hm.x).weak (by decide)
  rw [gejEqXVar, equal_eq (by decide) R.mag X2.mag, R.val, X2.val]
  obtain ⟨hz, x', y', n, hq, hx', -⟩ := rep_jac (by simp [hi]) ha
  rw [mul_one] at hz hx'
  cases hq
  rw [hx', mul_comm X]
  exact ⟨fun h => mul_left_cancel₀ (pow_ne_zero 2 hz) h, fun h => by rw [h]⟩

/-- A point with this first coordinate exists exactly if one is found. -/
theorem setXquad_eq {x : Fe} (hx : Mag 8 x) :
    GeMag (geSetXquad x).1 ∧ ((geSetXquad x).2 = true ↔ ∃ y, secp.Nonsingular (feVal x) y) ∧
      ((geSetXquad x).2 = true → secp.Nonsingular (feVal x) (feVal (geSetXquad x).1.y)) ∧ Mag 1 (geSetXquad x).1.y := by
  have C := (is_int 7 (by decide)).add ((Is.of hx).mul ((Is.of hx).sqr (by decide)) (by decide) (by decide)) (by decide)
  obtain ⟨h1, h2, h3⟩ := sqrt_eq (by decide) C.mag
  have hc : feVal (feAdd (feSetInt 7) (feMul x (feSqr x))) = feVal x ^ 3 + 7 := by
    rw [C.val]; push_cast; ring
  rw [hc] at h2 h3
  have e2 : (geSetXquad x).2 = true ↔ _ := h2
  have e3 : (geSetXquad x).2 = true → _ := h3
  refine ⟨⟨hx, mag_mono (by decide) h1⟩, ?_, fun h => (secp_nonsingular _ _).2 (e3 h), h1⟩
  rw [e2]
  constructor
  · rintro ⟨y, hy⟩
    exact ⟨y, (secp_nonsingular _ _).2 (by rw [hy]; ring)⟩
  · rintro ⟨y, hy⟩
    exact ⟨y, by rw [← (secp_nonsingular _ _).1 hy]; ring⟩

/-! ## Storage -/

theorem or_shl {a b k : Nat} (hk : k ≤ 32) (h : a < 2 ^ k) : a ||| u32 (b <<< k) = a + 2 ^ k * (b % 2 ^ (32 - k)) := by
  have e : u32 (b <<< k) = 2 ^ k * (b % 2 ^ (32 - k)) := by
    rw [u32, Nat.shiftLeft_eq, Nat.mul_comm, ← Nat.mul_mod_mul_left, ← pow_add, Nat.add_sub_of_le hk]
  rw [e, Nat.or_comm, ← Nat.two_pow_add_eq_or_of_lt h, Nat.add_comm]

theorem or_low {a b k : Nat} (hk : k ≤ 26) (h : a < 2 ^ k) : a ||| low26 (u32 (b <<< k)) = a + 2 ^ k * (b % 2 ^ (26 - k)) := by
  have e : low26 (u32 (b <<< k)) = 2 ^ k * (b % 2 ^ (26 - k)) := by
    rw [low26_eq, u32, Nat.mod_mod_of_dvd _ (by decide), Nat.shiftLeft_eq, Nat.mul_comm, ← Nat.mul_mod_mul_left, ← pow_add,
      Nat.add_sub_of_le hk]
    rfl
  rw [e, Nat.or_comm, ← Nat.two_pow_add_eq_or_of_lt h, Nat.add_comm]

theorem toStorage_eq {a : Fe} (h : Normal a) : feToStorage a =
    ⟨a.n0 + 2 ^ 26 * (a.n1 % 2 ^ 6), a.n1 / 2 ^ 6 + 2 ^ 20 * (a.n2 % 2 ^ 12), a.n2 / 2 ^ 12 + 2 ^ 14 * (a.n3 % 2 ^ 18),
      a.n3 / 2 ^ 18 + 2 ^ 8 * (a.n4 % 2 ^ 24), a.n4 / 2 ^ 24 + 2 ^ 2 * a.n5 + 2 ^ 28 * (a.n6 % 2 ^ 4),
      a.n6 / 2 ^ 4 + 2 ^ 22 * (a.n7 % 2 ^ 10), a.n7 / 2 ^ 10 + 2 ^ 16 * (a.n8 % 2 ^ 16), a.n8 / 2 ^ 16 + 2 ^ 10 * a.n9⟩ := by
  obtain ⟨h0, h1, h2, h3, h4, h5, h6, h7, h8, h9, -⟩ := h
  have d : ∀ {x k j : Nat}, x < 2 ^ 26 → k + j = 26 → x / 2 ^ k < 2 ^ j := fun {x k j} hx hk => by
    rw [Nat.div_lt_iff_lt_mul (by positivity), ← pow_add, Nat.add_comm, hk]; exact hx
  rw [feToStorage]
  simp only [Nat.shiftRight_eq_div_pow]
  rw [or_shl (k := 26) (by decide) h0, or_shl (k := 20) (by decide) (d h1 rfl), or_shl (k := 14) (by decide) (d h2 rfl),
    or_shl (k := 8) (by decide) (d h3 rfl), or_shl (k := 2) (by decide) (d h4 rfl),
    or_shl (k := 28) (by decide) (by have := d (k := 24) (j := 2) h4 rfl; omega),
    or_shl (k := 22) (by decide) (d h6 rfl), or_shl (k := 16) (by decide) (d h7 rfl), or_shl (k := 10) (by decide) (d h8 rfl),
    Nat.mod_eq_of_lt (show a.n5 < 2 ^ (32 - 2) by omega), Nat.mod_eq_of_lt (show a.n9 < 2 ^ (32 - 10) by omega)]

theorem fromStorage_eq {a : Fe} (h : Normal a) : feFromStorage (feToStorage a) = a := by
  rw [toStorage_eq h]
  obtain ⟨h0, h1, h2, h3, h4, h5, h6, h7, h8, h9, -⟩ := h
  obtain ⟨n0, n1, n2, n3, n4, n5, n6, n7, n8, n9⟩ := a
  simp only at *
  rw [feFromStorage]
  simp only [Nat.shiftRight_eq_div_pow]
  rw [or_low (k := 6) (by decide) (by omega), or_low (k := 12) (by decide) (by omega), or_low (k := 18) (by decide) (by omega),
    or_low (k := 24) (by decide) (by omega), or_low (k := 4) (by decide) (by omega), or_low (k := 10) (by decide) (by omega),
    or_low (k := 16) (by decide) (by omega)]
  simp only [low26_eq, Fe.mk.injEq]
  refine ⟨?_, ?_, ?_, ?_, ?_, ?_, ?_, ?_, ?_, ?_⟩ <;> omega

/-- The limbs of a stored element fit into 32 bits. -/
structure StorageFits (a : FeStorage) : Prop where
  h0 : a.n0 < 2 ^ 32
  h1 : a.n1 < 2 ^ 32
  h2 : a.n2 < 2 ^ 32
  h3 : a.n3 < 2 ^ 32
  h4 : a.n4 < 2 ^ 32
  h5 : a.n5 < 2 ^ 32
  h6 : a.n6 < 2 ^ 32
  h7 : a.n7 < 2 ^ 32

theorem toStorage_fits {a : Fe} (h : Normal a) : StorageFits (feToStorage a) := by
  rw [toStorage_eq h]
  obtain ⟨h0, h1, h2, h3, h4, h5, h6, h7, h8, h9, -⟩ := h
  refine ⟨?_, ?_, ?_, ?_, ?_, ?_, ?_, ?_⟩ <;> simp only <;> omega

theorem storageCmov_eq {r a : FeStorage} (hr : StorageFits r) (ha : StorageFits a) (b : Bool) :
    feStorageCmov r a b.toNat = if b then a else r := by
  obtain ⟨h0, h1, h2, h3, h4, h5, h6, h7⟩ := hr
  obtain ⟨g0, g1, g2, g3, g4, g5, g6, g7⟩ := ha
  cases b
  · rw [Bool.toNat_false, feStorageCmov, cmov32_zero h0, cmov32_zero h1, cmov32_zero h2, cmov32_zero h3, cmov32_zero h4,
      cmov32_zero h5, cmov32_zero h6, cmov32_zero h7]
    rfl
  · rw [Bool.toNat_true, feStorageCmov, cmov32_one g0, cmov32_one g1, cmov32_one g2, cmov32_one g3, cmov32_one g4,
      cmov32_one g5, cmov32_one g6, cmov32_one g7]
    rfl

theorem geStorage_eq {u : SecpF} {a : Ge} {q : secp.Point} (hm : GeMag a) (hi : a.infinity = false) (h : GeRep u a q) :
    GeMag (geFromStorage (geToStorage a)) ∧ GeRep u (geFromStorage (geToStorage a)) q := by
  obtain ⟨x1, x2, -⟩ := normalize_eq (by decide) hm.x
  obtain ⟨y1, y2, -⟩ := normalize_eq (by decide) hm.y
  have e : geFromStorage (geToStorage a) = ⟨feNormalize a.x, feNormalize a.y, false⟩ := by
    rw [geFromStorage, geToStorage]
    simp only
    rw [fromStorage_eq x1, fromStorage_eq y1]
  rw [e]
  refine ⟨⟨mag_mono (by decide) (normal_mag x1), mag_mono (by decide) (normal_mag y1)⟩, ?_⟩
  rw [GeRep, if_neg (by simp)]
  simp only
  rw [x2, y2]
  exact geRep_jac (by simp [hi]) h

theorem geStorageCmov_eq {a b : Ge} (ha : GeMag a) (hb : GeMag b) (f : Bool) :
    geStorageCmov (geToStorage a) (geToStorage b) f.toNat = if f then geToStorage b else geToStorage a := by
  rw [geStorageCmov, geToStorage, geToStorage]
  simp only
  rw [storageCmov_eq (toStorage_fits (normalize_eq (by decide) ha.x).1) (toStorage_fits (normalize_eq (by decide) hb.x).1),
    storageCmov_eq (toStorage_fits (normalize_eq (by decide) ha.y).1) (toStorage_fits (normalize_eq (by decide) hb.y).1)]
  cases f <;> rfl

end Verif.Proofs
