import Verif.Proofs.CGroupMore
/-!
# The group of points of the C library (C106)
-/

namespace Verif.Props
open Verif.C Verif.Spec Verif.Proofs WeierstrassCurve

/-- **C106** The double of any point, the one at infinity included, whatever was stored in the place of
the result. For other points the ratio of the third coordinates is right. -/
theorem C106_double {u : SecpF} {r a : Gej} {q : secp.Point} (hr : GejMag r) (hm : GejMag a) (ha : GejRep u a q) :
    GejMag (gejDoubleVar r a).1 ∧ GejRep u (gejDoubleVar r a).1 (q + q) ∧
      (a.infinity = false → feVal (gejDoubleVar r a).1.z = feVal a.z * feVal (gejDoubleVar r a).2) := by
  obtain ⟨h1, h2, -, -, h5⟩ := double_eq (fun _ => hr) hm ha
  exact ⟨h1, h2, fun h => (h5 h).1⟩

/-- **C106** The sum of any two points in Jacobian coordinates: equal, opposite or infinite ones included. -/
theorem C106_add {u : SecpF} {r a b : Gej} {q1 q2 : secp.Point} (hr : GejMag r) (hm : GejMag a) (hm' : GejMag b)
    (ha : GejRep u a q1) (hb : GejRep u b q2) :
    GejMag (gejAddVar r a b).1 ∧ GejRep u (gejAddVar r a b).1 (q1 + q2) := by
  obtain ⟨h1, h2, -⟩ := addVar_eq hr hm hm' ha hb
  exact ⟨h1, h2⟩

/-- **C106** The sum with any point in affine coordinates, with the ratio of the third coordinates. -/
theorem C106_add_affine {u : SecpF} {r a : Gej} {b : Ge} {q1 q2 : secp.Point} (hr : GejMag r) (hm : GejMag a) (hm' : GeMag b)
    (ha : GejRep u a q1) (hb : GeRep u b q2) :
    GejMag (gejAddGeVar r a b).1 ∧ GejRep u (gejAddGeVar r a b).1 (q1 + q2) ∧
      (a.infinity = false → b.infinity = false → q1 ≠ q2 → q1 + q2 ≠ 0 →
        feVal (gejAddGeVar r a b).1.z = feVal a.z * feVal (gejAddGeVar r a b).2) := by
  obtain ⟨h1, h2, -, h4⟩ := addGeVar_eq hr hm hm' ha hb
  exact ⟨h1, h2, fun i j n m => (h4 i j n m).2.1⟩

/-- **C106** The sum with a point in affine coordinates on another isomorphic curve. -/
theorem C106_add_zinv {u : SecpF} {r a : Gej} {b : Ge} {bzinv : Fe} {q1 q2 : secp.Point} (hr : GejMag r)
    (hm : GejMag a) (hm' : GeMag b) (hz : Mag 8 bzinv) (hz0 : feVal bzinv ≠ 0) (ha : GejRep u a q1)
    (hb : GeRep (u * (feVal bzinv)⁻¹) b q2) :
    GejMag (gejAddZinvVar r a b bzinv) ∧ GejRep u (gejAddZinvVar r a b bzinv) (q1 + q2) :=
  addZinvVar_eq hr hm hm' hz hz0 ha hb

/-- **C106** The sum without branches is right for all points: the same, opposite ones, those with
opposite y and different x, and an infinite first one. -/
theorem C106_add_unified {u : SecpF} {a : Gej} {b : Ge} {q1 q2 : secp.Point} (hm : GejMag a) (hm' : GeMag b)
    (hi : b.infinity = false) (ha : GejRep u a q1) (hb : GeRep u b q2) :
    GejMag (gejAddGe a b) ∧ GejRep u (gejAddGe a b) (q1 + q2) := addGe_eq hm hm' hi ha hb

/-- **C106** Opposites. -/
theorem C106_neg {u : SecpF} {a : Gej} {b : Ge} {q1 q2 : secp.Point} (hm : GejMag a) (hm' : GeMag b)
    (ha : GejRep u a q1) (hb : GeRep u b q2) :
    GejMag (gejNeg a) ∧ GejRep u (gejNeg a) (-q1) ∧ GeMag (geNeg b) ∧ GeRep u (geNeg b) (-q2) :=
  ⟨(gejNeg_eq hm ha).1, (gejNeg_eq hm ha).2, (geNeg_eq hm' hb).1, (geNeg_eq hm' hb).2.1⟩

/-- **C106** The conversions between the coordinates, the other representations of the same point, and
storage keep the point. -/
theorem C106_convert {u : SecpF} {a : Gej} {b : Ge} {s : Fe} {q1 q2 : secp.Point} (hm : GejMag a) (hm' : GeMag b)
    (hs : Mag 8 s) (hs0 : feVal s ≠ 0) (ha : GejRep u a q1) (hb : GeRep u b q2) :
    (GeMag (geSetGej a) ∧ GeRep u (geSetGej a) q1) ∧ (GejMag (gejSetGe b) ∧ GejRep u (gejSetGe b) q2) ∧
    (GejMag (gejRescale a s) ∧ GejRep u (gejRescale a s) q1) ∧
    (b.infinity = false → GeMag (geFromStorage (geToStorage b)) ∧ GeRep u (geFromStorage (geToStorage b)) q2) := by
  obtain ⟨h1, h2, h3⟩ := setGej_eq hm ha
  exact ⟨⟨⟨mag_mono (by decide) h1, mag_mono (by decide) h2⟩, h3⟩, setGe_eq hm' hb, rescale_eq hm hs hs0 ha,
    fun h => geStorage_eq hm' h hb⟩

/-- **C106** The test for points is the equation of the curve. -/
theorem C106_valid {a : Gej} {b : Ge} (hm : GejMag a) (hz : feVal a.z ≠ 0) (hm' : GeMag b) :
    (gejIsValidVar a = true ↔ a.infinity = false ∧ ∃ q, GejRep 1 a q) ∧
    (geIsValidVar b = true ↔ b.infinity = false ∧ ∃ q, GeRep 1 b q) := ⟨gejValid_eq hm hz, geValid_eq hm'⟩

/-- **C106** The comparison of the first coordinate. -/
theorem C106_eq_x {a : Gej} {x : Fe} {X Y : SecpF} {h : secp.Nonsingular X Y} (hx : Mag 8 x) (hm : GejMag a)
    (hi : a.infinity = false) (ha : GejRep 1 a (Affine.Point.some X Y h)) : gejEqXVar x a = true ↔ feVal x = X :=
  eqX_eq hx hm hi ha

theorem isOdd_normal {a : Fe} (h : Normal a) : feIsOdd a = true ↔ (feVal a).val % 2 = 1 := by
  have e : (feVal a).val = feNat a := by
    rw [feVal, ZMod.val_natCast, Nat.mod_eq_of_lt h.lt]
  rw [e, feIsOdd, beq_iff_eq, Nat.and_one_is_mod, feNat]
  omega

/-- **C106** A point with the given first coordinate and parity of the second is found exactly if there
is one, and it is that. -/
theorem C106_from_x {x : Fe} (hx : Mag 8 x) (odd : Bool) :
    GeMag (geSetXoVar x odd).1 ∧
    ((geSetXoVar x odd).2 = true ↔ ∃ y, secp.Nonsingular (feVal x) y) ∧
    ((geSetXoVar x odd).2 = true → (geSetXoVar x odd).1.infinity = false ∧ (geSetXoVar x odd).1.x = x ∧
      secp.Nonsingular (feVal x) (feVal (geSetXoVar x odd).1.y) ∧
      ((feVal (geSetXoVar x odd).1.y).val % 2 = 1 ↔ odd = true)) := by
  obtain ⟨h1, h2, h3, h4⟩ := setXquad_eq hx
  rw [geSetXoVar]
  by_cases hf : (geSetXquad x).2 = false
  · rw [if_pos hf]
    refine ⟨h1, ?_, fun h => (by cases h)⟩
    rw [← h2, hf]
  · rw [if_neg hf]
    have ht : (geSetXquad x).2 = true := by simpa using hf
    have hn := h3 ht
    obtain ⟨n1, n2, n3⟩ := normalize_eq (by decide) h4
    have hy0 : feVal (geSetXquad x).1.y ≠ 0 := fun e => no_zero_y (e ▸ hn)
    rw [n3]
    have N := (Is.of (normal_mag n1)).neg (by decide)
    have ho := isOdd_normal n1
    have hp := neg_parity hy0
    rw [n2] at ho
    refine ⟨⟨hx, ?_⟩, ⟨fun _ => h2.1 ht, fun _ => rfl⟩, fun _ => ⟨rfl, rfl, ?_⟩⟩
    · simp only
      split
      · exact (N.up (by decide)).mag
      · exact mag_mono (by decide) (normal_mag n1)
    · simp only
      split
      case isTrue hd =>
        rw [N.val, n2]
        refine ⟨(secp_nonsingular _ _).2 (by rw [neg_sq]; exact (secp_nonsingular _ _).1 hn), ?_⟩
        cases odd <;> cases hb : feIsOdd (feNormalize (geSetXquad x).1.y) <;> simp_all
      case isFalse hd =>
        rw [n2]
        refine ⟨hn, ?_⟩
        cases odd <;> cases hb : feIsOdd (feNormalize (geSetXquad x).1.y) <;> simp_all

/-- The base point. -/
def baseGe : Ge :=
  geSetXy (feSetB32 [0x79, 0xBE, 0x66, 0x7E, 0xF9, 0xDC, 0xBB, 0xAC, 0x55, 0xA0, 0x62, 0x95, 0xCE, 0x87, 0x0B, 0x07, 0x02, 0x9B,
      0xFC, 0xDB, 0x2D, 0xCE, 0x28, 0xD9, 0x59, 0xF2, 0x81, 0x5B, 0x16, 0xF8, 0x17, 0x98]).1
    (feSetB32 [0x48, 0x3A, 0xDA, 0x77, 0x26, 0xA3, 0xC4, 0x65, 0x5D, 0xA4, 0xFB, 0xFC, 0x0E, 0x11, 0x08, 0xA8, 0xFD, 0x17,
      0xB4, 0x48, 0xA6, 0x85, 0x54, 0x19, 0x9C, 0x47, 0xD0, 0x8F, 0xFB, 0x10, 0xD4, 0xB8]).1

/-- A point with the opposite second coordinate and another first one, a cube root of one times the first. -/
def baseTwist : Ge :=
  geNeg { baseGe with x := feMul baseGe.x (feSetB32 [0x7a, 0xe9, 0x6a, 0x2b, 0x65, 0x7c, 0x07, 0x10, 0x6e, 0x64, 0x47, 0x9e,
    0xac, 0x34, 0x34, 0xe9, 0x9c, 0xf0, 0x49, 0x75, 0x12, 0xf5, 0x89, 0x95, 0xc1, 0x39, 0x6c, 0x28, 0x71, 0x95, 0x01, 0xee]).1 }

/-- Normalized affine coordinates. -/
def normalGe (a : Gej) : Fe × Fe × Bool :=
  (feNormalize (geSetGej a).x, feNormalize (geSetGej a).y, a.infinity)

/-- All cases of the additions: the same point, the opposite one, the degenerate case, others, infinity. -/
example : geIsValidVar baseGe = true ∧ geIsValidVar baseTwist = true ∧ geIsValidVar { baseGe with x := baseGe.y } = false ∧
    normalGe (gejAddGe (gejSetGe baseGe) baseGe) = normalGe (gejDoubleVar gejSetInfinity (gejSetGe baseGe)).1 ∧
    (gejAddGe (gejSetGe baseGe) (geNeg baseGe)).infinity = true ∧
    normalGe (gejAddGe (gejSetGe baseGe) baseTwist) =
      normalGe (gejAddGeVar gejSetInfinity (gejSetGe baseGe) baseTwist).1 ∧
    normalGe (gejAddGe (gejDoubleVar gejSetInfinity (gejSetGe baseGe)).1 baseGe) =
      normalGe (gejAddVar gejSetInfinity (gejDoubleVar gejSetInfinity (gejSetGe baseGe)).1 (gejSetGe baseGe)).1 ∧
    normalGe (gejAddGe gejSetInfinity baseGe) = normalGe (gejSetGe baseGe) := by decide +kernel

end Verif.Props
