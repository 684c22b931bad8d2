import Verif.Proofs.CMultMore
import Verif.Props.CGroup
import Verif.Props.CScalar
/-!
# The multiplication of points of the C library (C108), and C82 with it
-/

namespace Verif.Props
open Verif.C Verif.Spec Verif.Proofs WeierstrassCurve

/-- **C108** The table holds the odd multiples up to 15 with one third coordinate, whatever is in the variables that
are not initialized. -/
theorem C108_table (st : Stack) {a : Ge} {q : secp.Point} (hm : GeMag a) (hi : a.infinity = false) (ha : GeRep 1 a q) (hq : q ≠ 0) :
    (oddTable st (gejSetGe a)).1.length = 8 ∧ feVal (oddTable st (gejSetGe a)).2 ≠ 0 ∧
    ∀ j g, (oddTable st (gejSetGe a)).1[j]? = some g → GeRep (feVal (oddTable st (gejSetGe a)).2) g ((2 * j + 1) • q) := by
  have hN : 20 < curveN := by decide +kernel
  obtain ⟨h1, -, h3, h4⟩ := oddTable_eq (st := st) hm hi ha fun k k1 k2 =>
    multiple_ne (Nat.not_dvd_of_pos_of_lt k1 (by omega)) hq
  refine ⟨h1, h3, fun j g hg => ?_⟩
  rw [add_comm]
  exact (h4 j g hg).2.2

/-- **C108** The multiple of every point by every scalar, zero included. -/
theorem C108_multiple (st : Stack) (hst : GeFits st.tmpa) {a : Ge} {q : secp.Point} (hm : GeMag a) (hi : a.infinity = false)
    (ha : GeRep 1 a q) (hq : q ≠ 0) {s : Sc} (hs : Scalar s) :
    GejMag (ecmultConst st a s) ∧ GejRep 1 (ecmultConst st a s) (scNat s • q) := ecmultConst_eq hst hm hi ha hq hs

theorem mul_length {st : Stack} {point scalar out : Bytes} (h : extScalarMul st point scalar = some out) : out.length = 64 := by
  rw [extScalarMul] at h
  simp only at h
  split at h
  · cases h
  · obtain rfl := Option.some.inj h
    simp [feGetB32]

/-- **C108** What `secp256k1_ext_scalar_mul` returns does not depend on what is found in memory. -/
theorem C108_memory {st st' : Stack} (hst : GeFits st.tmpa) (hst' : GeFits st'.tmpa) {point scalar : Bytes} {q : secp.Point}
    (hp : point.length = 64) (hs : scalar.length = 32)
    (h : HasReduced (setBytes (point.take 32)) (setBytes (point.drop 32)) q) :
    extScalarMul st point scalar = extScalarMul st' point scalar := by
  by_cases h0 : setBytes scalar = 0 ∨ curveN ≤ setBytes scalar
  · rw [(extScalarMul_eq hst).refused point scalar hs h0, (extScalarMul_eq hst').refused point scalar hs h0]
  · have hq : q ≠ 0 := by
      obtain ⟨_, _, _, rfl, _⟩ := Btcec.reduced_val h
      exact Affine.Point.some_ne_zero _
    have hne := multiple_ne (Nat.not_dvd_of_pos_of_lt (by omega) (by omega) : ¬ curveN ∣ setBytes scalar) hq
    obtain ⟨x, y, hr⟩ := reduced_exists hne
    obtain ⟨o, e, ox, oy⟩ := (extScalarMul_eq hst).multiple point scalar q x y hp hs h (by omega) (by omega) hr
    obtain ⟨o', e', ox', oy'⟩ := (extScalarMul_eq hst').multiple point scalar q x y hp hs h (by omega) (by omega) hr
    have hl := mul_length e
    have hl' := mul_length e'
    have t1 : o.take 32 = o'.take 32 := setBytes_inj (by rw [List.length_take, List.length_take, hl, hl']) (by omega)
    have t2 : o.drop 32 = o'.drop 32 := setBytes_inj (by rw [List.length_drop, List.length_drop, hl, hl']) (by omega)
    rw [e, e', ← List.take_append_drop 32 o, ← List.take_append_drop 32 o', t1, t2]

/-- **C82** The assumption on the C library holds of its code. -/
theorem C82_multiplies (st : Stack) (hst : GeFits st.tmpa) : Multiplies (extScalarMul st) := extScalarMul_eq hst

/-- **C82 (partial)** `ScalarMult` with the code of the C library, for all points and all scalars of at most 32 bytes:
the multiple if the scalar is between 1 and N - 1, otherwise nothing. Missing: longer scalars, for which it crashes, see
`C82_crashes`; and the multiples by scalars that are not below N, see `C82_c_fails`. -/
theorem C82_c_partial (st : Stack) (hst : GeFits st.tmpa) {x y : Int} {q : secp.Point} (h : HasReduced x y q) {scalar : Bytes}
    (hl : scalar.length ≤ 32) :
    (0 < setBytes scalar ∧ setBytes scalar < theCurve.n.toNat ∧
      ∃ x' y', theCurve.scalarMult (extScalarMul st) x y scalar = .ret (some (x', y')) ∧ HasReduced x' y' (setBytes scalar • q)) ∨
    ((setBytes scalar = 0 ∨ theCurve.n.toNat ≤ setBytes scalar) ∧
      theCurve.scalarMult (extScalarMul st) x y scalar = .ret none) := by
  by_cases h0 : 0 < setBytes scalar ∧ setBytes scalar < theCurve.n.toNat
  · exact .inl ⟨h0.1, h0.2, C82_every_point_partial (extScalarMul_eq hst) h hl h0.1 h0.2⟩
  · have h1 : setBytes scalar = 0 ∨ theCurve.n.toNat ≤ setBytes scalar := by omega
    exact .inr ⟨h1, C82_refused (extScalarMul_eq hst) x y hl h1⟩

/-- **C82** With the code of the C library: no multiple of the base point by N + 1. -/
theorem C82_c_fails (st : Stack) (hst : GeFits st.tmpa) : ∃ scalar : Bytes, scalar.length = 32 ∧
    setBytes scalar • basePoint = basePoint ∧ theCurve.scalarBaseMult (extScalarMul st) scalar = .ret none :=
  C82_fails (extScalarMul_eq hst)

/-- Some content of memory. -/
def someStack : Stack := ⟨gejSetInfinity, fun _ => gejSetInfinity, ⟨feSetInt 0, feSetInt 0, false⟩⟩

example : GeFits someStack.tmpa := ⟨mag_fits (by decide) is_zero.mag, mag_fits (by decide) is_zero.mag⟩

/-- The 64 bytes of the base point. -/
def baseBytes : Bytes := feGetB32 baseGe.x ++ feGetB32 baseGe.y

/-- The multiple by N - 1, the special case of the words, is the opposite of the base point. -/
example : extScalarMul someStack baseBytes (scGetB32 greatest) =
    some (feGetB32 baseGe.x ++ feGetB32 (feNormalize (geNeg baseGe).y)) := by decide +kernel

example : extScalarMul someStack baseBytes (scGetB32 orderLimbs) = none ∧ extScalarMul someStack baseBytes (scGetB32 (scSetInt 0)) = none := by
  decide +kernel

end Verif.Props
