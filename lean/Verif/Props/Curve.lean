import Verif.Proofs.Curve
import Verif.Props.Secp
import Mathlib.GroupTheory.OrderOfElement
/-!
# Curve arithmetic (C79 to C83)
-/

set_option linter.unusedSectionVars false

namespace Verif.Props
open Verif Spec WeierstrassCurve

/-! ## C79 -/

/-- **C79** `IsOnCurve` is the equation of the curve modulo the prime. -/
theorem C79_on_curve (x y : Int) : theCurve.isOnCurve x y = true ↔ secp.Equation (x : SecpF) (y : SecpF) := by
  rw [secp_equation, BitCurve.isOnCurve, decide_eq_true_eq, ← Int.emod_emod_of_dvd _ (dvd_refl theCurve.p)]
  have h : (x * x * x + theCurve.b) % theCurve.p = y * y % theCurve.p ↔
      (((x * x * x + theCurve.b : ℤ) : SecpF) = ((y * y : ℤ) : SecpF)) := by
    rw [curve_p]
    exact (ZMod.intCast_eq_intCast_iff _ _ _).symm
  rw [Int.emod_emod_of_dvd _ (dvd_refl _), h]
  have hb : theCurve.b = 7 := by decide +kernel
  rw [hb]
  push_cast
  constructor <;> intro h <;> linear_combination -h

theorem on_curve_point {x y : Int} (h : theCurve.isOnCurve x y = true) : ∃ q, HasCoords x y q :=
  ⟨_, (secp_nonsingular _ _).2 ((secp_equation _ _).1 ((C79_on_curve x y).1 h)), rfl⟩

/-- **C79 (partial)** `Add` returns the sum of two points of the curve, with reduced coordinates.
Missing: points with the same x-coordinate, see `C79_add_fails` and `C79_add_crashes`. -/
theorem C79_add_partial {x1 y1 x2 y2 : Int} {q1 q2 : secp.Point} (h1 : HasCoords x1 y1 q1) (h2 : HasCoords x2 y2 q2)
    (hx : ¬ theCurve.p ∣ x1 - x2) : ∃ x y, theCurve.add x1 y1 x2 y2 = .ret (x, y) ∧ HasReduced x y (q1 + q2) := by
  refine affine_ok (addJacobian_ok h1.jacobian h2.jacobian ?_)
  rw [addJacobian_z]
  have hz : ((x2 : SecpF) - x1) ≠ 0 := by
    intro e
    apply hx
    rw [← cast_eq_zero]
    push_cast
    linear_combination -e
  have : (2 * ((1 : ℤ) : SecpF) * ((1 : ℤ) : SecpF) * (x2 * ((1 : ℤ) : SecpF) ^ 2 - x1 * ((1 : ℤ) : SecpF) ^ 2)) =
      2 * ((x2 : SecpF) - x1) := by push_cast; ring
  rw [this]
  exact mul_ne_zero two_ne hz

/-- **C79** Exactly when `Add` crashes, whatever the numbers: if the x-coordinates are the same. -/
theorem C79_add_crashes (x1 y1 x2 y2 : Int) : theCurve.add x1 y1 x2 y2 = .panic ↔ theCurve.p ∣ x1 - x2 := by
  rw [BitCurve.add, affine_panic, addJacobian_z, ← cast_eq_zero]
  push_cast
  constructor
  · intro h
    have : (2 : SecpF) * (x2 - x1) = 0 := by linear_combination h
    rcases mul_eq_zero.1 this with h | h
    · exact absurd h two_ne
    · linear_combination -h
  · intro h
    linear_combination -2 * h

/-- **C79** `Double` returns the double of every point of the curve, with reduced coordinates. -/
theorem C79_double {x y : Int} {q : secp.Point} (h : HasCoords x y q) :
    ∃ x' y', theCurve.double x y = .ret (x', y') ∧ HasReduced x' y' (q + q) :=
  affine_ok (doubleJacobian_ok h.jacobian)

/-- **C79 (partial)** `addJacobian` adds points in any Jacobian coordinates.  Missing: a point and
itself or its opposite, see `C79_add_jacobian_degenerate`. -/
theorem C79_add_jacobian_partial {x1 y1 z1 x2 y2 z2 : Int} {q1 q2 : secp.Point} (h1 : Jacobian (x1, y1, z1) q1)
    (h2 : Jacobian (x2, y2, z2) q2) (hne : q1 ≠ q2) (hopp : q1 ≠ -q2) :
    Jacobian (theCurve.addJacobian x1 y1 z1 x2 y2 z2) (q1 + q2) := by
  refine addJacobian_ok h1 h2 ?_
  rw [addJacobian_z]
  obtain ⟨a1, b1, n1, rfl, hz1, hx1, hy1⟩ := h1
  obtain ⟨a2, b2, n2, rfl, hz2, hx2, hy2⟩ := h2
  simp only at hz1 hx1 hz2 hx2
  rw [hx1, hx2]
  intro h
  have hx : a1 = a2 := by
    have h0 : (2 * z1 ^ 3 * z2 ^ 3 : SecpF) * (a2 - a1) = 0 := by linear_combination h
    have h3 : (2 * z1 ^ 3 * z2 ^ 3 : SecpF) ≠ 0 :=
      mul_ne_zero (mul_ne_zero two_ne (pow_ne_zero _ hz1)) (pow_ne_zero _ hz2)
    have := (mul_eq_zero.1 h0).resolve_left h3
    linear_combination -this
  subst hx
  rcases Affine.Y_eq_of_X_eq n1.1 n2.1 rfl with e | e
  · subst e; exact hne rfl
  · apply hopp
    rw [Affine.Point.neg_some]
    subst e
    rfl

/-- **C79** On a point and itself or its opposite `addJacobian` returns coordinates of no point. -/
theorem C79_add_jacobian_degenerate {x1 y1 z1 x2 y2 z2 : Int} {q1 q2 : secp.Point} (h1 : Jacobian (x1, y1, z1) q1)
    (h2 : Jacobian (x2, y2, z2) q2) (h : q1 = q2 ∨ q1 = -q2) (q : secp.Point) :
    ¬ Jacobian (theCurve.addJacobian x1 y1 z1 x2 y2 z2) q := by
  rintro ⟨_, _, _, _, hz, _⟩
  apply hz
  rw [addJacobian_z]
  obtain ⟨a1, b1, n1, rfl, hz1, hx1, hy1⟩ := h1
  obtain ⟨a2, b2, n2, rfl, hz2, hx2, hy2⟩ := h2
  simp only at hx1 hx2
  have hx : a1 = a2 := by
    rcases h with h | h
    · exact (Affine.Point.some.inj h).1
    · rw [Affine.Point.neg_some] at h
      exact (Affine.Point.some.inj h).1
  rw [hx1, hx2, hx]
  ring

/-- **C79** `doubleJacobian` doubles points in any Jacobian coordinates. -/
theorem C79_double_jacobian {x y z : Int} {q : secp.Point} (h : Jacobian (x, y, z) q) :
    Jacobian (theCurve.doubleJacobian x y z) (q + q) := doubleJacobian_ok h

/-- **C79** What `Add` and `Double` return lies on the curve. -/
theorem C79_closed {x y : Int} {q : secp.Point} (h : HasReduced x y q) : theCurve.isOnCurve x y = true := by
  obtain ⟨⟨hn, _⟩, _, _⟩ := h
  exact (C79_on_curve x y).2 hn.1

/-! ## C80 -/

theorem base_on_curve : theCurve.isOnCurve theCurve.gx theCurve.gy = true := by decide +kernel

theorem base_nonsingular : secp.Nonsingular (theCurve.gx : SecpF) (theCurve.gy : SecpF) :=
  (secp_nonsingular _ _).2 ((secp_equation _ _).1 ((C79_on_curve _ _).1 base_on_curve))

/-- The base point. -/
noncomputable def basePoint : secp.Point := .some (theCurve.gx : SecpF) (theCurve.gy : SecpF) base_nonsingular

theorem base_coords : HasCoords theCurve.gx theCurve.gy basePoint := ⟨base_nonsingular, rfl⟩

/-- **C79 fails**: `Add` crashes on a point and itself, and on a point and its opposite. -/
theorem C79_add_fails : ∃ (x y x' y' : Int) (q : secp.Point), HasReduced x y q ∧ HasReduced x' y' (-q) ∧
    theCurve.add x y x y = .panic ∧ theCurve.add x y x' y' = .panic := by
  refine ⟨theCurve.gx, theCurve.gy, theCurve.gx, theCurve.p - theCurve.gy, basePoint, ⟨base_coords, ?_, ?_⟩, ⟨?_, ?_, ?_⟩,
    (C79_add_crashes _ _ _ _).2 (by simp), (C79_add_crashes _ _ _ _).2 (by simp)⟩
  · decide +kernel
  · decide +kernel
  · rw [basePoint, Affine.Point.neg_some]
    exact some_congr rfl (by rw [negY_eq]; push_cast; rw [cast_p]; ring)
  · decide +kernel
  · decide +kernel

/-- The hypotheses of the partial theorem can be met: the base point and its double. -/
example : ∃ x y x' y', theCurve.double theCurve.gx theCurve.gy = .ret (x, y) ∧
    theCurve.add theCurve.gx theCurve.gy x y = .ret (x', y') ∧ HasReduced x' y' (basePoint + (basePoint + basePoint)) := by
  obtain ⟨x, y, h1, h2⟩ := C79_double base_coords
  have hne : ¬ theCurve.p ∣ theCurve.gx - x := by
    intro hd
    rw [BitCurve.double, BitCurve.affineFromJacobian] at h1
    generalize ht : theCurve.doubleJacobian theCurve.gx theCurve.gy 1 = t at h1
    obtain ⟨X, Y, Z⟩ := t
    simp only at h1
    split at h1
    · cases h1
    · rename_i i hi
      cases h1
      rw [← cast_eq_zero] at hd
      push_cast at hd
      rw [cast_mod] at hd
      push_cast at hd
      obtain ⟨hz, hi⟩ := modInverse_some hi
      rw [hi] at hd
      have h3 : (theCurve.gx : SecpF) * Z ^ 2 - X = 0 := by
        field_simp at hd
        linear_combination hd
      have h4 : ((theCurve.gx * Z ^ 2 - X : ℤ) : SecpF) = 0 := by push_cast; exact h3
      rw [cast_eq_zero] at h4
      have h5 : X = (theCurve.doubleJacobian theCurve.gx theCurve.gy 1).1 := by rw [ht]
      have h6 : Z = (theCurve.doubleJacobian theCurve.gx theCurve.gy 1).2.2 := by rw [ht]
      rw [h5, h6] at h4
      exact absurd h4 (by decide +kernel)
  obtain ⟨x', y', h3, h4⟩ := C79_add_partial base_coords h2.coords hne
  exact ⟨x, y, x', y', h1, h3, h4⟩

/-- Jacobian coordinates with any Z. -/
example (z : Int) (hz : (z : SecpF) ≠ 0) : Jacobian (theCurve.gx * z ^ 2, theCurve.gy * z ^ 3, z) basePoint :=
  ⟨_, _, base_nonsingular, rfl, hz, by push_cast; rfl, by push_cast; rfl⟩

/-- A number of times the base point, with the functions of the code: binary digits after the
first, the most significant first. -/
def times : List Bool → Int × Int × Int → Int × Int × Int
  | [], t => t
  | d :: ds, t =>
    match theCurve.doubleJacobian t.1 t.2.1 t.2.2 with
    | t => times ds (if d then theCurve.addJacobian t.1 t.2.1 t.2.2 theCurve.gx theCurve.gy 1 else t)

/-- The number with the given digits after `n`. -/
def fromBits : Nat → List Bool → Nat
  | n, [] => n
  | n, d :: ds => fromBits (2 * n + if d then 1 else 0) ds

theorem times_z : ∀ (ds : List Bool) (t : Int × Int × Int), ((times ds t).2.2 : SecpF) ≠ 0 → (t.2.2 : SecpF) ≠ 0
  | [], _, h => h
  | d :: ds, t, h => by
    simp only [times] at h
    have h1 := times_z ds _ h
    intro hz
    apply h1
    have h2 : ((theCurve.doubleJacobian t.1 t.2.1 t.2.2).2.2 : SecpF) = 0 := by rw [doubleJacobian_z, hz, mul_zero]
    generalize theCurve.doubleJacobian t.1 t.2.1 t.2.2 = u at h2
    split
    · rw [addJacobian_z, h2]; ring
    · exact h2

theorem times_ok : ∀ (ds : List Bool) (t : Int × Int × Int) (k : Nat), Jacobian t (k • basePoint) →
    ((times ds t).2.2 : SecpF) ≠ 0 → Jacobian (times ds t) (fromBits k ds • basePoint)
  | [], _, _, h, _ => h
  | d :: ds, t, k, h, hz => by
    have hd : Jacobian (theCurve.doubleJacobian t.1 t.2.1 t.2.2) (k • basePoint + k • basePoint) := doubleJacobian_ok h
    simp only [times] at hz ⊢
    have h1 := times_z ds _ hz
    generalize theCurve.doubleJacobian t.1 t.2.1 t.2.2 = u at hd hz h1
    refine times_ok ds _ _ ?_ hz
    cases d with
    | false =>
      have e : (2 * k + if false = true then 1 else 0) • basePoint = k • basePoint + k • basePoint := by
        simp [two_mul, add_nsmul]
      rw [e]
      exact hd
    | true =>
      have e : (2 * k + if true = true then 1 else 0) • basePoint = (k • basePoint + k • basePoint) + basePoint := by
        simp [two_mul, add_nsmul]
      rw [e]
      exact addJacobian_ok hd base_coords.jacobian h1

/-- The binary digits of a number, the most significant first. -/
def bitsOf : (fuel : Nat) → Nat → List Bool → List Bool
  | 0, _, ds => ds
  | f + 1, n, ds => bitsOf f (n / 2) (decide (n % 2 = 1) :: ds)

/-- `N - 1` without its leading digit. -/
def orderBits : List Bool := bitsOf 255 (curveN - 1) []

theorem orderBits_ok : fromBits 1 orderBits = curveN - 1 := by decide +kernel

/-- The Jacobian coordinates are those of the opposite of the base point. -/
def isOpposite (t : Int × Int × Int) : Bool :=
  match t with
  | (x, y, z) => decide (z % theCurve.p ≠ 0) && decide ((x - theCurve.gx * z ^ 2) % theCurve.p = 0) &&
    decide ((y + theCurve.gy * z ^ 3) % theCurve.p = 0)

theorem order_check : isOpposite (times orderBits (theCurve.gx, theCurve.gy, 1)) = true := by decide +kernel

theorem cast_emod_eq_zero {x : Int} (h : x % theCurve.p = 0) : (x : SecpF) = 0 :=
  (cast_eq_zero x).2 (Int.dvd_of_emod_eq_zero h)

theorem order_minus_one : (curveN - 1) • basePoint = -basePoint := by
  have h := order_check
  generalize ht : times orderBits (theCurve.gx, theCurve.gy, 1) = t at h
  obtain ⟨x, y, z⟩ := t
  simp only [isOpposite, Bool.and_eq_true, decide_eq_true_eq] at h
  obtain ⟨⟨hz, hx⟩, hy⟩ := h
  have hz' : (z : SecpF) ≠ 0 := fun e => hz (Int.emod_eq_zero_of_dvd ((cast_eq_zero z).1 e))
  have hj := times_ok orderBits (theCurve.gx, theCurve.gy, 1) 1 (by rw [one_nsmul]; exact base_coords.jacobian)
    (by rw [ht]; exact hz')
  rw [ht, orderBits_ok] at hj
  obtain ⟨a, b, n, e, _, hxa, hyb⟩ := hj
  simp only at hxa hyb
  have hx := cast_emod_eq_zero hx
  have hy := cast_emod_eq_zero hy
  push_cast at hx hy
  have h2 : (z : SecpF) ^ 2 ≠ 0 := pow_ne_zero _ hz'
  have h3 : (z : SecpF) ^ 3 ≠ 0 := pow_ne_zero _ hz'
  have ha : a = (theCurve.gx : SecpF) := mul_right_cancel₀ h2 (by rw [← hxa]; linear_combination hx)
  have hb : b = -(theCurve.gy : SecpF) := mul_right_cancel₀ h3 (by rw [← hyb]; linear_combination hy)
  rw [e, basePoint, Affine.Point.neg_some]
  subst ha
  subst hb
  congr 1

/-- **C80** The numbers P and N of the curve are prime, the base point lies on the curve and
generates a group of N elements. -/
theorem C80_group : theCurve.p.toNat.Prime ∧ theCurve.n.toNat.Prime ∧ HasReduced theCurve.gx theCurve.gy basePoint ∧
    addOrderOf basePoint = theCurve.n.toNat := by
  have hn : theCurve.n.toNat = curveN := by decide +kernel
  refine ⟨secpP_fact.out, ?_, ⟨base_coords, by decide +kernel, by decide +kernel⟩, ?_⟩
  · rw [hn]; exact secpN_prime
  · rw [hn]
    have hp : Fact curveN.Prime := ⟨secpN_prime⟩
    refine addOrderOf_eq_prime ?_ ?_
    · have h1 : curveN = (curveN - 1) + 1 := by decide +kernel
      rw [h1, add_nsmul, one_nsmul, order_minus_one]
      simp
    · exact Affine.Point.some_ne_zero _

/-- **C80** Private keys between 1 and N - 1 have pairwise different public keys, none of which is
the point at infinity. -/
theorem C80_public_keys {k l : Nat} (hk : 0 < k ∧ k < theCurve.n.toNat) (hl : 0 < l ∧ l < theCurve.n.toNat) :
    k • basePoint ≠ 0 ∧ (k • basePoint = l • basePoint → k = l) := by
  have ho := C80_group.2.2.2
  refine ⟨fun h => ?_, fun h => ?_⟩
  · have := addOrderOf_dvd_of_nsmul_eq_zero h
    rw [ho] at this
    exact absurd (Nat.le_of_dvd hk.1 this) (by omega)
  · exact nsmul_injOn_Iio_addOrderOf (by rw [ho]; exact hk.2) (by rw [ho]; exact hl.2) h

/-- **C80** In particular the private key derived from any secret has a public key. -/
theorem C80_derived (sha256 : Bytes → Bytes) (secret : Bytes) : ∃ key, genPrivKeyFromSecret sha256 secret = .ret key ∧
    setBytes key • basePoint ≠ 0 := by
  obtain ⟨key, h, h1, h2, h3⟩ := C58_derived sha256 secret
  have hn : theCurve.n.toNat = curveN := by decide +kernel
  exact ⟨key, h, (C80_public_keys ⟨h2, by rw [hn]; exact h3.1⟩ ⟨h2, by rw [hn]; exact h3.1⟩).1⟩

/-! ## C81 -/

theorem wordBytes_value {d : Nat} (h : d < 2 ^ 64) : setBytes (wordBytes d).reverse = d := by
  have e : wordBytes d = [UInt8.ofNat (d >>> 0), UInt8.ofNat (d >>> 8), UInt8.ofNat (d >>> 16), UInt8.ofNat (d >>> 24),
    UInt8.ofNat (d >>> 32), UInt8.ofNat (d >>> 40), UInt8.ofNat (d >>> 48), UInt8.ofNat (d >>> 56)] := rfl
  have hm : ∀ n, (UInt8.ofNat n).toNat = n % 256 := fun n => by simp
  rw [e]
  simp only [setBytes, List.reverse_cons, List.reverse_nil, List.nil_append, List.cons_append, List.foldl_cons,
    List.foldl_nil, hm, Nat.shiftRight_eq_div_pow]
  omega

theorem wordBytes_length (d : Nat) : (wordBytes d).length = 8 := by simp [wordBytes]

theorem words_value : ∀ (f n : Nat), n ≤ f → setBytes ((words f n).flatMap wordBytes).reverse = n
  | 0, n, h => by
    obtain rfl : n = 0 := by omega
    rfl
  | f + 1, n, h => by
    rw [words]
    split
    · rename_i h0; subst h0; rfl
    · rename_i h0
      rw [List.flatMap_cons, List.reverse_append, setBytes_append, words_value f (n / 2 ^ 64)
        (by have := Nat.div_lt_self (Nat.pos_of_ne_zero h0) (by decide : 1 < 2 ^ 64); omega),
        wordBytes_value (Nat.mod_lt _ (by decide)), List.length_reverse, wordBytes_length]
      have : (256 : Nat) ^ 8 = 2 ^ 64 := by decide
      rw [this]
      omega

theorem take_value (l : Bytes) (k : Nat) : setBytes (l.take k).reverse = setBytes l.reverse % 256 ^ k := by
  by_cases h : k ≤ l.length
  · conv_rhs => rw [← List.take_append_drop k l, List.reverse_append, setBytes_append, List.length_reverse,
      List.length_take, Nat.min_eq_left h]
    have := setBytes_lt (l.take k).reverse
    rw [List.length_reverse, List.length_take, Nat.min_eq_left h] at this
    rw [Nat.mul_comm, Nat.mul_add_mod, Nat.mod_eq_of_lt this]
  · rw [List.take_of_length_le (by omega), Nat.mod_eq_of_lt]
    refine lt_of_lt_of_le (setBytes_lt _) ?_
    rw [List.length_reverse]
    exact Nat.pow_le_pow_right (by decide) (by omega)

theorem readBits_length (x : Int) (buf : Bytes) : (readBits x buf).length = buf.length := by
  simp only [readBits, List.length_append, List.length_take, List.length_reverse]
  omega

theorem readBits_value (x : Int) (k : Nat) : setBytes (readBits x (List.replicate k 0)) = x.natAbs % 256 ^ k := by
  simp only [readBits, List.length_replicate, List.take_replicate]
  rw [setBytes_append, setBytes_zeros, Nat.zero_mul, Nat.zero_add, take_value, words_value _ _ le_rfl]

theorem byteLen_eq : theCurve.byteLen = 32 := rfl

theorem marshal_unmarshal (x y : Int) :
    theCurve.unmarshal (theCurve.marshal x y) = some (((x.natAbs % 2 ^ 256 : Nat) : Int), ((y.natAbs % 2 ^ 256 : Nat) : Int)) := by
  have l1 := readBits_length x (List.replicate 32 0)
  have l2 := readBits_length y (List.replicate 32 0)
  have v1 := readBits_value x 32
  have v2 := readBits_value y 32
  rw [List.length_replicate] at l1 l2
  have e : (2 : Nat) ^ 256 = 256 ^ 32 := by decide
  rw [BitCurve.unmarshal, BitCurve.marshal, byteLen_eq, e, ← v1, ← v2]
  generalize readBits x (List.replicate 32 0) = a at l1
  generalize readBits y (List.replicate 32 0) = b at l2
  rw [if_neg (by simp [l1, l2]), if_neg (by simp)]
  simp [l1]

/-- **C81** What is written for coordinates below 2^256 has 65 bytes and reads back. -/
theorem C81_roundtrip {x y : Int} (hx : 0 ≤ x ∧ x < 2 ^ 256) (hy : 0 ≤ y ∧ y < 2 ^ 256) :
    (theCurve.marshal x y).length = 65 ∧ theCurve.unmarshal (theCurve.marshal x y) = some (x, y) := by
  refine ⟨?_, ?_⟩
  · rw [BitCurve.marshal, byteLen_eq]
    simp [readBits_length]
  · rw [marshal_unmarshal, Nat.mod_eq_of_lt (by omega), Nat.mod_eq_of_lt (by omega)]
    simp only [Option.some.injEq, Prod.mk.injEq]
    omega

/-- **C81** Every encoding that is read is the one that is written: there is one per pair of
coordinates. -/
theorem C81_canonical {data : Bytes} {x y : Int} (h : theCurve.unmarshal data = some (x, y)) :
    theCurve.marshal x y = data := by
  rw [BitCurve.unmarshal, byteLen_eq] at h
  split at h
  · cases h
  split at h
  · cases h
  rename_i hl hh
  cases h
  rw [BitCurve.marshal, byteLen_eq]
  cases data with
  | nil => simp at hl
  | cons a data =>
  simp only [List.length_cons, ne_eq, not_not, List.head?_cons, Option.some.injEq] at hl hh
  subst hh
  have hd : data = data.take 32 ++ data.drop 32 := (List.take_append_drop 32 data).symm
  simp only [Nat.add_comm 1 32, List.take_succ_cons, List.drop_succ_cons, List.drop_zero]
  have key : ∀ b : Bytes, b.length = 32 → readBits (setBytes b : Int) (List.replicate 32 0) = b := by
    intro b hb
    refine setBytes_inj (by rw [readBits_length, List.length_replicate, hb]) ?_
    rw [readBits_value, Int.natAbs_natCast]
    have := setBytes_lt b
    rw [hb] at this
    exact Nat.mod_eq_of_lt this
  rw [key _ (by rw [List.length_take]; omega), key _ (by rw [List.length_drop]; omega), ← hd]

/-- **C81 fails**: bytes are read that do not stand for a point of the curve. -/
theorem C81_fails : ∃ data x y, theCurve.unmarshal data = some (x, y) ∧ theCurve.isOnCurve x y = false :=
  ⟨theCurve.marshal 0 0, 0, 0, (C81_roundtrip (by decide) (by decide)).2, by decide +kernel⟩

/-! ## C82 -/

theorem point_length (x y : Int) : (readBits x (List.replicate 32 0) ++ readBits y (List.replicate 32 0)).length = 64 := by
  simp [readBits_length]

theorem point_coords {x y : Int} (hx : 0 ≤ x ∧ x < secpP) (hy : 0 ≤ y ∧ y < secpP) :
    (setBytes ((readBits x (List.replicate 32 0) ++ readBits y (List.replicate 32 0)).take 32) : Int) = x ∧
    (setBytes ((readBits x (List.replicate 32 0) ++ readBits y (List.replicate 32 0)).drop 32) : Int) = y := by
  have l1 := readBits_length x (List.replicate 32 0)
  have v1 := readBits_value x 32
  have v2 := readBits_value y 32
  rw [List.length_replicate] at l1
  have e : (secpP : Int) < 256 ^ 32 := by decide +kernel
  rw [List.take_append_of_le_length (by omega), List.take_of_length_le (by omega), List.drop_append_of_le_length (by omega),
    List.drop_of_length_le (by omega), List.nil_append, v1, v2]
  generalize secpP = p at *
  constructor
  · rw [Nat.mod_eq_of_lt (by omega)]; omega
  · rw [Nat.mod_eq_of_lt (by omega)]; omega

theorem padded_value {scalar : Bytes} (h : scalar.length ≤ 32) :
    (List.replicate (32 - scalar.length) 0 ++ scalar).length = 32 ∧
    setBytes (List.replicate (32 - scalar.length) 0 ++ scalar) = setBytes scalar := by
  refine ⟨by simp; omega, ?_⟩
  rw [setBytes_append, setBytes_zeros, Nat.zero_mul, Nat.zero_add]

/-- Every point other than the point at infinity has reduced coordinates. -/
theorem reduced_exists {q : secp.Point} (h : q ≠ 0) : ∃ x y, HasReduced x y q := by
  cases q with
  | zero => exact absurd rfl h
  | some a b n =>
    have hv : ∀ c : SecpF, (((c.val : Nat) : Int) : SecpF) = c := fun c => by simp
    have hr : ∀ c : SecpF, (0 : Int) ≤ (c.val : Nat) ∧ ((c.val : Nat) : Int) < secpP := fun c =>
      ⟨by omega, by exact_mod_cast ZMod.val_lt c⟩
    exact ⟨(a.val : Nat), (b.val : Nat), some_congr (hv a).symm (hv b).symm, hr a, hr b⟩

/-- **C82 (partial)** `ScalarMult` returns the multiple of the point, for scalars of at most 32
bytes between 1 and N - 1, if the multiple is not the point at infinity.  Missing: other scalars,
see `C82_refused`, `C82_crashes` and `C82_fails`. -/
theorem C82_multiple_partial {mul : Bytes → Bytes → Option Bytes} (hm : Multiplies mul) {x y : Int} {q : secp.Point}
    (h : HasReduced x y q) {scalar : Bytes} (hl : scalar.length ≤ 32) (h0 : 0 < setBytes scalar)
    (hN : setBytes scalar < theCurve.n.toNat) (hne : setBytes scalar • q ≠ 0) :
    ∃ x' y', theCurve.scalarMult mul x y scalar = .ret (some (x', y')) ∧ HasReduced x' y' (setBytes scalar • q) := by
  obtain ⟨x', y', hr⟩ := reduced_exists hne
  obtain ⟨p1, p2⟩ := padded_value hl
  obtain ⟨c1, c2⟩ := point_coords h.x_range h.y_range
  have hn : theCurve.n.toNat = curveN := by decide +kernel
  rw [hn] at hN
  rw [BitCurve.scalarMult, if_neg (by omega)]
  obtain ⟨out, ho, hx, hy⟩ := hm.multiple _ (List.replicate (32 - scalar.length) 0 ++ scalar) q x' y' (point_length x y) p1
    (by rw [c1, c2]; exact h) (by rw [p2]; exact h0) (by rw [p2]; exact hN) (by rw [p2]; exact hr)
  simp only [ho, hx, hy]
  exact ⟨x', y', rfl, hr⟩

/-- **C82 (partial)** `ScalarBaseMult` returns the public key of every private key between 1 and
N - 1.  Missing: other scalars, see `C82_refused`, `C82_crashes` and `C82_fails`. -/
theorem C82_public_key_partial {mul : Bytes → Bytes → Option Bytes} (hm : Multiplies mul) {scalar : Bytes}
    (hl : scalar.length ≤ 32) (h0 : 0 < setBytes scalar) (hN : setBytes scalar < theCurve.n.toNat) :
    ∃ x y, theCurve.scalarBaseMult mul scalar = .ret (some (x, y)) ∧ HasReduced x y (setBytes scalar • basePoint) :=
  C82_multiple_partial hm C80_group.2.2.1 hl h0 hN (C80_public_keys ⟨h0, hN⟩ ⟨h0, hN⟩).1

/-- **C82** Exactly when `ScalarMult` crashes, for any point and any behaviour of the C library. -/
theorem C82_crashes (mul : Bytes → Bytes → Option Bytes) (x y : Int) (scalar : Bytes) :
    theCurve.scalarMult mul x y scalar = .panic ↔ 32 < scalar.length := by
  rw [BitCurve.scalarMult]
  split
  · simp; omega
  · simp only
    split <;> simp <;> omega

/-- **C82** Scalars that are zero or not below N give no point. -/
theorem C82_refused {mul : Bytes → Bytes → Option Bytes} (hm : Multiplies mul) (x y : Int) {scalar : Bytes}
    (hl : scalar.length ≤ 32) (h : setBytes scalar = 0 ∨ theCurve.n.toNat ≤ setBytes scalar) :
    theCurve.scalarMult mul x y scalar = .ret none := by
  obtain ⟨p1, p2⟩ := padded_value hl
  have hn : theCurve.n.toNat = curveN := by decide +kernel
  rw [hn] at h
  rw [BitCurve.scalarMult, if_neg (by omega)]
  simp only [hm.refused _ (List.replicate (32 - scalar.length) 0 ++ scalar) p1 (by rw [p2]; exact h)]

/-- The number N + 1 in 32 bytes. -/
def orderPlusOne : Bytes := readBits (theCurve.n + 1) (List.replicate 32 0)

/-- **C82 fails**: a scalar of 32 bytes whose multiple is a point of the curve, the base point
itself, but for which no point is returned. -/
theorem C82_fails {mul : Bytes → Bytes → Option Bytes} (hm : Multiplies mul) : ∃ scalar : Bytes, scalar.length = 32 ∧
    setBytes scalar • basePoint = basePoint ∧ theCurve.scalarBaseMult mul scalar = .ret none := by
  have hl : orderPlusOne.length = 32 := by rw [orderPlusOne, readBits_length, List.length_replicate]
  have hv : setBytes orderPlusOne = theCurve.n.toNat + 1 := by
    rw [orderPlusOne, readBits_value]
    decide +kernel
  refine ⟨orderPlusOne, hl, ?_, C82_refused hm _ _ (by omega) (.inr (by omega))⟩
  rw [hv, add_nsmul, ← C80_group.2.2.2, addOrderOf_nsmul_eq_zero, zero_add, one_nsmul]

theorem coords_inj {x y x' y' : Int} {q : secp.Point} (h : HasReduced x y q) (h' : HasReduced x' y' q) : x = x' ∧ y = y' := by
  obtain ⟨⟨n, rfl⟩, hx, hy⟩ := h
  obtain ⟨⟨n', e⟩, hx', hy'⟩ := h'
  have key : ∀ {a b : Int}, 0 ≤ a ∧ a < secpP → 0 ≤ b ∧ b < secpP → (a : SecpF) = b → a = b := by
    intro a b ha hb e
    have h := (ZMod.intCast_eq_intCast_iff _ _ _).1 e
    rwa [Int.ModEq, Int.emod_eq_of_lt ha.1 ha.2, Int.emod_eq_of_lt hb.1 hb.2] at h
  injection e with e1 e2
  exact ⟨key hx hx' e1, key hy hy' e2⟩

theorem point_inj {x y : Int} {q q' : secp.Point} (h : HasCoords x y q) (h' : HasCoords x y q') : q = q' := by
  obtain ⟨_, rfl⟩ := h
  obtain ⟨_, rfl⟩ := h'
  rfl

open Classical in
/-- The assumption on the C library can be met. -/
example : ∃ mul, Multiplies mul := by
  refine ⟨fun point scalar => if setBytes scalar = 0 ∨ curveN ≤ setBytes scalar then none else
    if h : ∃ xy : Int × Int, ∃ q, HasReduced (setBytes (point.take 32)) (setBytes (point.drop 32)) q ∧
        HasReduced xy.1 xy.2 (setBytes scalar • q)
    then some (readBits h.choose.1 (List.replicate 32 0) ++ readBits h.choose.2 (List.replicate 32 0)) else none, ?_, ?_⟩
  · intro point scalar _ h
    exact if_pos h
  · intro point scalar q x y _ _ hq h0 hN hr
    have h : ∃ xy : Int × Int, ∃ q, HasReduced (setBytes (point.take 32)) (setBytes (point.drop 32)) q ∧
        HasReduced xy.1 xy.2 (setBytes scalar • q) := ⟨(x, y), q, hq, hr⟩
    obtain ⟨q', hq', hr'⟩ := h.choose_spec
    rw [← point_inj hq.coords hq'.coords] at hr'
    obtain ⟨e1, e2⟩ := coords_inj hr hr'
    refine ⟨_, by rw [if_neg (by omega), dif_pos h], ?_⟩
    have := point_coords hr'.x_range hr'.y_range
    rw [e1, e2]
    exact this

/-! ## C83 -/

theorem checkSignature_none {sig : Bytes} (h : checkSignature sig = none) : sig.length = 65 ∧ ∃ b ∈ sig[64]?, b.toNat < 4 := by
  rw [checkSignature] at h
  split at h
  · cases h
  · rename_i hl
    rw [not_not] at hl
    split at h
    · cases h
    · rename_i hb
      refine ⟨hl, sig[64], by simp [hl], ?_⟩
      rw [List.getElem?_eq_getElem (by omega)] at hb
      simpa using hb

/-- **C83** The C library is only given buffers of the documented sizes: what it would do with
others makes no difference to any function. -/
theorem C83_in_bounds {c c' : CLib} (h : SameInBounds c c') :
    (∀ msg key, c.signature msg key = c'.signature msg key) ∧
    (∀ msg sig, c.recoverPubkey msg sig = c'.recoverPubkey msg sig) ∧
    (∀ key msg sig, c.verifySignature key msg sig = c'.verifySignature key msg sig) ∧
    (∀ key, c.decompressPubkey key = c'.decompressPubkey key) ∧
    ∀ x y, c.compressPubkey x y = c'.compressPubkey x y := by
  refine ⟨fun msg key => ?_, fun msg sig => ?_, fun key msg sig => ?_, fun key => ?_, fun x y => ?_⟩
  · simp only [CLib.signature]
    by_cases h1 : msg.length = 32
    · by_cases h2 : key.length = 32
      · rw [← h.seckeyVerify key h2]
        cases h3 : c.seckeyVerify key with
        | false => simp
        | true => rw [h.sign msg key h1 h2 h3]
      · simp [h1, h2]
    · simp [h1]
  · simp only [CLib.recoverPubkey]
    by_cases h1 : msg.length = 32
    · cases h2 : checkSignature sig with
      | some e => rfl
      | none => simp only [h.recover sig msg (checkSignature_none h2).1 (checkSignature_none h2).2 h1]
    · simp [h1]
  · simp only [CLib.verifySignature]
    split
    · rfl
    · rename_i hc
      exact h.verify _ _ _ (by omega) (by omega) (by rintro rfl; simp at hc)
  · simp only [CLib.decompressPubkey]
    split
    · rfl
    · rename_i hc
      rw [h.reencode _ _ (.inl ⟨rfl, by omega⟩)]
  · simp only [CLib.compressPubkey, h.reencode 33 (theCurve.marshal x y) (.inr ⟨rfl, by simp [BitCurve.marshal, byteLen_eq, readBits_length]⟩)]

/-- **C83** Inputs of other sizes are answered, with an error, false, or no point. -/
theorem C83_sizes (c : CLib) (msg key sig : Bytes) :
    (msg.length ≠ 32 → c.signature msg key = .error .msgLen ∧ c.recoverPubkey msg sig = .error .msgLen ∧
      c.verifySignature key msg sig = false) ∧
    (msg.length = 32 → key.length ≠ 32 → c.signature msg key = .error .key) ∧
    (msg.length = 32 → sig.length ≠ 65 → c.recoverPubkey msg sig = .error .signatureLen) ∧
    (sig.length ≠ 64 → c.verifySignature key msg sig = false) ∧
    (key.length ≠ 33 → c.decompressPubkey key = none) := by
  refine ⟨fun h => ?_, fun h h' => ?_, fun h h' => ?_, fun h => ?_, fun h => ?_⟩
  · simp [CLib.signature, CLib.recoverPubkey, CLib.verifySignature, h]
  · simp [CLib.signature, h, h']
  · simp [CLib.recoverPubkey, checkSignature, h, h']
  · simp [CLib.verifySignature, h]
  · simp [CLib.decompressPubkey, h]

/-- Two different libraries that agree in bounds. -/
example : ∃ c c' : CLib, SameInBounds c c' ∧ c.sign [] [] ≠ c'.sign [] [] :=
  ⟨⟨fun _ => true, fun _ _ => none, fun _ _ => none, fun _ _ _ => false, fun _ _ => none⟩,
    ⟨fun _ => true, fun m _ => if m = [] then some ([], 0) else none, fun _ _ => none, fun _ _ _ => false, fun _ _ => none⟩,
    ⟨fun _ _ => rfl, fun m _ hm _ _ => by
      have : m ≠ [] := by rintro rfl; simp at hm
      simp [this], fun _ _ _ _ _ => rfl, fun _ _ _ _ _ _ => rfl, fun _ _ _ => rfl⟩, by simp⟩

end Verif.Props
