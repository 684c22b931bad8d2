import Mathlib.AlgebraicGeometry.EllipticCurve.Affine.Point
import Mathlib.Algebra.Field.ZMod
import Verif.Model.Curve
/-!
# The curve secp256k1

In terms of Mathlib's elliptic curves: the field of `secpP` elements, the curve y² = x³ + 7, its
group of points.
-/

namespace Verif.Spec
open WeierstrassCurve

/-- The prime 2^256 - 2^32 - 977. -/
def secpP : Nat := 2 ^ 256 - 2 ^ 32 - 977

/-- The field. -/
abbrev SecpF := ZMod secpP

/-- The curve y² = x³ + 7. -/
def secp : Affine SecpF := ⟨0, 0, 0, 0, 7⟩

/-- The integers `x` and `y` are coordinates of the point. -/
def HasCoords (x y : Int) (q : secp.Point) : Prop :=
  ∃ h : secp.Nonsingular (x : SecpF) (y : SecpF), q = .some (x : SecpF) (y : SecpF) h

/-- The integers are coordinates of the point, and reduced. -/
structure HasReduced (x y : Int) (q : secp.Point) : Prop where
  coords : HasCoords x y q
  x_range : 0 ≤ x ∧ x < secpP
  y_range : 0 ≤ y ∧ y < secpP

/-- Jacobian coordinates X, Y, Z of a point (x, y): X = x Z² and Y = y Z³. -/
def Jacobian (t : Int × Int × Int) (q : secp.Point) : Prop :=
  ∃ x y h, q = Affine.Point.some x y h ∧ (t.2.2 : SecpF) ≠ 0 ∧ (t.1 : SecpF) = x * (t.2.2 : SecpF) ^ 2 ∧
    (t.2.1 : SecpF) = y * (t.2.2 : SecpF) ^ 3

/-- What is assumed of the multiplication of the C library: a scalar that is zero or not below the
order is refused; otherwise the coordinates of the multiple are left in the buffer. -/
structure Multiplies [Fact secpP.Prime] (mul : Bytes → Bytes → Option Bytes) : Prop where
  refused : ∀ point scalar, scalar.length = 32 → setBytes scalar = 0 ∨ curveN ≤ setBytes scalar →
    mul point scalar = none
  multiple : ∀ (point scalar : Bytes) (q : secp.Point) (x y : Int), point.length = 64 → scalar.length = 32 →
    HasReduced (setBytes (point.take 32)) (setBytes (point.drop 32)) q →
    0 < setBytes scalar → setBytes scalar < curveN → HasReduced x y (setBytes scalar • q) →
    ∃ out, mul point scalar = some out ∧ (setBytes (out.take 32) : Int) = x ∧ (setBytes (out.drop 32) : Int) = y

/-- Two C libraries that do the same on buffers of the documented sizes, and may do anything (such
as reading beyond their end) on others. -/
structure SameInBounds (c c' : CLib) : Prop where
  seckeyVerify : ∀ key, key.length = 32 → c.seckeyVerify key = c'.seckeyVerify key
  sign : ∀ msg key, msg.length = 32 → key.length = 32 → c.seckeyVerify key = true → c.sign msg key = c'.sign msg key
  recover : ∀ sig msg, sig.length = 65 → (∃ b ∈ sig[64]?, b.toNat < 4) → msg.length = 32 →
    c.recover sig msg = c'.recover sig msg
  verify : ∀ sig msg key, sig.length = 64 → msg.length = 32 → key ≠ [] → c.verify sig msg key = c'.verify sig msg key
  reencode : ∀ n key, (n = 65 ∧ key.length = 33) ∨ (n = 33 ∧ key.length = 65) → c.reencode n key = c'.reencode n key

end Verif.Spec
