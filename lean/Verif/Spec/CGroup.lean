import Verif.Spec.CField
import Verif.Model.CGroup
/-!
# What the points of the C library stand for

Points are stored up to a common factor of their coordinates z: `u` below is the factor that is missing
(1 if none is). The library uses this as the isomorphism of curves.
-/

namespace Verif.Spec
open WeierstrassCurve

/-- Jacobian coordinates of a point that is not zero. -/
def Jac (x y z : SecpF) (q : secp.Point) : Prop :=
  z ≠ 0 ∧ ∃ X Y h, q = Affine.Point.some X Y h ∧ x = X * z ^ 2 ∧ y = Y * z ^ 3

/-- The point in Jacobian coordinates, the third of which is to be multiplied by `u`. -/
def GejRep (u : SecpF) (j : C.Gej) (q : secp.Point) : Prop :=
  if j.infinity then q = 0 else Jac (feVal j.x) (feVal j.y) (feVal j.z * u) q

/-- The point in affine coordinates, to which belongs the third coordinate `u`. -/
def GeRep (u : SecpF) (g : C.Ge) (q : secp.Point) : Prop :=
  if g.infinity then q = 0 else Jac (feVal g.x) (feVal g.y) u q

/-- The coordinates may be multiplied. -/
structure GejMag (j : C.Gej) : Prop where
  x : Mag 8 j.x
  y : Mag 8 j.y
  z : Mag 8 j.z

/-- The coordinates may be multiplied. -/
structure GeMag (g : C.Ge) : Prop where
  x : Mag 8 g.x
  y : Mag 8 g.y

/-- The limbs of the coordinates fit into 32 bits. -/
structure GeFits (g : C.Ge) : Prop where
  x : Fits g.x
  y : Fits g.y

end Verif.Spec
