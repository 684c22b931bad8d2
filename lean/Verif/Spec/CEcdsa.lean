import Verif.Spec.Ecdsa
/-!
# The keys of the C library, and the recovery of keys
-/

namespace Verif.Spec
open WeierstrassCurve Verif.Props

/-- The bytes denote the point for the C library: 33 bytes, 2 plus the parity of y and then x; or 65 bytes, x and y after 4,
or after 6 plus the parity of y. The coordinates are below P. -/
def LibKey (b : Bytes) (q : secp.Point) : Prop :=
  ∃ x y h, q = .some x y h ∧
    ((b.length = 33 ∧ b.head? = some (if y.val % 2 = 1 then 3 else 2) ∧ setBytes b.tail = x.val) ∨
      (b.length = 65 ∧ (b.head? = some 4 ∨ b.head? = some (if y.val % 2 = 1 then 7 else 6)) ∧
        setBytes (b.tail.take 32) = x.val ∧ setBytes (b.tail.drop 32) = y.val))

/-- The key that the number e and the signature (r, s) with the identifier (0 to 3) give: the identifier tells whether the
x-coordinate of the point was reduced (2, 3) and the parity of its y-coordinate; the key is then s/r times that point minus
e/r times the base point. -/
structure Recovers (e r s id : Nat) (q : secp.Point) : Prop where
  r_range : 0 < r ∧ r < curveN
  s_range : 0 < s ∧ s < curveN
  point : ∃ x y h w, x.val = r + id / 2 * curveN ∧ y.val % 2 = id % 2 ∧ r * w % curveN = 1 ∧
    q + (e * w) • basePoint = (s * w) • .some x y h
  not_zero : q ≠ 0

end Verif.Spec
