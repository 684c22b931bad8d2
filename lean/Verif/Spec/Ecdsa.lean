import Verif.Props.Curve
/-!
# Signatures of secp256k1
-/

namespace Verif.Spec
open WeierstrassCurve Verif.Props

/-- The numbers (r, s) are a signature of the number e under the public key q: both are between 1 and
N - 1, and r is the x-coordinate, modulo N, of the point e/s G + r/s q. -/
structure Valid (q : secp.Point) (e r s : Nat) : Prop where
  r_range : 0 < r ∧ r < curveN
  s_range : 0 < s ∧ s < curveN
  point : ∃ w, s * w % curveN = 1 ∧ ∃ x y h, (e * w) • basePoint + (r * w) • q = .some x y h ∧ x.val % curveN = r

/-- The bytes denote the point: 33 bytes, 2 plus the parity of y and then x, which may be larger than P;
or 65 bytes, x and y, after 4 or 5, or 6 plus the parity of y. -/
def IsKey (b : Bytes) (q : secp.Point) : Prop :=
  ∃ x y h, q = .some x y h ∧
    ((b.length = 33 ∧ b.head? = some (if y.val % 2 = 1 then 3 else 2) ∧ (setBytes b.tail : SecpF) = x) ∨
      (b.length = 65 ∧ (b.head? = some 4 ∨ b.head? = some 5 ∨ b.head? = some (if y.val % 2 = 1 then 7 else 6)) ∧
        setBytes (b.tail.take 32) = x.val ∧ setBytes (b.tail.drop 32) = y.val))

/-- The number that is signed for a hash: its first 32 bytes. -/
def hashNumber (hash : Bytes) : Nat := setBytes (hash.take 32)

end Verif.Spec
