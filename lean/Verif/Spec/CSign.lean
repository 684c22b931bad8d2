import Verif.Spec.CEcdsa
import Verif.Spec.Rfc6979
/-!
# The making of signatures
-/

namespace Verif.Spec
open WeierstrassCurve Verif.Props

/-- What is made from the number e, the private key d and the secret number k. The sign of k is chosen such that s, which is
(e + r d)/k, is at most half of the order; r is the x-coordinate of k times the base point, modulo N, and the identifier tells
whether x was reduced (2, 3) and the parity of y. -/
def SignedWith (e d k r s id : Nat) : Prop :=
  ∃ l, (l = k ∨ l = curveN - k) ∧ ∃ x y h, l • basePoint = .some x y h ∧ r = x.val % curveN ∧
    id = 2 * (x.val / curveN) + y.val % 2 ∧ s * l % curveN = (e + r * d) % curveN ∧ 0 < s ∧ s ≤ curveN / 2

/-- The candidates for the secret number that RFC 6979 gives for a private key and a hash, both of 32 bytes. -/
def candidates (mac : Bytes → Bytes → Bytes) (key hash : Bytes) (n : Nat) : Nat := setBytes (rfcCandidate mac (key ++ hash) n)

/-- The number n is that of the first candidate of the generator that lies between 1 and N - 1 and for which there is a signature,
which is (r, s) with the identifier id. -/
structure FirstSigned (candidate : Nat → Nat) (e d n r s id : Nat) : Prop where
  range : 0 < candidate n ∧ candidate n < curveN
  signed : SignedWith e d (candidate n) r s id
  first : ∀ m < n, 0 < candidate m ∧ candidate m < curveN → ¬ ∃ r s id, SignedWith e d (candidate m) r s id

end Verif.Spec
