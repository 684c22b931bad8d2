import Verif.Model.Nist
import Mathlib.Algebra.Group.Defs
import Mathlib.Data.Nat.Prime.Defs
/-!
# Curves and signatures
-/

namespace Verif.Spec
open Nist

/-- The methods of the curve compute in a group, whose elements have the coordinates `pt`: those of zero are (0, 0),
opposite elements have the same x; `n` is a prime that makes all elements zero. -/
structure CurveGroup (c : Elliptic) {G : Type} [AddCommGroup G] (pt : G → Nat × Nat) (base : G) : Prop where
  prime : c.n.Prime
  size : c.n < 256 ^ 1000
  order : ∀ q : G, c.n • q = 0
  zero : ∀ q, pt q = (0, 0) ↔ q = 0
  neg : ∀ q, (pt (-q)).1 = (pt q).1
  add : ∀ q q', c.add (pt q) (pt q') = pt (q + q')
  mult : ∀ q b, c.mult (pt q) b = pt (setBytes b • q)
  baseMult : ∀ b, c.baseMult b = pt (setBytes b • base)

/-- The numbers r and s are a signature of the number e under the public key q. -/
structure SignatureOf (c : Elliptic) {G : Type} [AddCommGroup G] (pt : G → Nat × Nat) (base q : G) (e r s : Nat) : Prop where
  r_range : 0 < r ∧ r < c.n
  s_range : 0 < s ∧ s < c.n
  point : ∃ w, s * w % c.n = 1 ∧ (e * w) • base + (r * w) • q ≠ 0 ∧ (pt ((e * w) • base + (r * w) • q)).1 % c.n = r

/-- The field: P is odd and fits, `poly` gives elements, `sqrt` finds a root if there is one. -/
structure FieldOk (c : Elliptic) : Prop where
  odd : c.p % 2 = 1
  fits : c.p ≤ 256 ^ c.byteLen
  poly : ∀ x, c.poly x < c.p
  root : ∀ a y, c.sqrt a = some y → y < c.p ∧ y * y % c.p = a
  no_root : ∀ a, c.sqrt a = none → ∀ y, y * y % c.p ≠ a
  two : ∀ y z, y < c.p → z < c.p → y * y % c.p = z * z % c.p → z = y ∨ z = (c.p - y) % c.p

/-- A point of the curve, other than zero. -/
def OnCurve (c : Elliptic) (x y : Nat) : Prop := x < c.p ∧ y < c.p ∧ y * y % c.p = c.poly x

/-- The number that is signed for a hash: its first bits, as many as N has. -/
def hashBits (c : Elliptic) (hash : Bytes) (e : Nat) : Prop :=
  ∃ bits, 2 ^ (bits - 1) ≤ c.n ∧ c.n < 2 ^ bits ∧
    (hash.length * 8 ≤ bits ∧ e = setBytes hash ∨ bits < hash.length * 8 ∧ e = setBytes hash / 2 ^ (hash.length * 8 - bits))

/-- The bytes are those of the length, in the shortest form: one byte below 128; otherwise 128 plus the number of bytes that
follow, the first of which is not zero. -/
def LengthBytes (l : Bytes) (n : Nat) : Prop :=
  (n < 128 ∧ l = [UInt8.ofNat n]) ∨
  (128 ≤ n ∧ ∃ x r, l = UInt8.ofNat (128 + (x :: r).length) :: x :: r ∧ (x :: r).length < 128 ∧ x ≠ 0 ∧ setBytes (x :: r) = n)

/-- The bytes are an element of DER with the tag and the content. -/
def ElementBytes (b : Bytes) (tag : UInt8) (content : Bytes) : Prop :=
  ∃ l, LengthBytes l content.length ∧ b = tag :: (l ++ content)

/-- The content of an integer that is not negative: the first byte is below 128, and it is not zero unless the
next one is 128 or more, or there is none. -/
def NatBytes (b : Bytes) (n : Nat) : Prop :=
  setBytes b = n ∧ ∃ x r, b = x :: r ∧ x.toNat < 128 ∧ (x = 0 → ∀ y ∈ r.head?, 128 ≤ y.toNat)

/-- The bytes start with a sequence that starts with the two integers; what follows, in the sequence and after it, is
arbitrary. -/
def SignatureBytes (sig : Bytes) (r s : Nat) : Prop :=
  ∃ cr cs er es inner outer seq, NatBytes cr r ∧ NatBytes cs s ∧ ElementBytes er 2 cr ∧ ElementBytes es 2 cs ∧
    ElementBytes seq 48 (er ++ es ++ inner) ∧ sig = seq ++ outer

end Verif.Spec
