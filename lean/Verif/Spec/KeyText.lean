import Verif.Model.Out
import Verif.Model.Bytes
/-!
# Bytes in a buffer and as text
-/

namespace Verif.Spec

/-- The digits of numbers to the base 16. -/
def hexDigits : Bytes := b!"0123456789ABCDEF"

/-- The text has two digits for each byte. -/
inductive HexText : Bytes → Bytes → Prop
  | nil : HexText [] []
  | cons {x h l : UInt8} {b t : Bytes} (high : hexDigits[x.toNat / 16]? = some h) (low : hexDigits[x.toNat % 16]? = some l)
      (rest : HexText b t) : HexText (x :: b) (h :: l :: t)

/-- What a buffer is after the bytes were written to its beginning and `n` was returned. -/
structure Written (before after b : Bytes) (n : Nat) : Prop where
  count : n = b.length
  start : after.take n = b
  rest : after.drop n = before.drop n
  size : after.length = before.length

end Verif.Spec
