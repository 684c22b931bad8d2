import Verif.Spec.Coins
/-!
# Coins as they are written
-/

namespace Verif.Spec

/-- The byte is a decimal digit. -/
def Digit (b : UInt8) : Prop := 48 ≤ b.toNat ∧ b.toNat ≤ 57

/-- The byte is a letter. -/
def Letter (b : UInt8) : Prop := (65 ≤ b.toNat ∧ b.toNat ≤ 90) ∨ (97 ≤ b.toNat ∧ b.toNat ≤ 122)

/-- 3 to 128 letters, digits and slashes, beginning with a letter. -/
structure DenomText (d : Bytes) : Prop where
  first : ∃ b r, d = b :: r ∧ Letter b
  all : ∀ b ∈ d, Letter b ∨ Digit b ∨ b = 47
  length : 3 ≤ d.length ∧ d.length ≤ 128

/-- The text writes the number in decimal digits, possibly with zeros in front. -/
inductive Writes : Bytes → Nat → Prop
  | digit (b : UInt8) (h : Digit b) : Writes [b] (b.toNat - 48)
  | more {t : Bytes} {n : Nat} (h : Writes t n) (b : UInt8) (hb : Digit b) : Writes (t ++ [b]) (10 * n + (b.toNat - 48))

/-- The coin is an amount in decimal digits of a denomination. -/
def Wellformed (c : Coin) (d : Bytes) (n : Nat) : Prop := DenomText d ∧ c.denom = d ∧ Writes c.amount n

end Verif.Spec
