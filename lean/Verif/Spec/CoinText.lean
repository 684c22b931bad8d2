import Verif.Spec.SdkCoins
/-!
# Texts that are read as coins
-/

namespace Verif.Spec

/-- The text writes the number of units of 10⁻¹⁸: decimal digits, or decimal digits, a point and up to 18
decimal digits. -/
def WritesDec (t : Bytes) (n : Nat) : Prop :=
  (∃ k, Writes t k ∧ n = k * 10 ^ 18) ∨
  ∃ a f k j, t = a ++ 46 :: f ∧ Writes a k ∧ Writes f j ∧ f.length ≤ 18 ∧ n = (k * 10 ^ f.length + j) * 10 ^ (18 - f.length)

/-- The byte is a space, a tabulator or the like. -/
def Blank (b : UInt8) : Prop := (9 ≤ b.toNat ∧ b.toNat ≤ 13) ∨ b = 32

/-- The text is a number, possibly blanks, and a denomination. -/
def WritesCoin (t d : Bytes) (n : Nat) : Prop :=
  ∃ a w, t = a ++ (w ++ d) ∧ WritesDec a n ∧ (∀ b ∈ w, Blank b) ∧ DenomText d

/-- Spaces of Unicode in UTF-8, and nothing else. -/
inductive Spaces : Bytes → Prop
  | nil : Spaces []
  | ascii {b : UInt8} {t : Bytes} (h : Blank b) (ht : Spaces t) : Spaces (b :: t)
  | two {b : UInt8} {t : Bytes} (h : b = 0x85 ∨ b = 0xA0) (ht : Spaces t) : Spaces (0xC2 :: b :: t)
  | ogham {t : Bytes} (ht : Spaces t) : Spaces (0xE1 :: 0x9A :: 0x80 :: t)
  | general {b : UInt8} {t : Bytes} (h : (0x80 ≤ b.toNat ∧ b.toNat ≤ 0x8A) ∨ b = 0xA8 ∨ b = 0xA9 ∨ b = 0xAF)
    (ht : Spaces t) : Spaces (0xE2 :: 0x80 :: b :: t)
  | medium {t : Bytes} (ht : Spaces t) : Spaces (0xE2 :: 0x81 :: 0x9F :: t)
  | ideographic {t : Bytes} (ht : Spaces t) : Spaces (0xE3 :: 0x80 :: 0x80 :: t)

/-- The second text is the first without the spaces around it. -/
structure Trimmed (t u : Bytes) : Prop where
  around : ∃ p q, t = p ++ (u ++ q) ∧ Spaces p ∧ Spaces q
  front : ∀ p r, u = p ++ r → Spaces p → p = []
  back : ∀ r q, u = r ++ q → Spaces q → q = []

end Verif.Spec
