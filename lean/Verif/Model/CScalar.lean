import Verif.Model.CField
/-!
# The scalars of the C library

`x/authn/crypto/secp256k1/internal/secp256k1/libsecp256k1/src/scalar_8x32_impl.h` without the product and
what is made of it, `secp256k1_scalar_is_even` of scalar_impl.h. Line numbers are those of
`scalar_8x32_impl.h`. Results 0 and 1 of comparisons are `Bool`.
-/

namespace Verif.C

/-- `secp256k1_scalar` (scalar_8x32.h): eight limbs of 32 bits. -/
structure Sc where
  d0 : Nat
  d1 : Nat
  d2 : Nat
  d3 : Nat
  d4 : Nat
  d5 : Nat
  d6 : Nat
  d7 : Nat
  deriving DecidableEq, Repr, Inhabited

/-- `SECP256K1_N_0` to `SECP256K1_N_7`, lines 11-18. -/
def orderLimbs : Sc := ⟨0xD0364141, 0xBFD25E8C, 0xAF48A03B, 0xBAAEDCE6, 0xFFFFFFFE, 0xFFFFFFFF, 0xFFFFFFFF, 0xFFFFFFFF⟩

/-- `~x` of 32 bits. -/
def not32 (x : Nat) : Nat := 0xFFFFFFFF - u32 x

/-- `SECP256K1_N_C_0` to `SECP256K1_N_C_4`, lines 21-25. -/
def orderComplement : Sc :=
  ⟨u32 (not32 orderLimbs.d0 + 1), not32 orderLimbs.d1, not32 orderLimbs.d2, not32 orderLimbs.d3, 1, 0, 0, 0⟩

/-- `SECP256K1_N_H_0` to `SECP256K1_N_H_7`, lines 28-35. -/
def halfLimbs : Sc := ⟨0x681B20A0, 0xDFE92F46, 0x57A4501D, 0x5D576E73, 0xFFFFFFFF, 0xFFFFFFFF, 0xFFFFFFFF, 0x7FFFFFFF⟩

/-- The additions with carry of lines 96-111, 117-132, 143-158, 198-213 and 243-258: the terms of one place are
added to `t`, of which `mask` is kept, the rest goes to the next place. The second result is what is left
of `t`. -/
def chain (mask : Nat) (x : Sc) : Sc × Nat :=
  let t := u64 x.d0
  let r0 := t &&& mask
  let t := u64 ((t >>> 32) + x.d1)
  let r1 := t &&& mask
  let t := u64 ((t >>> 32) + x.d2)
  let r2 := t &&& mask
  let t := u64 ((t >>> 32) + x.d3)
  let r3 := t &&& mask
  let t := u64 ((t >>> 32) + x.d4)
  let r4 := t &&& mask
  let t := u64 ((t >>> 32) + x.d5)
  let r5 := t &&& mask
  let t := u64 ((t >>> 32) + x.d6)
  let r6 := t &&& mask
  let t := u64 ((t >>> 32) + x.d7)
  let r7 := t &&& mask
  (⟨r0, r1, r2, r3, r4, r5, r6, r7⟩, t >>> 32)

/-- `secp256k1_scalar_set_int`, lines 48-57. -/
def scSetInt (v : Nat) : Sc := ⟨u32 v, 0, 0, 0, 0, 0, 0, 0⟩

/-- `secp256k1_scalar_check_overflow`, lines 75-91. -/
def scCheckOverflow (a : Sc) : Bool :=
  let n := orderLimbs
  let no := decide (a.d7 < n.d7)
  let no := no || decide (a.d6 < n.d6)
  let no := no || decide (a.d5 < n.d5)
  let no := no || decide (a.d4 < n.d4)
  let yes := decide (a.d4 > n.d4) && !no
  let no := no || (decide (a.d3 < n.d3) && !yes)
  let yes := yes || (decide (a.d3 > n.d3) && !no)
  let no := no || (decide (a.d2 < n.d2) && !yes)
  let yes := yes || (decide (a.d2 > n.d2) && !no)
  let no := no || (decide (a.d1 < n.d1) && !yes)
  let yes := yes || (decide (a.d1 > n.d1) && !no)
  yes || (decide (a.d0 ≥ n.d0) && !no)

/-- `secp256k1_scalar_reduce`, lines 93-113; `overflow` is 0 or 1 and returned. -/
def scReduce (r : Sc) (overflow : Nat) : Sc :=
  let c := orderComplement
  (chain 0xFFFFFFFF ⟨r.d0 + u32 (overflow * c.d0), r.d1 + u32 (overflow * c.d1), r.d2 + u32 (overflow * c.d2),
    r.d3 + u32 (overflow * c.d3), r.d4 + u32 (overflow * c.d4), r.d5, r.d6, r.d7⟩).1

/-- `secp256k1_scalar_add`, lines 115-137. -/
def scAdd (a b : Sc) : Sc × Nat :=
  let r := chain 0xFFFFFFFF ⟨a.d0 + b.d0, a.d1 + b.d1, a.d2 + b.d2, a.d3 + b.d3, a.d4 + b.d4, a.d5 + b.d5, a.d6 + b.d6,
    a.d7 + b.d7⟩
  let overflow := r.2 + (scCheckOverflow r.1).toNat
  (scReduce r.1 overflow, overflow)

/-- `((uint32_t)((bit >> 5) == i)) << (bit & 0x1F)`. -/
def bitOf (bit i : Nat) : Nat := if bit >>> 5 = i then u32 (1 <<< (bit &&& 0x1F)) else 0

/-- `secp256k1_scalar_cadd_bit`, lines 139-163. -/
def scCaddBit (r : Sc) (bit : Nat) (flag : Bool) : Sc :=
  let bit := bit + (u32 (flag.toNat + 0xFFFFFFFF) &&& 0x100)
  (chain 0xFFFFFFFF ⟨r.d0 + bitOf bit 0, r.d1 + bitOf bit 1, r.d2 + bitOf bit 2, r.d3 + bitOf bit 3, r.d4 + bitOf bit 4,
    r.d5 + bitOf bit 5, r.d6 + bitOf bit 6, r.d7 + bitOf bit 7⟩).1

/-- Four bytes from `b32[i]` on, most significant first. -/
def be32 (b : Bytes) (i : Nat) : Nat :=
  (b.getD (i + 3) 0).toNat ||| (b.getD (i + 2) 0).toNat <<< 8 ||| (b.getD (i + 1) 0).toNat <<< 16 ||| (b.getD i 0).toNat <<< 24

/-- `secp256k1_scalar_set_b32`, lines 165-179, with the value of `overflow`. -/
def scSetB32 (b : Bytes) : Sc × Bool :=
  let r : Sc := ⟨be32 b 28, be32 b 24, be32 b 20, be32 b 16, be32 b 12, be32 b 8, be32 b 4, be32 b 0⟩
  (scReduce r (scCheckOverflow r).toNat, scCheckOverflow r)

/-- Four bytes of a limb. -/
def limbBytes (d : Nat) : Bytes := [UInt8.ofNat (d >>> 24), UInt8.ofNat (d >>> 16), UInt8.ofNat (d >>> 8), UInt8.ofNat d]

/-- `secp256k1_scalar_get_b32`, lines 181-190. -/
def scGetB32 (a : Sc) : Bytes :=
  limbBytes a.d7 ++ limbBytes a.d6 ++ limbBytes a.d5 ++ limbBytes a.d4 ++ limbBytes a.d3 ++ limbBytes a.d2 ++ limbBytes a.d1 ++
    limbBytes a.d0

/-- `secp256k1_scalar_is_zero`, lines 192-194. -/
def scIsZero (a : Sc) : Bool := (a.d0 ||| a.d1 ||| a.d2 ||| a.d3 ||| a.d4 ||| a.d5 ||| a.d6 ||| a.d7) == 0

/-- `0xFFFFFFFFUL * (secp256k1_scalar_is_zero(a) == 0)`, lines 197 and 242. -/
def nonzeroMask (a : Sc) : Nat := u32 (0xFFFFFFFF * (!scIsZero a).toNat)

/-- `secp256k1_scalar_negate`, lines 196-214. -/
def scNegate (a : Sc) : Sc :=
  let n := orderLimbs
  (chain (nonzeroMask a) ⟨not32 a.d0 + n.d0 + 1, not32 a.d1 + n.d1, not32 a.d2 + n.d2, not32 a.d3 + n.d3, not32 a.d4 + n.d4,
    not32 a.d5 + n.d5, not32 a.d6 + n.d6, not32 a.d7 + n.d7⟩).1

/-- `secp256k1_scalar_is_one`, lines 216-218. -/
def scIsOne (a : Sc) : Bool := ((a.d0 ^^^ 1) ||| a.d1 ||| a.d2 ||| a.d3 ||| a.d4 ||| a.d5 ||| a.d6 ||| a.d7) == 0

/-- `secp256k1_scalar_is_even`, scalar_impl.h:257-259. -/
def scIsEven (a : Sc) : Bool := a.d0 &&& 1 == 0

/-- `secp256k1_scalar_is_high`, lines 220-236. -/
def scIsHigh (a : Sc) : Bool :=
  let n := halfLimbs
  let no := decide (a.d7 < n.d7)
  let yes := decide (a.d7 > n.d7) && !no
  let no := no || (decide (a.d6 < n.d6) && !yes)
  let no := no || (decide (a.d5 < n.d5) && !yes)
  let no := no || (decide (a.d4 < n.d4) && !yes)
  let no := no || (decide (a.d3 < n.d3) && !yes)
  let yes := yes || (decide (a.d3 > n.d3) && !no)
  let no := no || (decide (a.d2 < n.d2) && !yes)
  let yes := yes || (decide (a.d2 > n.d2) && !no)
  let no := no || (decide (a.d1 < n.d1) && !yes)
  let yes := yes || (decide (a.d1 > n.d1) && !no)
  yes || (decide (a.d0 > n.d0) && !no)

/-- `secp256k1_scalar_cond_negate`, lines 238-260, with its result. -/
def scCondNegate (r : Sc) (flag : Bool) : Sc × Int :=
  let n := orderLimbs
  let mask := if flag then 0xFFFFFFFF else 0
  ((chain (nonzeroMask r) ⟨(r.d0 ^^^ mask) + (u32 (n.d0 + 1) &&& mask), (r.d1 ^^^ mask) + (n.d1 &&& mask),
    (r.d2 ^^^ mask) + (n.d2 &&& mask), (r.d3 ^^^ mask) + (n.d3 &&& mask), (r.d4 ^^^ mask) + (n.d4 &&& mask),
    (r.d5 ^^^ mask) + (n.d5 &&& mask), (r.d6 ^^^ mask) + (n.d6 &&& mask), (r.d7 ^^^ mask) + (n.d7 &&& mask)⟩).1,
    2 * (if mask = 0 then 1 else 0) - 1)

/-- `secp256k1_scalar_shr_int`, lines 653-667: the bits that are shifted out, and the rest. -/
def scShrInt (r : Sc) (n : Nat) : Nat × Sc :=
  (r.d0 &&& ((1 <<< n) - 1),
    ⟨u32 ((r.d0 >>> n) + u32 (r.d1 <<< (32 - n))), u32 ((r.d1 >>> n) + u32 (r.d2 <<< (32 - n))),
      u32 ((r.d2 >>> n) + u32 (r.d3 <<< (32 - n))), u32 ((r.d3 >>> n) + u32 (r.d4 <<< (32 - n))),
      u32 ((r.d4 >>> n) + u32 (r.d5 <<< (32 - n))), u32 ((r.d5 >>> n) + u32 (r.d6 <<< (32 - n))),
      u32 ((r.d6 >>> n) + u32 (r.d7 <<< (32 - n))), r.d7 >>> n⟩)

end Verif.C
