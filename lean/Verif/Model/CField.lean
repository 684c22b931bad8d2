import Verif.Model.Bytes
/-!
# The field arithmetic of the C library

`x/authn/crypto/secp256k1/internal/secp256k1/libsecp256k1/src/field_10x26_impl.h` and `field_impl.h`,
as compiled by the cgo header of `secp256.go` (USE_FIELD_10X26, USE_FIELD_INV_BUILTIN, no VERIFY, no
external assembler).

An element is ten numbers of 32 bits. They are natural numbers here; every C expression of type
`uint32_t` is taken modulo 2^32 and every one of type `uint64_t` modulo 2^64 where it is stored
(sums and products commute with that). Line numbers are those of `field_10x26_impl.h`.
-/

namespace Verif.C

/-- What a variable of 32 bits keeps of a number. -/
def u32 (x : Nat) : Nat := x % 2 ^ 32

/-- What a variable of 64 bits keeps of a number. -/
def u64 (x : Nat) : Nat := x % 2 ^ 64

/-- `secp256k1_fe` (field_10x26.h), without the members that are only there under VERIFY. -/
structure Fe where
  n0 : Nat
  n1 : Nat
  n2 : Nat
  n3 : Nat
  n4 : Nat
  n5 : Nat
  n6 : Nat
  n7 : Nat
  n8 : Nat
  n9 : Nat
  deriving DecidableEq, Repr, Inhabited

/-- `x & 0x3FFFFFFUL`. -/
def low26 (x : Nat) : Nat := x &&& 0x3FFFFFF

/-- `x & 0x03FFFFFUL`. -/
def low22 (x : Nat) : Nat := x &&& 0x3FFFFF

/-- Lines 53-61 (72-80, 107-115, 158-166, 197-205): the bits of a limb above the 26th are added to the next
limb. -/
def carry (t : Fe) : Fe :=
  let t1 := u32 (t.n1 + (t.n0 >>> 26))
  let t2 := u32 (t.n2 + (t1 >>> 26))
  let t3 := u32 (t.n3 + (t2 >>> 26))
  let t4 := u32 (t.n4 + (t3 >>> 26))
  let t5 := u32 (t.n5 + (t4 >>> 26))
  let t6 := u32 (t.n6 + (t5 >>> 26))
  let t7 := u32 (t.n7 + (t6 >>> 26))
  let t8 := u32 (t.n8 + (t7 >>> 26))
  let t9 := u32 (t.n9 + (t8 >>> 26))
  ⟨low26 t.n0, low26 t1, low26 t2, low26 t3, low26 t4, low26 t5, low26 t6, low26 t7, low26 t8, t9⟩

/-- Lines 49 and 52 (103-106, 135-138, 193-196): the bits above the 256th are added at the bottom. -/
def fold (t : Fe) : Fe :=
  let x := t.n9 >>> 22
  { t with n9 := low22 t.n9, n0 := u32 (t.n0 + x * 0x3D1), n1 := u32 (t.n1 + u32 (x <<< 6)) }

/-- `secp256k1_fe_normalize_weak`, lines 98-127. -/
def feNormalizeWeak (r : Fe) : Fe := carry (fold r)

/-- Lines 67-68 (153-154): after the first pass, whether the number is not below the prime. -/
def overPrime (t : Fe) : Nat :=
  (t.n9 >>> 22) |||
    (if t.n9 = 0x3FFFFF ∧ (t.n2 &&& t.n3 &&& t.n4 &&& t.n5 &&& t.n6 &&& t.n7 &&& t.n8) = 0x3FFFFFF ∧
      t.n1 + 0x40 + ((t.n0 + 0x3D1) >>> 26) > 0x3FFFFFF then 1 else 0)

/-- `secp256k1_fe_normalize`, lines 43-96. -/
def feNormalize (r : Fe) : Fe :=
  let t := carry (fold r)
  let x := overPrime t
  let t' := carry { t with n0 := u32 (t.n0 + x * 0x3D1), n1 := u32 (t.n1 + u32 (x <<< 6)) }
  { t' with n9 := low22 t'.n9 }

/-- `secp256k1_fe_normalize_var`, lines 129-183. -/
def feNormalizeVar (r : Fe) : Fe :=
  let t := carry (fold r)
  let x := overPrime t
  if x ≠ 0 then
    let t' := carry { t with n0 := u32 (t.n0 + 0x3D1), n1 := u32 (t.n1 + u32 (x <<< 6)) }
    { t' with n9 := low22 t'.n9 }
  else t

/-- `secp256k1_fe_normalizes_to_zero`, lines 185-212. -/
def feNormalizesToZero (r : Fe) : Bool :=
  let t := carry (fold r)
  let z0 := t.n0 ||| t.n1 ||| t.n2 ||| t.n3 ||| t.n4 ||| t.n5 ||| t.n6 ||| t.n7 ||| t.n8 ||| t.n9
  let z1 := (t.n0 ^^^ 0x3D0) &&& (t.n1 ^^^ 0x40) &&& t.n2 &&& t.n3 &&& t.n4 &&& t.n5 &&& t.n6 &&& t.n7 &&&
    t.n8 &&& (t.n9 ^^^ 0x3C00000)
  z0 == 0 || z1 == 0x3FFFFFF

/-- `secp256k1_fe_normalizes_to_zero_var`, lines 214-264: the same, with an early return once the lowest
limb is known. -/
def feNormalizesToZeroVar (r : Fe) : Bool :=
  let t0 := u32 (r.n0 + (r.n9 >>> 22) * 0x3D1)
  let z0 := low26 t0
  let z1 := z0 ^^^ 0x3D0
  if z0 ≠ 0 ∧ z1 ≠ 0x3FFFFFF then false
  else feNormalizesToZero r

/-- `secp256k1_fe_set_int`, lines 266-274, for a number that is not negative. -/
def feSetInt (a : Nat) : Fe := ⟨u32 a, 0, 0, 0, 0, 0, 0, 0, 0, 0⟩

/-- `secp256k1_fe_is_zero`, lines 276-283. -/
def feIsZero (a : Fe) : Bool :=
  (a.n0 ||| a.n1 ||| a.n2 ||| a.n3 ||| a.n4 ||| a.n5 ||| a.n6 ||| a.n7 ||| a.n8 ||| a.n9) == 0

/-- `secp256k1_fe_is_odd`, lines 285-291. -/
def feIsOdd (a : Fe) : Bool := a.n0 &&& 1 == 1

/-- The body of the loop of lines 327-334, `r->n` being a function of the number of the limb. -/
def setB32Step (a : Bytes) (n : Nat → Nat) (i j : Nat) : Nat → Nat :=
  let limb := (8 * i + 2 * j) / 26
  let shift := (8 * i + 2 * j) % 26
  fun l => if l = limb then n l ||| ((((a.getD (31 - i) 0).toNat >>> (2 * j)) &&& 0x3) <<< shift) else n l

/-- Lines 325-334: the limbs of 32 bytes. -/
def setB32Limbs (a : Bytes) : Nat → Nat :=
  (List.range 32).foldl (fun n i => (List.range 4).foldl (fun n j => setB32Step a n i j) n) (fun _ => 0)

/-- `secp256k1_fe_set_b32`, lines 323-344: the element is left there even if the number is not below the
prime. -/
def feSetB32 (a : Bytes) : Fe × Bool :=
  let n := setB32Limbs a
  let r : Fe := ⟨n 0, n 1, n 2, n 3, n 4, n 5, n 6, n 7, n 8, n 9⟩
  (r, !(r.n9 == 0x3FFFFF &&
    (r.n8 &&& r.n7 &&& r.n6 &&& r.n5 &&& r.n4 &&& r.n3 &&& r.n2) == 0x3FFFFFF &&
    decide (r.n1 + 0x40 + ((r.n0 + 0x3D1) >>> 26) > 0x3FFFFFF)))

/-- A limb by its number. -/
def Fe.get (a : Fe) : Nat → Nat
  | 0 => a.n0
  | 1 => a.n1
  | 2 => a.n2
  | 3 => a.n3
  | 4 => a.n4
  | 5 => a.n5
  | 6 => a.n6
  | 7 => a.n7
  | 8 => a.n8
  | 9 => a.n9
  | _ => 0

/-- Lines 354-361: the byte `31 - i`. -/
def getB32Byte (a : Fe) (i : Nat) : Nat :=
  (List.range 4).foldl (fun c j =>
    c ||| (((a.get ((8 * i + 2 * j) / 26) >>> ((8 * i + 2 * j) % 26)) &&& 0x3) <<< (2 * j))) 0

/-- `secp256k1_fe_get_b32`, lines 347-363. -/
def feGetB32 (a : Fe) : Bytes := (List.range 32).map fun k => UInt8.ofNat (getB32Byte a (31 - k))

/-- A difference of two numbers in 32 bits. -/
def sub32 (x y : Nat) : Nat := u32 (x + (2 ^ 32 - u32 y))

/-- `secp256k1_fe_negate`, lines 365-385. -/
def feNegate (a : Fe) (m : Nat) : Fe :=
  ⟨sub32 (0x3FFFC2F * 2 * (m + 1)) a.n0, sub32 (0x3FFFFBF * 2 * (m + 1)) a.n1,
    sub32 (0x3FFFFFF * 2 * (m + 1)) a.n2, sub32 (0x3FFFFFF * 2 * (m + 1)) a.n3,
    sub32 (0x3FFFFFF * 2 * (m + 1)) a.n4, sub32 (0x3FFFFFF * 2 * (m + 1)) a.n5,
    sub32 (0x3FFFFFF * 2 * (m + 1)) a.n6, sub32 (0x3FFFFFF * 2 * (m + 1)) a.n7,
    sub32 (0x3FFFFFF * 2 * (m + 1)) a.n8, sub32 (0x03FFFFF * 2 * (m + 1)) a.n9⟩

/-- `secp256k1_fe_mul_int`, lines 387-403, for a factor that is not negative. -/
def feMulInt (r : Fe) (a : Nat) : Fe :=
  ⟨u32 (r.n0 * a), u32 (r.n1 * a), u32 (r.n2 * a), u32 (r.n3 * a), u32 (r.n4 * a), u32 (r.n5 * a),
    u32 (r.n6 * a), u32 (r.n7 * a), u32 (r.n8 * a), u32 (r.n9 * a)⟩

/-- `secp256k1_fe_add`, lines 405-424. -/
def feAdd (r a : Fe) : Fe :=
  ⟨u32 (r.n0 + a.n0), u32 (r.n1 + a.n1), u32 (r.n2 + a.n2), u32 (r.n3 + a.n3), u32 (r.n4 + a.n4),
    u32 (r.n5 + a.n5), u32 (r.n6 + a.n6), u32 (r.n7 + a.n7), u32 (r.n8 + a.n8), u32 (r.n9 + a.n9)⟩

/-- The nineteen sums of products of the limbs of two elements. -/
structure Cols where
  p0 : Nat
  p1 : Nat
  p2 : Nat
  p3 : Nat
  p4 : Nat
  p5 : Nat
  p6 : Nat
  p7 : Nat
  p8 : Nat
  p9 : Nat
  p10 : Nat
  p11 : Nat
  p12 : Nat
  p13 : Nat
  p14 : Nat
  p15 : Nat
  p16 : Nat
  p17 : Nat
  p18 : Nat

/-- The sums of products of field_10x26_impl.h:472-481, 489-500, 514-525, … 691-703 (taken modulo 2^64
where they are added to `c` and `d`). -/
def mulCols (a b : Fe) : Cols where
  p0 := a.n0 * b.n0
  p1 := a.n0 * b.n1 + a.n1 * b.n0
  p2 := a.n0 * b.n2 + a.n1 * b.n1 + a.n2 * b.n0
  p3 := a.n0 * b.n3 + a.n1 * b.n2 + a.n2 * b.n1 + a.n3 * b.n0
  p4 := a.n0 * b.n4 + a.n1 * b.n3 + a.n2 * b.n2 + a.n3 * b.n1 + a.n4 * b.n0
  p5 := a.n0 * b.n5 + a.n1 * b.n4 + a.n2 * b.n3 + a.n3 * b.n2 + a.n4 * b.n1 + a.n5 * b.n0
  p6 := a.n0 * b.n6 + a.n1 * b.n5 + a.n2 * b.n4 + a.n3 * b.n3 + a.n4 * b.n2 + a.n5 * b.n1 +
    a.n6 * b.n0
  p7 := a.n0 * b.n7 + a.n1 * b.n6 + a.n2 * b.n5 + a.n3 * b.n4 + a.n4 * b.n3 + a.n5 * b.n2 +
    a.n6 * b.n1 + a.n7 * b.n0
  p8 := a.n0 * b.n8 + a.n1 * b.n7 + a.n2 * b.n6 + a.n3 * b.n5 + a.n4 * b.n4 + a.n5 * b.n3 +
    a.n6 * b.n2 + a.n7 * b.n1 + a.n8 * b.n0
  p9 := a.n0 * b.n9 + a.n1 * b.n8 + a.n2 * b.n7 + a.n3 * b.n6 + a.n4 * b.n5 + a.n5 * b.n4 +
    a.n6 * b.n3 + a.n7 * b.n2 + a.n8 * b.n1 + a.n9 * b.n0
  p10 := a.n1 * b.n9 + a.n2 * b.n8 + a.n3 * b.n7 + a.n4 * b.n6 + a.n5 * b.n5 + a.n6 * b.n4 +
    a.n7 * b.n3 + a.n8 * b.n2 + a.n9 * b.n1
  p11 := a.n2 * b.n9 + a.n3 * b.n8 + a.n4 * b.n7 + a.n5 * b.n6 + a.n6 * b.n5 + a.n7 * b.n4 +
    a.n8 * b.n3 + a.n9 * b.n2
  p12 := a.n3 * b.n9 + a.n4 * b.n8 + a.n5 * b.n7 + a.n6 * b.n6 + a.n7 * b.n5 + a.n8 * b.n4 +
    a.n9 * b.n3
  p13 := a.n4 * b.n9 + a.n5 * b.n8 + a.n6 * b.n7 + a.n7 * b.n6 + a.n8 * b.n5 + a.n9 * b.n4
  p14 := a.n5 * b.n9 + a.n6 * b.n8 + a.n7 * b.n7 + a.n8 * b.n6 + a.n9 * b.n5
  p15 := a.n6 * b.n9 + a.n7 * b.n8 + a.n8 * b.n7 + a.n9 * b.n6
  p16 := a.n7 * b.n9 + a.n8 * b.n8 + a.n9 * b.n7
  p17 := a.n8 * b.n9 + a.n9 * b.n8
  p18 := a.n9 * b.n9

/-- The sums of products of field_10x26_impl.h:791-795, 803-810, 824-830, … 969-977. The double of a
limb is computed in 32 bits. -/
def sqrCols (a : Fe) : Cols where
  p0 := a.n0 * a.n0
  p1 := u32 (a.n0 * 2) * a.n1
  p2 := u32 (a.n0 * 2) * a.n2 + a.n1 * a.n1
  p3 := u32 (a.n0 * 2) * a.n3 + u32 (a.n1 * 2) * a.n2
  p4 := u32 (a.n0 * 2) * a.n4 + u32 (a.n1 * 2) * a.n3 + a.n2 * a.n2
  p5 := u32 (a.n0 * 2) * a.n5 + u32 (a.n1 * 2) * a.n4 + u32 (a.n2 * 2) * a.n3
  p6 := u32 (a.n0 * 2) * a.n6 + u32 (a.n1 * 2) * a.n5 + u32 (a.n2 * 2) * a.n4 + a.n3 * a.n3
  p7 := u32 (a.n0 * 2) * a.n7 + u32 (a.n1 * 2) * a.n6 + u32 (a.n2 * 2) * a.n5 +
    u32 (a.n3 * 2) * a.n4
  p8 := u32 (a.n0 * 2) * a.n8 + u32 (a.n1 * 2) * a.n7 + u32 (a.n2 * 2) * a.n6 +
    u32 (a.n3 * 2) * a.n5 + a.n4 * a.n4
  p9 := u32 (a.n0 * 2) * a.n9 + u32 (a.n1 * 2) * a.n8 + u32 (a.n2 * 2) * a.n7 +
    u32 (a.n3 * 2) * a.n6 + u32 (a.n4 * 2) * a.n5
  p10 := u32 (a.n1 * 2) * a.n9 + u32 (a.n2 * 2) * a.n8 + u32 (a.n3 * 2) * a.n7 +
    u32 (a.n4 * 2) * a.n6 + a.n5 * a.n5
  p11 := u32 (a.n2 * 2) * a.n9 + u32 (a.n3 * 2) * a.n8 + u32 (a.n4 * 2) * a.n7 +
    u32 (a.n5 * 2) * a.n6
  p12 := u32 (a.n3 * 2) * a.n9 + u32 (a.n4 * 2) * a.n8 + u32 (a.n5 * 2) * a.n7 + a.n6 * a.n6
  p13 := u32 (a.n4 * 2) * a.n9 + u32 (a.n5 * 2) * a.n8 + u32 (a.n6 * 2) * a.n7
  p14 := u32 (a.n5 * 2) * a.n9 + u32 (a.n6 * 2) * a.n8 + a.n7 * a.n7
  p15 := u32 (a.n6 * 2) * a.n9 + u32 (a.n7 * 2) * a.n8
  p16 := u32 (a.n7 * 2) * a.n9 + a.n8 * a.n8
  p17 := u32 (a.n8 * 2) * a.n9
  p18 := a.n9 * a.n9

/-- The accumulators `c` and `d` and the limb that leaves them. -/
structure Acc where
  c : Nat
  d : Nat
  t : Nat

/-- Lines 489-508 (514-533, 539-558, … 691-729, and the same of `secp256k1_fe_sqr_inner`): `pc` is added to
`c` and `pd` to `d`; the low 26 bits of `d` go into `c` with the factors R0 and R1; the low 26 bits of
`c` are a limb. -/
def colStep (c d pc pd : Nat) : Acc :=
  let c := u64 (c + pc)
  let d := u64 (d + pd)
  let u := low26 d
  let d := d >>> 26
  let c := u64 (c + u * 0x3D10)
  let t := low26 c
  let c := c >>> 26
  let c := u64 (c + u * 0x400)
  ⟨c, d, t⟩

/-- Lines 729-764 (1003-1038): the end of the product, from the accumulators and the limbs. -/
def finishCols (c d t0 t1 t2 t3 t4 t5 t6 t7 r8 t9 : Nat) : Fe :=
  let c := u64 (c + u64 (d * 0x3D10 + t9))
  let r9 := c &&& (0x3FFFFFF >>> 4)
  let c := c >>> 22
  let c := u64 (c + d * (0x400 <<< 4))
  let d := u64 (c * (0x3D10 >>> 4) + t0)
  let r0 := low26 d
  let d := d >>> 26
  let d := u64 (d + u64 (c * (0x400 >>> 4) + t1))
  let r1 := low26 d
  let d := d >>> 26
  let d := u64 (d + t2)
  ⟨r0, r1, u32 d, t3, t4, t5, t6, t7, r8, r9⟩

/-- `secp256k1_fe_mul_inner`, lines 440-767, and `secp256k1_fe_sqr_inner`, lines 769-1041, from the sums of
products. All of them are read before the result is written, so that the result may be stored in
the place of an argument. -/
def reduceCols (p : Cols) : Fe :=
  let d := u64 p.p9
  let t9 := low26 d
  let d := d >>> 26
  let s0 := colStep 0 d p.p0 p.p10
  let s1 := colStep s0.c s0.d p.p1 p.p11
  let s2 := colStep s1.c s1.d p.p2 p.p12
  let s3 := colStep s2.c s2.d p.p3 p.p13
  let s4 := colStep s3.c s3.d p.p4 p.p14
  let s5 := colStep s4.c s4.d p.p5 p.p15
  let s6 := colStep s5.c s5.d p.p6 p.p16
  let s7 := colStep s6.c s6.d p.p7 p.p17
  let s8 := colStep s7.c s7.d p.p8 p.p18
  finishCols s8.c s8.d s0.t s1.t s2.t s3.t s4.t s5.t s6.t s7.t s8.t t9

/-- `secp256k1_fe_mul`, lines 1044-1058. -/
def feMul (a b : Fe) : Fe := reduceCols (mulCols a b)

/-- `secp256k1_fe_sqr`, lines 1060-1071. -/
def feSqr (a : Fe) : Fe := reduceCols (sqrCols a)

/-- One limb of `secp256k1_fe_cmov`: `flag + ~0` and its complement are the masks. -/
def cmov32 (r a flag : Nat) : Nat :=
  let mask0 := u32 (flag + 0xFFFFFFFF)
  let mask1 := 0xFFFFFFFF - mask0
  (r &&& mask0) ||| (a &&& mask1)

/-- `secp256k1_fe_cmov`, lines 1073-1093. -/
def feCmov (r a : Fe) (flag : Nat) : Fe :=
  ⟨cmov32 r.n0 a.n0 flag, cmov32 r.n1 a.n1 flag, cmov32 r.n2 a.n2 flag, cmov32 r.n3 a.n3 flag,
    cmov32 r.n4 a.n4 flag, cmov32 r.n5 a.n5 flag, cmov32 r.n6 a.n6 flag, cmov32 r.n7 a.n7 flag,
    cmov32 r.n8 a.n8 flag, cmov32 r.n9 a.n9 flag⟩

/-- `for (j=0; j<n; j++) secp256k1_fe_sqr(&x, &x)`. -/
def feSqrN : Nat → Fe → Fe
  | 0, x => x
  | n + 1, x => feSqrN n (feSqr x)

/-- The powers of field_impl.h:56-114 and 145-203 that the square root and the inverse share: those with
the exponents 2^2 - 1, 2^22 - 1, 2^223 - 1. -/
def fePowers (a : Fe) : Fe × Fe × Fe :=
  let x2 := feMul (feSqr a) a
  let x3 := feMul (feSqr x2) a
  let x6 := feMul (feSqrN 3 x3) x3
  let x9 := feMul (feSqrN 3 x6) x3
  let x11 := feMul (feSqrN 2 x9) x2
  let x22 := feMul (feSqrN 11 x11) x11
  let x44 := feMul (feSqrN 22 x22) x22
  let x88 := feMul (feSqrN 44 x44) x44
  let x176 := feMul (feSqrN 88 x88) x88
  let x220 := feMul (feSqrN 44 x176) x44
  let x223 := feMul (feSqrN 3 x220) x3
  (x2, x22, x223)

/-- `secp256k1_fe_equal` and `secp256k1_fe_equal_var`, field_impl.h:24-36 (the two tests for zero agree). -/
def feEqual (a b : Fe) : Bool := feNormalizesToZero (feAdd (feNegate a 1) b)

/-- `secp256k1_fe_sqrt`, field_impl.h:38-134. -/
def feSqrt (a : Fe) : Fe × Bool :=
  let x := fePowers a
  let t1 := feMul (feSqrN 23 x.2.2) x.2.1
  let t1 := feMul (feSqrN 6 t1) x.1
  let r := feSqr (feSqr t1)
  (r, feEqual (feSqr r) a)

/-- `secp256k1_fe_inv`, field_impl.h:136-224, and `secp256k1_fe_inv_var`, 226-228. -/
def feInv (a : Fe) : Fe :=
  let x := fePowers a
  let t1 := feMul (feSqrN 23 x.2.2) x.2.1
  let t1 := feMul (feSqrN 5 t1) a
  let t1 := feMul (feSqrN 3 t1) x.1
  let t1 := feSqrN 2 t1
  feMul a t1

end Verif.C
