import Verif.Model.CMult
/-!
# The sum of two multiples in the C library

`secp256k1_ecmult` of ecmult_impl.h, the multiples of the base point that are kept with the context, and what they use of
`group_impl.h` and `scalar_8x32_impl.h` (all in
`x/authn/crypto/secp256k1/internal/secp256k1/libsecp256k1/src`), as `secp256.go` configures them: without the endomorphism
and without VERIFY. Memory is always allocated. Line numbers are those of `ecmult_impl.h`.
-/

namespace Verif.C

/-- `WINDOW_G`, line 40. -/
def windowG : Nat := 16

/-- `SECP256K1_FE_CONST`, field_10x26.h:22-38, of eight words, the highest first. -/
def feConst (d7 d6 d5 d4 d3 d2 d1 d0 : Nat) : Fe where
  n0 := low26 d0
  n1 := d0 >>> 26 ||| u32 ((d1 &&& 0xFFFFF) <<< 6)
  n2 := d1 >>> 20 ||| u32 ((d2 &&& 0x3FFF) <<< 12)
  n3 := d2 >>> 14 ||| u32 ((d3 &&& 0xFF) <<< 18)
  n4 := d3 >>> 8 ||| u32 ((d4 &&& 0x3) <<< 24)
  n5 := low26 (d4 >>> 2)
  n6 := d4 >>> 28 ||| u32 ((d5 &&& 0x3FFFFF) <<< 4)
  n7 := d5 >>> 22 ||| u32 ((d6 &&& 0xFFFF) <<< 10)
  n8 := d6 >>> 16 ||| u32 ((d7 &&& 0x3FF) <<< 16)
  n9 := d7 >>> 10

/-- `secp256k1_ge_const_g`, group_impl.h:64-69. -/
def constG : Ge where
  x := feConst 0x79BE667E 0xF9DCBBAC 0x55A06295 0xCE870B07 0x029BFCDB 0x2DCE28D9 0x59F2815B 0x16F81798
  y := feConst 0x483ADA77 0x26A3C465 0x5DA4FBFC 0x0E1108A8 0xFD17B448 0xA6855419 0x9C47D08F 0xFB10D4B8
  infinity := false

/-- `secp256k1_ge_set_table_gej_var`, group_impl.h:155-171, on the points with their ratios of z, and the third coordinate
of the last of them: the table, and `zi` of the next point before the first. It is filled from its end. -/
def setTable (z : Fe) : List (Gej × Fe) → List Ge × Fe
  | [] => ([], feSetInt 0)
  | [(a, zr)] =>
    let zi := feInv z
    ([geSetGejZinv a zi], feMul zi zr)
  | (a, zr) :: p :: rest =>
    let r := setTable z (p :: rest)
    (geSetGejZinv a r.2 :: r.1, feMul r.2 zr)

/-- `secp256k1_ecmult_odd_multiples_table_storage_var`, lines 112-130. -/
def storageTable (st : Stack) (n : Nat) (a : Gej) : List GeStorage :=
  let r := oddMultiples st n a
  (setTable r.2 r.1).1.map geToStorage

/-- `secp256k1_ecmult_context_build`, lines 164-177. -/
def contextTable (st : Stack) : List GeStorage := storageTable st (tableSize windowG) (gejSetGe constG)

/-- `ECMULT_TABLE_GET_GE`, lines 134-143. Reading beyond the table does not happen. -/
def tableGetGe (pre : List Ge) (n : Int) : Ge :=
  if n > 0 then pre.getD ((n - 1).tdiv 2).toNat default else geNeg (pre.getD ((-n - 1).tdiv 2).toNat default)

/-- `ECMULT_TABLE_GET_GE_STORAGE`, lines 145-155. -/
def tableGetStorage (pre : List GeStorage) (n : Int) : Ge :=
  if n > 0 then geFromStorage (pre.getD ((n - 1).tdiv 2).toNat default)
  else geNeg (geFromStorage (pre.getD ((-n - 1).tdiv 2).toNat default))

/-- `a->d[i]`. -/
def Sc.limb (a : Sc) : Nat → Nat
  | 0 => a.d0
  | 1 => a.d1
  | 2 => a.d2
  | 3 => a.d3
  | 4 => a.d4
  | 5 => a.d5
  | 6 => a.d6
  | 7 => a.d7
  | _ => 0

/-- `secp256k1_scalar_get_bits`, scalar_8x32_impl.h:59-62. -/
def scGetBits (a : Sc) (offset count : Nat) : Nat := (a.limb (offset >>> 5) >>> (offset &&& 0x1F)) &&& ((1 <<< count) - 1)

/-- `secp256k1_scalar_get_bits_var`, scalar_8x32_impl.h:64-73. -/
def scGetBitsVar (a : Sc) (offset count : Nat) : Nat :=
  if (offset + count - 1) >>> 5 = offset >>> 5 then scGetBits a offset count
  else (a.limb (offset >>> 5) >>> (offset &&& 0x1F) ||| u32 (a.limb ((offset >>> 5) + 1) <<< (32 - (offset &&& 0x1F)))) &&&
    ((1 <<< count) - 1)

/-- The loop of `secp256k1_ecmult_wnaf`, lines 254-276: what is stored from `wnaf[bit]` on, and `last_set_bit + 1`. The first
number bounds the steps; `bit` grows with each. -/
def wnafVarLoop (s : Sc) (w len : Nat) (sign : Int) : Nat → Nat → Nat → Nat → List Int × Nat
  | 0, _, _, last => ([], last)
  | fuel + 1, bit, carry, last =>
    if bit < len then
      if scGetBits s bit 1 = carry then
        let r := wnafVarLoop s w len sign fuel (bit + 1) carry last
        (0 :: r.1, r.2)
      else
        let now := if w > len - bit then len - bit else w
        let word := scGetBitsVar s bit now + carry
        let carry := (word >>> (w - 1)) &&& 1
        let r := wnafVarLoop s w len sign fuel (bit + now) carry (bit + 1)
        (sign * ((word : Int) - (carry <<< w : Nat)) :: List.replicate (now - 1) 0 ++ r.1, r.2)
    else ([], last)

/-- `secp256k1_ecmult_wnaf`, lines 235-284: the array, and what is returned. -/
def wnafVar (len : Nat) (a : Sc) (w : Nat) : List Int × Nat :=
  if scGetBits a 255 1 ≠ 0 then wnafVarLoop (scNegate a) w len (-1) len 0 0 0
  else wnafVarLoop a w len 1 len 0 0 0

/-- The loop of `secp256k1_ecmult`, lines 369-399, from `i` on. -/
def ecmultLoop (preA : List Ge) (preG : List GeStorage) (z : Fe) (na ng : List Int × Nat) : Nat → Gej → Gej
  | 0, r => r
  | i + 1, r =>
    let r := (gejDoubleVar r r).1
    let n := na.1.getD i 0
    let r := if i < na.2 ∧ n ≠ 0 then (gejAddGeVar r r (tableGetGe preA n)).1 else r
    let n := ng.1.getD i 0
    let r := if i < ng.2 ∧ n ≠ 0 then gejAddZinvVar r r (tableGetStorage preG n) z else r
    ecmultLoop preA preG z na ng i r

/-- `secp256k1_ecmult`, lines 286-404; `preG` is that of the context. -/
def ecmult (st : Stack) (preG : List GeStorage) (a : Gej) (na ng : Sc) : Gej :=
  let wnafNa := wnafVar 256 na windowA
  let t := oddTable st a
  let wnafNg := wnafVar 256 ng windowG
  let bits := if wnafNg.2 > wnafNa.2 then wnafNg.2 else wnafNa.2
  let r := ecmultLoop t.1 preG t.2 wnafNa wnafNg bits gejSetInfinity
  if r.infinity then r else { r with z := feMul r.z t.2 }

end Verif.C
