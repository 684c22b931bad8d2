import Verif.Model.CField
/-!
# The group of points of the C library

`x/authn/crypto/secp256k1/internal/secp256k1/libsecp256k1/src/group_impl.h`, without the endomorphism
and without VERIFY, and the storage of elements in field_10x26_impl.h. Line numbers are those of
`group_impl.h`. The flag of infinity, 0 or 1 in C, is a `Bool`. All functions read their arguments
before the same place is written, so that results may be stored in the place of arguments.
-/

namespace Verif.C

/-- `secp256k1_ge` (group.h). -/
structure Ge where
  x : Fe
  y : Fe
  infinity : Bool
  deriving DecidableEq, Repr, Inhabited

/-- `secp256k1_gej` (group.h). -/
structure Gej where
  x : Fe
  y : Fe
  z : Fe
  infinity : Bool
  deriving DecidableEq, Repr, Inhabited

/-- `CURVE_B`, line 71. -/
def curveB : Nat := 7

/-- `secp256k1_ge_set_gej_zinv`, lines 74-82. -/
def geSetGejZinv (a : Gej) (zi : Fe) : Ge :=
  let zi2 := feSqr zi
  let zi3 := feMul zi2 zi
  ⟨feMul a.x zi2, feMul a.y zi3, a.infinity⟩

/-- `secp256k1_ge_set_xy`, lines 84-88. -/
def geSetXy (x y : Fe) : Ge := ⟨x, y, false⟩

/-- `secp256k1_ge_neg`, lines 94-98. -/
def geNeg (a : Ge) : Ge := { a with y := feNegate (feNormalizeWeak a.y) 1 }

/-- `secp256k1_ge_set_gej`, lines 100-111; the argument is overwritten as well, which no caller uses. -/
def geSetGej (a : Gej) : Ge :=
  let zi := feInv a.z
  let z2 := feSqr zi
  let z3 := feMul zi z2
  ⟨feMul a.x z2, feMul a.y z3, a.infinity⟩

/-- `secp256k1_ge_globalz_set_table_gej`, lines 173-194, on the points with their ratios of z: the
table and `zs`, the product of the ratios so far. It is filled from its end. -/
def globalzTable : List (Gej × Fe) → List Ge × Fe
  | [] => ([], feSetInt 0)
  | [(a, zr)] => ([⟨a.x, a.y, false⟩], zr)
  | (a, zr) :: p :: rest =>
    let r := globalzTable (p :: rest)
    (geSetGejZinv a r.2 :: r.1, feMul r.2 zr)

/-- `secp256k1_gej_set_infinity`, lines 196-201. -/
def gejSetInfinity : Gej := ⟨feSetInt 0, feSetInt 0, feSetInt 0, true⟩

/-- `secp256k1_ge_set_xquad`, lines 216-225. -/
def geSetXquad (x : Fe) : Ge × Bool :=
  let x3 := feMul x (feSqr x)
  let s := feSqrt (feAdd (feSetInt curveB) x3)
  (⟨x, s.1, false⟩, s.2)

/-- `secp256k1_ge_set_xo_var`, lines 227-237. -/
def geSetXoVar (x : Fe) (odd : Bool) : Ge × Bool :=
  let r := geSetXquad x
  if r.2 = false then (r.1, false)
  else
    let y := feNormalizeVar r.1.y
    (⟨r.1.x, if feIsOdd y ≠ odd then feNegate y 1 else y, false⟩, true)

/-- `secp256k1_gej_set_ge`, lines 239-244. -/
def gejSetGe (a : Ge) : Gej := ⟨a.x, a.y, feSetInt 1, a.infinity⟩

/-- `secp256k1_gej_eq_x_var`, lines 246-252. -/
def gejEqXVar (x : Fe) (a : Gej) : Bool :=
  feEqual (feMul (feSqr a.z) x) (feNormalizeWeak a.x)

/-- `secp256k1_gej_neg`, lines 254-261. -/
def gejNeg (a : Gej) : Gej := { a with y := feNegate (feNormalizeWeak a.y) 1 }

/-- `secp256k1_gej_is_valid_var`, lines 267-285. -/
def gejIsValidVar (a : Gej) : Bool :=
  if a.infinity then false
  else
    let y2 := feSqr a.y
    let x3 := feMul (feSqr a.x) a.x
    let z2 := feSqr a.z
    let z6 := feMulInt (feMul (feSqr z2) z2) curveB
    feEqual y2 (feNormalizeWeak (feAdd x3 z6))

/-- `secp256k1_ge_is_valid_var`, lines 287-299. -/
def geIsValidVar (a : Ge) : Bool :=
  if a.infinity then false
  else
    let y2 := feSqr a.y
    let x3 := feMul (feSqr a.x) a.x
    feEqual y2 (feNormalizeWeak (feAdd x3 (feSetInt curveB)))

/-- `secp256k1_gej_double_var`, lines 301-354, with the ratio of z that is stored if `rzr` is not
NULL. Of the point at infinity only the flag is stored: `r` is what was in the place of the result. -/
def gejDoubleVar (r a : Gej) : Gej × Fe :=
  if a.infinity then ({ r with infinity := true }, feSetInt 1)
  else
    let rzr := feMulInt (feNormalizeWeak a.y) 2
    let z := feMulInt (feMul a.z a.y) 2
    let t1 := feMulInt (feSqr a.x) 3
    let t2 := feSqr t1
    let t3 := feMulInt (feSqr a.y) 2
    let t4 := feMulInt (feSqr t3) 2
    let t3 := feMul t3 a.x
    let x := feAdd (feNegate (feMulInt t3 4) 4) t2
    let t2 := feNegate t2 1
    let t3 := feAdd (feMulInt t3 6) t2
    let y := feMul t1 t3
    let t2 := feNegate t4 2
    (⟨x, feAdd y t2, z, false⟩, rzr)

/-- Lines 399-411 (449-460, 508-516): the sum of two points from the scaled coordinates, where `z` is
already multiplied by `h`. -/
def addTail (u1 s1 h i z : Fe) : Gej :=
  let i2 := feSqr i
  let h2 := feSqr h
  let h3 := feMul h h2
  let t := feMul u1 h2
  let x := feAdd (feNegate (feAdd (feMulInt t 2) h3) 3) i2
  let y := feMul (feAdd (feNegate x 5) t) i
  let h3 := feNegate (feMul h3 s1) 1
  ⟨x, feAdd y h3, z, false⟩

/-- `secp256k1_gej_add_var`, lines 361-412. A ratio is not stored if `a` is infinite. -/
def gejAddVar (r a b : Gej) : Gej × Fe :=
  if a.infinity then (b, feSetInt 0)
  else if b.infinity then (a, feSetInt 1)
  else
    let z22 := feSqr b.z
    let z12 := feSqr a.z
    let u1 := feMul a.x z22
    let u2 := feMul b.x z12
    let s1 := feMul (feMul a.y z22) b.z
    let s2 := feMul (feMul b.y z12) a.z
    let h := feAdd (feNegate u1 1) u2
    let i := feAdd (feNegate s1 1) s2
    if feNormalizesToZeroVar h then
      if feNormalizesToZeroVar i then gejDoubleVar { r with infinity := false } a
      else ({ r with infinity := true }, feSetInt 0)
    else
      let hz := feMul h b.z
      (addTail u1 s1 h i (feMul a.z hz), hz)

/-- `secp256k1_gej_add_ge_var`, lines 414-461. -/
def gejAddGeVar (r a : Gej) (b : Ge) : Gej × Fe :=
  if a.infinity then (gejSetGe b, feSetInt 0)
  else if b.infinity then (a, feSetInt 1)
  else
    let z12 := feSqr a.z
    let u1 := feNormalizeWeak a.x
    let u2 := feMul b.x z12
    let s1 := feNormalizeWeak a.y
    let s2 := feMul (feMul b.y z12) a.z
    let h := feAdd (feNegate u1 1) u2
    let i := feAdd (feNegate s1 1) s2
    if feNormalizesToZeroVar h then
      if feNormalizesToZeroVar i then gejDoubleVar { r with infinity := false } a
      else ({ r with infinity := true }, feSetInt 0)
    else (addTail u1 s1 h i (feMul a.z h), h)

/-- `secp256k1_gej_add_zinv_var`, lines 463-517. -/
def gejAddZinvVar (r a : Gej) (b : Ge) (bzinv : Fe) : Gej :=
  if b.infinity then a
  else if a.infinity then
    let bzinv2 := feSqr bzinv
    let bzinv3 := feMul bzinv2 bzinv
    ⟨feMul b.x bzinv2, feMul b.y bzinv3, feSetInt 1, b.infinity⟩
  else
    let az := feMul a.z bzinv
    let z12 := feSqr az
    let u1 := feNormalizeWeak a.x
    let u2 := feMul b.x z12
    let s1 := feNormalizeWeak a.y
    let s2 := feMul (feMul b.y z12) az
    let h := feAdd (feNegate u1 1) u2
    let i := feAdd (feNegate s1 1) s2
    if feNormalizesToZeroVar h then
      if feNormalizesToZeroVar i then (gejDoubleVar { r with infinity := false } a).1
      else { r with infinity := true }
    else addTail u1 s1 h i (feMul a.z h)

/-- `secp256k1_gej_add_ge`, lines 520-640: the same steps whatever the points are. -/
def gejAddGe (a : Gej) (b : Ge) : Gej :=
  let zz := feSqr a.z
  let u1 := feNormalizeWeak a.x
  let u2 := feMul b.x zz
  let s1 := feNormalizeWeak a.y
  let s2 := feMul (feMul b.y zz) a.z
  let t := feAdd u1 u2
  let m := feAdd s1 s2
  let malt := feNegate u2 1
  let rr := feAdd (feSqr t) (feMul u1 malt)
  let degenerate := feNormalizesToZero m && feNormalizesToZero rr
  let rralt := feCmov (feMulInt s1 2) rr (!degenerate).toNat
  let malt := feCmov (feAdd malt u1) m (!degenerate).toNat
  let n := feSqr malt
  let q := feMul n t
  let n := feCmov (feSqr n) m degenerate.toNat
  let t := feSqr rralt
  let z := feMul a.z malt
  let infinity := feNormalizesToZero z && !a.infinity
  let z := feMulInt z 2
  let q := feNegate q 1
  let x := feNormalizeWeak (feAdd t q)
  let t := feAdd (feMul (feAdd (feMulInt x 2) q) rralt) n
  let y := feNormalizeWeak (feNegate t 3)
  ⟨feCmov (feMulInt x 4) b.x a.infinity.toNat, feCmov (feMulInt y 4) b.y a.infinity.toNat,
    feCmov z (feSetInt 1) a.infinity.toNat, infinity⟩

/-- `secp256k1_gej_rescale`, lines 642-651. -/
def gejRescale (r : Gej) (s : Fe) : Gej :=
  let zz := feSqr s
  ⟨feMul r.x zz, feMul (feMul r.y zz) s, feMul r.z s, r.infinity⟩

/-- `secp256k1_fe_storage` (field_10x26.h): eight limbs of 32 bits. -/
structure FeStorage where
  n0 : Nat
  n1 : Nat
  n2 : Nat
  n3 : Nat
  n4 : Nat
  n5 : Nat
  n6 : Nat
  n7 : Nat
  deriving DecidableEq, Repr, Inhabited

/-- `secp256k1_fe_storage_cmov`, field_10x26_impl.h:1095-1107. -/
def feStorageCmov (r a : FeStorage) (flag : Nat) : FeStorage :=
  ⟨cmov32 r.n0 a.n0 flag, cmov32 r.n1 a.n1 flag, cmov32 r.n2 a.n2 flag, cmov32 r.n3 a.n3 flag,
    cmov32 r.n4 a.n4 flag, cmov32 r.n5 a.n5 flag, cmov32 r.n6 a.n6 flag, cmov32 r.n7 a.n7 flag⟩

/-- `secp256k1_fe_to_storage`, field_10x26_impl.h:1109-1121. -/
def feToStorage (a : Fe) : FeStorage where
  n0 := a.n0 ||| u32 (a.n1 <<< 26)
  n1 := a.n1 >>> 6 ||| u32 (a.n2 <<< 20)
  n2 := a.n2 >>> 12 ||| u32 (a.n3 <<< 14)
  n3 := a.n3 >>> 18 ||| u32 (a.n4 <<< 8)
  n4 := a.n4 >>> 24 ||| u32 (a.n5 <<< 2) ||| u32 (a.n6 <<< 28)
  n5 := a.n6 >>> 4 ||| u32 (a.n7 <<< 22)
  n6 := a.n7 >>> 10 ||| u32 (a.n8 <<< 16)
  n7 := a.n8 >>> 16 ||| u32 (a.n9 <<< 10)

/-- `secp256k1_fe_from_storage`, field_10x26_impl.h:1123-1138. -/
def feFromStorage (a : FeStorage) : Fe where
  n0 := low26 a.n0
  n1 := a.n0 >>> 26 ||| low26 (u32 (a.n1 <<< 6))
  n2 := a.n1 >>> 20 ||| low26 (u32 (a.n2 <<< 12))
  n3 := a.n2 >>> 14 ||| low26 (u32 (a.n3 <<< 18))
  n4 := a.n3 >>> 8 ||| low26 (u32 (a.n4 <<< 24))
  n5 := low26 (a.n4 >>> 2)
  n6 := a.n4 >>> 28 ||| low26 (u32 (a.n5 <<< 4))
  n7 := a.n5 >>> 22 ||| low26 (u32 (a.n6 <<< 10))
  n8 := a.n6 >>> 16 ||| low26 (u32 (a.n7 <<< 16))
  n9 := a.n7 >>> 10

/-- `secp256k1_ge_storage` (group.h). -/
structure GeStorage where
  x : FeStorage
  y : FeStorage
  deriving DecidableEq, Repr, Inhabited

/-- `secp256k1_ge_to_storage`, lines 653-662. -/
def geToStorage (a : Ge) : GeStorage := ⟨feToStorage (feNormalize a.x), feToStorage (feNormalize a.y)⟩

/-- `secp256k1_ge_from_storage`, lines 664-668. -/
def geFromStorage (a : GeStorage) : Ge := ⟨feFromStorage a.x, feFromStorage a.y, false⟩

/-- `secp256k1_ge_storage_cmov`, lines 670-673. -/
def geStorageCmov (r a : GeStorage) (flag : Nat) : GeStorage :=
  ⟨feStorageCmov r.x a.x flag, feStorageCmov r.y a.y flag⟩

end Verif.C
