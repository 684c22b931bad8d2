import Verif.Model.CGroup
import Verif.Model.CScalar
/-!
# The multiplication of points of the C library

`ecmult_const_impl.h`, the tables of odd multiples of `ecmult_impl.h` (both in
`x/authn/crypto/secp256k1/internal/secp256k1/libsecp256k1/src`), and `secp256k1_ext_scalar_mul` of
`internal/secp256k1/ext.h`, as `secp256.go` configures them: without the endomorphism
and without VERIFY. The variables that are not initialized are arguments.
-/

namespace Verif.C

/-- What is found in the variables of the C code that are not initialized: `d` (ecmult_impl.h:53),
`prej` (line 103) and `tmpa` (ecmult_const_impl.h:124). -/
structure Stack where
  d : Gej
  prej : Nat → Gej
  tmpa : Ge

/-- `WINDOW_A`, ecmult_impl.h:32. -/
def windowA : Nat := 5

/-- `ECMULT_TABLE_SIZE(w)`, ecmult_impl.h:45. -/
def tableSize (w : Nat) : Nat := 1 <<< (w - 2)

/-- `WNAF_SIZE(w)`, ecmult_const_impl.h:18-20. -/
def wnafSize (w : Nat) : Nat := (256 + w - 1) / w

/-- The loop of `secp256k1_ecmult_odd_multiples_table`, ecmult_impl.h:76-78, after `prej[i-1]`: the points from
`prej[i]` on with their ratios. -/
def oddLoop (prej : Nat → Gej) (d : Ge) (prev : Gej) : Nat → Nat → List (Gej × Fe)
  | _, 0 => []
  | i, n + 1 =>
    let r := gejAddGeVar (prej i) prev d
    r :: oddLoop prej d r.1 (i + 1) n

/-- `secp256k1_ecmult_odd_multiples_table`, ecmult_impl.h:52-85: the points with their ratios, and the third
coordinate of the last point, the only one that is used afterwards. -/
def oddMultiples (st : Stack) (n : Nat) (a : Gej) : List (Gej × Fe) × Fe :=
  let d := (gejDoubleVar st.d a).1
  let dGe : Ge := ⟨d.x, d.y, false⟩
  let aGe := geSetGejZinv a d.z
  let first : Gej := ⟨aGe.x, aGe.y, a.z, false⟩
  let rest := oddLoop st.prej dGe first 1 (n - 1)
  let last := (rest.getLast?.map Prod.fst).getD first
  ((first, d.z) :: rest, feMul last.z d.z)

/-- `secp256k1_ecmult_odd_multiples_table_globalz_windowa`, ecmult_impl.h:102-110: the table, and `globalz`. -/
def oddTable (st : Stack) (a : Gej) : List Ge × Fe :=
  let r := oddMultiples st (tableSize windowA) a
  ((globalzTable r.1).1, r.2)

/-- `ECMULT_CONST_TABLE_GET_GE`, ecmult_const_impl.h:23-42; `r` is what was in the place of the result. -/
def tableGet (r : Ge) (pre : List Ge) (n : Int) : Ge :=
  let absN := n * ((if n > 0 then 1 else 0) * 2 - 1)
  let idx := absN.tdiv 2
  let r := pre.zipIdx.foldl (fun r p =>
    { r with
      x := feCmov r.x p.1.x (decide ((p.2 : Int) = idx)).toNat
      y := feCmov r.y p.1.y (decide ((p.2 : Int) = idx)).toNat }) r
  let negY := feNegate r.y 1
  ⟨r.x, feCmov r.y negY (decide (n ≠ absN)).toNat, false⟩

/-- The loop of `secp256k1_wnaf_const`, ecmult_const_impl.h:97-114, for the given number of words. -/
def wnafLoop (w : Nat) (globalSign : Int) : Nat → Sc → Int → List Int
  | 0, _, u => [u * globalSign]
  | n + 1, s, uLast =>
    let r := scShrInt s w
    let even : Int := if r.1 &&& 1 = 0 then 1 else 0
    let sign : Int := 2 * (if uLast > 0 then 1 else 0) - 1
    let u : Int := r.1 + sign * even
    ((uLast - sign * even * (1 <<< w : Nat)) * globalSign) :: wnafLoop w globalSign n r.2 u

/-- `secp256k1_wnaf_const`, ecmult_const_impl.h:57-119: the words, and `skew`. -/
def wnafConst (s : Sc) (w : Nat) : List Int × Nat :=
  let flip := scIsHigh s
  let bit := (flip ^^ !scIsEven s).toNat
  let negS := scNegate s
  let notNegOne := !scIsOne negS
  let s := scCaddBit s bit notNegOne
  let c := scCondNegate s flip
  let globalSign := c.2 * ((if notNegOne then 1 else 0) * 2 - 1)
  let skew := 1 <<< bit
  let r := scShrInt c.1 w
  (wnafLoop w globalSign (wnafSize w) r.2 r.1, skew)

/-- `n` doublings in place, ecmult_const_impl.h:183-185. -/
def doubleTimes : Nat → Gej → Gej
  | 0, r => r
  | n + 1, r => doubleTimes n (gejDoubleVar r r).1

/-- Lines 169-197 of ecmult_const_impl.h on the words, which are read from the end: `r` and `tmpa`. -/
def multWords (tmpa : Ge) (pre : List Ge) : List Int → Gej × Ge
  | [] => (gejSetInfinity, tmpa)
  | [n] =>
    let t := tableGet tmpa pre n
    (gejSetGe t, t)
  | n :: m :: rest =>
    let s := multWords tmpa pre (m :: rest)
    let r := doubleTimes (windowA - 1) s.1
    let t := tableGet s.2 pre n
    (gejAddGe r t, t)

/-- `secp256k1_ecmult_const`, ecmult_const_impl.h:122-237. -/
def ecmultConst (st : Stack) (a : Ge) (scalar : Sc) : Gej :=
  let wnaf := wnafConst scalar (windowA - 1)
  let t := oddTable st (gejSetGe a)
  let pre := t.1.map fun g => { g with y := feNormalizeWeak g.y }
  let r := (multWords st.tmpa pre wnaf.1).1
  let r := { r with z := feMul r.z t.2 }
  let tmpj := gejSetGe a
  let correction := geSetGej (gejDoubleVar tmpj tmpj).1
  let stor := geStorageCmov (geToStorage a) (geToStorage correction) (decide (wnaf.2 = 2)).toNat
  let correction := geNeg (geFromStorage stor)
  gejAddGe r correction

/-- `secp256k1_ext_scalar_mul`, ext.h:101-130, on the 64 bytes of the point and the 32 of the scalar: what is
written over the point, if 1 is returned. -/
def extScalarMul (st : Stack) (point scalar : Bytes) : Option Bytes :=
  let feX := (feSetB32 (point.take 32)).1
  let feY := (feSetB32 ((point.drop 32).take 32)).1
  let ge := geSetXy feX feY
  let s := scSetB32 (scalar.take 32)
  if s.2 || scIsZero s.1 then none
  else
    let ge := geSetGej (ecmultConst st ge s.1)
    some (feGetB32 (feNormalize ge.x) ++ feGetB32 (feNormalize ge.y))

end Verif.C
