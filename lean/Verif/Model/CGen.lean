import Verif.Model.CEcmult
import Verif.Model.CHash
/-!
# Multiples of the base point in the C library

`ecmult_gen_impl.h`, and what it uses of `field_impl.h` and `group_impl.h` (all in
`x/authn/crypto/secp256k1/internal/secp256k1/libsecp256k1/src`), as `secp256.go` configures them: without a precomputed context
and without VERIFY. Memory is always allocated. Line numbers are those of `ecmult_gen_impl.h`.
-/

namespace Verif.C
open Verif

/-! ## The inverses of many elements -/

/-- `secp256k1_fe_inv_all_var`, field_impl.h:263-288, from the second element on; `prev` is the product of the elements before. What
is stored for these elements, and `u` afterwards. -/
def feInvAllFrom (prev : Fe) : List Fe → List Fe × Fe
  | [] => ([], feInv prev)
  | x :: rest =>
    let r := feInvAllFrom (feMul prev x) rest
    (feMul prev r.2 :: r.1, feMul r.2 x)

/-- `secp256k1_fe_inv_all_var`, field_impl.h:263-288. -/
def feInvAll : List Fe → List Fe
  | [] => []
  | a :: rest =>
    let r := feInvAllFrom a rest
    r.2 :: r.1

/-- The last loop of `secp256k1_ge_set_all_gej_var`, group_impl.h:145-151; `mem` is what is in the memory of the results. -/
def setAllFrom (mem : Nat → Ge) : (i : Nat) → List Gej → List Fe → List Ge
  | _, [], _ => []
  | i, a :: as, azi =>
    if a.infinity then { mem i with infinity := true } :: setAllFrom mem (i + 1) as azi
    else geSetGejZinv a (azi.headD default) :: setAllFrom mem (i + 1) as azi.tail

/-- `secp256k1_ge_set_all_gej_var`, group_impl.h:129-153. -/
def geSetAllGej (mem : Nat → Ge) (a : List Gej) : List Ge :=
  setAllFrom mem 0 a (feInvAll ((a.filter fun p => !p.infinity).map (·.z)))

/-! ## The context -/

/-- What is in the arrays `prec` and `precj` before they are filled (lines 23 and 57). -/
structure GenMem where
  prec : Nat → Ge
  precj : Nat → Gej

/-- `nums_b32`, line 40: "The scalar for this x is unknown". -/
def numsBytes : Bytes :=
  [0x54, 0x68, 0x65, 0x20, 0x73, 0x63, 0x61, 0x6c, 0x61, 0x72, 0x20, 0x66, 0x6f, 0x72, 0x20, 0x74,
   0x68, 0x69, 0x73, 0x20, 0x78, 0x20, 0x69, 0x73, 0x20, 0x75, 0x6e, 0x6b, 0x6e, 0x6f, 0x77, 0x6e]

/-- `nums_gej`, lines 39-53. -/
def numsGej : Gej :=
  let numsX := (feSetB32 numsBytes).1
  let numsGe := (geSetXoVar numsX false).1
  let numsGej := gejSetGe numsGe
  (gejAddGeVar numsGej numsGej constG).1

/-- Lines 64-67: `p` is stored at `k`, and `n` more after it. -/
def genRow (mem : Nat → Gej) (gbase : Gej) : (n k : Nat) → (p : Gej) → List Gej
  | 0, _, p => [p]
  | n + 1, k, p => p :: genRow mem gbase n (k + 1) (gejAddVar (mem (k + 1)) p gbase).1

/-- Lines 73-78. -/
def genNext (nums : Gej) (j : Nat) (numsbase : Gej) : Gej :=
  let numsbase := (gejDoubleVar numsbase numsbase).1
  if j = 62 then
    let numsbase := gejNeg numsbase
    (gejAddVar numsbase numsbase nums).1
  else numsbase

/-- Lines 62-79, `n` rows from the row `j` on. -/
def genRows (mem : Nat → Gej) (nums : Gej) : (n j : Nat) → (numsbase gbase : Gej) → List Gej
  | 0, _, _, _ => []
  | n + 1, j, numsbase, gbase =>
    genRow mem gbase 15 (16 * j) numsbase ++ genRows mem nums n (j + 1) (genNext nums j numsbase) (doubleTimes 4 gbase)

/-- `(*ctx->prec)[j][i]`, lines 36-86, at the index `16 * j + i`. -/
def genTable (mem : GenMem) : List GeStorage :=
  (geSetAllGej mem.prec (genRows mem.precj numsGej 64 0 numsGej (gejSetGe constG))).map geToStorage

/-- `secp256k1_ecmult_gen_context`, ecmult_gen.h:13-29. -/
structure GenCtx where
  prec : List GeStorage
  blind : Sc
  initial : Gej

/-- Lines 137-149: `adds`, after the moves from `i` on. -/
def genMoves (prec : List GeStorage) (j bits : Nat) : (n i : Nat) → GeStorage → GeStorage
  | 0, _, adds => adds
  | n + 1, i, adds => genMoves prec j bits n (i + 1) (geStorageCmov adds (prec.getD (16 * j + i) default) (decide (i = bits)).toNat)

/-- The loop of lines 135-152, `n` rounds from `j` on. -/
def genLoop (prec : List GeStorage) (gnb : Sc) : (n j : Nat) → GeStorage → Gej → Gej
  | 0, _, _, r => r
  | n + 1, j, adds, r =>
    let bits := scGetBits gnb (j * 4) 4
    let adds := genMoves prec j bits 16 0 adds
    genLoop prec gnb n (j + 1) adds (gejAddGe r (geFromStorage adds))

/-- `memset(&adds, 0, sizeof(adds))`, line 130. -/
def zeroStorage : GeStorage := ⟨⟨0, 0, 0, 0, 0, 0, 0, 0⟩, ⟨0, 0, 0, 0, 0, 0, 0, 0⟩⟩

/-- `secp256k1_ecmult_gen`, lines 124-156. -/
def ecmultGen (ctx : GenCtx) (gn : Sc) : Gej := genLoop ctx.prec (scAdd gn ctx.blind).1 64 0 zeroStorage ctx.initial

/-- The loop of lines 186-190; `none` if it does not end in `fuel` rounds. -/
def blindFe (mem : HashMem) : (fuel : Nat) → Rng → Option (Rng × Fe)
  | 0, _ => none
  | fuel + 1, rng =>
    let g := rngGenerate mem rng 32
    let s := feSetB32 g.2
    if !s.2 || feIsZero s.1 then blindFe mem fuel g.1 else some (g.1, s.1)

/-- The loop of lines 194-199; `none` if it does not end in `fuel` rounds. -/
def blindSc (mem : HashMem) : (fuel : Nat) → Rng → Option Sc
  | 0, _ => none
  | fuel + 1, rng =>
    let g := rngGenerate mem rng 32
    let b := scSetB32 g.2
    if b.2 || scIsZero b.1 then blindSc mem fuel g.1 else some b.1

/-- `secp256k1_ecmult_gen_blind`, lines 159-208; `none` if one of its loops does not end in `fuel` rounds. -/
def genBlind (mem : HashMem) (fuel : Nat) (ctx : GenCtx) (seed32 : Option Bytes) : Option GenCtx :=
  let ctx := if seed32.isNone then { ctx with initial := gejNeg (gejSetGe constG), blind := scSetInt 1 } else ctx
  let nonce32 := scGetB32 ctx.blind
  let rng := rngInit mem (nonce32 ++ seed32.getD [])
  match blindFe mem fuel rng with
  | none => none
  | some (rng, s) =>
    let ctx := { ctx with initial := gejRescale ctx.initial s }
    match blindSc mem fuel rng with
    | none => none
    | some b => some { ctx with blind := scNegate b, initial := ecmultGen ctx b }

/-- `secp256k1_ecmult_gen_context_build`, lines 21-92, of a new context (`old` is what is in its memory). -/
def genBuild (mem : GenMem) (hmem : HashMem) (fuel : Nat) (old : GenCtx) : Option GenCtx :=
  genBlind hmem fuel { old with prec := genTable mem } none

end Verif.C
