import Verif.Model.CScalar
/-!
# Products of scalars of the C library

`x/authn/crypto/secp256k1/internal/secp256k1/libsecp256k1/src/scalar_8x32_impl.h`, lines 263-651 and 669-673,
and `secp256k1_scalar_inverse` of scalar_impl.h. Line numbers are those of `scalar_8x32_impl.h`. The macros
that work on the accumulator are operations, the functions lists of them, in the order of the code.
-/

namespace Verif.C

/-- `c0`, `c1` and `c2`: the 96 bit accumulator. -/
structure Acc96 where
  c0 : Nat
  c1 : Nat
  c2 : Nat
  deriving DecidableEq, Repr

/-- `muladd`, lines 266-278. -/
def muladd (c : Acc96) (a b : Nat) : Acc96 :=
  let t := u64 (a * b)
  let th := u32 (t >>> 32)
  let tl := u32 t
  let c0 := u32 (c.c0 + tl)
  let th := u32 (th + (if c0 < tl then 1 else 0))
  let c1 := u32 (c.c1 + th)
  ⟨c0, c1, u32 (c.c2 + (if c1 < th then 1 else 0))⟩

/-- `muladd_fast`, lines 281-292. -/
def muladdFast (c : Acc96) (a b : Nat) : Acc96 :=
  let t := u64 (a * b)
  let th := u32 (t >>> 32)
  let tl := u32 t
  let c0 := u32 (c.c0 + tl)
  let th := u32 (th + (if c0 < tl then 1 else 0))
  ⟨c0, u32 (c.c1 + th), c.c2⟩

/-- `muladd2`, lines 295-314. -/
def muladd2 (c : Acc96) (a b : Nat) : Acc96 :=
  let t := u64 (a * b)
  let th := u32 (t >>> 32)
  let tl := u32 t
  let th2 := u32 (th + th)
  let c2 := u32 (c.c2 + (if th2 < th then 1 else 0))
  let tl2 := u32 (tl + tl)
  let th2 := u32 (th2 + (if tl2 < tl then 1 else 0))
  let c0 := u32 (c.c0 + tl2)
  let th2 := u32 (th2 + (if c0 < tl2 then 1 else 0))
  let c2 := u32 (c2 + (if c0 < tl2 ∧ th2 = 0 then 1 else 0))
  let c1 := u32 (c.c1 + th2)
  ⟨c0, c1, u32 (c2 + (if c1 < th2 then 1 else 0))⟩

/-- `sumadd`, lines 317-323. -/
def sumadd (c : Acc96) (a : Nat) : Acc96 :=
  let c0 := u32 (c.c0 + a)
  let over := if c0 < a then 1 else 0
  let c1 := u32 (c.c1 + over)
  ⟨c0, c1, u32 (c.c2 + (if c1 < over then 1 else 0))⟩

/-- `sumadd_fast`, lines 326-331. -/
def sumaddFast (c : Acc96) (a : Nat) : Acc96 :=
  let c0 := u32 (c.c0 + a)
  ⟨c0, u32 (c.c1 + (if c0 < a then 1 else 0)), c.c2⟩

/-- What the code does with the accumulator. -/
inductive AccOp where
  | muladd (a b : Nat)
  | muladdFast (a b : Nat)
  | muladd2 (a b : Nat)
  | sumadd (a : Nat)
  | sumaddFast (a : Nat)
  | extract
  | extractFast

/-- A sequence of operations: what is extracted, and the accumulator at the end. `extract`: lines 334-339,
`extract_fast`: lines 342-347. -/
def runOps : List AccOp → Acc96 → List Nat × Acc96
  | [], c => ([], c)
  | .muladd a b :: l, c => runOps l (muladd c a b)
  | .muladdFast a b :: l, c => runOps l (muladdFast c a b)
  | .muladd2 a b :: l, c => runOps l (muladd2 c a b)
  | .sumadd a :: l, c => runOps l (sumadd c a)
  | .sumaddFast a :: l, c => runOps l (sumaddFast c a)
  | .extract :: l, c =>
    let r := runOps l ⟨c.c1, c.c2, 0⟩
    (c.c0 :: r.1, r.2)
  | .extractFast :: l, c =>
    let r := runOps l ⟨c.c1, 0, c.c2⟩
    (c.c0 :: r.1, r.2)

/-- Lines 362-419; `n0` to `n7` are `l[8]` to `l[15]`. -/
def foldOps (c : Sc) (l : Nat → Nat) : List AccOp := [
    .muladdFast (l 8) c.d0, .extractFast,
    .sumaddFast (l 1), .muladd (l 9) c.d0, .muladd (l 8) c.d1, .extract,
    .sumadd (l 2), .muladd (l 10) c.d0, .muladd (l 9) c.d1, .muladd (l 8) c.d2, .extract,
    .sumadd (l 3), .muladd (l 11) c.d0, .muladd (l 10) c.d1, .muladd (l 9) c.d2, .muladd (l 8) c.d3, .extract,
    .sumadd (l 4), .muladd (l 12) c.d0, .muladd (l 11) c.d1, .muladd (l 10) c.d2, .muladd (l 9) c.d3,
      .sumadd (l 8), .extract,
    .sumadd (l 5), .muladd (l 13) c.d0, .muladd (l 12) c.d1, .muladd (l 11) c.d2, .muladd (l 10) c.d3,
      .sumadd (l 9), .extract,
    .sumadd (l 6), .muladd (l 14) c.d0, .muladd (l 13) c.d1, .muladd (l 12) c.d2, .muladd (l 11) c.d3,
      .sumadd (l 10), .extract,
    .sumadd (l 7), .muladd (l 15) c.d0, .muladd (l 14) c.d1, .muladd (l 13) c.d2, .muladd (l 12) c.d3,
      .sumadd (l 11), .extract,
    .muladd (l 15) c.d1, .muladd (l 14) c.d2, .muladd (l 13) c.d3, .sumadd (l 12), .extract,
    .muladd (l 15) c.d2, .muladd (l 14) c.d3, .sumadd (l 13), .extract,
    .muladd (l 15) c.d3, .sumadd (l 14), .extract,
    .sumaddFast (l 15), .extractFast]

/-- Lines 426-464. -/
def foldOps2 (c : Sc) (m : Nat → Nat) : List AccOp := [
    .muladdFast (m 8) c.d0, .extractFast,
    .sumaddFast (m 1), .muladd (m 9) c.d0, .muladd (m 8) c.d1, .extract,
    .sumadd (m 2), .muladd (m 10) c.d0, .muladd (m 9) c.d1, .muladd (m 8) c.d2, .extract,
    .sumadd (m 3), .muladd (m 11) c.d0, .muladd (m 10) c.d1, .muladd (m 9) c.d2, .muladd (m 8) c.d3, .extract,
    .sumadd (m 4), .muladd (m 12) c.d0, .muladd (m 11) c.d1, .muladd (m 10) c.d2, .muladd (m 9) c.d3,
      .sumadd (m 8), .extract,
    .sumadd (m 5), .muladd (m 12) c.d1, .muladd (m 11) c.d2, .muladd (m 10) c.d3, .sumadd (m 9), .extract,
    .sumadd (m 6), .muladd (m 12) c.d2, .muladd (m 11) c.d3, .sumadd (m 10), .extract,
    .sumaddFast (m 7), .muladdFast (m 12) c.d3, .sumaddFast (m 11), .extractFast]

/-- `secp256k1_scalar_reduce_512`, lines 349-489. -/
def scReduce512 (l : List Nat) : Sc :=
  let c := orderComplement
  let r := runOps (foldOps c fun i => l.getD i 0) ⟨l.getD 0 0, 0, 0⟩
  let m := r.1 ++ [r.2.c0]
  let r := runOps (foldOps2 c fun i => m.getD i 0) ⟨m.getD 0 0, 0, 0⟩
  let p := fun i => r.1.getD i 0
  let p8 := u32 (r.2.c0 + m.getD 12 0)
  let r := chain 0xFFFFFFFF ⟨p 0 + c.d0 * p8, p 1 + c.d1 * p8, p 2 + c.d2 * p8, p 3 + c.d3 * p8, p 4 + p8, p 5, p 6, p 7⟩
  scReduce r.1 (u32 (r.2 + (scCheckOverflow r.1).toNat))

/-- Lines 496-574. -/
def mulOps (a b : Sc) : List AccOp := [
    .muladdFast a.d0 b.d0, .extractFast,
    .muladd a.d0 b.d1, .muladd a.d1 b.d0, .extract,
    .muladd a.d0 b.d2, .muladd a.d1 b.d1, .muladd a.d2 b.d0, .extract,
    .muladd a.d0 b.d3, .muladd a.d1 b.d2, .muladd a.d2 b.d1, .muladd a.d3 b.d0, .extract,
    .muladd a.d0 b.d4, .muladd a.d1 b.d3, .muladd a.d2 b.d2, .muladd a.d3 b.d1, .muladd a.d4 b.d0, .extract,
    .muladd a.d0 b.d5, .muladd a.d1 b.d4, .muladd a.d2 b.d3, .muladd a.d3 b.d2, .muladd a.d4 b.d1,
      .muladd a.d5 b.d0, .extract,
    .muladd a.d0 b.d6, .muladd a.d1 b.d5, .muladd a.d2 b.d4, .muladd a.d3 b.d3, .muladd a.d4 b.d2,
      .muladd a.d5 b.d1, .muladd a.d6 b.d0, .extract,
    .muladd a.d0 b.d7, .muladd a.d1 b.d6, .muladd a.d2 b.d5, .muladd a.d3 b.d4, .muladd a.d4 b.d3,
      .muladd a.d5 b.d2, .muladd a.d6 b.d1, .muladd a.d7 b.d0, .extract,
    .muladd a.d1 b.d7, .muladd a.d2 b.d6, .muladd a.d3 b.d5, .muladd a.d4 b.d4, .muladd a.d5 b.d3,
      .muladd a.d6 b.d2, .muladd a.d7 b.d1, .extract,
    .muladd a.d2 b.d7, .muladd a.d3 b.d6, .muladd a.d4 b.d5, .muladd a.d5 b.d4, .muladd a.d6 b.d3,
      .muladd a.d7 b.d2, .extract,
    .muladd a.d3 b.d7, .muladd a.d4 b.d6, .muladd a.d5 b.d5, .muladd a.d6 b.d4, .muladd a.d7 b.d3, .extract,
    .muladd a.d4 b.d7, .muladd a.d5 b.d6, .muladd a.d6 b.d5, .muladd a.d7 b.d4, .extract,
    .muladd a.d5 b.d7, .muladd a.d6 b.d6, .muladd a.d7 b.d5, .extract,
    .muladd a.d6 b.d7, .muladd a.d7 b.d6, .extract,
    .muladdFast a.d7 b.d7, .extractFast]

/-- `secp256k1_scalar_mul_512`, lines 491-577. -/
def scMul512 (a b : Sc) : List Nat :=
  let r := runOps (mulOps a b) ⟨0, 0, 0⟩
  r.1 ++ [r.2.c0]

/-- Lines 584-634. -/
def sqrOps (a : Sc) : List AccOp := [
    .muladdFast a.d0 a.d0, .extractFast,
    .muladd2 a.d0 a.d1, .extract,
    .muladd2 a.d0 a.d2, .muladd a.d1 a.d1, .extract,
    .muladd2 a.d0 a.d3, .muladd2 a.d1 a.d2, .extract,
    .muladd2 a.d0 a.d4, .muladd2 a.d1 a.d3, .muladd a.d2 a.d2, .extract,
    .muladd2 a.d0 a.d5, .muladd2 a.d1 a.d4, .muladd2 a.d2 a.d3, .extract,
    .muladd2 a.d0 a.d6, .muladd2 a.d1 a.d5, .muladd2 a.d2 a.d4, .muladd a.d3 a.d3, .extract,
    .muladd2 a.d0 a.d7, .muladd2 a.d1 a.d6, .muladd2 a.d2 a.d5, .muladd2 a.d3 a.d4, .extract,
    .muladd2 a.d1 a.d7, .muladd2 a.d2 a.d6, .muladd2 a.d3 a.d5, .muladd a.d4 a.d4, .extract,
    .muladd2 a.d2 a.d7, .muladd2 a.d3 a.d6, .muladd2 a.d4 a.d5, .extract,
    .muladd2 a.d3 a.d7, .muladd2 a.d4 a.d6, .muladd a.d5 a.d5, .extract,
    .muladd2 a.d4 a.d7, .muladd2 a.d5 a.d6, .extract,
    .muladd2 a.d5 a.d7, .muladd a.d6 a.d6, .extract,
    .muladd2 a.d6 a.d7, .extract,
    .muladdFast a.d7 a.d7, .extractFast]

/-- `secp256k1_scalar_sqr_512`, lines 579-637. -/
def scSqr512 (a : Sc) : List Nat :=
  let r := runOps (sqrOps a) ⟨0, 0, 0⟩
  r.1 ++ [r.2.c0]

/-- `secp256k1_scalar_mul`, lines 647-651. -/
def scMul (a b : Sc) : Sc := scReduce512 (scMul512 a b)

/-- `secp256k1_scalar_sqr`, lines 669-673. -/
def scSqr (a : Sc) : Sc := scReduce512 (scSqr512 a)

/-- A number of squarings. -/
def scSqrN (n : Nat) (a : Sc) : Sc := Nat.repeat scSqr n a

/-- Squarings of `t` and a product after them, again and again. -/
def scPowers (t : Sc) : List (Nat × Sc) → Sc
  | [] => t
  | (n, x) :: l => scPowers (scMul (scSqrN n t) x) l

/-- `secp256k1_scalar_inverse`, scalar_impl.h:67-255, and `secp256k1_scalar_inverse_var`, 262-264. -/
def scInverse (x : Sc) : Sc :=
  let x2 := scMul (scSqr x) x
  let x3 := scMul (scSqr x2) x
  let x4 := scMul (scSqr x3) x
  let x6 := scMul (scSqrN 2 x4) x2
  let x7 := scMul (scSqr x6) x
  let x8 := scMul (scSqr x7) x
  let x15 := scMul (scSqrN 7 x8) x7
  let x30 := scMul (scSqrN 15 x15) x15
  let x60 := scMul (scSqrN 30 x30) x30
  let x120 := scMul (scSqrN 60 x60) x60
  let x127 := scMul (scSqrN 7 x120) x7
  scPowers x127
    [(2, x), (4, x3), (2, x), (2, x), (2, x), (4, x3), (3, x2), (4, x3), (5, x3), (4, x2), (2, x), (2, x),
     (5, x4), (2, x), (3, x), (4, x), (2, x), (10, x3), (4, x3), (9, x8), (2, x), (3, x), (3, x), (5, x4),
     (2, x), (5, x2), (4, x2), (2, x), (8, x2), (3, x2), (3, x), (6, x), (8, x6)]

end Verif.C
