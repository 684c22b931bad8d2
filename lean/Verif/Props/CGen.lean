import Verif.Proofs.CBlind
/-!
# Multiples of the base point in the C library: C115

The memory that is not initialized may hold anything.
-/

namespace Verif.Props
open Verif Verif.C Verif.Spec Verif.Proofs WeierstrassCurve

/-- The contexts that there are: those that are built, and those that are blinded anew, with any seed or none. -/
inductive GenReach (hmem : HashMem) : GenCtx → Prop
  | build {mem : GenMem} {fuel : Nat} {old ctx : GenCtx} : genBuild mem hmem fuel old = some ctx → GenReach hmem ctx
  | blind {fuel : Nat} {ctx ctx' : GenCtx} {seed : Option Bytes} : GenReach hmem ctx → genBlind hmem fuel ctx seed = some ctx' →
      GenReach hmem ctx'

theorem genReach_ok {hmem : HashMem} (hm : hmem.Ok) {ctx : GenCtx} (h : GenReach hmem ctx) : GenOk ctx := by
  induction h with
  | @build mem fuel old ctx h =>
    have ht := genTable_eq mem
    rw [genBuild] at h
    generalize genTable mem = t at ht h
    exact genBlind_ok hm (Or.inl rfl) ht h
  | blind _ h ih => exact genBlind_ok hm (Or.inr ih) ih.table h

/-! ## C115 -/

/-- **C115** The context is built: the loops of the generator end in their first round. -/
theorem C115_build (mem : GenMem) {hmem : HashMem} (hm : hmem.Ok) (fuel : Nat) (old : GenCtx) :
    ∃ ctx, genBuild mem hmem (fuel + 1) old = some ctx := by
  obtain ⟨ctx, h, -⟩ := genBuild_ok mem hm fuel old
  exact ⟨ctx, h⟩

/-- **C115** In every context that there is, the product with a scalar is the multiple of the base point. -/
theorem C115_multiple {hmem : HashMem} (hm : hmem.Ok) {ctx : GenCtx} (h : GenReach hmem ctx) {gn : Sc} (hg : Scalar gn) :
    GejMag (ecmultGen ctx gn) ∧ GejRep 1 (ecmultGen ctx gn) (scNat gn • basePoint) := ecmultGen_eq (genReach_ok hm h) hg

/-- **C115** It is the point at infinity only for the scalar zero. -/
theorem C115_infinity {hmem : HashMem} (hm : hmem.Ok) {ctx : GenCtx} (h : GenReach hmem ctx) {gn : Sc} (hg : Scalar gn) :
    (ecmultGen ctx gn).infinity = true ↔ scNat gn = 0 := by
  rw [gej_infinity (ecmultGen_eq (genReach_ok hm h) hg).2]
  constructor
  · intro h
    have hn : theCurve.n.toNat = curveN := by decide +kernel
    have hd := addOrderOf_dvd_of_nsmul_eq_zero h
    rw [C80_group.2.2.2, hn] at hd
    exact Nat.eq_zero_of_dvd_of_lt hd hg.lt
  · intro h
    rw [h, zero_nsmul]

/-- **C115** The table holds points of the curve: the entry i of the row j is U j + i 16^j G, where the U j are multiples of one point
that add up to zero. -/
theorem C115_table (mem : GenMem) : ∃ U : Nat → secp.Point, (∑ j ∈ Finset.range 64, U j) = 0 ∧
    ∀ j i, j < 64 → i < 16 → ∃ g, GeMag g ∧ g.infinity = false ∧ GeRep 1 g (U j + (i * 16 ^ j) • basePoint) ∧
      (genTable mem).getD (16 * j + i) default = geToStorage g := by
  obtain ⟨V, h⟩ := genTable_eq mem
  refine ⟨rowStart V, ?_, fun j i hj hi => ?_⟩
  · have e : ∀ n, n ≤ 63 → (∑ j ∈ Finset.range n, rowStart V j) = 2 ^ n • V - V := by
      intro n
      induction n with
      | zero => intro _; rw [Finset.sum_range_zero, pow_zero, one_nsmul, sub_self]
      | succ n ih =>
        intro hn
        rw [Finset.sum_range_succ, ih (by omega), rowStart, if_neg (by omega), pow_succ', mul_nsmul', two_nsmul]
        abel
    rw [Finset.sum_range_succ, e 63 le_rfl, rowStart, if_pos rfl]
    abel
  · obtain ⟨g, hg, e⟩ := h.entry j i hj hi
    exact ⟨g, hg.mag, hg.fin, hg.rep, e⟩

/-- **C115** The inverses of many elements at once. -/
theorem C115_inverses (l : List Fe) (hl : ∀ x ∈ l, Mag 8 x ∧ feVal x ≠ 0) :
    List.Forall₂ (fun x r => Mag 1 r ∧ feVal r = (feVal x)⁻¹) l (feInvAll l) :=
  (invAll_eq l hl).imp fun _ _ h => ⟨h.mag, h.val⟩

/-- There are contexts, and in them the multiple with the scalar 1 is the base point. -/
example : ∃ ctx, GenReach ⟨List.replicate 64 0, List.replicate 64 1, List.replicate 64 2⟩ ctx ∧
    GejRep 1 (ecmultGen ctx (scSetInt 1)) basePoint := by
  have hm : (⟨List.replicate 64 0, List.replicate 64 1, List.replicate 64 2⟩ : HashMem).Ok := ⟨rfl, rfl, rfl⟩
  obtain ⟨ctx, h⟩ := C115_build ⟨fun _ => default, fun _ => default⟩ hm 0 ⟨[], scSetInt 7, default⟩
  have := (C115_multiple hm (.build h) one_sc.1).2
  rw [one_sc.2, one_nsmul] at this
  exact ⟨ctx, .build h, this⟩

end Verif.Props
