import Verif.Proofs.CGen
/-!
# The context for multiples of the base point in the C library: lemmas
-/

namespace Verif.Proofs
open Verif Verif.C Verif.Spec Verif.Props Verif.Hash WeierstrassCurve

theorem feIsZero_nat {a : Fe} : feIsZero a = true ↔ feNat a = 0 := by
  obtain ⟨n0, n1, n2, n3, n4, n5, n6, n7, n8, n9⟩ := a
  simp only [feIsZero, beq_iff_eq, Nat.or_eq_zero_iff, feNat]
  omega

theorem feVal_small {a : Fe} (h0 : feNat a ≠ 0) (h : feNat a < secpP) : feVal a ≠ 0 := by
  rw [feVal, Ne, ZMod.natCast_eq_zero_iff]
  exact fun hd => h0 (Nat.eq_zero_of_dvd_of_lt hd h)

theorem rngGenerate_length {mem : HashMem} (hm : mem.Ok) (rng : Rng) : (rngGenerate mem rng 32).2.length = 32 := by
  rw [rngGenerate_eq hm]
  show (rfcBytes hmacSha256 _ _ 32).length = 32
  rw [rfcBytes_32, hmac_length]

theorem blindFe_ok {mem : HashMem} (hm : mem.Ok) : ∀ (fuel : Nat) (rng : Rng) {rng' : Rng} {s : Fe},
    blindFe mem fuel rng = some (rng', s) → Mag 8 s ∧ feVal s ≠ 0 := by
  intro fuel
  induction fuel with
  | zero => intro rng rng' s h; exact absurd h (by rw [blindFe]; exact fun h => nomatch h)
  | succ fuel ih =>
    intro rng rng' s h
    rw [blindFe] at h
    obtain ⟨b1, b2, b3, -⟩ := setB32_eq (rngGenerate_length hm rng)
    generalize hg : rngGenerate mem rng 32 = g at h b1 b2 b3
    split at h
    · exact ih _ h
    · rename_i hc
      rw [Bool.or_eq_true, not_or, Bool.not_eq_true, Bool.not_eq_true, Bool.not_eq_false'] at hc
      injection h with h
      injection h with _ h
      rw [← h]
      have h0 : feNat (feSetB32 g.2).1 ≠ 0 := fun h => absurd (feIsZero_nat.2 h) (by rw [hc.2]; decide)
      exact ⟨mag_mono (by decide) b2, feVal_small h0 (by rw [b1]; exact b3.1 hc.1)⟩

theorem blindSc_ok {mem : HashMem} (hm : mem.Ok) : ∀ (fuel : Nat) (rng : Rng) {b : Sc},
    blindSc mem fuel rng = some b → Scalar b ∧ scNat b ≠ 0 := by
  intro fuel
  induction fuel with
  | zero => intro rng b h; exact absurd h (by rw [blindSc]; exact fun h => nomatch h)
  | succ fuel ih =>
    intro rng b h
    rw [blindSc] at h
    obtain ⟨b1, -, -⟩ := setB32_sc (rngGenerate_length hm rng)
    generalize hg : rngGenerate mem rng 32 = g at h b1
    split at h
    · exact ih _ h
    · rename_i hc
      rw [Bool.or_eq_true, not_or, Bool.not_eq_true, Bool.not_eq_true] at hc
      injection h with h
      rw [← h]
      exact ⟨b1, fun h => absurd (isZero_eq.2 h) (by rw [hc.2]; decide)⟩

theorem one_sc : Scalar (scSetInt 1) ∧ scNat (scSetInt 1) = 1 := by
  refine ⟨⟨⟨by decide, by decide, by decide, by decide, by decide, by decide, by decide, by decide⟩, by decide⟩, by decide⟩

/-- The context as it is after the reset. -/
theorem reset_ok {ctx : GenCtx} (h : ∃ U, GenTableOk U ctx.prec) :
    GenOk { ctx with initial := gejNeg (gejSetGe constG), blind := scSetInt 1 } := by
  obtain ⟨g1, g2⟩ := gejNeg_eq constG_fin.mag constG_fin.rep
  refine ⟨h, one_sc.1, g1, ?_⟩
  show GejRep 1 (gejNeg (gejSetGe constG)) (-(scNat (scSetInt 1) • basePoint))
  rw [one_sc.2, one_nsmul]
  exact g2

theorem negate_nsmul {b : Sc} (hb : Scalar b) (q : secp.Point) : -(scNat (scNegate b) • q) = scNat b • q := by
  rw [(negate_sc hb).2]
  split
  case isTrue h => rw [h, zero_nsmul, neg_zero]
  case isFalse h =>
    have hlt := hb.lt
    have e : (curveN - scNat b) • q + scNat b • q = 0 := by
      rw [← add_nsmul, Nat.sub_add_cancel hlt.le]
      exact (C80_all_points q).1
    exact neg_eq_of_add_eq_zero_right e

/-- Blinding keeps the context good; without a seed, the table suffices. -/
theorem genBlind_ok {mem : HashMem} (hm : mem.Ok) {fuel : Nat} {ctx ctx' : GenCtx} {seed : Option Bytes}
    (hs : seed = none ∨ GenOk ctx) (ht : ∃ U, GenTableOk U ctx.prec) (h : genBlind mem fuel ctx seed = some ctx') : GenOk ctx' := by
  rw [genBlind] at h
  have hk : GenOk (if seed.isNone then { ctx with initial := gejNeg (gejSetGe constG), blind := scSetInt 1 } else ctx) := by
    split
    · exact reset_ok ht
    · rcases hs with hs | hs
      · rename_i hc; rw [hs] at hc; exact absurd rfl hc
      · exact hs
  dsimp only at h
  generalize (if seed.isNone then { ctx with initial := gejNeg (gejSetGe constG), blind := scSetInt 1 } else ctx : GenCtx) = c at h hk
  generalize rngInit mem (scGetB32 c.blind ++ seed.getD []) = rng at h
  split at h
  · exact nomatch h
  · rename_i rng' s hf
    obtain ⟨f1, f2⟩ := blindFe_ok hm _ _ hf
    obtain ⟨r1, r2⟩ := rescale_eq hk.mag f1 f2 hk.initial
    have hk' : GenOk { c with initial := gejRescale c.initial s } := ⟨hk.table, hk.blind, r1, r2⟩
    split at h
    · exact nomatch h
    · rename_i b hb
      obtain ⟨b1, b2⟩ := blindSc_ok hm _ _ hb
      obtain ⟨m1, m2⟩ := ecmultGen_eq hk' b1
      injection h with h
      rw [← h]
      refine ⟨hk.table, (negate_sc b1).1, m1, ?_⟩
      show GejRep 1 _ (-(scNat (scNegate b) • basePoint))
      rw [negate_nsmul b1]
      exact m2

/-! ## The loops end -/

theorem blindFe_first {mem : HashMem} (hm : mem.Ok) {fuel : Nat} {rng : Rng} {b : Bytes} (e : (rngGenerate mem rng 32).2 = b)
    (h0 : setBytes b ≠ 0) (hp : setBytes b < secpP) : ∃ s, blindFe mem (fuel + 1) rng = some ((rngGenerate mem rng 32).1, s) := by
  have hl := rngGenerate_length hm rng
  rw [e] at hl
  obtain ⟨b1, b2, b3, -⟩ := setB32_eq hl
  rw [blindFe]
  rw [e, b3.2 hp]
  have hz : feIsZero (feSetB32 b).1 = false := by
    rw [← Bool.not_eq_true, feIsZero_nat, b1]
    exact h0
  rw [hz]
  exact ⟨_, rfl⟩

theorem blindSc_first {mem : HashMem} (hm : mem.Ok) {fuel : Nat} {rng : Rng} {b : Bytes} (e : (rngGenerate mem rng 32).2 = b)
    (h0 : setBytes b ≠ 0) (hp : setBytes b < curveN) : ∃ s, blindSc mem (fuel + 1) rng = some s := by
  have hl := rngGenerate_length hm rng
  rw [e] at hl
  obtain ⟨b1, b2, b3⟩ := setB32_sc hl
  rw [blindSc]
  rw [e]
  have ho : (scSetB32 b).2 = false := by
    rw [← Bool.not_eq_true, b3]
    omega
  have hz : scIsZero (scSetB32 b).1 = false := by
    rw [← Bool.not_eq_true, isZero_eq, b2, Nat.mod_eq_of_lt hp]
    exact h0
  rw [ho, hz]
  exact ⟨_, rfl⟩

/-- The bytes of the blinding value 1. -/
def oneBytes : Bytes := List.replicate 31 0 ++ [1]

theorem one_bytes : scGetB32 (scSetInt 1) = oneBytes := by decide +kernel

def oneRound : Bytes × Bytes :=
  ([139, 106, 80, 222, 227, 10, 187, 212, 231, 84, 169, 200, 77, 36, 14, 61, 40, 217, 81, 82, 133, 171, 39, 96, 109, 15,
    87, 40, 112, 249, 82, 180],
  [169, 182, 17, 4, 153, 126, 90, 248, 111, 223, 131, 130, 57, 211, 81, 219, 179, 76, 2, 112, 44, 30, 127, 90, 242, 155,
    107, 131, 35, 91, 52, 125])

def oneCandidate : Bytes :=
  [131, 192, 240, 167, 133, 169, 214, 24, 109, 2, 130, 111, 16, 164, 23, 209, 107, 97, 71, 66, 112, 237, 163, 98, 141, 27,
  8, 247, 76, 7, 33, 139]

set_option maxRecDepth 100000 in
theorem one_round : rfcRound hmacSha256 oneBytes 0 = oneRound := by decide +kernel

set_option maxRecDepth 100000 in
theorem one_candidate : hmacSha256 (rfcAgain hmacSha256 oneRound).1 (rfcAgain hmacSha256 oneRound).2 = oneCandidate := by decide +kernel

theorem oneRound_fits : setBytes oneRound.2 ≠ 0 ∧ setBytes oneRound.2 < secpP := by decide +kernel

theorem oneCandidate_fits : setBytes oneCandidate ≠ 0 ∧ setBytes oneCandidate < curveN := by decide +kernel

theorem reset_blind (ctx : GenCtx) :
    ∃ x : GenCtx, (if (none : Option Bytes).isNone then { ctx with initial := gejNeg (gejSetGe constG), blind := scSetInt 1 } else ctx) = x ∧
      x.blind = scSetInt 1 := by
  generalize gejNeg (gejSetGe constG) = g
  generalize scSetInt 1 = o
  exact ⟨_, if_pos rfl, rfl⟩

theorem genBlind_of {mem : HashMem} {fuel : Nat} {ctx x : GenCtx} {seed : Option Bytes} {rng' : Rng} {s : Fe} {b : Sc}
    (hx : (if seed.isNone then { ctx with initial := gejNeg (gejSetGe constG), blind := scSetInt 1 } else ctx) = x)
    (hf : blindFe mem fuel (rngInit mem (scGetB32 x.blind ++ seed.getD [])) = some (rng', s))
    (hb : blindSc mem fuel rng' = some b) : ∃ ctx', genBlind mem fuel ctx seed = some ctx' := by
  generalize hR : genBlind mem fuel ctx seed = R
  rw [genBlind, hx] at hR
  rw [hf] at hR
  simp only [hb] at hR
  exact ⟨_, hR.symm⟩

theorem genBlind_first {mem : HashMem} (hm : mem.Ok) (fuel : Nat) (ctx : GenCtx) {ob c : Bytes} {kv : Bytes × Bytes}
    (hb : scGetB32 (scSetInt 1) = ob) (h0 : rfcRound hmacSha256 ob 0 = kv)
    (h1 : hmacSha256 (rfcAgain hmacSha256 kv).1 (rfcAgain hmacSha256 kv).2 = c)
    (f0 : setBytes kv.2 ≠ 0 ∧ setBytes kv.2 < secpP) (f1 : setBytes c ≠ 0 ∧ setBytes c < curveN) :
    ∃ ctx', genBlind mem (fuel + 1) ctx none = some ctx' := by
  have e0 : (rngGenerate mem (rngInit mem ob) 32).2 = kv.2 := by
    have h := congrArg Prod.snd (rngRounds_eq hm ob 0)
    rw [rngRounds, rfcCandidate, h0] at h
    exact h
  have e1 : (rngGenerate mem (rngGenerate mem (rngInit mem ob) 32).1 32).2 = c := by
    have h := congrArg Prod.snd (rngRounds_eq hm ob 1)
    rw [rngRounds, rngRounds, rfcCandidate, rfcRound, h0] at h
    rw [h]
    exact h1
  obtain ⟨s, hs⟩ := blindFe_first hm (fuel := fuel) e0 f0.1 f0.2
  obtain ⟨b, hb'⟩ := blindSc_first hm (fuel := fuel) e1 f1.1 f1.2
  obtain ⟨x, hx, hxb⟩ := reset_blind ctx
  refine genBlind_of hx (rng' := (rngGenerate mem (rngInit mem ob) 32).1) (s := s) (b := b) ?_ hb'
  rw [hxb, hb, Option.getD_none, List.append_nil]
  exact hs

theorem genBlind_none {mem : HashMem} (hm : mem.Ok) (fuel : Nat) (ctx : GenCtx) : ∃ ctx', genBlind mem (fuel + 1) ctx none = some ctx' :=
  genBlind_first hm fuel ctx one_bytes one_round one_candidate oneRound_fits oneCandidate_fits

theorem genBuild_ok (mem : GenMem) {hmem : HashMem} (hm : hmem.Ok) (fuel : Nat) (old : GenCtx) :
    ∃ ctx, genBuild mem hmem (fuel + 1) old = some ctx ∧ GenOk ctx := by
  have ht := genTable_eq mem
  rw [genBuild]
  generalize genTable mem = t at ht
  obtain ⟨ctx, h⟩ := genBlind_none hm fuel { old with prec := t }
  exact ⟨ctx, h, genBlind_ok hm (Or.inl rfl) ht h⟩

end Verif.Proofs
