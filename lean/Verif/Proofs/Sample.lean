import Verif.Proofs.ORMFacts
import Verif.Spec.Sample
/-! Facts about the sample types: they meet the assumptions of the ORM theorems. -/

namespace Verif.Props
open Verif Spec

/-- Two registered types. -/
def sampleReg : Registry := [postSchema, noteSchema]

theorem sampleReg_ok : RegOk sampleReg := by
  refine ⟨by decide, fun s hs => ?_⟩
  simp only [sampleReg, List.mem_cons, List.not_mem_nil, or_false] at hs
  rcases hs with rfl | rfl
  · refine ⟨by decide, fun t h => ?_, by decide, by decide⟩
    have := congrArg List.head? h; revert this; simp; decide
  · refine ⟨by decide, fun t h => ?_, by decide, by decide⟩
    have := congrArg List.head? h; revert this; simp; decide

theorem post_encodable (i c : Bytes) (n : BitVec 64) : Encodable sampleReg (post i c n) := by
  have hg : sampleReg.get (StateObject.api (post i c n)).name = some postSchema := rfl
  refine ⟨rfl, fun sch h => ?_, fun sch h => ?_⟩
  · rw [hg] at h; cases h; exact ⟨_, rfl⟩
  · rw [hg] at h; cases h
    intro j hj
    simp only [postSchema, List.mem_cons, List.not_mem_nil, or_false] at hj
    rcases hj with rfl | rfl <;> exact ⟨_, rfl⟩

theorem note_encodable (i : BitVec 32) (t : Bytes) : Encodable sampleReg (note i t) := by
  have hg : sampleReg.get (StateObject.api (note i t)).name = some noteSchema := rfl
  refine ⟨rfl, fun sch h => ?_, fun sch h => ?_⟩
  · rw [hg] at h; cases h; exact ⟨_, rfl⟩
  · rw [hg] at h; cases h
    intro j hj
    cases hj

theorem note_physical (i : BitVec 32) (t : Bytes) : Physical sampleReg (note i t) := by
  have hg : sampleReg.get (StateObject.api (note i t)).name = some noteSchema := rfl
  intro sch h pk hpk j hj
  rw [hg] at h; cases h
  cases hj

theorem appendVarint_length_le (n : Nat) : (appendVarint n).length ≤ n + 1 := by
  induction n using Nat.strongRecOn with
  | _ n ih =>
    rw [appendVarint_eq]
    split
    · simp
    · have := ih (n / 128) (by omega)
      simp only [List.length_cons]; omega

theorem appendVarint_length_lt {k n : Nat} (h : n < 128 ^ (k + 1)) : (appendVarint n).length ≤ k + 1 := by
  induction k generalizing n with
  | zero => rw [appendVarint_eq, if_pos (by simpa using h)]; simp
  | succ k ih =>
    rw [appendVarint_eq]
    split
    · simp
    · have : n / 128 < 128 ^ (k + 1) := by
        rw [Nat.div_lt_iff_lt_mul (by omega)]; rw [Nat.pow_succ] at h; exact h
      have := ih this
      simp only [List.length_cons]; omega

theorem post_physical {i c : Bytes} {n : BitVec 64} (hi : i.length < 2 ^ 60) (hc : c.length < 2 ^ 60) :
    Physical sampleReg (post i c n) := by
  have hg : sampleReg.get (StateObject.api (post i c n)).name = some postSchema := rfl
  intro sch h pk hpk j hj
  rw [hg] at h; cases h
  have e : pk = (appendBytes i).drop 1 := by
    have : postSchema.encodePrimaryKey (post i c n) = .ret ((appendBytes i).drop 1) := rfl
    rw [this] at hpk; injection hpk with h; exact h.symm
  have hpkl : pk.length ≤ 2 * i.length + 1 := by
    rw [e, List.length_drop, appendBytes, List.length_append]
    have := appendVarint_length_le i.length; omega
  have hv : ((appendBytes c).drop 1).length ≤ 2 * c.length + 1 := by
    rw [List.length_drop, appendBytes, List.length_append]
    have := appendVarint_length_le c.length; omega
  have hn : (appendVarint n.toNat).length ≤ 10 := by
    have := n.isLt
    exact appendVarint_length_lt (k := 9) (by omega)
  simp only [postSchema, List.mem_cons, List.not_mem_nil, or_false] at hj
  rw [maxLen_eq]
  rcases hj with rfl | rfl
  · have : (25 + postSchema.name.length + b!"creator".length) = 41 := by decide
    show 25 + postSchema.name.length + b!"creator".length + ((appendBytes c).drop 1).length + pk.length < _
    omega
  · have : (25 + postSchema.name.length + b!"likes".length) = 39 := by decide
    show 25 + postSchema.name.length + b!"likes".length + (appendVarint n.toNat).length + pk.length < _
    omega

end Verif.Props
