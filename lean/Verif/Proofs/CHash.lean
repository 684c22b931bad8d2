import Verif.Model.CHash
import Verif.Spec.Rfc6979
import Mathlib.Tactic.Linarith
import Mathlib.Tactic.IntervalCases
/-!
# The hash functions of the C library: lemmas
-/

namespace Verif.Proofs
open Verif Verif.C Verif.Hash Verif.Spec

/-! ## The functions on words -/

theorem ch_eq (x y z : UInt32) : chC x y z = (x &&& y) ^^^ ((~~~ x) &&& z) := by
  rw [chC]
  apply UInt32.toBitVec_inj.1
  simp only [UInt32.toBitVec_xor, UInt32.toBitVec_and, UInt32.toBitVec_not]
  ext i hi
  simp only [BitVec.getElem_xor, BitVec.getElem_and, BitVec.getElem_not]
  cases x.toBitVec[i] <;> cases y.toBitVec[i] <;> cases z.toBitVec[i] <;> rfl

theorem maj_eq (x y z : UInt32) : majC x y z = (x &&& y) ^^^ (x &&& z) ^^^ (y &&& z) := by
  rw [majC]
  apply UInt32.toBitVec_inj.1
  simp only [UInt32.toBitVec_xor, UInt32.toBitVec_and, UInt32.toBitVec_or]
  ext i hi
  simp only [BitVec.getElem_xor, BitVec.getElem_and, BitVec.getElem_or]
  cases x.toBitVec[i] <;> cases y.toBitVec[i] <;> cases z.toBitVec[i] <;> rfl

/-- One round. -/
theorem round_eq (a b c d e f g h k w : UInt32) : sha256Round ⟨a, b, c, d, e, f, g, h⟩ (k, w) =
    ⟨(roundC a b c d e f g h k w).2, a, b, c, (roundC a b c d e f g h k w).1, e, f, g⟩ := by
  rw [sha256Round, roundC, ch_eq, maj_eq]
  rfl

theorem fold_round {a b c d e f g h k w d' h' : UInt32} (hr : roundC a b c d e f g h k w = (d', h')) (l : List (UInt32 × UInt32)) :
    ((k, w) :: l).foldl sha256Round ⟨a, b, c, d, e, f, g, h⟩ = l.foldl sha256Round ⟨h', a, b, c, d', e, f, g⟩ := by
  rw [List.foldl_cons, round_eq, hr]

/-- The words, the latest first. -/
def _root_.Verif.C.Words16.latest (w : Words16) : List UInt32 :=
  [w.w15, w.w14, w.w13, w.w12, w.w11, w.w10, w.w9, w.w8, w.w7, w.w6, w.w5, w.w4, w.w3, w.w2, w.w1, w.w0]

theorem schedule_step (n : Nat) (w0 w1 w2 w3 w4 w5 w6 w7 w8 w9 w10 w11 w12 w13 w14 w15 : UInt32) :
    schedule (n + 1) [w15, w14, w13, w12, w11, w10, w9, w8, w7, w6, w5, w4, w3, w2, w1, w0] =
      (w0 + (sigma1 w14 + w9 + sigma0 w1)) ::
        schedule n [w0 + (sigma1 w14 + w9 + sigma0 w1), w15, w14, w13, w12, w11, w10, w9, w8, w7, w6, w5, w4, w3, w2, w1] := by
  have e : w0 + (rotr w1 7 ^^^ rotr w1 18 ^^^ (w1 >>> 3)) + w9 + (rotr w14 17 ^^^ rotr w14 19 ^^^ (w14 >>> 10)) =
      w0 + (sigma1 w14 + w9 + sigma0 w1) := by
    have e0 : rotr w1 7 ^^^ rotr w1 18 ^^^ (w1 >>> 3) = sigma0 w1 := rfl
    have e1 : rotr w14 17 ^^^ rotr w14 19 ^^^ (w14 >>> 10) = sigma1 w14 := rfl
    rw [e0, e1]
    ac_rfl
  rw [schedule]
  simp only [List.getD_cons_succ, List.getD_cons_zero, List.take_succ_cons, List.take_zero]
  rw [e]

theorem sixteen {k : List UInt32} (h : k.length = 16) : k = [k.getD 0 0, k.getD 1 0, k.getD 2 0, k.getD 3 0, k.getD 4 0, k.getD 5 0,
    k.getD 6 0, k.getD 7 0, k.getD 8 0, k.getD 9 0, k.getD 10 0, k.getD 11 0, k.getD 12 0, k.getD 13 0, k.getD 14 0, k.getD 15 0] := by
  apply List.ext_getElem
  · rw [h]; rfl
  · intro i h1 h2
    rw [h] at h1
    have : ∀ j, (hj : j < 16) → k[j] = k.getD j 0 := fun j hj => by
      rw [List.getD_eq_getElem?_getD, List.getElem?_eq_getElem]; rfl
    rw [this i h1]
    rcases i with _ | _ | _ | _ | _ | _ | _ | _ | _ | _ | _ | _ | _ | _ | _ | _ | i
    all_goals first | rfl | omega

/-- Sixteen rounds with words of the schedule. -/
theorem rounds16_eq {k : List UInt32} (hk : k.length = 16) (s : State8) (w : Words16) (n : Nat) (l : List UInt32) :
    ((k ++ l).zip (schedule (n + 16) w.latest)).foldl sha256Round s =
      (l.zip (schedule n (rounds16 k s w).2.latest)).foldl sha256Round (rounds16 k s w).1 := by
  obtain ⟨a, b, c, d, e, f, g, h⟩ := s
  obtain ⟨w0, w1, w2, w3, w4, w5, w6, w7, w8, w9, w10, w11, w12, w13, w14, w15⟩ := w
  generalize hR : rounds16 k _ _ = R
  unfold rounds16 at hR
  conv_lhs => rw [sixteen hk]
  generalize k.getD 0 0 = k0 at hR ⊢
  generalize k.getD 1 0 = k1 at hR ⊢
  generalize k.getD 2 0 = k2 at hR ⊢
  generalize k.getD 3 0 = k3 at hR ⊢
  generalize k.getD 4 0 = k4 at hR ⊢
  generalize k.getD 5 0 = k5 at hR ⊢
  generalize k.getD 6 0 = k6 at hR ⊢
  generalize k.getD 7 0 = k7 at hR ⊢
  generalize k.getD 8 0 = k8 at hR ⊢
  generalize k.getD 9 0 = k9 at hR ⊢
  generalize k.getD 10 0 = k10 at hR ⊢
  generalize k.getD 11 0 = k11 at hR ⊢
  generalize k.getD 12 0 = k12 at hR ⊢
  generalize k.getD 13 0 = k13 at hR ⊢
  generalize k.getD 14 0 = k14 at hR ⊢
  generalize k.getD 15 0 = k15 at hR ⊢
  rw [List.cons_append]
  iterate 15 rw [List.cons_append]
  rw [List.nil_append, Words16.latest]
  dsimp -zeta only at hR
  extract_lets W0 r0 d0 h0 W1 r1 c1 g1 W2 r2 b2 f2 W3 r3 a3 e3 W4 r4 h4 d4 W5 r5 g5 c5 W6 r6 f6 b6 W7 r7 e7 a7 W8 r8 d8 h8 W9 r9 c9 g9 W10 r10 b10 f10 W11 r11 a11 e11 W12 r12 h12 d12 W13 r13 g13 c13 W14 r14 f14 b14 W15 r15 e15 a15 at hR
  have ew0 : w0 + (sigma1 w14 + w9 + sigma0 w1) = W0 := rfl
  have er0 : roundC a b c d e f g h k0 W0 = (d0, h0) := rfl
  have ew1 : w1 + (sigma1 w15 + w10 + sigma0 w2) = W1 := rfl
  have er1 : roundC h0 a b c d0 e f g k1 W1 = (c1, g1) := rfl
  have ew2 : w2 + (sigma1 W0 + w11 + sigma0 w3) = W2 := rfl
  have er2 : roundC g1 h0 a b c1 d0 e f k2 W2 = (b2, f2) := rfl
  have ew3 : w3 + (sigma1 W1 + w12 + sigma0 w4) = W3 := rfl
  have er3 : roundC f2 g1 h0 a b2 c1 d0 e k3 W3 = (a3, e3) := rfl
  have ew4 : w4 + (sigma1 W2 + w13 + sigma0 w5) = W4 := rfl
  have er4 : roundC e3 f2 g1 h0 a3 b2 c1 d0 k4 W4 = (h4, d4) := rfl
  have ew5 : w5 + (sigma1 W3 + w14 + sigma0 w6) = W5 := rfl
  have er5 : roundC d4 e3 f2 g1 h4 a3 b2 c1 k5 W5 = (g5, c5) := rfl
  have ew6 : w6 + (sigma1 W4 + w15 + sigma0 w7) = W6 := rfl
  have er6 : roundC c5 d4 e3 f2 g5 h4 a3 b2 k6 W6 = (f6, b6) := rfl
  have ew7 : w7 + (sigma1 W5 + W0 + sigma0 w8) = W7 := rfl
  have er7 : roundC b6 c5 d4 e3 f6 g5 h4 a3 k7 W7 = (e7, a7) := rfl
  have ew8 : w8 + (sigma1 W6 + W1 + sigma0 w9) = W8 := rfl
  have er8 : roundC a7 b6 c5 d4 e7 f6 g5 h4 k8 W8 = (d8, h8) := rfl
  have ew9 : w9 + (sigma1 W7 + W2 + sigma0 w10) = W9 := rfl
  have er9 : roundC h8 a7 b6 c5 d8 e7 f6 g5 k9 W9 = (c9, g9) := rfl
  have ew10 : w10 + (sigma1 W8 + W3 + sigma0 w11) = W10 := rfl
  have er10 : roundC g9 h8 a7 b6 c9 d8 e7 f6 k10 W10 = (b10, f10) := rfl
  have ew11 : w11 + (sigma1 W9 + W4 + sigma0 w12) = W11 := rfl
  have er11 : roundC f10 g9 h8 a7 b10 c9 d8 e7 k11 W11 = (a11, e11) := rfl
  have ew12 : w12 + (sigma1 W10 + W5 + sigma0 w13) = W12 := rfl
  have er12 : roundC e11 f10 g9 h8 a11 b10 c9 d8 k12 W12 = (h12, d12) := rfl
  have ew13 : w13 + (sigma1 W11 + W6 + sigma0 w14) = W13 := rfl
  have er13 : roundC d12 e11 f10 g9 h12 a11 b10 c9 k13 W13 = (g13, c13) := rfl
  have ew14 : w14 + (sigma1 W12 + W7 + sigma0 w15) = W14 := rfl
  have er14 : roundC c13 d12 e11 f10 g13 h12 a11 b10 k14 W14 = (f14, b14) := rfl
  have ew15 : w15 + (sigma1 W13 + W8 + sigma0 W0) = W15 := rfl
  have er15 : roundC b14 c13 d12 e11 f14 g13 h12 a11 k15 W15 = (e15, a15) := rfl
  clear_value W0 r0 d0 h0 W1 r1 c1 g1 W2 r2 b2 f2 W3 r3 a3 e3 W4 r4 h4 d4 W5 r5 g5 c5 W6 r6 f6 b6 W7 r7 e7 a7 W8 r8 d8 h8 W9 r9 c9 g9 W10 r10 b10 f10 W11 r11 a11 e11 W12 r12 h12 d12 W13 r13 g13 c13 W14 r14 f14 b14 W15 r15 e15 a15
  subst hR
  rw [schedule_step, ew0, List.zip_cons_cons, fold_round er0]
  rw [schedule_step, ew1, List.zip_cons_cons, fold_round er1]
  rw [schedule_step, ew2, List.zip_cons_cons, fold_round er2]
  rw [schedule_step, ew3, List.zip_cons_cons, fold_round er3]
  rw [schedule_step, ew4, List.zip_cons_cons, fold_round er4]
  rw [schedule_step, ew5, List.zip_cons_cons, fold_round er5]
  rw [schedule_step, ew6, List.zip_cons_cons, fold_round er6]
  rw [schedule_step, ew7, List.zip_cons_cons, fold_round er7]
  rw [schedule_step, ew8, List.zip_cons_cons, fold_round er8]
  rw [schedule_step, ew9, List.zip_cons_cons, fold_round er9]
  rw [schedule_step, ew10, List.zip_cons_cons, fold_round er10]
  rw [schedule_step, ew11, List.zip_cons_cons, fold_round er11]
  rw [schedule_step, ew12, List.zip_cons_cons, fold_round er12]
  rw [schedule_step, ew13, List.zip_cons_cons, fold_round er13]
  rw [schedule_step, ew14, List.zip_cons_cons, fold_round er14]
  rw [schedule_step, ew15, List.zip_cons_cons, fold_round er15]
  rfl

/-- The first sixteen rounds. -/
theorem rounds0_eq (s : State8) (chunk : List UInt32) (hc : chunk.length = 16) (n : Nat) (l : List UInt32) :
    (([0x428a2f98, 0x71374491, 0xb5c0fbcf, 0xe9b5dba5, 0x3956c25b, 0x59f111f1, 0x923f82a4, 0xab1c5ed5, 0xd807aa98, 0x12835b01, 0x243185be, 0x550c7dc3, 0x72be5d74, 0x80deb1fe, 0x9bdc06a7, 0xc19bf174] ++ l).zip
      (chunk.map be32Swap ++ schedule n (chunk.map be32Swap).reverse)).foldl sha256Round s =
      (l.zip (schedule n (rounds0 s chunk).2.latest)).foldl sha256Round (rounds0 s chunk).1 := by
  obtain ⟨a, b, c, d, e, f, g, h⟩ := s
  generalize hR : rounds0 _ chunk = R
  unfold rounds0 at hR
  dsimp -zeta only at hR
  extract_lets W0 r0 d0 h0 W1 r1 c1 g1 W2 r2 b2 f2 W3 r3 a3 e3 W4 r4 h4 d4 W5 r5 g5 c5 W6 r6 f6 b6 W7 r7 e7 a7 W8 r8 d8 h8 W9 r9 c9 g9 W10 r10 b10 f10 W11 r11 a11 e11 W12 r12 h12 d12 W13 r13 g13 c13 W14 r14 f14 b14 W15 r15 e15 a15 at hR
  have ew0 : W0 = be32Swap (chunk.getD 0 0) := rfl
  have er0 : roundC a b c d e f g h 0x428a2f98 W0 = (d0, h0) := rfl
  have ew1 : W1 = be32Swap (chunk.getD 1 0) := rfl
  have er1 : roundC h0 a b c d0 e f g 0x71374491 W1 = (c1, g1) := rfl
  have ew2 : W2 = be32Swap (chunk.getD 2 0) := rfl
  have er2 : roundC g1 h0 a b c1 d0 e f 0xb5c0fbcf W2 = (b2, f2) := rfl
  have ew3 : W3 = be32Swap (chunk.getD 3 0) := rfl
  have er3 : roundC f2 g1 h0 a b2 c1 d0 e 0xe9b5dba5 W3 = (a3, e3) := rfl
  have ew4 : W4 = be32Swap (chunk.getD 4 0) := rfl
  have er4 : roundC e3 f2 g1 h0 a3 b2 c1 d0 0x3956c25b W4 = (h4, d4) := rfl
  have ew5 : W5 = be32Swap (chunk.getD 5 0) := rfl
  have er5 : roundC d4 e3 f2 g1 h4 a3 b2 c1 0x59f111f1 W5 = (g5, c5) := rfl
  have ew6 : W6 = be32Swap (chunk.getD 6 0) := rfl
  have er6 : roundC c5 d4 e3 f2 g5 h4 a3 b2 0x923f82a4 W6 = (f6, b6) := rfl
  have ew7 : W7 = be32Swap (chunk.getD 7 0) := rfl
  have er7 : roundC b6 c5 d4 e3 f6 g5 h4 a3 0xab1c5ed5 W7 = (e7, a7) := rfl
  have ew8 : W8 = be32Swap (chunk.getD 8 0) := rfl
  have er8 : roundC a7 b6 c5 d4 e7 f6 g5 h4 0xd807aa98 W8 = (d8, h8) := rfl
  have ew9 : W9 = be32Swap (chunk.getD 9 0) := rfl
  have er9 : roundC h8 a7 b6 c5 d8 e7 f6 g5 0x12835b01 W9 = (c9, g9) := rfl
  have ew10 : W10 = be32Swap (chunk.getD 10 0) := rfl
  have er10 : roundC g9 h8 a7 b6 c9 d8 e7 f6 0x243185be W10 = (b10, f10) := rfl
  have ew11 : W11 = be32Swap (chunk.getD 11 0) := rfl
  have er11 : roundC f10 g9 h8 a7 b10 c9 d8 e7 0x550c7dc3 W11 = (a11, e11) := rfl
  have ew12 : W12 = be32Swap (chunk.getD 12 0) := rfl
  have er12 : roundC e11 f10 g9 h8 a11 b10 c9 d8 0x72be5d74 W12 = (h12, d12) := rfl
  have ew13 : W13 = be32Swap (chunk.getD 13 0) := rfl
  have er13 : roundC d12 e11 f10 g9 h12 a11 b10 c9 0x80deb1fe W13 = (g13, c13) := rfl
  have ew14 : W14 = be32Swap (chunk.getD 14 0) := rfl
  have er14 : roundC c13 d12 e11 f10 g13 h12 a11 b10 0x9bdc06a7 W14 = (f14, b14) := rfl
  have ew15 : W15 = be32Swap (chunk.getD 15 0) := rfl
  have er15 : roundC b14 c13 d12 e11 f14 g13 h12 a11 0xc19bf174 W15 = (e15, a15) := rfl
  have hm : chunk.map be32Swap = [W0, W1, W2, W3, W4, W5, W6, W7, W8, W9, W10, W11, W12, W13, W14, W15] := by
    rw [sixteen hc]
    rfl
  rw [hm]
  clear hm
  clear_value W0 r0 d0 h0 W1 r1 c1 g1 W2 r2 b2 f2 W3 r3 a3 e3 W4 r4 h4 d4 W5 r5 g5 c5 W6 r6 f6 b6 W7 r7 e7 a7 W8 r8 d8 h8 W9 r9 c9 g9 W10 r10 b10 f10 W11 r11 a11 e11 W12 r12 h12 d12 W13 r13 g13 c13 W14 r14 f14 b14 W15 r15 e15 a15
  subst hR
  rw [List.cons_append]
  iterate 15 rw [List.cons_append]
  rw [List.nil_append, List.cons_append]
  iterate 15 rw [List.cons_append]
  rw [List.nil_append]
  rw [List.zip_cons_cons, fold_round er0]
  rw [List.zip_cons_cons, fold_round er1]
  rw [List.zip_cons_cons, fold_round er2]
  rw [List.zip_cons_cons, fold_round er3]
  rw [List.zip_cons_cons, fold_round er4]
  rw [List.zip_cons_cons, fold_round er5]
  rw [List.zip_cons_cons, fold_round er6]
  rw [List.zip_cons_cons, fold_round er7]
  rw [List.zip_cons_cons, fold_round er8]
  rw [List.zip_cons_cons, fold_round er9]
  rw [List.zip_cons_cons, fold_round er10]
  rw [List.zip_cons_cons, fold_round er11]
  rw [List.zip_cons_cons, fold_round er12]
  rw [List.zip_cons_cons, fold_round er13]
  rw [List.zip_cons_cons, fold_round er14]
  rw [List.zip_cons_cons, fold_round er15]
  rfl

/-- The constants. -/
theorem roundK_eq : sha256K = [0x428a2f98, 0x71374491, 0xb5c0fbcf, 0xe9b5dba5, 0x3956c25b, 0x59f111f1, 0x923f82a4, 0xab1c5ed5,
    0xd807aa98, 0x12835b01, 0x243185be, 0x550c7dc3, 0x72be5d74, 0x80deb1fe, 0x9bdc06a7, 0xc19bf174] ++
      (roundK1 ++ (roundK2 ++ (roundK3 ++ []))) := rfl

/-- The transformation is the one of the standard. -/
theorem transform_eq (s : State8) (chunk : List UInt32) (hc : chunk.length = 16) :
    shaTransform s chunk = sha256Block s (chunk.map be32Swap) := by
  have key : (sha256K.zip (chunk.map be32Swap ++ schedule 48 (chunk.map be32Swap).reverse)).foldl sha256Round s =
      (rounds16 roundK3 (rounds16 roundK2 (rounds16 roundK1 (rounds0 s chunk).1 (rounds0 s chunk).2).1
          (rounds16 roundK1 (rounds0 s chunk).1 (rounds0 s chunk).2).2).1
        (rounds16 roundK2 (rounds16 roundK1 (rounds0 s chunk).1 (rounds0 s chunk).2).1
          (rounds16 roundK1 (rounds0 s chunk).1 (rounds0 s chunk).2).2).2).1 := by
    rw [roundK_eq, rounds0_eq s chunk hc]
    generalize rounds0 s chunk = r
    rw [show (48 : Nat) = 32 + 16 from rfl, rounds16_eq (by rfl)]
    generalize rounds16 roundK1 r.1 r.2 = r
    rw [show (32 : Nat) = 16 + 16 from rfl, rounds16_eq (by rfl)]
    generalize rounds16 roundK2 r.1 r.2 = r
    rw [show (16 : Nat) = 0 + 16 from rfl, rounds16_eq (by rfl)]
    rfl
  rw [sha256Block, key, shaTransform]

/-! ## Words in memory -/

theorem load_be (b0 b1 b2 b3 : UInt8) : be32Swap (load32 b0 b1 b2 b3) =
    b0.toUInt32 <<< 24 ||| b1.toUInt32 <<< 16 ||| b2.toUInt32 <<< 8 ||| b3.toUInt32 := by
  rw [be32Swap, load32]
  apply UInt32.toBitVec_inj.1
  simp only [UInt32.toBitVec_or, UInt32.toBitVec_and, UInt32.toBitVec_shiftLeft, UInt32.toBitVec_shiftRight, UInt8.toBitVec_toUInt32,
    UInt32.toBitVec_ofNat]
  generalize b0.toBitVec = x0
  generalize b1.toBitVec = x1
  generalize b2.toBitVec = x2
  generalize b3.toBitVec = x3
  apply BitVec.eq_of_getLsbD_eq
  intro i hi
  have h24 : (24#32 % 32).toNat = 24 := by decide
  have h16 : (16#32 % 32).toNat = 16 := by decide
  have h8 : (8#32 % 32).toNat = 8 := by decide
  simp only [BitVec.getLsbD_or, BitVec.getLsbD_and, BitVec.shiftLeft_eq', BitVec.ushiftRight_eq', h24, h16, h8, BitVec.getLsbD_shiftLeft, BitVec.getLsbD_ushiftRight,
    BitVec.getLsbD_setWidth]
  interval_cases i <;> simp 

theorem store_bytes (w : BitVec 32) :
    let x := ((w &&& 0xFF#32) <<< 24) ||| ((w &&& 0xFF00#32) <<< 8) ||| ((w &&& 0xFF0000#32) >>> 8) ||| ((w &&& 0xFF000000#32) >>> 24)
    x.setWidth 8 = (w >>> 24).setWidth 8 ∧ (x >>> 8).setWidth 8 = (w >>> 16).setWidth 8 ∧
      (x >>> 16).setWidth 8 = (w >>> 8).setWidth 8 ∧ (x >>> 24).setWidth 8 = w.setWidth 8 := by
  intro x
  refine ⟨?_, ?_, ?_, ?_⟩ <;>
  · apply BitVec.eq_of_getLsbD_eq
    intro i hi
    simp only [x, BitVec.getLsbD_or, BitVec.getLsbD_and, BitVec.getLsbD_shiftLeft, BitVec.getLsbD_ushiftRight, BitVec.getLsbD_setWidth]
    interval_cases i <;> simp

theorem store_be (w : UInt32) : store32 (be32Swap w) = word4 w := by
  rw [store32, word4, be32Swap]
  have h24 : (24#32 % 32).toNat = 24 := by decide
  have h16 : (16#32 % 32).toNat = 16 := by decide
  have h8 : (8#32 % 32).toNat = 8 := by decide
  have h := store_bytes w.toBitVec
  congr 1
  · apply UInt8.toBitVec_inj.1
    simp only [UInt32.toBitVec_toUInt8, UInt32.toBitVec_or, UInt32.toBitVec_and, UInt32.toBitVec_shiftLeft, UInt32.toBitVec_shiftRight,
      UInt32.toBitVec_ofNat, BitVec.shiftLeft_eq', BitVec.ushiftRight_eq', h24, h8]
    exact h.1
  congr 1
  · apply UInt8.toBitVec_inj.1
    simp only [UInt32.toBitVec_toUInt8, UInt32.toBitVec_or, UInt32.toBitVec_and, UInt32.toBitVec_shiftLeft, UInt32.toBitVec_shiftRight,
      UInt32.toBitVec_ofNat, BitVec.shiftLeft_eq', BitVec.ushiftRight_eq', h24, h16, h8]
    exact h.2.1
  congr 1
  · apply UInt8.toBitVec_inj.1
    simp only [UInt32.toBitVec_toUInt8, UInt32.toBitVec_or, UInt32.toBitVec_and, UInt32.toBitVec_shiftLeft, UInt32.toBitVec_shiftRight,
      UInt32.toBitVec_ofNat, BitVec.shiftLeft_eq', BitVec.ushiftRight_eq', h24, h16, h8]
    exact h.2.2.1
  congr 1
  · apply UInt8.toBitVec_inj.1
    simp only [UInt32.toBitVec_toUInt8, UInt32.toBitVec_or, UInt32.toBitVec_and, UInt32.toBitVec_shiftLeft, UInt32.toBitVec_shiftRight,
      UInt32.toBitVec_ofNat, BitVec.shiftLeft_eq', BitVec.ushiftRight_eq', h24, h8]
    exact h.2.2.2

theorem words_swap : ∀ n (b : Bytes), b.length ≤ n → (loadWords b).map be32Swap = words true b := by
  intro n
  induction n with
  | zero => intro b hb; rw [List.length_eq_zero_iff.1 (Nat.le_zero.1 hb)]; rfl
  | succ n ih =>
    intro b hb
    match b with
    | [] => rfl
    | [_] => rfl
    | [_, _] => rfl
    | [_, _, _] => rfl
    | b0 :: b1 :: b2 :: b3 :: l =>
      rw [loadWords, words, List.map_cons, load_be, ih l (by simp only [List.length_cons] at hb; omega)]
      rfl

theorem words_length : ∀ n (b : Bytes), b.length = 4 * n → (words true b).length = n ∧ (loadWords b).length = n := by
  intro n
  induction n with
  | zero => intro b hb; rw [List.length_eq_zero_iff.1 hb]; exact ⟨rfl, rfl⟩
  | succ n ih =>
    intro b hb
    match b, hb with
    | b0 :: b1 :: b2 :: b3 :: l, hb =>
      have := ih l (by simp only [List.length_cons] at hb; omega)
      rw [words, loadWords, List.length_cons, List.length_cons, this.1, this.2]
      exact ⟨rfl, rfl⟩
    | [], hb => exact absurd hb (by simp)
    | [_], hb => exact absurd hb (by simp only [List.length_cons, List.length_nil]; omega)
    | [_, _], hb => exact absurd hb (by simp only [List.length_cons, List.length_nil]; omega)
    | [_, _, _], hb => exact absurd hb (by simp only [List.length_cons, List.length_nil]; omega)

theorem words_append : ∀ n (a b : Bytes), a.length = 4 * n → words true (a ++ b) = words true a ++ words true b := by
  intro n
  induction n with
  | zero => intro a b ha; rw [List.length_eq_zero_iff.1 ha]; rfl
  | succ n ih =>
    intro a b ha
    match a, ha with
    | b0 :: b1 :: b2 :: b3 :: l, ha =>
      have := ih l b (by simp only [List.length_cons] at ha; omega)
      rw [words, List.cons_append, List.cons_append, List.cons_append, List.cons_append, words, this]
      rfl
    | [], ha => exact absurd ha (by simp)
    | [_], ha => exact absurd ha (by simp only [List.length_cons, List.length_nil]; omega)
    | [_, _], ha => exact absurd ha (by simp only [List.length_cons, List.length_nil]; omega)
    | [_, _, _], ha => exact absurd ha (by simp only [List.length_cons, List.length_nil]; omega)

/-! ## Blocks -/

/-- The state after some bytes, in whole blocks. -/
def absorbed (s : State8) (m : Bytes) : State8 := (blocks (words true m).length (words true m)).foldl sha256Block s

theorem absorbed_nil (s : State8) : absorbed s [] = s := rfl

theorem blocks_fuel : ∀ (f g : Nat) (l : List UInt32), l.length ≤ f → l.length ≤ g → blocks f l = blocks g l := by
  intro f
  induction f with
  | zero =>
    intro g l hf _
    rw [List.length_eq_zero_iff.1 (Nat.le_zero.1 hf)]
    cases g <;> rfl
  | succ f ih =>
    intro g l hf hg
    cases l with
    | nil => cases g <;> rfl
    | cons x l =>
      cases g with
      | zero => exact absurd hg (by simp)
      | succ g =>
        rw [blocks, blocks]
        · congr 1
          apply ih
          · rw [List.length_drop, List.length_cons]; simp only [List.length_cons] at hf; omega
          · rw [List.length_drop, List.length_cons]; simp only [List.length_cons] at hg; omega
        · intro h; cases h
        · intro h; cases h

theorem absorbed_block (s : State8) (b m : Bytes) (hb : b.length = 64) :
    absorbed s (b ++ m) = absorbed (shaTransform s (loadWords b)) m := by
  have hw := words_length 16 b hb
  rw [transform_eq s _ hw.2, words_swap _ b (le_refl _), absorbed, absorbed, words_append 16 b m hb, List.length_append, hw.1]
  generalize words true m = l
  obtain ⟨x, t, ht⟩ : ∃ x t, words true b = x :: t := by
    cases h : words true b with
    | nil => rw [h] at hw; exact absurd hw.1 (by simp)
    | cons x t => exact ⟨x, t, rfl⟩
  generalize words true b = w at *
  subst ht
  rw [show 16 + l.length = (15 + l.length) + 1 by omega, List.cons_append, blocks]
  · rw [← List.cons_append, List.take_left' hw.1, List.drop_left' hw.1, List.foldl_cons]
    rw [blocks_fuel (15 + l.length) l.length l (by omega) (le_refl _)]
  · intro h; cases h

theorem absorbed_append : ∀ n (s : State8) (a b : Bytes), a.length = 64 * n → absorbed s (a ++ b) = absorbed (absorbed s a) b := by
  intro n
  induction n with
  | zero => intro s a b ha; rw [List.length_eq_zero_iff.1 ha]; rfl
  | succ n ih =>
    intro s a b ha
    have h64 : (a.take 64).length = 64 := by rw [List.length_take]; omega
    conv_lhs => rw [← List.take_append_drop 64 a]
    conv_rhs => rw [← List.take_append_drop 64 a]
    rw [List.append_assoc, absorbed_block _ _ _ h64, absorbed_block _ _ _ h64,
      ih _ (a.drop 64) b (by rw [List.length_drop]; omega)]

/-! ## Writing -/

theorem memcpy_take (buf : Bytes) (i : Nat) (data : Bytes) (hi : i ≤ buf.length) :
    (memcpyAt buf i data).take (i + data.length) = buf.take i ++ data := by
  rw [memcpyAt, List.take_left']
  rw [List.length_append, List.length_take]
  omega

theorem memcpy_length (buf : Bytes) (i : Nat) (data : Bytes) (hi : i + data.length ≤ buf.length) :
    (memcpyAt buf i data).length = buf.length := by
  rw [memcpyAt, List.length_append, List.length_append, List.length_take, List.length_drop]
  omega

theorem writeLoop_eq : ∀ (fuel : Nat) (s : State8) (buf : Bytes) (n : Nat) (data : Bytes), data.length ≤ fuel → buf.length = 64 → n < 64 →
    ∃ full k, full.length = 64 * k ∧
      buf.take n ++ data = full ++ ((shaWriteLoop fuel s buf n data).2.1.take (shaWriteLoop fuel s buf n data).2.2.1 ++
        (shaWriteLoop fuel s buf n data).2.2.2) ∧
      (shaWriteLoop fuel s buf n data).1 = absorbed s full ∧
      (shaWriteLoop fuel s buf n data).2.1.length = 64 ∧
      (shaWriteLoop fuel s buf n data).2.2.1 + (shaWriteLoop fuel s buf n data).2.2.2.length < 64 := by
  intro fuel
  induction fuel with
  | zero =>
    intro s buf n data hd hb hn
    have hd0 : data = [] := List.length_eq_zero_iff.1 (Nat.le_zero.1 hd)
    rw [shaWriteLoop]
    exact ⟨[], 0, rfl, by rw [List.nil_append], rfl, hb, by simp only [hd0, List.length_nil]; omega⟩
  | succ fuel ih =>
    intro s buf n data hd hb hn
    by_cases hge : n + data.length ≥ 64
    · rw [shaWriteLoop, if_pos hge]
      have hB : memcpyAt buf n (data.take (64 - n)) = buf.take n ++ data.take (64 - n) := by
        rw [memcpyAt, List.drop_eq_nil_of_le, List.append_nil]
        rw [List.length_take]
        omega
      have hl : (memcpyAt buf n (data.take (64 - n))).length = 64 := by
        rw [memcpy_length _ _ _ (by rw [List.length_take]; omega), hb]
      obtain ⟨full, k, h1, h2, h3, h4, h5⟩ := ih (shaTransform s (loadWords (memcpyAt buf n (data.take (64 - n)))))
        (memcpyAt buf n (data.take (64 - n))) 0 (data.drop (64 - n)) (by rw [List.length_drop]; omega) hl (by omega)
      dsimp only
      refine ⟨memcpyAt buf n (data.take (64 - n)) ++ full, k + 1, ?_, ?_, ?_, h4, h5⟩
      · rw [List.length_append, hl, h1]; omega
      · rw [List.append_assoc, ← h2, hB, List.take_zero, List.nil_append, List.append_assoc, List.take_append_drop]
      · rw [h3, absorbed_block _ _ _ hl]
    · rw [shaWriteLoop, if_neg hge]
      exact ⟨[], 0, rfl, by rw [List.nil_append], rfl, hb, show n + data.length < 64 by omega⟩

/-- What a hash in progress has read. -/
structure Reads (h : Sha) (m : Bytes) : Prop where
  bytes : h.bytes = m.length % 2 ^ 64
  size : h.buf.length = 64
  blocks : ∃ full k, full.length = 64 * k ∧ h.s = absorbed sha256Init full ∧ m = full ++ h.buf.take (m.length % 64)

theorem init_reads (buf : Bytes) (hb : buf.length = 64) : Reads (shaInit buf) [] :=
  ⟨rfl, hb, [], 0, rfl, rfl, rfl⟩

theorem and63 (n : Nat) : n % 2 ^ 64 &&& 0x3F = n % 64 := by
  rw [show (0x3F : Nat) = 2 ^ 6 - 1 from rfl, Nat.and_two_pow_sub_one_eq_mod]
  omega

theorem write_reads {h : Sha} {m : Bytes} (hr : Reads h m) (data : Bytes) : Reads (shaWrite h data) (m ++ data) := by
  obtain ⟨hbytes, hsize, full, k, hk, hs, hm⟩ := hr
  have hlt : m.length % 64 < 64 := Nat.mod_lt _ (by omega)
  obtain ⟨full', k', h1, h2, h3, h4, h5⟩ := writeLoop_eq data.length h.s h.buf (m.length % 64) data (le_refl _) hsize hlt
  rw [shaWrite, hbytes, and63]
  generalize shaWriteLoop data.length h.s h.buf (m.length % 64) data = r at *
  obtain ⟨s', buf', n', data'⟩ := r
  dsimp only at *
  have hbuf : (if data'.length = 0 then buf' else memcpyAt buf' n' data') = memcpyAt buf' n' data' := by
    by_cases h0 : data'.length = 0
    · rw [if_pos h0, List.length_eq_zero_iff.1 h0, memcpyAt, List.append_nil, List.length_nil, Nat.add_zero, List.take_append_drop]
    · rw [if_neg h0]
  rw [hbuf]
  have hrest : m ++ data = (full ++ full') ++ (buf'.take n' ++ data') := by
    conv_lhs => rw [hm]
    rw [List.append_assoc, h2, List.append_assoc]
  have hlen : (m ++ data).length % 64 = n' + data'.length := by
    have hn : (buf'.take n').length = n' := by rw [List.length_take]; omega
    rw [hrest, List.length_append, List.length_append, List.length_append, hn, hk, h1]
    omega
  refine ⟨?_, ?_, full ++ full', k + k', ?_, ?_, ?_⟩
  · show (m.length % 2 ^ 64 + data.length) % 2 ^ 64 = (m ++ data).length % 2 ^ 64
    rw [List.length_append, Nat.mod_add_mod]
  · show (memcpyAt buf' n' data').length = 64
    rw [memcpy_length _ _ _ (by omega), h4]
  · rw [List.length_append, hk, h1]; omega
  · show s' = _
    rw [h3, hs, absorbed_append k _ _ _ hk]
  · show m ++ data = (full ++ full') ++ (memcpyAt buf' n' data').take ((m ++ data).length % 64)
    rw [hlen, memcpy_take _ _ _ (by omega)]
    exact hrest

/-! ## Finishing -/

theorem ofNat_shift3 (n : Nat) : UInt32.ofNat ((n % 2 ^ 64) <<< 3) = UInt32.ofNat (8 * n) := by
  apply UInt32.toNat_inj.1
  rw [UInt32.toNat_ofNat', UInt32.toNat_ofNat', Nat.shiftLeft_eq]
  omega

theorem ofNat_shift29 (n : Nat) : UInt32.ofNat ((n % 2 ^ 64) >>> 29) = UInt32.ofNat (8 * n / 2 ^ 32) := by
  apply UInt32.toNat_inj.1
  rw [UInt32.toNat_ofNat', UInt32.toNat_ofNat', Nat.shiftRight_eq_div_pow]
  omega

theorem word4_nat (n : Nat) : word4 (UInt32.ofNat n) =
    [UInt8.ofNat (n / 256 ^ 3), UInt8.ofNat (n / 256 ^ 2), UInt8.ofNat (n / 256 ^ 1), UInt8.ofNat n] := by
  rw [word4]
  have e (k : Nat) (hk : k < 32) : (UInt32.ofNat n >>> UInt32.ofNat k).toUInt8 = UInt8.ofNat (n % 2 ^ 32 / 2 ^ k) := by
    apply UInt8.toNat_inj.1
    rw [UInt32.toNat_toUInt8, UInt32.toNat_shiftRight, UInt32.toNat_ofNat', UInt32.toNat_ofNat', UInt8.toNat_ofNat',
      Nat.mod_eq_of_lt (show k < 2 ^ 32 by omega), Nat.mod_eq_of_lt hk, Nat.shiftRight_eq_div_pow]
  have e0 : (UInt32.ofNat n).toUInt8 = UInt8.ofNat n := by
    apply UInt8.toNat_inj.1
    rw [UInt32.toNat_toUInt8, UInt32.toNat_ofNat', UInt8.toNat_ofNat']
    omega
  have e24 := e 24 (by omega)
  have e16 := e 16 (by omega)
  have e8 := e 8 (by omega)
  have h24 : UInt8.ofNat (n % 2 ^ 32 / 2 ^ 24) = UInt8.ofNat (n / 256 ^ 3) := by
    apply UInt8.toNat_inj.1; rw [UInt8.toNat_ofNat', UInt8.toNat_ofNat']; omega
  have h16 : UInt8.ofNat (n % 2 ^ 32 / 2 ^ 16) = UInt8.ofNat (n / 256 ^ 2) := by
    apply UInt8.toNat_inj.1; rw [UInt8.toNat_ofNat', UInt8.toNat_ofNat']; omega
  have h8 : UInt8.ofNat (n % 2 ^ 32 / 2 ^ 8) = UInt8.ofNat (n / 256 ^ 1) := by
    apply UInt8.toNat_inj.1; rw [UInt8.toNat_ofNat', UInt8.toNat_ofNat']; omega
  rw [e0, ← h24, ← h16, ← h8, ← e24, ← e16, ← e8]
  rfl

theorem sizes_eq (n : Nat) : store32 (be32Swap (UInt32.ofNat ((n % 2 ^ 64) >>> 29))) ++
    store32 (be32Swap (UInt32.ofNat ((n % 2 ^ 64) <<< 3))) = (length8 (8 * n)).reverse := by
  rw [ofNat_shift3, ofNat_shift29, store_be, store_be, word4_nat, word4_nat]
  have e (k : Nat) : 8 * n / 2 ^ 32 / 256 ^ k = 8 * n / 256 ^ (k + 4) := by
    rw [Nat.div_div_eq_div_mul, show (2 : Nat) ^ 32 = 256 ^ 4 from rfl, ← Nat.pow_add, Nat.add_comm]
  rw [e 3, e 2, e 1, show UInt8.ofNat (8 * n / 2 ^ 32) = UInt8.ofNat (8 * n / 256 ^ 4) from rfl,
    show UInt8.ofNat (8 * n) = UInt8.ofNat (8 * n / 256 ^ 0) by rw [Nat.pow_zero, Nat.div_one]]
  rfl

theorem pad_take (n : Nat) (hn : n < 64) : shaPad.take (1 + n) = 0x80 :: List.replicate n 0 := by
  rw [shaPad, Nat.add_comm, List.take_succ_cons, List.take_replicate, Nat.min_eq_left (by omega)]

theorem pad_length (m : Bytes) : ∃ k, (pad true m).length = 64 * k := by
  rw [pad, if_pos rfl, List.length_append, List.length_append, List.length_cons, List.length_replicate, List.length_reverse, length8,
    List.length_map, List.length_range]
  exact ⟨(m.length + ((119 - m.length % 64) % 64 + 1) + 8) / 64, by omega⟩

/-- Finishing gives the hash of what was read. -/
theorem final_eq {h : Sha} {m : Bytes} (hr : Reads h m) : shaFinal h = sha256 m := by
  have hb := hr.bytes
  have hmod : m.length % 2 ^ 64 % 64 = m.length % 64 := by omega
  have h1 := write_reads (write_reads hr (shaPad.take (1 + (119 - m.length % 64) % 64))) ((length8 (8 * m.length)).reverse)
  have hp : m ++ shaPad.take (1 + (119 - m.length % 64) % 64) ++ (length8 (8 * m.length)).reverse = pad true m := by
    rw [pad_take _ (Nat.mod_lt _ (by omega)), pad, if_pos rfl]
  rw [hp] at h1
  obtain ⟨k, hk⟩ := pad_length m
  obtain ⟨_, _, full, k', _, hs, hm⟩ := h1
  have h0 : (pad true m).length % 64 = 0 := by omega
  rw [h0, List.take_zero, List.append_nil] at hm
  rw [← hm, absorbed] at hs
  rw [shaFinal, hb, sizes_eq, hmod]
  rw [hs, sha256]
  have : (fun w => store32 (be32Swap w)) = word4 := funext store_be
  rw [this]

/-! ## HMAC -/

theorem sha_length (m : Bytes) : (sha256 m).length = 32 := rfl

/-- The buffers are buffers. -/
structure _root_.Verif.C.HashMem.Ok (mem : HashMem) : Prop where
  inner : mem.inner.length = 64
  outer : mem.outer.length = 64
  key : mem.key.length = 64

theorem xor_pads (l : Bytes) : (l.map (· ^^^ 0x5c)).map (· ^^^ (0x5c ^^^ 0x36)) = l.map (· ^^^ 0x36) := by
  rw [List.map_map]
  apply List.map_congr_left
  intro x _
  show x ^^^ 0x5c ^^^ (0x5c ^^^ 0x36) = x ^^^ 0x36
  rw [UInt8.xor_assoc, ← UInt8.xor_assoc 0x5c, UInt8.xor_self, UInt8.zero_xor]

theorem hmac_fold {h : Hmac} {a : Bytes} (hr : Reads h.inner a) (parts : List Bytes) :
    Reads (parts.foldl hmacWrite h).inner (a ++ parts.flatten) ∧ (parts.foldl hmacWrite h).outer = h.outer := by
  induction parts generalizing h a with
  | nil => rw [List.flatten_nil, List.append_nil]; exact ⟨hr, rfl⟩
  | cons p parts ih =>
    have := ih (h := hmacWrite h p) (a := a ++ p) (write_reads hr p)
    rw [List.foldl_cons, List.flatten_cons, ← List.append_assoc]
    exact this

/-- Initializing, writing and finishing is HMAC. -/
theorem hmacOf_eq {mem : HashMem} (hm : mem.Ok) (key : Bytes) (parts : List Bytes) :
    hmacOf mem key parts = hmacSha256 key parts.flatten := by
  have hk : (if key.length ≤ 64 then key ++ List.replicate (64 - key.length) 0
      else shaFinal (shaWrite (shaInit mem.key) key) ++ List.replicate 32 0) =
      (if key.length > 64 then sha256 key else key) ++
        List.replicate (64 - (if key.length > 64 then sha256 key else key).length) 0 := by
    by_cases h : key.length ≤ 64
    · rw [if_pos h, if_neg (by omega)]
    · rw [if_neg h, if_pos (by omega), final_eq (write_reads (init_reads _ hm.key) key), List.nil_append, sha_length]
  rw [hmacOf, hmacFinal, hmacInit, hk, hmacSha256]
  generalize (if key.length > 64 then sha256 key else key) ++ _ = K
  rw [xor_pads]
  have hf := hmac_fold (h := ⟨shaWrite (shaInit mem.inner) (K.map (· ^^^ 0x36)), shaWrite (shaInit mem.outer) (K.map (· ^^^ 0x5c))⟩)
    (write_reads (init_reads _ hm.inner) (K.map (· ^^^ 0x36))) parts
  rw [hf.2]
  rw [final_eq hf.1, final_eq (write_reads (write_reads (init_reads _ hm.outer) (K.map (· ^^^ 0x5c))) _)]
  rfl

/-! ## The generator -/

theorem hmac_length (key m : Bytes) : (hmacSha256 key m).length = 32 := by
  rw [hmacSha256, sha_length]

attribute [local irreducible] hmacSha256

theorem rngInit_eq {mem : HashMem} (hm : mem.Ok) (key : Bytes) :
    rngInit mem key = ⟨(rfcSeeded hmacSha256 key).2, (rfcSeeded hmacSha256 key).1, false⟩ := by
  rw [rngInit, hmacOf_eq hm, hmacOf_eq hm, hmacOf_eq hm, hmacOf_eq hm]
  simp only [List.flatten_cons, List.flatten_nil, List.append_nil, rfcSeeded, List.append_assoc]

theorem rfcBytes_long {mac : Bytes → Bytes → Bytes} (hl : ∀ k m, (mac k m).length = 32) (k v : Bytes) {len : Nat} (h : 32 < len) :
    rfcBytes mac k v len = mac k v ++ rfcBytes mac k (mac k v) (len - 32) := by
  obtain ⟨n, hn⟩ : ∃ n, (len + 31) / 32 = n + 1 := ⟨(len + 31) / 32 - 1, by omega⟩
  have hn' : (len - 32 + 31) / 32 = n := by omega
  rw [rfcBytes, rfcBytes, hn, hn', List.range_succ_eq_map, List.map_cons, List.flatten_cons, List.map_map]
  have e0 : Nat.iterate (mac k) (0 + 1) v = mac k v := rfl
  rw [e0, List.take_append, hl, List.take_of_length_le (by rw [hl]; omega)]
  rfl

theorem rfcBytes_short {mac : Bytes → Bytes → Bytes} (k v : Bytes) {len : Nat} (h0 : 0 < len) (h : len ≤ 32) :
    rfcBytes mac k v len = (mac k v).take len := by
  have hn : (len + 31) / 32 = 1 := by omega
  rw [rfcBytes, hn, List.range_succ_eq_map, List.map_cons, List.flatten_cons, List.range_zero, List.map_nil, List.map_nil,
    List.flatten_nil, List.append_nil]
  rfl

theorem rfcBytes_zero {mac : Bytes → Bytes → Bytes} (k v : Bytes) : rfcBytes mac k v 0 = [] := by
  rw [rfcBytes, List.take_zero]

theorem rngLoop_eq {mem : HashMem} (hm : mem.Ok) (k : Bytes) : ∀ (fuel len : Nat) (v : Bytes), len ≤ fuel →
    rngLoop mem k fuel len v = (Nat.iterate (hmacSha256 k) ((len + 31) / 32) v, rfcBytes hmacSha256 k v len) := by
  intro fuel
  induction fuel with
  | zero =>
    intro len v h
    have h0 : len = 0 := by omega
    subst h0
    rw [rngLoop, rfcBytes_zero]
    rfl
  | succ fuel ih =>
    intro len v h
    rw [rngLoop]
    by_cases h0 : len > 0
    · rw [if_pos h0, hmacOf_eq hm, List.flatten_cons, List.flatten_nil, List.append_nil]
      obtain ⟨n, hn⟩ : ∃ n, (len + 31) / 32 = n + 1 := ⟨(len + 31) / 32 - 1, by omega⟩
      have hi (w : Bytes) : Nat.iterate (hmacSha256 k) (n + 1) w = Nat.iterate (hmacSha256 k) n (hmacSha256 k w) := rfl
      by_cases h32 : len > 32
      · have hn' : (len - 32 + 31) / 32 = n := by omega
        rw [if_pos h32]
        dsimp only
        rw [ih (len - 32) _ (by omega), hn', hn, hi, rfcBytes_long hmac_length k v h32,
          List.take_of_length_le (by rw [hmac_length])]
      · have hn' : n = 0 := by omega
        have h1 : (0 + 31) / 32 = 0 := by omega
        rw [if_neg h32]
        dsimp only
        rw [Nat.sub_self, ih 0 _ (by omega), hn, hi, rfcBytes_short k v h0 (by omega), rfcBytes_zero, List.append_nil, hn', h1]
    · have h0 : len = 0 := by omega
      subst h0
      rw [if_neg (by omega), rfcBytes_zero]
      rfl

theorem rngGenerate_eq {mem : HashMem} (hm : mem.Ok) (rng : Rng) (len : Nat) :
    rngGenerate mem rng len =
      let kv := if rng.retry then rfcAgain hmacSha256 (rng.k, rng.v) else (rng.k, rng.v)
      (⟨Nat.iterate (hmacSha256 kv.1) ((len + 31) / 32) kv.2, kv.1, true⟩, rfcBytes hmacSha256 kv.1 kv.2 len) := by
  rw [rngGenerate, hmacOf_eq hm, hmacOf_eq hm]
  simp only [List.flatten_cons, List.flatten_nil, List.append_nil]
  cases hr : rng.retry
  · simp only [Bool.false_eq_true, if_false]
    rw [rngLoop_eq hm _ _ _ _ (le_refl _)]
  · simp only [if_true, rfcAgain]
    rw [rngLoop_eq hm _ _ _ _ (le_refl _)]

theorem rfcBytes_32 (k v : Bytes) : rfcBytes hmacSha256 k v 32 = hmacSha256 k v := by
  show List.take 32 (List.flatten [hmacSha256 k v]) = _
  rw [List.flatten_cons, List.flatten_nil, List.append_nil, List.take_of_length_le (by rw [hmac_length])]

/-- The numbers that are generated, with the state after each of them. -/
def rngRounds (mem : HashMem) (seed : Bytes) : Nat → Rng × Bytes
  | 0 => rngGenerate mem (rngInit mem seed) 32
  | n + 1 => rngGenerate mem (rngRounds mem seed n).1 32

theorem rngRounds_eq {mem : HashMem} (hm : mem.Ok) (seed : Bytes) (n : Nat) :
    rngRounds mem seed n = (⟨(rfcRound hmacSha256 seed n).2, (rfcRound hmacSha256 seed n).1, true⟩, rfcCandidate hmacSha256 seed n) := by
  induction n with
  | zero =>
    rw [rngRounds, rngInit_eq hm, rngGenerate_eq hm]
    simp only [Bool.false_eq_true, if_false]
    rw [rfcBytes_32]
    rfl
  | succ n ih =>
    rw [rngRounds, ih, rngGenerate_eq hm]
    simp only [if_true]
    rw [rfcBytes_32]
    rfl

end Verif.Proofs
