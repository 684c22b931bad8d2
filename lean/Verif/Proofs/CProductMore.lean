import Verif.Proofs.CProduct
import Mathlib.FieldTheory.Finite.Basic
/-!
# The reduction of products of scalars of the C library
-/

namespace Verif.Proofs
open Verif Verif.C Verif.Spec

/-- `2 ^ 256` minus the order. -/
local notation "restN" => 0x14551231950B75FC4402DA1732FC9BEBF

/-- Replacing `2 ^ 256` twice. -/
theorem fold_bounds {lo hi mlo mhi plo p8 : Nat} (h1 : lo < 2 ^ 256) (h2 : hi < 2 ^ 256) (h3 : mlo < 2 ^ 256) (h4 : plo < 2 ^ 256)
    (hm : mlo + 2 ^ 256 * mhi = lo + hi * restN) (hp : plo + 2 ^ 256 * p8 = mlo + mhi * restN) :
    p8 ≤ 2 ∧ plo + p8 * restN < 2 ^ 256 + 3 * restN ∧ (plo + p8 * restN) % curveN = (lo + 2 ^ 256 * hi) % curveN := by
  have a1 : mhi ≤ restN := by
    have : hi * restN < 2 ^ 256 * restN := by omega
    omega
  have a2 : mhi * restN ≤ restN * restN := Nat.mul_le_mul_right _ a1
  have a3 : p8 ≤ 2 := by omega
  refine ⟨a3, by omega, ?_⟩
  have e1 : lo + 2 ^ 256 * hi = mlo + 2 ^ 256 * mhi + curveN * hi := by rw [hm, ← restN_eq]; ring
  have e2 : mlo + 2 ^ 256 * mhi = plo + 2 ^ 256 * p8 + curveN * mhi := by rw [hp, ← restN_eq]; ring
  have e3 : plo + 2 ^ 256 * p8 = plo + p8 * restN + curveN * p8 := by rw [← restN_eq]; ring
  rw [e1, e2, e3, Nat.add_mul_mod_self_left, Nat.add_mul_mod_self_left, Nat.add_mul_mod_self_left]

theorem accNat_low (x : Nat) : accNat ⟨x, 0, 0⟩ = x := by simp only [accNat, Nat.mul_zero, Nat.add_zero]

theorem fold_first {f : Nat → Nat} (hf : ∀ i, f i < 4294967296) {m : List Nat}
    (hm : m = (runOps (foldOps orderComplement f) ⟨f 0, 0, 0⟩).1 ++ [(runOps (foldOps orderComplement f) ⟨f 0, 0, 0⟩).2.c0]) :
    m.length = 13 ∧ (∀ d ∈ m, d < 4294967296) ∧ m.getD 12 0 ≤ 1 ∧ digitsNat m = eight f 0 + eight f 8 * restN := by
  have hb : accNat ⟨f 0, 0, 0⟩ ≤ 0xFFFFFFFF := by rw [accNat_low]; exact Nat.le_of_lt_succ (hf 0)
  obtain ⟨r1, r2, r3, r4⟩ := runOps_last (foldOps_le (fun i => Nat.le_of_lt_succ (hf i)) orderComplement) (c := ⟨f 0, 0, 0⟩) (B := 1)
    ⟨hf 0, Nat.succ_pos _, Nat.succ_pos _⟩ hb (by decide +kernel) (by decide)
  rw [accNat_low, foldOps_sum] at r4
  rw [← hm] at r1 r4
  have r2' : (runOps (foldOps orderComplement f) ⟨f 0, 0, 0⟩).1.length = 12 := r2
  generalize runOps (foldOps orderComplement f) ⟨f 0, 0, 0⟩ = r at *
  refine ⟨by rw [hm, List.length_append, r2', List.length_singleton], r1, ?_, r4⟩
  rw [hm, List.getD_eq_getElem?_getD, List.getElem?_append_right (by rw [r2']), r2', Nat.sub_self, List.getElem?_cons_zero, Option.getD_some]
  exact r3

theorem fold_second {g : Nat → Nat} (hg : ∀ i, g i < 4294967296) (h12 : g 12 ≤ 1) {q : List Nat × Acc96}
    (hq : q = runOps (foldOps2 orderComplement g) ⟨g 0, 0, 0⟩) :
    (∀ d ∈ q.1, d < 4294967296) ∧ q.2.c0 ≤ 2 ∧
      eight (fun i => q.1.getD i 0) 0 + 2 ^ 256 * (q.2.c0 + g 12) = eight g 0 + five g 8 * restN := by
  have hb : accNat ⟨g 0, 0, 0⟩ ≤ 0xFFFFFFFF := by rw [accNat_low]; exact Nat.le_of_lt_succ (hg 0)
  obtain ⟨r1, r2, r3, r4⟩ := runOps_last (foldOps2_le (fun i => Nat.le_of_lt_succ (hg i)) h12 orderComplement) (c := ⟨g 0, 0, 0⟩) (B := 2)
    ⟨hg 0, Nat.succ_pos _, Nat.succ_pos _⟩ hb (by decide +kernel) (by decide)
  have r2' : (runOps (foldOps2 orderComplement g) ⟨g 0, 0, 0⟩).1.length = 8 := r2
  rw [← hq] at r1 r2' r3 r4
  rw [accNat_low, digitsNat_append, r2', digits8 r2', show (4294967296 : Nat) ^ 8 = 2 ^ 256 by decide +kernel] at r4
  refine ⟨fun d hd => r1 d (List.mem_append_left _ hd), r3, ?_⟩
  rw [← foldOps2_sum, Nat.mul_add, ← Nat.add_assoc, r4, Nat.add_assoc]

theorem fold_third {p : Nat → Nat} (hp : ∀ i, p i < 4294967296) {p8 : Nat} (h8 : p8 ≤ 2) {r : Sc × Nat}
    (hr : r = chain 0xFFFFFFFF ⟨p 0 + 0x2FC9BEBF * p8, p 1 + 0x402DA173 * p8, p 2 + 0x50B75FC4 * p8, p 3 + 0x45512319 * p8,
      p 4 + p8, p 5, p 6, p 7⟩) : ScFits r.1 ∧ scNat r.1 + 2 ^ 256 * r.2 = eight p 0 + p8 * restN := by
  have h0 := hp 0
  have h1 := hp 1
  have h2 := hp 2
  have h3 := hp 3
  have h4 := hp 4
  have h5 := hp 5
  have h6 := hp 6
  have h7 := hp 7
  obtain ⟨c1, c2⟩ := chain_eq (x := ⟨p 0 + 0x2FC9BEBF * p8, p 1 + 0x402DA173 * p8, p 2 + 0x50B75FC4 * p8, p 3 + 0x45512319 * p8,
    p 4 + p8, p 5, p 6, p 7⟩) (by simp only; omega) (by simp only; omega) (by simp only; omega) (by simp only; omega)
    (by simp only; omega) (by simp only; omega) (by simp only; omega) (by simp only; omega)
  have e : scNat ⟨p 0 + 0x2FC9BEBF * p8, p 1 + 0x402DA173 * p8, p 2 + 0x50B75FC4 * p8, p 3 + 0x45512319 * p8,
    p 4 + p8, p 5, p 6, p 7⟩ = eight p 0 + p8 * restN := by
    simp only [scNat, eight, Nat.zero_add]
    ring
  rw [e, ← hr] at c2
  rw [← hr] at c1
  exact ⟨c1, c2⟩

theorem reduce512_eq {l : List Nat} (hl : l.length = 16) (hd : ∀ d ∈ l, d < 4294967296) :
    Scalar (scReduce512 l) ∧ scNat (scReduce512 l) = digitsNat l % curveN := by
  have hf := getD_lt hd
  have hL := digits16 hl
  rw [scReduce512]
  simp only
  generalize hM : (runOps (foldOps orderComplement fun i => l.getD i 0) ⟨l.getD 0 0, 0, 0⟩).1 ++
    [(runOps (foldOps orderComplement fun i => l.getD i 0) ⟨l.getD 0 0, 0, 0⟩).2.c0] = m
  obtain ⟨m1, m2, m3, m4⟩ := fold_first hf hM.symm
  have hg := getD_lt m2
  rw [digits13 m1] at m4
  generalize hQ : runOps (foldOps2 orderComplement fun i => m.getD i 0) ⟨m.getD 0 0, 0, 0⟩ = q
  obtain ⟨q1, q2, q3⟩ := fold_second hg m3 hQ.symm
  have hp := getD_lt q1
  obtain ⟨b1, b2, b3⟩ := fold_bounds (eight_lt 0 hf) (eight_lt 8 hf) (eight_lt 0 hg) (eight_lt 0 hp) m4 q3
  rw [u32_of_lt (show q.2.c0 + m.getD 12 0 < 4294967296 from lt_of_le_of_lt b1 (by decide)), orderComplement_eq, hL, ← b3]
  obtain ⟨c1, c2⟩ := fold_third hp b1 rfl
  exact reduce_last c1 c2 b2

theorem mul_sc {a b : Sc} (ha : ScFits a) (hb : ScFits b) : Scalar (scMul a b) ∧ scNat (scMul a b) = scNat a * scNat b % curveN := by
  obtain ⟨h1, h2, h3⟩ := mul512_eq ha hb
  rw [← h3]
  exact reduce512_eq h1 h2

theorem sqr_sc {a : Sc} (ha : ScFits a) : Scalar (scSqr a) ∧ scNat (scSqr a) = scNat a ^ 2 % curveN := by
  obtain ⟨h1, h2, h3⟩ := sqr512_eq ha
  rw [← h3]
  exact reduce512_eq h1 h2

/-! ## The inverse -/

/-- A scalar with the value of a power. -/
structure IsPowN (v : ZMod curveN) (e : Nat) (x : Sc) : Prop where
  scalar : Scalar x
  val : ((scNat x : Nat) : ZMod curveN) = v ^ e

theorem IsPowN.sqr {v : ZMod curveN} {e : Nat} {x : Sc} (h : IsPowN v e x) : IsPowN v (2 * e) (scSqr x) := by
  obtain ⟨h1, h2⟩ := sqr_sc h.scalar.fits
  exact ⟨h1, by rw [h2, ZMod.natCast_mod, Nat.cast_pow, h.val, ← pow_mul, Nat.mul_comm]⟩

theorem iterate_pow {v : ZMod curveN} {f : Sc → Sc} (hf : ∀ {e : Nat} {x : Sc}, IsPowN v e x → IsPowN v (2 * e) (f x)) (n : Nat) :
    ∀ {e : Nat} {x : Sc}, IsPowN v e x → IsPowN v (2 ^ n * e) (Nat.repeat f n x) := by
  induction n with
  | zero => intro e x h; rw [pow_zero, Nat.one_mul]; exact h
  | succ n ih =>
    intro e x h
    have := hf (ih h)
    rwa [show 2 * (2 ^ n * e) = 2 ^ (n + 1) * e by ring] at this

theorem IsPowN.sqrN {v : ZMod curveN} (n : Nat) {e : Nat} {x : Sc} (h : IsPowN v e x) : IsPowN v (2 ^ n * e) (scSqrN n x) :=
  iterate_pow IsPowN.sqr n h

theorem IsPowN.mul {v : ZMod curveN} {e f : Nat} {x y : Sc} (h : IsPowN v e x) (g : IsPowN v f y) : IsPowN v (e + f) (scMul x y) := by
  obtain ⟨h1, h2⟩ := mul_sc h.scalar.fits g.scalar.fits
  exact ⟨h1, by rw [h2, ZMod.natCast_mod, Nat.cast_mul, h.val, g.val, pow_add]⟩

theorem IsPowN.to {v : ZMod curveN} {e : Nat} (f : Nat) {x : Sc} (h : IsPowN v e x) (hef : e = f) : IsPowN v f x := hef ▸ h

/-- The exponent after squarings and products. -/
def expFold (e : Nat) : List (Nat × Nat) → Nat
  | [] => e
  | (n, f) :: l => expFold (2 ^ n * e + f) l

theorem powers_sc {v : ZMod curveN} {l : List (Nat × Sc)} {k : List (Nat × Nat)}
    (h : List.Forall₂ (fun a b => a.1 = b.1 ∧ IsPowN v b.2 a.2) l k) : ∀ {t : Sc} {e : Nat}, IsPowN v e t →
    IsPowN v (expFold e k) (scPowers t l) := by
  induction h with
  | nil => exact fun h => h
  | @cons a b _ _ hab _ ih =>
    obtain ⟨n, x⟩ := a
    obtain ⟨n', f⟩ := b
    obtain ⟨rfl, hx⟩ := hab
    exact fun ht => ih ((ht.sqrN _).mul hx)

theorem inverse_steps {v : ZMod curveN} {x x2 x3 x4 x6 x8 x127 : Sc} {e1 e2 e3 e4 e6 e8 e127 : Nat} (h1 : IsPowN v e1 x)
    (h2 : IsPowN v e2 x2) (h3 : IsPowN v e3 x3) (h4 : IsPowN v e4 x4) (h6 : IsPowN v e6 x6) (h8 : IsPowN v e8 x8)
    (h127 : IsPowN v e127 x127) : IsPowN v (expFold e127
      [(2, e1), (4, e3), (2, e1), (2, e1), (2, e1), (4, e3), (3, e2), (4, e3), (5, e3), (4, e2), (2, e1), (2, e1),
       (5, e4), (2, e1), (3, e1), (4, e1), (2, e1), (10, e3), (4, e3), (9, e8), (2, e1), (3, e1), (3, e1), (5, e4),
       (2, e1), (5, e2), (4, e2), (2, e1), (8, e2), (3, e2), (3, e1), (6, e1), (8, e6)]) (scPowers x127
      [(2, x), (4, x3), (2, x), (2, x), (2, x), (4, x3), (3, x2), (4, x3), (5, x3), (4, x2), (2, x), (2, x),
       (5, x4), (2, x), (3, x), (4, x), (2, x), (10, x3), (4, x3), (9, x8), (2, x), (3, x), (3, x), (5, x4),
       (2, x), (5, x2), (4, x2), (2, x), (8, x2), (3, x2), (3, x), (6, x), (8, x6)]) := by
  refine powers_sc ?_ h127
  repeat' first | exact .nil | exact ⟨rfl, by assumption⟩ | apply List.Forall₂.cons

theorem inverse_pow {a : Sc} (ha : Scalar a) : IsPowN (scNat a : ZMod curveN) (curveN - 2) (scInverse a) := by
  have x1 : IsPowN (scNat a : ZMod curveN) 1 a := ⟨ha, (pow_one _).symm⟩
  have x2 := (x1.sqr.mul x1).to (2 ^ 2 - 1) (by decide)
  have x3 := (x2.sqr.mul x1).to (2 ^ 3 - 1) (by decide)
  have x4 := (x3.sqr.mul x1).to (2 ^ 4 - 1) (by decide)
  have x6 := ((x4.sqrN 2).mul x2).to (2 ^ 6 - 1) (by decide)
  have x7 := (x6.sqr.mul x1).to (2 ^ 7 - 1) (by decide)
  have x8 := (x7.sqr.mul x1).to (2 ^ 8 - 1) (by decide)
  have x15 := ((x8.sqrN 7).mul x7).to (2 ^ 15 - 1) (by decide)
  have x30 := ((x15.sqrN 15).mul x15).to (2 ^ 30 - 1) (by decide)
  have x60 := ((x30.sqrN 30).mul x30).to (2 ^ 60 - 1) (by decide)
  have x120 := ((x60.sqrN 60).mul x60).to (2 ^ 120 - 1) (by decide)
  have x127 := ((x120.sqrN 7).mul x7).to (2 ^ 127 - 1) (by decide)
  exact (inverse_steps x1 x2 x3 x4 x6 x8 x127).to _ (by decide +kernel)

theorem inverse_sc [Fact curveN.Prime] {a : Sc} (ha : Scalar a) :
    Scalar (scInverse a) ∧ ((scNat (scInverse a) : Nat) : ZMod curveN) = ((scNat a : Nat) : ZMod curveN)⁻¹ := by
  obtain ⟨h1, h2⟩ := inverse_pow ha
  refine ⟨h1, h2.trans ?_⟩
  by_cases h0 : ((scNat a : Nat) : ZMod curveN) = 0
  · rw [h0, inv_zero, zero_pow (by decide +kernel)]
  · refine eq_inv_of_mul_eq_one_left ?_
    rw [← pow_succ, show curveN - 2 + 1 = curveN - 1 by decide +kernel]
    exact ZMod.pow_card_sub_one_eq_one h0

end Verif.Proofs
