import Verif.Proofs.CScalar
import Verif.Model.CProduct
import Mathlib.Tactic.Ring
import Mathlib.Tactic.Linarith
/-!
# Products of scalars of the C library
-/

namespace Verif.Proofs
open Verif Verif.C Verif.Spec

/-- The number of the accumulator. -/
def accNat (c : Acc96) : Nat := c.c0 + 4294967296 * c.c1 + 18446744073709551616 * c.c2

/-- The parts of the accumulator fit into 32 bits. -/
structure AccFits (c : Acc96) : Prop where
  h0 : c.c0 < 4294967296
  h1 : c.c1 < 4294967296
  h2 : c.c2 < 4294967296

theorem prod_le32 {a b : Nat} (ha : a < 4294967296) (hb : b < 4294967296) : a * b ≤ 18446744065119617025 :=
  Nat.mul_le_mul (Nat.le_of_lt_succ ha) (Nat.le_of_lt_succ hb)

theorem carry32 {x y : Nat} (hx : x < 4294967296) (hy : y < 4294967296) : ∃ z i, (x + y) % 4294967296 = z ∧
    (if z < y then 1 else 0) = i ∧ x + y = z + 4294967296 * i ∧ z < 4294967296 ∧ i ≤ 1 := by
  refine ⟨_, _, rfl, rfl, ?_, ?_, ?_⟩ <;> (try split_ifs) <;> omega

theorem muladd_eq {c : Acc96} (hc : AccFits c) {a b : Nat} (ha : a < 4294967296) (hb : b < 4294967296)
    (h : accNat c + a * b < 79228162514264337593543950336) :
    AccFits (muladd c a b) ∧ accNat (muladd c a b) = accNat c + a * b := by
  obtain ⟨h0, h1, h2⟩ := hc
  have hp := prod_le32 ha hb
  simp only [muladd, accNat] at h ⊢
  generalize a * b = t at *
  simp only [u32_eq, u64_eq, shr32]
  simp only [Nat.mod_eq_of_lt (show t < 18446744073709551616 by omega), Nat.mod_eq_of_lt (show t / 4294967296 < 4294967296 by omega)]
  obtain ⟨z0, i0, e1, e2, e3, e4, e5⟩ := carry32 h0 (show t % 4294967296 < 4294967296 by omega)
  simp only [e1, e2, Nat.mod_eq_of_lt (show t / 4294967296 + i0 < 4294967296 by omega)]
  obtain ⟨z1, i1, f1, f2, f3, f4, f5⟩ := carry32 h1 (show t / 4294967296 + i0 < 4294967296 by omega)
  simp only [f1, f2]
  clear e1 e2 f1 f2
  refine ⟨⟨e4, f4, Nat.mod_lt _ (by decide)⟩, by omega⟩

theorem muladdFast_eq {c : Acc96} (hc : AccFits c) {a b : Nat} (ha : a < 4294967296) (hb : b < 4294967296)
    (h : accNat c + a * b < 18446744073709551616) :
    AccFits (muladdFast c a b) ∧ accNat (muladdFast c a b) = accNat c + a * b := by
  obtain ⟨h0, h1, h2⟩ := hc
  have hp := prod_le32 ha hb
  simp only [muladdFast, accNat] at h ⊢
  generalize a * b = t at *
  simp only [u32_eq, u64_eq, shr32]
  simp only [Nat.mod_eq_of_lt (show t < 18446744073709551616 by omega), Nat.mod_eq_of_lt (show t / 4294967296 < 4294967296 by omega)]
  obtain ⟨z0, i0, e1, e2, e3, e4, e5⟩ := carry32 h0 (show t % 4294967296 < 4294967296 by omega)
  simp only [e1, e2, Nat.mod_eq_of_lt (show t / 4294967296 + i0 < 4294967296 by omega)]
  clear e1 e2
  refine ⟨⟨e4, Nat.mod_lt _ (by decide), h2⟩, by omega⟩

theorem muladd2_eq {c : Acc96} (hc : AccFits c) {a b : Nat} (ha : a < 4294967296) (hb : b < 4294967296)
    (h : accNat c + 2 * (a * b) < 79228162514264337593543950336) :
    AccFits (muladd2 c a b) ∧ accNat (muladd2 c a b) = accNat c + 2 * (a * b) := by
  obtain ⟨h0, h1, h2⟩ := hc
  have hp := prod_le32 ha hb
  simp only [muladd2, accNat] at h ⊢
  generalize a * b = t at *
  simp only [u32_eq, u64_eq, shr32]
  have ht : t = t % 4294967296 + 4294967296 * (t / 4294967296) := by omega
  simp only [Nat.mod_eq_of_lt (show t < 18446744073709551616 by omega), Nat.mod_eq_of_lt (show t / 4294967296 < 4294967296 by omega)]
  generalize htl : t % 4294967296 = tl at *
  generalize hth : t / 4294967296 = th at *
  have hl : tl < 4294967296 := by omega
  have hh : th ≤ 4294967294 := by omega
  clear htl hth
  subst ht
  clear hp
  refine ⟨⟨Nat.mod_lt _ (by decide), Nat.mod_lt _ (by decide), Nat.mod_lt _ (by decide)⟩, ?_⟩
  obtain ⟨th2, e1, e1', e1''⟩ : ∃ th2, (th + th) % 4294967296 = th2 ∧
      th + th = th2 + 4294967296 * (if th2 < th then 1 else 0) ∧ th2 % 2 = 0 ∧ th2 < 4294967296 := by
    refine ⟨_, rfl, ?_, ?_, ?_⟩ <;> (try split_ifs) <;> omega
  obtain ⟨tl2, e2, e2', e2''⟩ : ∃ tl2, (tl + tl) % 4294967296 = tl2 ∧
      tl + tl = tl2 + 4294967296 * (if tl2 < tl then 1 else 0) ∧ tl2 < 4294967296 := by
    refine ⟨_, rfl, ?_, ?_⟩ <;> (try split_ifs) <;> omega
  simp only [e1, e2]
  clear e1 e2
  generalize hi1 : (if th2 < th then 1 else 0) = i1 at *
  generalize hi2 : (if tl2 < tl then 1 else 0) = i2 at *
  have b1 : i1 ≤ 1 := by rw [← hi1]; split_ifs <;> omega
  have b2 : i2 ≤ 1 := by rw [← hi2]; split_ifs <;> omega
  clear hi1 hi2
  obtain ⟨z0, e3, e3', e3''⟩ : ∃ z0, (c.c0 + tl2) % 4294967296 = z0 ∧
      c.c0 + tl2 = z0 + 4294967296 * (if z0 < tl2 then 1 else 0) ∧ z0 < 4294967296 := by
    refine ⟨_, rfl, ?_, ?_⟩ <;> (try split_ifs) <;> omega
  simp only [e3, Nat.mod_eq_of_lt (show th2 + i2 < 4294967296 by omega)]
  clear e3
  obtain ⟨x, e4, e4', e4''⟩ : ∃ x, (th2 + i2 + if z0 < tl2 then 1 else 0) % 4294967296 = x ∧
      th2 + i2 + (if z0 < tl2 then 1 else 0) = x + 4294967296 * (if z0 < tl2 ∧ x = 0 then 1 else 0) ∧ x < 4294967296 := by
    refine ⟨_, rfl, ?_, ?_⟩ <;> (try split_ifs) <;> omega
  simp only [e4]
  clear e4
  obtain ⟨y, e5, e5', e5''⟩ : ∃ y, (c.c1 + x) % 4294967296 = y ∧
      c.c1 + x = y + 4294967296 * (if y < x then 1 else 0) ∧ y < 4294967296 := by
    refine ⟨_, rfl, ?_, ?_⟩ <;> (try split_ifs) <;> omega
  simp only [e5]
  clear e5
  generalize (if z0 < tl2 ∧ x = 0 then 1 else 0) = i4 at *
  generalize (if z0 < tl2 then 1 else 0) = i3 at *
  generalize (if y < x then 1 else 0) = i5 at *
  omega

theorem sumadd_eq {c : Acc96} (hc : AccFits c) {a : Nat} (ha : a < 4294967296)
    (h : accNat c + a < 79228162514264337593543950336) : AccFits (sumadd c a) ∧ accNat (sumadd c a) = accNat c + a := by
  obtain ⟨h0, h1, h2⟩ := hc
  simp only [sumadd, accNat] at h ⊢
  simp only [u32_eq]
  obtain ⟨z0, i0, e1, e2, e3, e4, e5⟩ := carry32 h0 ha
  simp only [e1, e2]
  obtain ⟨z1, i1, f1, f2, f3, f4, f5⟩ := carry32 h1 (show i0 < 4294967296 by omega)
  simp only [f1, f2]
  clear e1 e2 f1 f2
  refine ⟨⟨e4, f4, Nat.mod_lt _ (by decide)⟩, by omega⟩

theorem sumaddFast_eq {c : Acc96} (hc : AccFits c) {a : Nat} (ha : a < 4294967296)
    (h : accNat c + a < 18446744073709551616) : AccFits (sumaddFast c a) ∧ accNat (sumaddFast c a) = accNat c + a := by
  obtain ⟨h0, h1, h2⟩ := hc
  simp only [sumaddFast, accNat] at h ⊢
  simp only [u32_eq]
  obtain ⟨z0, i0, e1, e2, e3, e4, e5⟩ := carry32 h0 ha
  simp only [e1, e2]
  clear e1 e2
  refine ⟨⟨e4, Nat.mod_lt _ (by decide), h2⟩, by omega⟩

/-- What operations add to the accumulator, as a number. -/
def opsSum : List AccOp → Nat
  | [] => 0
  | .muladd a b :: l => a * b + opsSum l
  | .muladdFast a b :: l => a * b + opsSum l
  | .muladd2 a b :: l => 2 * (a * b) + opsSum l
  | .sumadd a :: l => a + opsSum l
  | .sumaddFast a :: l => a + opsSum l
  | .extract :: l => 4294967296 * opsSum l
  | .extractFast :: l => 4294967296 * opsSum l

/-- The number of digits of 32 bits. -/
def digitsNat : List Nat → Nat
  | [] => 0
  | d :: l => d + 4294967296 * digitsNat l

/-- How many digits are extracted. -/
def opsLength : List AccOp → Nat
  | [] => 0
  | .extract :: l => opsLength l + 1
  | .extractFast :: l => opsLength l + 1
  | _ :: l => opsLength l

/-- The same operation with arguments that are not larger. -/
inductive OpLe : AccOp → AccOp → Prop
  | muladd {a b x y : Nat} : a ≤ x → b ≤ y → OpLe (.muladd a b) (.muladd x y)
  | muladdFast {a b x y : Nat} : a ≤ x → b ≤ y → OpLe (.muladdFast a b) (.muladdFast x y)
  | muladd2 {a b x y : Nat} : a ≤ x → b ≤ y → OpLe (.muladd2 a b) (.muladd2 x y)
  | sumadd {a x : Nat} : a ≤ x → OpLe (.sumadd a) (.sumadd x)
  | sumaddFast {a x : Nat} : a ≤ x → OpLe (.sumaddFast a) (.sumaddFast x)
  | extract : OpLe .extract .extract
  | extractFast : OpLe .extractFast .extractFast

/-- The bound of the accumulator after operations that are bounded, if nothing overflows. -/
def opsBound : List AccOp → Nat → Option Nat
  | [], b => some b
  | .muladd x y :: l, b =>
    if x < 4294967296 ∧ y < 4294967296 ∧ b + x * y < 79228162514264337593543950336 then opsBound l (b + x * y) else none
  | .muladdFast x y :: l, b =>
    if x < 4294967296 ∧ y < 4294967296 ∧ b + x * y < 18446744073709551616 then opsBound l (b + x * y) else none
  | .muladd2 x y :: l, b =>
    if x < 4294967296 ∧ y < 4294967296 ∧ b + 2 * (x * y) < 79228162514264337593543950336 then opsBound l (b + 2 * (x * y)) else none
  | .sumadd x :: l, b => if x < 4294967296 ∧ b + x < 79228162514264337593543950336 then opsBound l (b + x) else none
  | .sumaddFast x :: l, b => if x < 4294967296 ∧ b + x < 18446744073709551616 then opsBound l (b + x) else none
  | .extract :: l, b => opsBound l (b / 4294967296)
  | .extractFast :: l, b => if b < 18446744073709551616 then opsBound l (b / 4294967296) else none

theorem runOps_eq {ops bops : List AccOp} (hl : List.Forall₂ OpLe ops bops) : ∀ {c : Acc96} {b B : Nat}, AccFits c → accNat c ≤ b →
    opsBound bops b = some B → AccFits (runOps ops c).2 ∧ accNat (runOps ops c).2 ≤ B ∧
      (∀ d ∈ (runOps ops c).1, d < 4294967296) ∧ (runOps ops c).1.length = opsLength ops ∧
      digitsNat (runOps ops c).1 + 4294967296 ^ opsLength ops * accNat (runOps ops c).2 = accNat c + opsSum ops := by
  induction hl with
  | nil =>
    intro c b B hc hb hB
    cases hB
    exact ⟨hc, hb, (fun _ h => nomatch h), rfl, by simp [runOps, digitsNat, opsLength, opsSum]⟩
  | cons ho _ ih =>
    intro c b B hc hb hB
    cases ho with
    | muladd h1 h2 =>
      rw [opsBound] at hB
      split at hB
      · rename_i h
        obtain ⟨hx, hy, h⟩ := h
        have hp := Nat.mul_le_mul h1 h2
        obtain ⟨f, e⟩ := muladd_eq hc (lt_of_le_of_lt h1 hx) (lt_of_le_of_lt h2 hy) (by omega)
        obtain ⟨i1, i2, i3, i4, i5⟩ := ih f (by omega) hB
        exact ⟨i1, i2, i3, i4, by rw [runOps, opsLength, opsSum, i5, e, Nat.add_assoc] <;> (intros; contradiction)⟩
      · cases hB
    | muladdFast h1 h2 =>
      rw [opsBound] at hB
      split at hB
      · rename_i h
        obtain ⟨hx, hy, h⟩ := h
        have hp := Nat.mul_le_mul h1 h2
        obtain ⟨f, e⟩ := muladdFast_eq hc (lt_of_le_of_lt h1 hx) (lt_of_le_of_lt h2 hy) (by omega)
        obtain ⟨i1, i2, i3, i4, i5⟩ := ih f (by omega) hB
        exact ⟨i1, i2, i3, i4, by rw [runOps, opsLength, opsSum, i5, e, Nat.add_assoc] <;> (intros; contradiction)⟩
      · cases hB
    | muladd2 h1 h2 =>
      rw [opsBound] at hB
      split at hB
      · rename_i h
        obtain ⟨hx, hy, h⟩ := h
        have hp := Nat.mul_le_mul h1 h2
        obtain ⟨f, e⟩ := muladd2_eq hc (lt_of_le_of_lt h1 hx) (lt_of_le_of_lt h2 hy) (by omega)
        obtain ⟨i1, i2, i3, i4, i5⟩ := ih f (by omega) hB
        exact ⟨i1, i2, i3, i4, by rw [runOps, opsLength, opsSum, i5, e, Nat.add_assoc] <;> (intros; contradiction)⟩
      · cases hB
    | sumadd h1 =>
      rw [opsBound] at hB
      split at hB
      · rename_i h
        obtain ⟨hx, h⟩ := h
        obtain ⟨f, e⟩ := sumadd_eq hc (lt_of_le_of_lt h1 hx) (by omega)
        obtain ⟨i1, i2, i3, i4, i5⟩ := ih f (by omega) hB
        exact ⟨i1, i2, i3, i4, by rw [runOps, opsLength, opsSum, i5, e, Nat.add_assoc] <;> (intros; contradiction)⟩
      · cases hB
    | sumaddFast h1 =>
      rw [opsBound] at hB
      split at hB
      · rename_i h
        obtain ⟨hx, h⟩ := h
        obtain ⟨f, e⟩ := sumaddFast_eq hc (lt_of_le_of_lt h1 hx) (by omega)
        obtain ⟨i1, i2, i3, i4, i5⟩ := ih f (by omega) hB
        exact ⟨i1, i2, i3, i4, by rw [runOps, opsLength, opsSum, i5, e, Nat.add_assoc] <;> (intros; contradiction)⟩
      · cases hB
    | extract =>
      rw [opsBound] at hB
      obtain ⟨h0, h1, h2⟩ := hc
      have hb' : accNat (⟨c.c1, c.c2, 0⟩ : Acc96) ≤ b / 4294967296 := by simp only [accNat] at hb ⊢; omega
      obtain ⟨i1, i2, i3, i4, i5⟩ := ih (c := ⟨c.c1, c.c2, 0⟩) ⟨h1, h2, Nat.succ_pos _⟩ hb' hB
      refine ⟨i1, i2, ?_, by simp [runOps, opsLength, i4], ?_⟩
      · simp only [runOps, List.mem_cons]
        rintro d (rfl | h)
        · exact h0
        · exact i3 d h
      · simp only [runOps, opsLength, opsSum, digitsNat, pow_succ]
        simp only [accNat] at i5 ⊢
        linear_combination 4294967296 * i5
    | extractFast =>
      rw [opsBound] at hB
      split at hB
      · rename_i h
        obtain ⟨h0, h1, h2⟩ := hc
        have h20 : c.c2 = 0 := by simp only [accNat] at hb; omega
        have hb' : accNat (⟨c.c1, 0, c.c2⟩ : Acc96) ≤ b / 4294967296 := by simp only [accNat] at hb ⊢; omega
        obtain ⟨i1, i2, i3, i4, i5⟩ := ih (c := ⟨c.c1, 0, c.c2⟩) ⟨h1, Nat.succ_pos _, h2⟩ hb' hB
        refine ⟨i1, i2, ?_, by simp [runOps, opsLength, i4], ?_⟩
        · simp only [runOps, List.mem_cons]
          rintro d (rfl | h)
          · exact h0
          · exact i3 d h
        · simp only [runOps, opsLength, opsSum, digitsNat, pow_succ]
          simp only [accNat] at i5 ⊢
          rw [h20] at i5 ⊢
          linear_combination 4294967296 * i5
      · cases hB

theorem digitsNat_append (l : List Nat) (d : Nat) : digitsNat (l ++ [d]) = digitsNat l + 4294967296 ^ l.length * d := by
  induction l with
  | nil => simp [digitsNat]
  | cons x l ih =>
    simp only [List.cons_append, digitsNat, ih, List.length_cons, pow_succ]
    ring

/-- The operations without overflow, with the low part of the accumulator as the last digit. -/
theorem runOps_last {ops bops : List AccOp} (hl : List.Forall₂ OpLe ops bops) {c : Acc96} {b B : Nat} (hc : AccFits c) (hb : accNat c ≤ b)
    (hB : opsBound bops b = some B) (hlast : B < 4294967296) :
    (∀ d ∈ (runOps ops c).1 ++ [(runOps ops c).2.c0], d < 4294967296) ∧ (runOps ops c).1.length = opsLength ops ∧
      (runOps ops c).2.c0 ≤ B ∧ digitsNat ((runOps ops c).1 ++ [(runOps ops c).2.c0]) = accNat c + opsSum ops := by
  obtain ⟨h1, h2, h3, h4, h5⟩ := runOps_eq hl hc hb hB
  have e : accNat (runOps ops c).2 = (runOps ops c).2.c0 := by simp only [accNat] at h2 ⊢; omega
  rw [e] at h2 h5
  refine ⟨?_, h4, h2, by rw [digitsNat_append, h4, h5]⟩
  intro d hd
  rcases List.mem_append.1 hd with hd | hd
  · exact h3 d hd
  · rw [List.mem_singleton.1 hd]
    exact h1.h0

/-- The largest limbs. -/
def fullLimbs : Sc := ⟨0xFFFFFFFF, 0xFFFFFFFF, 0xFFFFFFFF, 0xFFFFFFFF, 0xFFFFFFFF, 0xFFFFFFFF, 0xFFFFFFFF, 0xFFFFFFFF⟩

/-- The limbs as bounds. -/
theorem full_le {a : Sc} (ha : ScFits a) : a.d0 ≤ 0xFFFFFFFF ∧ a.d1 ≤ 0xFFFFFFFF ∧ a.d2 ≤ 0xFFFFFFFF ∧ a.d3 ≤ 0xFFFFFFFF ∧
    a.d4 ≤ 0xFFFFFFFF ∧ a.d5 ≤ 0xFFFFFFFF ∧ a.d6 ≤ 0xFFFFFFFF ∧ a.d7 ≤ 0xFFFFFFFF := by
  obtain ⟨a0, a1, a2, a3, a4, a5, a6, a7⟩ := ha
  omega

macro "ops_le" : tactic => `(tactic| repeat' first
  | assumption | exact .nil | exact .extract | exact .extractFast | apply List.Forall₂.cons | apply OpLe.muladd | apply OpLe.muladdFast
  | apply OpLe.muladd2 | apply OpLe.sumadd | apply OpLe.sumaddFast)

theorem mulOps_le {a b : Sc} (ha : ScFits a) (hb : ScFits b) : List.Forall₂ OpLe (mulOps a b) (mulOps fullLimbs fullLimbs) := by
  obtain ⟨a0, a1, a2, a3, a4, a5, a6, a7⟩ := full_le ha
  obtain ⟨b0, b1, b2, b3, b4, b5, b6, b7⟩ := full_le hb
  simp only [mulOps, fullLimbs]
  ops_le

theorem sqrOps_le {a : Sc} (ha : ScFits a) : List.Forall₂ OpLe (sqrOps a) (sqrOps fullLimbs) := by
  obtain ⟨a0, a1, a2, a3, a4, a5, a6, a7⟩ := full_le ha
  simp only [sqrOps, fullLimbs]
  ops_le

theorem mulOps_sum (a b : Sc) : opsSum (mulOps a b) = scNat a * scNat b := by
  simp only [mulOps, opsSum, scNat]
  ring

theorem sqrOps_sum (a : Sc) : opsSum (sqrOps a) = scNat a ^ 2 := by
  simp only [sqrOps, opsSum, scNat]
  ring

theorem mul512_eq {a b : Sc} (ha : ScFits a) (hb : ScFits b) : (scMul512 a b).length = 16 ∧ (∀ d ∈ scMul512 a b, d < 4294967296) ∧
    digitsNat (scMul512 a b) = scNat a * scNat b := by
  obtain ⟨h1, h2, _, h4⟩ := runOps_last (mulOps_le ha hb) (c := ⟨0, 0, 0⟩) (b := 0) (B := 4294967295) ⟨by decide, by decide, by decide⟩
    (by decide) (by decide +kernel) (by decide)
  refine ⟨?_, h1, ?_⟩
  · simp only [scMul512, List.length_append, h2, List.length_singleton]
    rfl
  · rw [mulOps_sum] at h4
    rw [scMul512, h4]
    exact Nat.zero_add _

theorem sqr512_eq {a : Sc} (ha : ScFits a) : (scSqr512 a).length = 16 ∧ (∀ d ∈ scSqr512 a, d < 4294967296) ∧
    digitsNat (scSqr512 a) = scNat a ^ 2 := by
  obtain ⟨h1, h2, _, h4⟩ := runOps_last (sqrOps_le ha) (c := ⟨0, 0, 0⟩) (b := 0) (B := 4294967295) ⟨by decide, by decide, by decide⟩
    (by decide) (by decide +kernel) (by decide)
  refine ⟨?_, h1, ?_⟩
  · simp only [scSqr512, List.length_append, h2, List.length_singleton]
    rfl
  · rw [sqrOps_sum] at h4
    rw [scSqr512, h4]
    exact Nat.zero_add _

/-! ## Reduction -/

/-- `2 ^ 256` minus the order. -/
local notation "restN" => 0x14551231950B75FC4402DA1732FC9BEBF

theorem restN_eq : curveN + restN = 2 ^ 256 := by decide

theorem reduce_zero {r : Sc} {t : Nat} (hr : ScFits r) (h : scNat r = t) :
    Scalar (scReduce r (u32 (0 + (scCheckOverflow r).toNat))) ∧
      scNat (scReduce r (u32 (0 + (scCheckOverflow r).toNat))) = t % curveN := by
  have e : u32 (0 + (scCheckOverflow r).toNat) = (scCheckOverflow r).toNat := by
    rw [Nat.zero_add]
    exact u32_of_lt (lt_of_le_of_lt (Bool.toNat_le _) (by decide))
  rw [e, ← h]
  exact reduce_scalar hr

theorem over_numbers {A t N R M : Nat} (hN : N + R = M) (hR : 4 * R < N) (h : A + M = t) (ht : t < M + 3 * R) :
    A < N ∧ t % N = t - N ∧ (A + (M - N)) % M = t - N ∧ t - N < N := by
  refine ⟨by omega, ?_, ?_, by omega⟩
  · rw [Nat.mod_eq_sub_mod (by omega), Nat.mod_eq_of_lt (by omega)]
  · rw [Nat.mod_eq_of_lt (by omega)]; omega

theorem reduce_one {r : Sc} {t : Nat} (hr : ScFits r) (h : scNat r + 2 ^ 256 = t) (ht : t < 2 ^ 256 + 3 * restN) :
    Scalar (scReduce r (u32 (1 + (scCheckOverflow r).toNat))) ∧
      scNat (scReduce r (u32 (1 + (scCheckOverflow r).toNat))) = t % curveN := by
  obtain ⟨a1, a2, a3, a4⟩ := over_numbers (show curveN + restN = 2 ^ 256 by decide) (by decide) h ht
  have ho : scCheckOverflow r = false := by
    rw [← Bool.not_eq_true, checkOverflow_eq hr, not_le]
    exact a1
  rw [ho, show u32 (1 + false.toNat) = 1 from rfl]
  obtain ⟨k1, k2⟩ := reduce_eq hr (o := 1) (by decide)
  rw [Nat.one_mul, a3] at k2
  exact ⟨⟨k1, by rw [k2]; exact a4⟩, by rw [k2, a2]⟩

theorem carry_small {c A t : Nat} (h : A + 2 ^ 256 * c = t) (ht : t < 2 ^ 256 + 3 * restN) : c = 0 ∨ c = 1 := by omega

theorem reduce_last {r : Sc} {c t : Nat} (hr : ScFits r) (h : scNat r + 2 ^ 256 * c = t) (ht : t < 2 ^ 256 + 3 * restN) :
    Scalar (scReduce r (u32 (c + (scCheckOverflow r).toNat))) ∧
      scNat (scReduce r (u32 (c + (scCheckOverflow r).toNat))) = t % curveN := by
  rcases carry_small h ht with rfl | rfl
  · rw [Nat.mul_zero, Nat.add_zero] at h
    exact reduce_zero hr h
  · rw [Nat.mul_one] at h
    exact reduce_one hr h ht

/-- Eight digits from the place `k` on. -/
def eight (f : Nat → Nat) (k : Nat) : Nat :=
  f k + f (k + 1) * 2 ^ 32 + f (k + 2) * 2 ^ 64 + f (k + 3) * 2 ^ 96 + f (k + 4) * 2 ^ 128 + f (k + 5) * 2 ^ 160 +
    f (k + 6) * 2 ^ 192 + f (k + 7) * 2 ^ 224

/-- Five digits from the place `k` on. -/
def five (f : Nat → Nat) (k : Nat) : Nat :=
  f k + f (k + 1) * 2 ^ 32 + f (k + 2) * 2 ^ 64 + f (k + 3) * 2 ^ 96 + f (k + 4) * 2 ^ 128

theorem eight_lt {f : Nat → Nat} (k : Nat) (h : ∀ i, f i < 4294967296) : eight f k < 2 ^ 256 := by
  have h0 := h k
  have h1 := h (k + 1)
  have h2 := h (k + 2)
  have h3 := h (k + 3)
  have h4 := h (k + 4)
  have h5 := h (k + 5)
  have h6 := h (k + 6)
  have h7 := h (k + 7)
  simp only [eight]
  omega

theorem foldOps_sum (f : Nat → Nat) : f 0 + opsSum (foldOps orderComplement f) = eight f 0 + eight f 8 * restN := by
  rw [orderComplement_eq]
  simp only [foldOps, opsSum, eight]
  ring

theorem foldOps2_sum (f : Nat → Nat) : f 0 + (opsSum (foldOps2 orderComplement f) + 2 ^ 256 * f 12) = eight f 0 + five f 8 * restN := by
  rw [orderComplement_eq]
  simp only [foldOps2, opsSum, eight, five]
  ring

theorem foldOps_le {f : Nat → Nat} (h : ∀ i, f i ≤ 0xFFFFFFFF) (c : Sc) :
    List.Forall₂ OpLe (foldOps c f) (foldOps c fun _ => 0xFFFFFFFF) := by
  simp only [foldOps]
  repeat' first
    | exact h _ | exact le_rfl | exact .nil | exact .extract | exact .extractFast | apply List.Forall₂.cons | apply OpLe.muladd
    | apply OpLe.muladdFast | apply OpLe.muladd2 | apply OpLe.sumadd | apply OpLe.sumaddFast

theorem foldOps2_le {f : Nat → Nat} (h : ∀ i, f i ≤ 0xFFFFFFFF) (h12 : f 12 ≤ 1) (c : Sc) :
    List.Forall₂ OpLe (foldOps2 c f) (foldOps2 c fun i => if i = 12 then 1 else 0xFFFFFFFF) := by
  simp only [foldOps2]
  repeat' first
    | exact h12 | exact h _ | exact le_rfl | exact .nil | exact .extract | exact .extractFast | apply List.Forall₂.cons | apply OpLe.muladd
    | apply OpLe.muladdFast | apply OpLe.muladd2 | apply OpLe.sumadd | apply OpLe.sumaddFast

theorem getD_lt {l : List Nat} (h : ∀ d ∈ l, d < 4294967296) (i : Nat) : l.getD i 0 < 4294967296 := by
  rw [List.getD_eq_getElem?_getD]
  cases hi : l[i]? with
  | none => simp
  | some d => exact h d (List.mem_of_getElem? hi)

theorem digits16 {l : List Nat} (h : l.length = 16) :
    digitsNat l = eight (fun i => l.getD i 0) 0 + 2 ^ 256 * eight (fun i => l.getD i 0) 8 := by
  match l, h with
  | [a0, a1, a2, a3, a4, a5, a6, a7, a8, a9, a10, a11, a12, a13, a14, a15], _ =>
    simp only [digitsNat, eight, List.getD_cons_zero, List.getD_cons_succ, Nat.zero_add, Nat.reduceAdd]
    ring

theorem digits13 {l : List Nat} (h : l.length = 13) :
    digitsNat l = eight (fun i => l.getD i 0) 0 + 2 ^ 256 * five (fun i => l.getD i 0) 8 := by
  match l, h with
  | [a0, a1, a2, a3, a4, a5, a6, a7, a8, a9, a10, a11, a12], _ =>
    simp only [digitsNat, eight, five, List.getD_cons_zero, List.getD_cons_succ, Nat.zero_add, Nat.reduceAdd]
    ring

theorem digits8 {l : List Nat} (h : l.length = 8) : digitsNat l = eight (fun i => l.getD i 0) 0 := by
  match l, h with
  | [a0, a1, a2, a3, a4, a5, a6, a7], _ =>
    simp only [digitsNat, eight, List.getD_cons_zero, List.getD_cons_succ, Nat.zero_add]
    ring

end Verif.Proofs
