import Verif.Model.CGen
import Verif.Proofs.CEcdsa
import Verif.Proofs.CHash
import Verif.Props.CGroup
import Verif.Props.Curve
/-!
# Multiples of the base point in the C library: lemmas
-/

namespace Verif.Proofs
open Verif Verif.C Verif.Spec Verif.Props WeierstrassCurve

/-! ## The inverses of many elements -/

theorem invAllFrom_eq : ∀ (l : List Fe) (k : Nat) (prev : Fe) (v : SecpF), k ≤ 8 → Is k prev v → v ≠ 0 →
    (∀ x ∈ l, Mag 8 x ∧ feVal x ≠ 0) →
    Is 1 (feInvAllFrom prev l).2 v⁻¹ ∧ List.Forall₂ (fun x r => Is 1 r (feVal x)⁻¹) l (feInvAllFrom prev l).1 := by
  intro l
  induction l with
  | nil => intro k prev v hk hp _ _; exact ⟨hp.inv hk, List.Forall₂.nil⟩
  | cons x l ih =>
    intro k prev v hk hp hv hl
    obtain ⟨hx, hx0⟩ := hl x List.mem_cons_self
    obtain ⟨h1, h2⟩ := ih 1 (feMul prev x) (v * feVal x) (by decide) (hp.mul (Is.of hx) hk (by decide)) (mul_ne_zero hv hx0)
      (fun y hy => hl y (List.mem_cons_of_mem _ hy))
    have e1 := h1.mul (Is.of hx) (by decide) (by decide)
    have e2 := hp.mul h1 hk (by decide)
    rw [show (v * feVal x)⁻¹ * feVal x = v⁻¹ by field_simp] at e1
    rw [show v * (v * feVal x)⁻¹ = (feVal x)⁻¹ by field_simp] at e2
    exact ⟨e1, List.Forall₂.cons e2 h2⟩

theorem invAll_eq (l : List Fe) (hl : ∀ x ∈ l, Mag 8 x ∧ feVal x ≠ 0) : List.Forall₂ (fun x r => Is 1 r (feVal x)⁻¹) l (feInvAll l) := by
  cases l with
  | nil => exact List.Forall₂.nil
  | cons x l =>
    obtain ⟨hx, hx0⟩ := hl x List.mem_cons_self
    obtain ⟨h1, h2⟩ := invAllFrom_eq l 8 x (feVal x) (by decide) (Is.of hx) hx0 (fun y hy => hl y (List.mem_cons_of_mem _ hy))
    exact List.Forall₂.cons h1 h2

/-- A point that is not zero, in Jacobian coordinates. -/
structure Finite (g : Gej) (q : secp.Point) : Prop where
  mag : GejMag g
  rep : GejRep 1 g q
  fin : g.infinity = false

theorem Finite.z_ne {g : Gej} {q : secp.Point} (h : Finite g q) : feVal g.z ≠ 0 := by
  have := rep_jac (by simp [h.fin]) h.rep
  rw [mul_one] at this
  exact this.1

/-- A point that is not zero, in affine coordinates. -/
structure FiniteGe (g : Ge) (q : secp.Point) : Prop where
  mag : GeMag g
  rep : GeRep 1 g q
  fin : g.infinity = false

theorem setAllFrom_eq (mem : Nat → Ge) : ∀ (as : List Gej) (qs : List secp.Point) (azi : List Fe) (i : Nat), List.Forall₂ Finite as qs →
    List.Forall₂ (fun x r => Is 1 r (feVal x)⁻¹) (as.map (·.z)) azi → List.Forall₂ FiniteGe (setAllFrom mem i as azi) qs := by
  intro as
  induction as with
  | nil => intro qs azi i h _; cases h; exact List.Forall₂.nil
  | cons a as ih =>
    intro qs azi i h hz
    cases h with
    | cons h hs =>
      cases hz with
      | @cons _ z _ zs hz hzs =>
        rw [setAllFrom, if_neg (by simp [h.fin])]
        have hk : a.infinity = false → feVal z ≠ 0 ∧ feVal a.z * 1 * feVal z = 1 := fun _ => by
          rw [hz.val]
          exact ⟨inv_ne_zero h.z_ne, by rw [mul_one]; exact mul_inv_cancel₀ h.z_ne⟩
        obtain ⟨h1, h2, h3⟩ := zinv_eq h.mag (hz.up (by decide)).mag h.rep hk
        refine List.Forall₂.cons ⟨⟨mag_mono (by decide) h1, mag_mono (by decide) h2⟩, h3, ?_⟩ (ih _ _ _ hs hzs)
        show a.infinity = false
        exact h.fin

theorem setAll_eq (mem : Nat → Ge) (as : List Gej) (qs : List secp.Point) (h : List.Forall₂ Finite as qs) :
    List.Forall₂ FiniteGe (geSetAllGej mem as) qs := by
  have hf : ∀ a ∈ as, ∃ q, Finite a q := by
    intro a ha
    induction h with
    | nil => cases ha
    | cons h _ ih =>
      rcases List.mem_cons.1 ha with rfl | ha
      · exact ⟨_, h⟩
      · exact ih ha
  rw [geSetAllGej, List.filter_eq_self.2 (fun a ha => by obtain ⟨q, h⟩ := hf a ha; simp [h.fin])]
  refine setAllFrom_eq mem as qs _ 0 h (invAll_eq _ ?_)
  intro z hz
  obtain ⟨a, ha, rfl⟩ := List.mem_map.1 hz
  obtain ⟨q, h⟩ := hf a ha
  exact ⟨h.mag.z, h.z_ne⟩

/-! ## The points of the table -/

theorem addVar_junk {r r' a b : Gej} (ha : a.infinity = false) (hb : b.infinity = false)
    (h : (gejAddVar r' a b).1.infinity = false) : gejAddVar r a b = gejAddVar r' a b := by
  simp only [gejAddVar, ha, hb, Bool.false_eq_true, if_false] at h ⊢
  split
  case isFalse h1 => rfl
  case isTrue h1 =>
    rw [if_pos h1] at h
    split
    case isTrue h2 => rw [gejDoubleVar, gejDoubleVar, if_neg (by simp [ha]), if_neg (by simp [ha])]
    case isFalse h2 =>
      rw [if_neg h2] at h
      cases h

theorem rep_fin {g : Gej} {q : secp.Point} (h : GejRep 1 g q) (h0 : q ≠ 0) : g.infinity = false := by
  cases hi : g.infinity
  · rfl
  · exact absurd ((gej_infinity h).1 hi) h0

theorem Finite.ne {g : Gej} {q : secp.Point} (h : Finite g q) : q ≠ 0 := fun e => by
  have := (gej_infinity h.rep).2 e
  rw [h.fin] at this
  cases this

theorem addVar_fin {r a b : Gej} {q1 q2 : secp.Point} (ha : Finite a q1) (hb : Finite b q2) (h : q1 + q2 ≠ 0) :
    Finite (gejAddVar r a b).1 (q1 + q2) := by
  obtain ⟨g1, g2, -⟩ := addVar_eq ha.mag ha.mag hb.mag ha.rep hb.rep
  have hf := rep_fin g2 h
  rw [addVar_junk (r' := a) ha.fin hb.fin hf]
  exact ⟨g1, g2, hf⟩

/-- Lines 64-67 on points. -/
def rowPoints (Q : secp.Point) : (n : Nat) → secp.Point → List secp.Point
  | 0, P => [P]
  | n + 1, P => P :: rowPoints Q n (P + Q)

theorem genRow_eq {mem : Nat → Gej} {gbase : Gej} {Q : secp.Point} (hQ : Finite gbase Q) : ∀ (n k : Nat) (p : Gej) (P : secp.Point),
    Finite p P → (∀ X ∈ rowPoints Q n P, X ≠ 0) → List.Forall₂ Finite (genRow mem gbase n k p) (rowPoints Q n P) := by
  intro n
  induction n with
  | zero => intro k p P h _; exact List.Forall₂.cons h List.Forall₂.nil
  | succ n ih =>
    intro k p P h hne
    have h1 : P + Q ≠ 0 := by
      apply hne
      rw [rowPoints]
      apply List.mem_cons_of_mem
      cases n <;> exact List.mem_cons_self
    exact List.Forall₂.cons h (ih (k + 1) _ (P + Q) (addVar_fin h hQ h1) (fun X hX => hne X (List.mem_cons_of_mem _ hX)))

theorem double_fin {a : Gej} {q : secp.Point} (h : Finite a q) : Finite (gejDoubleVar a a).1 (q + q) := by
  obtain ⟨d1, d2, -, d4, -⟩ := double_eq (fun _ => h.mag) h.mag h.rep
  exact ⟨d1, d2, d4.trans h.fin⟩

theorem doubleTimes_fin : ∀ (n : Nat) {a : Gej} {q : secp.Point}, Finite a q → Finite (doubleTimes n a) (2 ^ n • q) := by
  intro n
  induction n with
  | zero => intro a q h; rw [pow_zero, one_nsmul]; exact h
  | succ n ih =>
    intro a q h
    rw [doubleTimes, pow_succ, mul_nsmul', two_nsmul]
    exact ih (double_fin h)

/-- Lines 73-78 on points. -/
def nextPoint (U : secp.Point) (j : Nat) (P : secp.Point) : secp.Point := if j = 62 then -(P + P) + U else P + P

/-- Lines 62-79 on points. -/
def rowsPoints (U : secp.Point) : (n j : Nat) → (P Q : secp.Point) → List secp.Point
  | 0, _, _, _ => []
  | n + 1, j, P, Q => rowPoints Q 15 P ++ rowsPoints U n (j + 1) (nextPoint U j P) (2 ^ 4 • Q)

/-- In no row the first point becomes zero. -/
def NextOk (U : secp.Point) : (n j : Nat) → (P : secp.Point) → Prop
  | 0, _, _ => True
  | n + 1, j, P => nextPoint U j P ≠ 0 ∧ NextOk U n (j + 1) (nextPoint U j P)

theorem genRows_eq {mem : Nat → Gej} {nums : Gej} {U : secp.Point} (hU : Finite nums U) : ∀ (n j : Nat) (a b : Gej) (P Q : secp.Point),
    Finite a P → Finite b Q → NextOk U n j P → (∀ X ∈ rowsPoints U n j P Q, X ≠ 0) →
    List.Forall₂ Finite (genRows mem nums n j a b) (rowsPoints U n j P Q) := by
  intro n
  induction n with
  | zero => intro j a b P Q _ _ _ _; exact List.Forall₂.nil
  | succ n ih =>
    intro j a b P Q ha hb hok hne
    rw [genRows, rowsPoints]
    rw [rowsPoints] at hne
    have hn : Finite (genNext nums j a) (nextPoint U j P) := by
      have h1 := double_fin ha
      have h0 := hok.1
      rw [genNext, nextPoint]
      rw [nextPoint] at h0
      by_cases hj : j = 62
      · rw [if_pos hj, if_pos hj]
        rw [if_pos hj] at h0
        obtain ⟨k1, k2⟩ := gejNeg_eq h1.mag h1.rep
        exact addVar_fin ⟨k1, k2, h1.fin⟩ hU h0
      · rw [if_neg hj, if_neg hj]
        exact h1
    exact List.rel_append (genRow_eq hb 15 _ a P ha (fun X hX => hne X (List.mem_append_left _ hX)))
      (ih (j + 1) _ _ _ _ hn (doubleTimes_fin 4 hb) hok.2 (fun X hX => hne X (List.mem_append_right _ hX)))

/-! ## None of them is zero -/

/-- The points P + Q, …, P + n Q, as the Go library adds. -/
def rowOk : (n : Nat) → (a b : Int × Int × Int) → Bool
  | 0, _, _ => true
  | n + 1, a, b =>
    let s := theCurve.addJacobian a.1 a.2.1 a.2.2 b.1 b.2.1 b.2.2
    decide (s.2.2 % theCurve.p ≠ 0) && rowOk n s b

def doubles : (n : Nat) → Int × Int × Int → Int × Int × Int
  | 0, a => a
  | n + 1, a => doubles n (theCurve.doubleJacobian a.1 a.2.1 a.2.2)

def rowsOk (u : Int × Int × Int) : (n j : Nat) → (a b : Int × Int × Int) → Bool
  | 0, _, _, _ => true
  | n + 1, j, a, b =>
    rowOk 15 a b &&
      (if j = 62 then
        let d := doubles 1 a
        let s := theCurve.addJacobian d.1 (-d.2.1) d.2.2 u.1 u.2.1 u.2.2
        decide (s.2.2 % theCurve.p ≠ 0) && rowsOk u n (j + 1) s (doubles 4 b)
      else rowsOk u n (j + 1) (doubles 1 a) (doubles 4 b))

theorem jacobian_ne {t : Int × Int × Int} {q : secp.Point} (h : Jacobian t q) : q ≠ 0 := by
  obtain ⟨x, y, n, rfl, -⟩ := h
  exact Affine.Point.some_ne_zero _

theorem jacobian_sum {a b : Int × Int × Int} {P Q : secp.Point} (ha : Jacobian a P) (hb : Jacobian b Q)
    (h : (theCurve.addJacobian a.1 a.2.1 a.2.2 b.1 b.2.1 b.2.2).2.2 % theCurve.p ≠ 0) :
    Jacobian (theCurve.addJacobian a.1 a.2.1 a.2.2 b.1 b.2.1 b.2.2) (P + Q) :=
  addJacobian_ok ha hb (fun e => h (by
    have := (cast_eq_zero _).1 e
    exact Int.emod_eq_zero_of_dvd this))

theorem jacobian_neg {a : Int × Int × Int} {P : secp.Point} (ha : Jacobian a P) : Jacobian (a.1, -a.2.1, a.2.2) (-P) := by
  obtain ⟨x, y, n, rfl, hz, hx, hy⟩ := ha
  rw [Affine.Point.neg_some]
  refine ⟨_, _, _, rfl, hz, hx, ?_⟩
  rw [negY_eq]
  push_cast
  rw [hy]
  ring

theorem rowOk_ne : ∀ (n : Nat) {a b : Int × Int × Int} {P Q : secp.Point}, Jacobian a P → Jacobian b Q → rowOk n a b = true →
    ∀ X ∈ rowPoints Q n P, X ≠ 0 := by
  intro n
  induction n with
  | zero => intro a b P Q ha _ _ X hX; rw [List.mem_singleton.1 hX]; exact jacobian_ne ha
  | succ n ih =>
    intro a b P Q ha hb h X hX
    rw [rowOk, Bool.and_eq_true] at h
    rw [rowPoints] at hX
    rcases List.mem_cons.1 hX with rfl | hX
    · exact jacobian_ne ha
    · exact ih (jacobian_sum ha hb (of_decide_eq_true h.1)) hb h.2 X hX

theorem doubles_eq : ∀ (n : Nat) {a : Int × Int × Int} {P : secp.Point}, Jacobian a P → Jacobian (doubles n a) (2 ^ n • P) := by
  intro n
  induction n with
  | zero => intro a P h; rw [pow_zero, one_nsmul]; exact h
  | succ n ih =>
    intro a P h
    rw [doubles, pow_succ, mul_nsmul', two_nsmul]
    exact ih (doubleJacobian_ok h)

theorem rowsOk_ne {u : Int × Int × Int} {U : secp.Point} (hU : Jacobian u U) : ∀ (n j : Nat) {a b : Int × Int × Int} {P Q : secp.Point},
    Jacobian a P → Jacobian b Q → rowsOk u n j a b = true → NextOk U n j P ∧ ∀ X ∈ rowsPoints U n j P Q, X ≠ 0 := by
  intro n
  induction n with
  | zero => intro j a b P Q _ _ _; exact ⟨trivial, fun X hX => (by cases hX)⟩
  | succ n ih =>
    intro j a b P Q ha hb h
    rw [rowsOk, Bool.and_eq_true] at h
    have h1 := rowOk_ne 15 ha hb h.1
    have hd : Jacobian (doubles 1 a) (P + P) := by
      have := doubles_eq 1 ha
      rw [pow_one, two_nsmul] at this
      exact this
    have h4 := doubles_eq 4 hb
    obtain ⟨h2, h3⟩ := h
    rw [NextOk, rowsPoints]
    by_cases hj : j = 62
    · rw [if_pos hj, Bool.and_eq_true] at h3
      have hs := jacobian_sum (jacobian_neg hd) hU (of_decide_eq_true h3.1)
      have hp : nextPoint U j P = -(P + P) + U := if_pos hj
      rw [hp]
      obtain ⟨k1, k2⟩ := ih (j + 1) hs h4 h3.2
      exact ⟨⟨jacobian_ne hs, k1⟩, fun X hX => (List.mem_append.1 hX).elim (h1 X) (k2 X)⟩
    · rw [if_neg hj] at h3
      have hp : nextPoint U j P = P + P := if_neg hj
      rw [hp]
      obtain ⟨k1, k2⟩ := ih (j + 1) hd h4 h3
      exact ⟨⟨jacobian_ne hd, k1⟩, fun X hX => (List.mem_append.1 hX).elim (h1 X) (k2 X)⟩

/-! ## The unknown multiple -/

/-- The coordinates of the point of lines 39-50. -/
def numsX : Int := 0x546865207363616c617220666f722074686973207820697320756e6b6e6f776e
def numsY : Int := 0x28ebb7e4e1f6a12e1c0faaf47e09c33305d50890856930e67e5299348ff7f20e

/-- The point that is added, in the coordinates of the Go library. -/
def numsJacobian : Int × Int × Int := theCurve.addJacobian numsX numsY 1 theCurve.gx theCurve.gy 1

theorem nums_values : (geSetXoVar (feSetB32 numsBytes).1 false).2 = true ∧
    feNat (feSetB32 numsBytes).1 % secpP = numsX.toNat ∧
    feNat (geSetXoVar (feSetB32 numsBytes).1 false).1.y % secpP = numsY.toNat := by
  refine ⟨?_, ?_, ?_⟩ <;> decide +kernel

theorem nums_z : numsJacobian.2.2 % theCurve.p ≠ 0 := by decide +kernel

set_option maxRecDepth 100000 in
theorem nums_rows : rowsOk numsJacobian 64 0 numsJacobian (theCurve.gx, theCurve.gy, 1) = true := by decide +kernel

theorem base_jacobian : Jacobian (theCurve.gx, theCurve.gy, 1) basePoint := Spec.HasCoords.jacobian base_coords

theorem constG_fin : Finite (gejSetGe constG) basePoint := by
  obtain ⟨h1, h2⟩ := setGe_eq constG_eq.1 constG_eq.2
  exact ⟨h1, h2, rfl⟩

theorem nums_eq : ∃ U : secp.Point, Finite numsGej U ∧ Jacobian numsJacobian U := by
  obtain ⟨v1, v2, v3⟩ := nums_values
  obtain ⟨b1, b2, -⟩ := setB32_eq (a := numsBytes) rfl
  obtain ⟨m, -, h⟩ := C106_from_x (mag_mono (by decide) b2) false
  obtain ⟨h1, h2, h3, -⟩ := h v1
  have hx : feVal (geSetXoVar (feSetB32 numsBytes).1 false).1.x = (numsX : SecpF) := by
    rw [h2, feVal, ← ZMod.natCast_mod, v2, ← Int.cast_natCast, Int.toNat_of_nonneg (by decide +kernel)]
  have hy : feVal (geSetXoVar (feSetB32 numsBytes).1 false).1.y = (numsY : SecpF) := by
    rw [feVal, ← ZMod.natCast_mod, v3, ← Int.cast_natCast, Int.toNat_of_nonneg (by decide +kernel)]
  replace h3 : secp.Nonsingular (feVal (geSetXoVar (feSetB32 numsBytes).1 false).1.x)
      (feVal (geSetXoVar (feSetB32 numsBytes).1 false).1.y) := by
    rw [congrArg feVal h2]
    exact h3
  rw [numsGej]
  clear h v1 v2 v3 h2
  generalize (geSetXoVar (feSetB32 numsBytes).1 false).1 = g at *
  have hg := point_geRep h1 h3
  have hc : HasCoords numsX numsY (.some _ _ h3) := by
    obtain ⟨h', e⟩ := some_congr (h := h3) hx hy
    exact ⟨h', e⟩
  have hj := jacobian_sum (Spec.HasCoords.jacobian hc) base_jacobian nums_z
  obtain ⟨s1, s2⟩ := setGe_eq m hg
  obtain ⟨a1, a2, -⟩ := addGeVar_eq s1 s1 constG_eq.1 s2 constG_eq.2
  have hf := rep_fin a2 (jacobian_ne hj)
  exact ⟨_, Finite.mk a1 a2 hf, hj⟩

/-! ## The table -/

theorem forall₂_getD {α β : Type} {R : α → β → Prop} {as : List α} {bs : List β} (h : List.Forall₂ R as bs) (a : α) (b : β) :
    ∀ m, m < bs.length → R (as.getD m a) (bs.getD m b) := by
  induction h with
  | nil => intro m hm; exact absurd hm (by simp)
  | cons h _ ih =>
    intro m hm
    cases m with
    | zero => exact h
    | succ m => exact ih m (by simpa using hm)

theorem rowPoints_length (Q : secp.Point) : ∀ (n : Nat) (P : secp.Point), (rowPoints Q n P).length = n + 1 := by
  intro n
  induction n with
  | zero => intro P; rfl
  | succ n ih => intro P; rw [rowPoints, List.length_cons, ih]

theorem rowPoints_getD (Q : secp.Point) : ∀ (n : Nat) (P : secp.Point) (i : Nat), i ≤ n → (rowPoints Q n P).getD i 0 = P + i • Q := by
  intro n
  induction n with
  | zero => intro P i hi; rw [Nat.le_zero.1 hi, zero_nsmul, add_zero]; rfl
  | succ n ih =>
    intro P i hi
    cases i with
    | zero => rw [zero_nsmul, add_zero]; rfl
    | succ i => rw [rowPoints, List.getD_cons_succ, ih _ i (by omega), succ_nsmul', add_assoc]

/-- The first point of a row. -/
def rowStart (U : secp.Point) (j : Nat) : secp.Point := if j = 63 then -(2 ^ 63 • U) + U else 2 ^ j • U

theorem rowStart_next (U : secp.Point) {j : Nat} (hj : j ≤ 62) : nextPoint U j (rowStart U j) = rowStart U (j + 1) := by
  rw [nextPoint, rowStart, rowStart, if_neg (show ¬ j = 63 by omega)]
  have e : 2 ^ j • U + 2 ^ j • U = 2 ^ (j + 1) • U := by rw [← two_nsmul, ← mul_nsmul', ← pow_succ']
  rw [e]
  by_cases h : j = 62
  · rw [if_pos h, if_pos (by omega), h]
  · rw [if_neg h, if_neg (by omega)]

theorem rowsPoints_length (U : secp.Point) : ∀ (n j : Nat) (P Q : secp.Point), (rowsPoints U n j P Q).length = 16 * n := by
  intro n
  induction n with
  | zero => intro j P Q; rfl
  | succ n ih => intro j P Q; rw [rowsPoints, List.length_append, rowPoints_length, ih]; omega

theorem rowsPoints_getD (U G : secp.Point) : ∀ (n j : Nat), j + n ≤ 64 → ∀ k i, k < n → i < 16 →
    (rowsPoints U n j (rowStart U j) (16 ^ j • G)).getD (16 * k + i) 0 = rowStart U (j + k) + (i * 16 ^ (j + k)) • G := by
  intro n
  induction n with
  | zero => intro j _ k i hk; exact absurd hk (by omega)
  | succ n ih =>
    intro j hj k i hk hi
    rw [rowsPoints, List.getD_eq_getElem?_getD]
    cases k with
    | zero =>
      rw [List.getElem?_append_left (by rw [rowPoints_length]; omega), ← List.getD_eq_getElem?_getD, Nat.mul_zero, Nat.zero_add,
        rowPoints_getD _ _ _ _ (by omega), Nat.add_zero, ← mul_nsmul']
    | succ k =>
      rw [List.getElem?_append_right (by rw [rowPoints_length]; omega), rowPoints_length, ← List.getD_eq_getElem?_getD,
        show 16 * (k + 1) + i - (15 + 1) = 16 * k + i by omega, rowStart_next U (by omega), ← mul_nsmul',
        show 2 ^ 4 * 16 ^ j = 16 ^ (j + 1) by rw [pow_succ' 16 j]; norm_num, ih (j + 1) (by omega) k i (by omega) hi,
        show j + 1 + k = j + (k + 1) by omega]

/-- The table of the context: at 16 j + i is the point U_j + i 16^j G, where the U_j are those of `ecmult_gen.h`. -/
structure GenTableOk (U : secp.Point) (prec : List GeStorage) : Prop where
  entry : ∀ j i, j < 64 → i < 16 → ∃ g, FiniteGe g (rowStart U j + (i * 16 ^ j) • basePoint) ∧ prec.getD (16 * j + i) default = geToStorage g

theorem genTable_eq (mem : GenMem) : ∃ U, GenTableOk U (genTable mem) := by
  obtain ⟨U, h1, h2⟩ := nums_eq
  obtain ⟨k1, k2⟩ := rowsOk_ne h2 64 0 h2 base_jacobian nums_rows
  have hr := genRows_eq (mem := mem.precj) h1 64 0 _ _ _ _ h1 constG_fin k1 k2
  have hs := setAll_eq mem.prec _ _ hr
  refine ⟨U, ⟨fun j i hj hi => ?_⟩⟩
  have hg := forall₂_getD hs default 0 (16 * j + i) (by rw [rowsPoints_length]; omega)
  have hp := rowsPoints_getD U basePoint 64 0 (by omega) j i hj hi
  have e0 : rowStart U 0 = U := by rw [rowStart, if_neg (by omega), pow_zero, one_nsmul]
  rw [e0, pow_zero, one_nsmul, Nat.zero_add] at hp
  rw [hp] at hg
  rw [genTable]
  generalize genRows mem.precj numsGej 64 0 numsGej (gejSetGe constG) = rows at hs hg
  refine ⟨_, hg, ?_⟩
  have hl : 16 * j + i < (geSetAllGej mem.prec rows).length := by
    rw [hs.length_eq, rowsPoints_length]; omega
  rw [List.getD_eq_getElem?_getD, List.getD_eq_getElem?_getD, List.getElem?_map, List.getElem?_eq_getElem hl]
  rfl

/-! ## The multiplication -/

structure GeStorageFits (s : GeStorage) : Prop where
  x : StorageFits s.x
  y : StorageFits s.y

theorem toStorage_geFits {g : Ge} (h : GeMag g) : GeStorageFits (geToStorage g) :=
  ⟨toStorage_fits (normalize_eq (by decide) h.x).1, toStorage_fits (normalize_eq (by decide) h.y).1⟩

theorem zeroStorage_fits : GeStorageFits zeroStorage := by
  constructor <;> constructor <;> decide

theorem cmov_fits {r a : GeStorage} (hr : GeStorageFits r) (ha : GeStorageFits a) (f : Bool) :
    geStorageCmov r a f.toNat = if f then a else r := by
  rw [geStorageCmov, storageCmov_eq hr.x ha.x, storageCmov_eq hr.y ha.y]
  cases f <;> rfl

theorem genMoves_eq {prec : List GeStorage} {j bits : Nat} : ∀ (n i : Nat) (adds : GeStorage), GeStorageFits adds →
    (∀ m, i ≤ m → m < i + n → GeStorageFits (prec.getD (16 * j + m) default)) →
    genMoves prec j bits n i adds = if i ≤ bits ∧ bits < i + n then prec.getD (16 * j + bits) default else adds := by
  intro n
  induction n with
  | zero => intro i adds _ _; rw [genMoves, if_neg (by omega)]
  | succ n ih =>
    intro i adds ha h
    have hi := h i (by omega) (by omega)
    rw [genMoves, cmov_fits ha hi]
    by_cases hb : i = bits
    · rw [decide_eq_true hb, if_pos rfl, ih _ _ hi (fun m h1 h2 => h m (by omega) (by omega)), if_neg (by omega), if_pos (by omega), hb]
    · rw [decide_eq_false hb, if_neg (by simp), ih _ _ ha (fun m h1 h2 => h m (by omega) (by omega))]
      by_cases hc : i + 1 ≤ bits ∧ bits < i + 1 + n
      · rw [if_pos hc, if_pos (by omega)]
      · rw [if_neg hc, if_neg (by omega)]

/-- What is added from the round `j` on. -/
noncomputable def genSum (U : secp.Point) (v : Nat) : (n j : Nat) → secp.Point
  | 0, _ => 0
  | n + 1, j => rowStart U j + (v / 16 ^ j % 16 * 16 ^ j) • basePoint + genSum U v n (j + 1)

theorem genLoop_eq {U : secp.Point} {prec : List GeStorage} (hp : GenTableOk U prec) {gnb : Sc} (hg : ScFits gnb) :
    ∀ (n j : Nat), j + n = 64 → ∀ (adds : GeStorage) (r : Gej) (R : secp.Point), GeStorageFits adds → GejMag r → GejRep 1 r R →
    GejMag (genLoop prec gnb n j adds r) ∧ GejRep 1 (genLoop prec gnb n j adds r) (R + genSum U (scNat gnb) n j) := by
  intro n
  induction n with
  | zero => intro j _ adds r R _ h1 h2; rw [genSum, add_zero]; exact ⟨h1, h2⟩
  | succ n ih =>
    intro j hj adds r R ha h1 h2
    have hb : scGetBits gnb (j * 4) 4 = scNat gnb / 16 ^ j % 16 := by
      rw [getBits_eq hg (by omega) (by omega), Nat.mul_comm, pow_mul, show 2 ^ 4 = 16 from rfl]
    have hlt : scNat gnb / 16 ^ j % 16 < 16 := Nat.mod_lt _ (by omega)
    have hm : genMoves prec j (scGetBits gnb (j * 4) 4) 16 0 adds = prec.getD (16 * j + scNat gnb / 16 ^ j % 16) default := by
      rw [genMoves_eq 16 0 adds ha, hb, if_pos (by omega)]
      intro m _ hm
      obtain ⟨g, hg, e⟩ := hp.entry j m (by omega) (by omega)
      rw [e]
      exact toStorage_geFits hg.mag
    obtain ⟨g, hg', e⟩ := hp.entry j _ (by omega) hlt
    obtain ⟨s1, s2⟩ := geStorage_eq hg'.mag hg'.fin hg'.rep
    rw [genLoop, genSum, hm, e, ← add_assoc]
    obtain ⟨a1, a2⟩ := addGe_eq h1 s1 rfl h2 s2
    exact ih (j + 1) (by omega) _ _ _ (toStorage_geFits hg'.mag) a1 a2

theorem genSum_eq (U : secp.Point) (v : Nat) : ∀ (n j : Nat), j + (n + 1) = 64 →
    genSum U v (n + 1) j = (v / 16 ^ j % 16 ^ (n + 1) * 16 ^ j) • basePoint + (U - 2 ^ j • U) := by
  intro n
  induction n with
  | zero =>
    intro j hj
    have hj' : j = 63 := by omega
    rw [genSum, genSum, add_zero, rowStart, if_pos hj', hj', zero_add, pow_one]
    abel
  | succ n ih =>
    intro j hj
    rw [genSum, ih (j + 1) (by omega), rowStart, if_neg (by omega)]
    have e1 : v / 16 ^ j % 16 ^ (n + 1 + 1) * 16 ^ j =
        v / 16 ^ j % 16 * 16 ^ j + v / 16 ^ (j + 1) % 16 ^ (n + 1) * 16 ^ (j + 1) := by
      rw [pow_succ' 16 (n + 1), Nat.mod_mul, Nat.div_div_eq_div_mul, ← pow_succ]
      ring
    rw [e1, add_nsmul, show 2 ^ (j + 1) • U = 2 ^ j • U + 2 ^ j • U by rw [pow_succ', mul_nsmul', two_nsmul]]
    abel

theorem genSum_all (U : secp.Point) {v : Nat} (hv : v < 2 ^ 256) : genSum U v 64 0 = v • basePoint := by
  rw [genSum_eq U v 63 0 (by omega), pow_zero, Nat.div_one, Nat.mul_one, pow_zero, one_nsmul, sub_self, add_zero,
    Nat.mod_eq_of_lt (by rw [show 63 + 1 = 64 from rfl, show 16 ^ 64 = 2 ^ 256 by norm_num]; exact hv)]

/-- The context computes multiples of the base point. -/
structure GenOk (ctx : GenCtx) : Prop where
  table : ∃ U, GenTableOk U ctx.prec
  blind : Scalar ctx.blind
  mag : GejMag ctx.initial
  initial : GejRep 1 ctx.initial (-(scNat ctx.blind • basePoint))

theorem nsmul_mod (n : Nat) (q : secp.Point) : (n % curveN) • q = n • q := by
  conv_rhs => rw [← Nat.mod_add_div n curveN]
  rw [add_nsmul, mul_nsmul', ← mul_nsmul', Nat.mul_comm curveN, mul_nsmul', (C80_all_points q).1, nsmul_zero, add_zero]

theorem ecmultGen_eq {ctx : GenCtx} (h : GenOk ctx) {gn : Sc} (hg : Scalar gn) :
    GejMag (ecmultGen ctx gn) ∧ GejRep 1 (ecmultGen ctx gn) (scNat gn • basePoint) := by
  obtain ⟨U, ht⟩ := h.table
  obtain ⟨a1, a2⟩ := add_sc hg h.blind
  obtain ⟨l1, l2⟩ := genLoop_eq ht a1.fits 64 0 (by omega) zeroStorage ctx.initial _ zeroStorage_fits h.mag h.initial
  refine ⟨l1, ?_⟩
  rw [ecmultGen]
  rw [genSum_all U (scNat_lt a1.fits), a2, nsmul_mod, add_nsmul, add_comm (scNat gn • _), neg_add_cancel_left] at l2
  exact l2

end Verif.Proofs
