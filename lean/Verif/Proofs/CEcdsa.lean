import Verif.Model.CEcdsa
import Verif.Spec.CEcdsa
import Verif.Proofs.CEcmult
import Verif.Proofs.CProductMore
import Verif.Proofs.Ecdsa
/-!
# Keys and signatures in the C library: proofs
-/

namespace Verif.Proofs
open Verif.C Verif.Spec Verif.Props WeierstrassCurve
open Verif.Btcec (cast_ne nsmul_cast one_iff)

/-! ## Comparison of elements -/

theorem cmpVar_eq {a b : Fe} (ha : Normal a) (hb : Normal b) : feCmpVar a b ≥ 0 ↔ feNat b ≤ feNat a := by
  obtain ⟨a0, a1, a2, a3, a4, a5, a6, a7, a8, a9, -⟩ := ha
  obtain ⟨b0, b1, b2, b3, b4, b5, b6, b7, b8, b9, -⟩ := hb
  -- one limb after the other
  have step : ∀ {x y A B k : Nat} {l : List (Nat × Nat)}, A < k → B < k → (feCmpVar.go l ≥ 0 ↔ B ≤ A) →
      (feCmpVar.go ((x, y) :: l) ≥ 0 ↔ B + y * k ≤ A + x * k) := by
    intro x y A B k l hA hB h
    rw [feCmpVar.go]
    split
    case isTrue h1 =>
      have : (y + 1) * k ≤ x * k := Nat.mul_le_mul_right k h1
      rw [Nat.add_mul] at this
      exact ⟨fun _ => by omega, fun _ => by decide⟩
    case isFalse h1 =>
      split
      case isTrue h2 =>
        have : (x + 1) * k ≤ y * k := Nat.mul_le_mul_right k h2
        rw [Nat.add_mul] at this
        exact ⟨fun h => absurd h (by decide), fun h => by omega⟩
      case isFalse h2 =>
        have : x = y := by omega
        subst this
        rw [h]
        omega
  rw [feCmpVar, feNat, feNat]
  have s0 : feCmpVar.go [(a.n0, b.n0)] ≥ 0 ↔ b.n0 ≤ a.n0 := by
    have := step (x := a.n0) (y := b.n0) (A := 0) (B := 0) (k := 1) (l := []) (by decide) (by decide) (by simp [feCmpVar.go])
    rw [this]; omega
  have s1 := step (x := a.n1) (y := b.n1) (k := 2 ^ 26) (by omega) (by omega) s0
  have s2 := step (x := a.n2) (y := b.n2) (k := 2 ^ 52) (by omega) (by omega) s1
  have s3 := step (x := a.n3) (y := b.n3) (k := 2 ^ 78) (by omega) (by omega) s2
  have s4 := step (x := a.n4) (y := b.n4) (k := 2 ^ 104) (by omega) (by omega) s3
  have s5 := step (x := a.n5) (y := b.n5) (k := 2 ^ 130) (by omega) (by omega) s4
  have s6 := step (x := a.n6) (y := b.n6) (k := 2 ^ 156) (by omega) (by omega) s5
  have s7 := step (x := a.n7) (y := b.n7) (k := 2 ^ 182) (by omega) (by omega) s6
  have s8 := step (x := a.n8) (y := b.n8) (k := 2 ^ 208) (by omega) (by omega) s7
  exact step (x := a.n9) (y := b.n9) (k := 2 ^ 234) (by omega) (by omega) s8

/-! ## Points with their coordinates -/

theorem val_normal {a : Fe} (h : Normal a) : (feVal a).val = feNat a := by
  rw [feVal, val_natCast h.lt]

/-- A point that is not infinite. -/
theorem geRep_point {g : Ge} {q : secp.Point} (hi : g.infinity = false) (h : GeRep 1 g q) : ∃ n, q = .some (feVal g.x) (feVal g.y) n := by
  rw [GeRep, if_neg (by simp [hi])] at h
  obtain ⟨-, X, Y, n, rfl, hx, hy⟩ := h
  rw [one_pow, mul_one] at hx hy
  subst hx hy
  exact ⟨n, rfl⟩

theorem point_geRep {g : Ge} (hi : g.infinity = false) (n : secp.Nonsingular (feVal g.x) (feVal g.y)) : GeRep 1 g (.some _ _ n) := by
  rw [GeRep, if_neg (by simp [hi])]
  exact ⟨one_ne_zero, _, _, n, rfl, by ring, by ring⟩

theorem gej_infinity {j : Gej} {q : secp.Point} (h : GejRep 1 j q) : j.infinity = true ↔ q = 0 := by
  rw [GejRep] at h
  split at h
  case isTrue hi => exact ⟨fun _ => h, fun _ => hi⟩
  case isFalse hi =>
    obtain ⟨-, X, Y, n, rfl, -⟩ := h
    exact ⟨fun h => absurd h hi, fun h => absurd h (Affine.Point.some_ne_zero _)⟩

/-- No point has the first coordinate zero. -/
theorem no_zero_x (y : SecpF) : ¬ secp.Nonsingular 0 y := by
  intro h
  obtain ⟨-, h2, -⟩ := setXquad_eq (x := feSetInt 0) (is_zero.up (by decide)).mag
  have h0 : (geSetXquad (feSetInt 0)).2 = false := by decide +kernel
  have : (geSetXquad (feSetInt 0)).2 = true := h2.2 ⟨y, by
    have e : feVal (feSetInt 0) = 0 := is_zero.val
    rw [e]; exact h⟩
  rw [h0] at this
  cases this

/-! ## Keys -/

theorem head_toNat {b : Bytes} {k : Nat} (hk : k < 256) (h0 : b ≠ []) : firstByte b = k ↔ b.head? = some (UInt8.ofNat k) := by
  cases b with
  | nil => exact absurd rfl h0
  | cons x l =>
    rw [firstByte, List.headD_cons, List.head?_cons, Option.some_inj]
    constructor
    · rintro rfl; simp
    · rintro rfl; simp; omega

/-- A key that is parsed. -/
structure Parsed (g : Ge) (q : secp.Point) : Prop where
  mag : GeMag g
  fin : g.infinity = false
  rep : GeRep 1 g q

theorem parsed_same {g : Ge} {q q' : secp.Point} (h : Parsed g q) (h' : Parsed g q') : q = q' := by
  obtain ⟨n, rfl⟩ := geRep_point h.fin h.rep
  obtain ⟨n', rfl⟩ := geRep_point h'.fin h'.rep
  rfl

theorem tail_take {b : Bytes} : (b.drop 1).take 32 = b.tail.take 32 := by rw [List.drop_one]

theorem pubkeyParse_some {b : Bytes} {g : Ge} (h : pubkeyParse b = some g) : ∃ q, LibKey b q ∧ Parsed g q := by
  rw [pubkeyParse] at h
  simp only at h
  split at h
  case isTrue hc =>
    obtain ⟨hl, ht⟩ := hc
    have hb : b ≠ [] := by rintro rfl; cases hl
    have hx : ((b.drop 1).take 32).length = 32 := by simp [hl]
    obtain ⟨x1, x2, x3, x4⟩ := setB32_eq hx
    split at h
    case isFalse => cases h
    case isTrue hok =>
      obtain rfl := Option.some.inj h
      rw [Bool.and_eq_true, x3] at hok
      obtain ⟨h1, h2⟩ := hok
      obtain ⟨f1, f2, f3⟩ := C106_from_x (mag_mono (m := 1) (by decide) x2) (decide (firstByte b = 3))
      obtain ⟨g1, g2, g3, g4⟩ := f3 h2
      generalize hr : (geSetXoVar (feSetB32 ((b.drop 1).take 32)).1 (decide (firstByte b = 3))).1 = r at *
      have n3 : secp.Nonsingular (feVal r.x) (feVal r.y) := by rw [g2]; exact g3
      refine ⟨_, ⟨_, _, n3, rfl, .inl ⟨hl, ?_, ?_⟩⟩, f1, g1, point_geRep g1 n3⟩
      · rw [decide_eq_true_eq] at g4
        split
        case isTrue hp => exact (head_toNat (by decide) hb).1 (g4.1 hp)
        case isFalse hp => exact (head_toNat (by decide) hb).1 (ht.resolve_right fun h => hp (g4.2 h))
      · rw [g2, val_normal (x4 h1), x1, tail_take, List.take_of_length_le (by simp [hl])]
  case isFalse hc =>
    clear hc
    split at h
    case isFalse => cases h
    case isTrue hc =>
      obtain ⟨hl, ht⟩ := hc
      have hb : b ≠ [] := by rintro rfl; cases hl
      have hx : ((b.drop 1).take 32).length = 32 := by simp [hl]
      have hy : ((b.drop 33).take 32).length = 32 := by simp [hl]
      obtain ⟨x1, x2, x3, x4⟩ := setB32_eq hx
      obtain ⟨y1, y2, y3, y4⟩ := setB32_eq hy
      split at h
      case isTrue => cases h
      case isFalse hlt =>
        rw [Bool.or_eq_true, Bool.not_eq_true', Bool.not_eq_true', not_or, Bool.not_eq_false, Bool.not_eq_false, x3, y3] at hlt
        split at h
        case isTrue => cases h
        case isFalse hp =>
          split at h
          case isFalse => cases h
          case isTrue hv =>
            obtain rfl := Option.some.inj h
            have hm : GeMag (geSetXy (feSetB32 ((b.drop 1).take 32)).1 (feSetB32 ((b.drop 33).take 32)).1) :=
              ⟨mag_mono (m := 1) (by decide) x2, mag_mono (m := 1) (by decide) y2⟩
            obtain ⟨v1, q, v2⟩ := (geValid_eq hm).1 hv
            obtain ⟨n, rfl⟩ := geRep_point v1 v2
            have ho := isOdd_normal (y4 hlt.2)
            refine ⟨_, ⟨_, _, n, rfl, .inr ⟨hl, ?_, ?_, ?_⟩⟩, hm, v1, v2⟩
            · rcases ht with ht | ht
              · exact .inl ((head_toNat (by decide) hb).1 ht)
              · right
                have hp' : feIsOdd (feSetB32 ((b.drop 33).take 32)).1 = decide (firstByte b = 7) := by
                  by_contra hne; exact hp ⟨ht, hne⟩
                rw [hp', decide_eq_true_eq] at ho
                rw [show (geSetXy (feSetB32 ((b.drop 1).take 32)).1 (feSetB32 ((b.drop 33).take 32)).1).y =
                  (feSetB32 ((b.drop 33).take 32)).1 from rfl]
                split
                case isTrue hp => exact (head_toNat (by decide) hb).1 (ho.2 hp)
                case isFalse hp => exact (head_toNat (by decide) hb).1 (ht.resolve_right fun h => hp (ho.1 h))
            · rw [show (geSetXy (feSetB32 ((b.drop 1).take 32)).1 (feSetB32 ((b.drop 33).take 32)).1).x =
                (feSetB32 ((b.drop 1).take 32)).1 from rfl, val_normal (x4 hlt.1), x1, tail_take]
            · rw [show (geSetXy (feSetB32 ((b.drop 1).take 32)).1 (feSetB32 ((b.drop 33).take 32)).1).y =
                (feSetB32 ((b.drop 33).take 32)).1 from rfl, val_normal (y4 hlt.2), y1, ← List.drop_one, List.drop_drop,
                List.take_of_length_le (by simp [hl])]

theorem firstByte_eq {b : Bytes} {u : UInt8} (h : b.head? = some u) : firstByte b = u.toNat := by
  cases b with
  | nil => cases h
  | cons x l => cases h; rfl

theorem same_y {x y y' : SecpF} (h : secp.Nonsingular x y) (h' : secp.Nonsingular x y') (hp : y.val % 2 = y'.val % 2) : y = y' := by
  have e := (secp_nonsingular _ _).1 h
  have e' := (secp_nonsingular _ _).1 h'
  have : (y - y') * (y + y') = 0 := by ring_nf; rw [e, e']; ring
  rcases mul_eq_zero.1 this with h0 | h0
  · exact sub_eq_zero.1 h0
  · have hy : y = -y' := eq_neg_of_add_eq_zero_left h0
    by_cases hz : y' = 0
    · rw [hy, hz, neg_zero]
    · have := neg_parity hz
      rw [hy] at hp
      omega

theorem pubkeyParse_of {b : Bytes} {q : secp.Point} (h : LibKey b q) : ∃ g, pubkeyParse b = some g ∧ Parsed g q := by
  have key : (pubkeyParse b).isSome = true := by
    obtain ⟨x, y, n, rfl, ⟨hl, hh, hx⟩ | ⟨hl, hh, hx, hy⟩⟩ := h
    · have hx' : ((b.drop 1).take 32).length = 32 := by simp [hl]
      obtain ⟨x1, x2, x3, x4⟩ := setB32_eq hx'
      rw [tail_take, List.take_of_length_le (by simp [hl])] at x1 x2 x3 x4
      have hlt : setBytes b.tail < secpP := by rw [hx]; exact ZMod.val_lt x
      have hv : feVal (feSetB32 b.tail).1 = x := by rw [feVal, x1, hx, ZMod.natCast_zmod_val]
      have ht := firstByte_eq hh
      rw [pubkeyParse]
      simp only
      rw [if_pos ⟨hl, by rw [ht]; split <;> decide⟩, tail_take, List.take_of_length_le (by simp [hl])]
      obtain ⟨-, f2, -⟩ := C106_from_x (mag_mono (m := 1) (by decide) x2) (decide (firstByte b = 3))
      rw [if_pos (by rw [Bool.and_eq_true, x3, f2, hv]; exact ⟨hlt, y, n⟩)]
      rfl
    · have hx' : ((b.drop 1).take 32).length = 32 := by simp [hl]
      have hy' : ((b.drop 33).take 32).length = 32 := by simp [hl]
      obtain ⟨x1, x2, x3, x4⟩ := setB32_eq hx'
      obtain ⟨y1, y2, y3, y4⟩ := setB32_eq hy'
      have ex : setBytes ((b.drop 1).take 32) = x.val := by rw [tail_take]; exact hx
      have ey : setBytes ((b.drop 33).take 32) = y.val := by
        rw [List.take_of_length_le (by simp [hl]), ← hy, ← List.drop_one, List.drop_drop]
      have hlx : setBytes ((b.drop 1).take 32) < secpP := by rw [ex]; exact ZMod.val_lt x
      have hly : setBytes ((b.drop 33).take 32) < secpP := by rw [ey]; exact ZMod.val_lt y
      have hvx : feVal (feSetB32 ((b.drop 1).take 32)).1 = x := by rw [feVal, x1, ex, ZMod.natCast_zmod_val]
      have hvy : feVal (feSetB32 ((b.drop 33).take 32)).1 = y := by rw [feVal, y1, ey, ZMod.natCast_zmod_val]
      have ho := isOdd_normal (y4 hly)
      rw [hvy] at ho
      have hm : GeMag (geSetXy (feSetB32 ((b.drop 1).take 32)).1 (feSetB32 ((b.drop 33).take 32)).1) :=
        ⟨mag_mono (m := 1) (by decide) x2, mag_mono (m := 1) (by decide) y2⟩
      have hv : geIsValidVar (geSetXy (feSetB32 ((b.drop 1).take 32)).1 (feSetB32 ((b.drop 33).take 32)).1) = true := by
        rw [geValid_eq hm]
        refine ⟨rfl, _, point_geRep rfl ?_⟩
        rw [geSetXy]
        simp only
        rw [hvx, hvy]
        exact n
      have ht : firstByte b = 4 ∨ (firstByte b = 6 ∨ firstByte b = 7) ∧ (y.val % 2 = 1 ↔ firstByte b = 7) := by
        rcases hh with hh | hh
        · exact .inl (firstByte_eq hh)
        · right
          rw [firstByte_eq hh]
          split
          case isTrue hp => exact ⟨.inr rfl, fun _ => rfl, fun _ => hp⟩
          case isFalse hp => exact ⟨.inl rfl, fun h => absurd h hp, fun h => absurd h (by decide)⟩
      rw [pubkeyParse]
      simp only
      rw [if_neg (by rw [hl]; rintro ⟨h, -⟩; cases h), if_pos ⟨hl, by omega⟩,
        if_neg (by rw [Bool.or_eq_true, Bool.not_eq_true', Bool.not_eq_true', not_or, Bool.not_eq_false, Bool.not_eq_false, x3, y3]
                   exact ⟨hlx, hly⟩),
        if_neg (by
          rintro ⟨h1, h2⟩
          have h3 := (ht.resolve_left (by omega)).2
          apply h2
          rw [Bool.eq_iff_iff, ho, decide_eq_true_eq]
          exact h3), if_pos hv]
      rfl
  obtain ⟨g, hg⟩ := Option.isSome_iff_exists.1 key
  obtain ⟨q', k1, k2⟩ := pubkeyParse_some hg
  refine ⟨g, hg, ?_⟩
  -- the bytes denote only one point
  have : q = q' := by
    obtain ⟨x, y, n, rfl, h⟩ := h
    obtain ⟨x', y', n', rfl, h'⟩ := k1
    have hval : ∀ {a b : SecpF}, a.val = b.val → a = b := fun h => ZMod.val_injective _ h
    rcases h with ⟨hl, hh, hx⟩ | ⟨hl, hh, hx, hy⟩
    · obtain ⟨-, hh', hx'⟩ := h'.resolve_right (by rw [hl]; rintro ⟨h, -⟩; cases h)
      obtain rfl := hval (hx.symm.trans hx')
      have : y.val % 2 = y'.val % 2 := by
        rw [hh] at hh'
        split at hh' <;> split at hh' <;> first | omega | exact absurd (Option.some.inj hh') (by decide)
      obtain rfl := same_y n n' this
      rfl
    · obtain ⟨-, -, hx', hy'⟩ := h'.resolve_left (by rw [hl]; rintro ⟨h, -⟩; cases h)
      obtain rfl := hval (hx.symm.trans hx')
      obtain rfl := hval (hy.symm.trans hy')
      rfl
  rw [this]; exact k2

/-- The place for a key, after a key was stored there. -/
theorem load_eq {g : Ge} {q : secp.Point} (h : Parsed g q) : ∃ g', pubkeyLoad (geToStorage g) = .ret g' ∧ Parsed g' q ∧
    Normal g'.x ∧ Normal g'.y := by
  obtain ⟨x1, x2, -⟩ := normalize_eq (by decide) h.mag.x
  obtain ⟨y1, y2, -⟩ := normalize_eq (by decide) h.mag.y
  have e : geFromStorage (geToStorage g) = ⟨feNormalize g.x, feNormalize g.y, false⟩ := by
    rw [geFromStorage, geToStorage]
    simp only
    rw [fromStorage_eq x1, fromStorage_eq y1]
  obtain ⟨s1, s2⟩ := geStorage_eq h.mag h.fin h.rep
  rw [pubkeyLoad]
  rw [e] at s1 s2 ⊢
  have hz : feIsZero (feNormalize g.x) = false := by
    by_contra hc
    rw [Bool.not_eq_false] at hc
    obtain ⟨n, -⟩ := geRep_point (by rfl) s2
    have h0 : feVal (feNormalize g.x) = 0 := by
      generalize feNormalize g.x = a at hc
      rw [feIsZero, beq_iff_eq] at hc
      simp only [Nat.or_eq_zero_iff] at hc
      obtain ⟨⟨⟨⟨⟨⟨⟨⟨⟨c0, c1⟩, c2⟩, c3⟩, c4⟩, c5⟩, c6⟩, c7⟩, c8⟩, c9⟩ := hc
      rw [feVal, feNat, c0, c1, c2, c3, c4, c5, c6, c7, c8, c9]
      norm_num
    simp only [h0] at n
    exact no_zero_x _ n
  rw [if_neg (by rw [hz]; decide)]
  exact ⟨_, rfl, ⟨s1, rfl, s2⟩, x1, y1⟩

theorem normal_cons {g : Fe} (h : Normal g) : feNormalizeVar g = feNormalize g ∧ Normal (feNormalize g) ∧ feVal (feNormalize g) = feVal g := by
  obtain ⟨n1, n2, n3⟩ := normalize_eq (m := 8) (by decide) (mag_mono (by decide) (normal_mag h))
  exact ⟨n3, n1, n2⟩

/-- The bytes of a key, as they are written. -/
theorem serialize_eq {g : Ge} {q : secp.Point} (h : Parsed g q) (compressed : Bool) : ∃ out, pubkeySerialize g compressed = some out ∧
    LibKey out q ∧ out.length = (if compressed then 33 else 65) ∧ (compressed = false → out.head? = some 4) := by
  obtain ⟨x1, x2, x3⟩ := normalize_eq (by decide) h.mag.x
  obtain ⟨y1, y2, y3⟩ := normalize_eq (by decide) h.mag.y
  obtain ⟨n, hq⟩ := geRep_point h.fin h.rep
  obtain ⟨b1, b2⟩ := getB32_eq x1
  obtain ⟨c1, c2⟩ := getB32_eq y1
  have vx : (feVal g.x).val = feNat (feNormalize g.x) := by rw [← x2, val_normal x1]
  have vy : (feVal g.y).val = feNat (feNormalize g.y) := by rw [← y2, val_normal y1]
  have ho := isOdd_normal y1
  rw [y2] at ho
  rw [pubkeySerialize, if_neg (by simp [h.fin])]
  simp only
  rw [x3, y3]
  cases compressed with
  | true =>
    rw [if_pos rfl]
    refine ⟨_, rfl, ⟨_, _, n, hq, .inl ⟨by rw [List.length_cons, b1], ?_, ?_⟩⟩, by rw [List.length_cons, b1]; rfl, fun h => by cases h⟩
    · rw [List.head?_cons]
      by_cases hp : (feVal g.y).val % 2 = 1
      · rw [if_pos hp, if_pos (ho.2 hp)]; rfl
      · rw [if_neg hp, if_neg (fun h => hp (ho.1 h))]; rfl
    · rw [List.tail_cons, b2, vx]
  | false =>
    rw [if_neg (by decide)]
    refine ⟨_, rfl, ⟨_, _, n, hq, .inr ⟨?_, .inl rfl, ?_, ?_⟩⟩, ?_, fun _ => rfl⟩
    · simp [b1, c1]
    · rw [List.cons_append, List.tail_cons, List.take_left' b1, b2, vx]
    · rw [List.cons_append, List.tail_cons, List.drop_left' b1, c2, vy]
    · simp [b1, c1]

theorem libKey_unique {b : Bytes} {q q' : secp.Point} (h : LibKey b q) (h' : LibKey b q') : q = q' := by
  obtain ⟨g, e, p⟩ := pubkeyParse_of h
  obtain ⟨g', e', p'⟩ := pubkeyParse_of h'
  rw [e] at e'
  obtain rfl := Option.some.inj e'
  exact parsed_same p p'

/-- A key has one encoding of 33 bytes and one of 65 bytes that begins with 4. -/
theorem libKey_bytes {b b' : Bytes} {q : secp.Point} (h : LibKey b q) (h' : LibKey b' q) (hl : b.length = b'.length)
    (h4 : b.length = 65 → b.head? = some 4 ∧ b'.head? = some 4) : b = b' := by
  obtain ⟨x, y, n, rfl, h⟩ := h
  obtain ⟨x', y', n', e, h'⟩ := h'
  injection e with e1 e2
  subst e1 e2
  have fin : b.head? = b'.head? → b.tail = b'.tail → b = b' := by
    intro h1 h2
    cases b with
    | nil => cases b' with
      | nil => rfl
      | cons _ _ => cases h1
    | cons u l => cases b' with
      | nil => cases h1
      | cons u' l' => cases h1; cases h2; rfl
  rcases h with ⟨k, hh, hx⟩ | ⟨k, hh, hx, hy⟩
  · obtain ⟨k', hh', hx'⟩ := h'.resolve_right (by rw [← hl, k]; rintro ⟨h, -⟩; cases h)
    exact fin (hh.trans hh'.symm) (setBytes_inj (by simp [k, k']) (hx.trans hx'.symm))
  · obtain ⟨k', hh', hx', hy'⟩ := h'.resolve_left (by rw [← hl, k]; rintro ⟨h, -⟩; cases h)
    obtain ⟨f, f'⟩ := h4 k
    refine fin (f.trans f'.symm) ?_
    rw [← List.take_append_drop 32 b.tail, ← List.take_append_drop 32 b'.tail,
      setBytes_inj (by simp [k, k']) (hx.trans hx'.symm), setBytes_inj (by simp [k, k']) (hy.trans hy'.symm)]

theorem parse_storage {b : Bytes} {q : secp.Point} (h : LibKey b q) : ∃ g, ecPubkeyParse b = some (geToStorage g) ∧ Parsed g q := by
  obtain ⟨g, e, p⟩ := pubkeyParse_of h
  exact ⟨g, by rw [ecPubkeyParse, e]; rfl, p⟩

theorem parse_none {b : Bytes} (h : ¬ ∃ q, LibKey b q) : ecPubkeyParse b = none := by
  rw [ecPubkeyParse]
  cases e : pubkeyParse b with
  | none => rfl
  | some g =>
    obtain ⟨q, k, -⟩ := pubkeyParse_some e
    exact absurd ⟨q, k⟩ h

/-! ## Signatures -/

theorem signatureParse_eq {sig : Bytes} (h : 64 ≤ sig.length) :
    (curveN ≤ setBytes (sig.take 32) ∨ curveN ≤ setBytes ((sig.drop 32).take 32) → signatureParse sig = none) ∧
    (setBytes (sig.take 32) < curveN → setBytes ((sig.drop 32).take 32) < curveN → ∃ r s, signatureParse sig = some (r, s) ∧
      Scalar r ∧ Scalar s ∧ scNat r = setBytes (sig.take 32) ∧ scNat s = setBytes ((sig.drop 32).take 32)) := by
  obtain ⟨r1, r2, r3⟩ := setB32_sc (b := sig.take 32) (by simp; omega)
  obtain ⟨s1, s2, s3⟩ := setB32_sc (b := (sig.drop 32).take 32) (by simp; omega)
  rw [signatureParse]
  constructor
  · intro hc
    rw [if_neg]
    rw [Bool.and_eq_true, Bool.not_eq_true', Bool.not_eq_true']
    rintro ⟨h1, h2⟩
    rcases hc with hc | hc
    · rw [r3.2 hc] at h1; cases h1
    · rw [s3.2 hc] at h2; cases h2
  · intro h1 h2
    rw [if_pos]
    · exact ⟨_, _, rfl, r1, s1, by rw [r2, Nat.mod_eq_of_lt h1], by rw [s2, Nat.mod_eq_of_lt h2]⟩
    · rw [Bool.and_eq_true, Bool.not_eq_true', Bool.not_eq_true', Bool.eq_false_iff, Bool.eq_false_iff, Ne, Ne, r3, s3]
      omega

theorem order_lt : curveN < secpP := by decide +kernel

theorem prime_lt : secpP < 2 * curveN := by decide +kernel

/-- A scalar as an element of the field. -/
theorem scalar_fe {r : Sc} (h : Scalar r) : Normal (feSetB32 (scGetB32 r)).1 ∧ feNat (feSetB32 (scGetB32 r)).1 = scNat r := by
  obtain ⟨g1, g2⟩ := getB32_sc h.fits
  obtain ⟨x1, -, -, x4⟩ := setB32_eq g1
  rw [g2] at x1 x4
  exact ⟨x4 (lt_trans h.lt order_lt), x1⟩

theorem pMinusOrder_eq : Normal pMinusOrder ∧ feNat pMinusOrder = secpP - curveN := by
  refine ⟨⟨?_, ?_, ?_, ?_, ?_, ?_, ?_, ?_, ?_, ?_, ?_⟩, ?_⟩ <;> decide +kernel

theorem orderAsFe_eq : Is 1 orderAsFe ((curveN : Nat) : SecpF) := by
  have h : feNat orderAsFe = curveN := by decide +kernel
  refine ⟨⟨?_, ?_, ?_, ?_, ?_, ?_, ?_, ?_, ?_, ?_⟩, by rw [feVal, h]⟩ <;> decide +kernel

theorem mod_order {X : SecpF} {r : Nat} (hr : r < curveN) : X.val % curveN = r ↔ X.val = r ∨ X.val = r + curveN := by
  have h1 := ZMod.val_lt X
  have h2 := prime_lt
  constructor
  · intro h
    have := Nat.div_add_mod X.val curveN
    have hd : X.val / curveN < 2 := by rw [Nat.div_lt_iff_lt_mul (by omega)]; omega
    rcases Nat.lt_succ_iff_lt_or_eq.1 hd with h0 | h0 <;> (first | rw [Nat.lt_one_iff.1 h0, h] at this | rw [h0, h] at this) <;> omega
  · rintro (h | h)
    · rw [h, Nat.mod_eq_of_lt hr]
    · rw [h, Nat.add_mod_right, Nat.mod_eq_of_lt hr]

theorem natCast_eq_iff {n : Nat} (h : n < secpP) {X : SecpF} : (n : SecpF) = X ↔ X.val = n := by
  constructor
  · rintro rfl; exact val_natCast h
  · intro h'; rw [← h', ZMod.natCast_zmod_val]

/-- The comparison at the end: the first coordinate modulo the order. -/
theorem compare_x {r : Sc} (hr : Scalar r) {j : Gej} {X Y : SecpF} {n : secp.Nonsingular X Y} (hm : GejMag j) (hi : j.infinity = false)
    (hj : GejRep 1 j (.some X Y n)) :
    (if gejEqXVar (feSetB32 (scGetB32 r)).1 j = true then true
      else if feCmpVar (feSetB32 (scGetB32 r)).1 pMinusOrder ≥ 0 then false
      else gejEqXVar (feAdd (feSetB32 (scGetB32 r)).1 orderAsFe) j) = true ↔ X.val % curveN = scNat r := by
  obtain ⟨f1, f2⟩ := scalar_fe hr
  have o1 := order_lt
  have hlt := hr.lt
  have F : Is 1 (feSetB32 (scGetB32 r)).1 ((scNat r : Nat) : SecpF) := ⟨normal_mag f1, by rw [feVal, f2]⟩
  have S := F.add orderAsFe_eq (by decide)
  have e1 := eqX_eq (F.up (by decide)).mag hm hi hj
  rw [F.val, natCast_eq_iff (by omega)] at e1
  have e2 := eqX_eq (S.up (by decide)).mag hm hi hj
  have e3 := cmpVar_eq f1 pMinusOrder_eq.1
  rw [f2, pMinusOrder_eq.2] at e3
  rw [S.val, ← Nat.cast_add] at e2
  have hX := ZMod.val_lt X
  rw [mod_order hlt]
  split
  case isTrue h => exact ⟨fun _ => .inl (e1.1 h), fun _ => rfl⟩
  case isFalse h =>
    rw [e1] at h
    split
    case isTrue h3 =>
      rw [e3] at h3
      refine ⟨fun h => (by cases h), fun h' => ?_⟩
      omega
    case isFalse h3 =>
      rw [e3] at h3
      rw [e2, natCast_eq_iff (by omega)]
      exact ⟨.inr, fun h' => h'.resolve_left h⟩

/-- The multiples do not depend on which inverse is taken. -/
theorem inverse_any {s : Sc} (hs : Scalar s) (h0 : scNat s ≠ 0) : ∃ w, scNat (scInverse s) = w ∧ scNat s * w % curveN = 1 ∧
    ∀ w', scNat s * w' % curveN = 1 → (w' : ZMod curveN) = w := by
  obtain ⟨i1, i2⟩ := inverse_sc hs
  have hne := cast_ne ⟨Nat.pos_of_ne_zero h0, hs.lt⟩
  refine ⟨_, rfl, one_iff.2 (by rw [i2]; exact mul_inv_cancel₀ hne), fun w' h => ?_⟩
  rw [i2]
  exact eq_inv_of_mul_eq_one_right (one_iff.1 h)

theorem sigVerify_eq {st : Stack} {preG : List GeStorage} (hG : StoredTable basePoint 16384 preG) {r s m : Sc} (hr : Scalar r)
    (hs : Scalar s) (hm : Scalar m) {g : Ge} {q : secp.Point} (hg : Parsed g q) {e : Nat} (he : scNat m = e % curveN) :
    sigVerify st preG r s g m = true ↔ Valid q e (scNat r) (scNat s) := by
  rw [sigVerify]
  by_cases h0 : scNat r = 0 ∨ scNat s = 0
  · rw [if_pos (by rw [Bool.or_eq_true, isZero_eq, isZero_eq]; exact h0)]
    refine ⟨fun h => (by cases h), fun hv => ?_⟩
    have := hv.r_range
    have := hv.s_range
    omega
  rw [if_neg (by rw [Bool.or_eq_true, isZero_eq, isZero_eq]; exact h0)]
  have hr0 : 0 < scNat r ∧ scNat r < curveN := ⟨by omega, hr.lt⟩
  have hs0 : 0 < scNat s ∧ scNat s < curveN := ⟨by omega, hs.lt⟩
  obtain ⟨w, hw, w1, w2⟩ := inverse_any hs (by omega)
  obtain ⟨i1, -⟩ := inverse_sc hs
  obtain ⟨u1, u2⟩ := mul_sc i1.fits hm.fits
  obtain ⟨v1, v2⟩ := mul_sc i1.fits hr.fits
  have hq : q ≠ 0 := by
    obtain ⟨n, rfl⟩ := geRep_point hg.fin hg.rep
    exact Affine.Point.some_ne_zero _
  obtain ⟨e1, e2⟩ := ecmult_eq (st := st) hG hg.mag hg.fin hg.rep hq v1 u1
  simp only
  rw [hw] at u2 v2
  have hsum : ∀ w' : Nat, scNat s * w' % curveN = 1 → scNat (scMul (scInverse s) r) • q + scNat (scMul (scInverse s) m) • basePoint =
      (e * w') • basePoint + (scNat r * w') • q := by
    intro w' h'
    rw [add_comm]
    congr 1
    · refine nsmul_cast ?_ _
      rw [u2, he, ZMod.natCast_mod]
      push_cast
      rw [ZMod.natCast_mod, w2 w' h']; ring
    · refine nsmul_cast ?_ _
      rw [v2, ZMod.natCast_mod]
      push_cast
      rw [w2 w' h']; ring
  generalize ecmult st preG (gejSetGe g) (scMul (scInverse s) r) (scMul (scInverse s) m) = j at *
  generalize scNat (scMul (scInverse s) r) • q + scNat (scMul (scInverse s) m) • basePoint = p at *
  have hinf := gej_infinity e2
  by_cases hi : j.infinity = true
  · rw [if_pos hi]
    refine ⟨fun h => (by cases h), fun hv => ?_⟩
    obtain ⟨w', h1, x, y, n, hp, -⟩ := hv.point
    rw [← hsum w' h1, hinf.1 hi] at hp
    exact absurd hp.symm (Affine.Point.some_ne_zero _)
  · rw [if_neg hi]
    have hi' : j.infinity = false := by simpa using hi
    obtain ⟨X, Y, n, rfl⟩ : ∃ X Y n, p = .some X Y n := by
      cases p with
      | zero => exact absurd (hinf.2 rfl) hi
      | some X Y n => exact ⟨X, Y, n, rfl⟩
    rw [compare_x hr e1 hi' e2]
    constructor
    · intro hx
      exact ⟨hr0, hs0, w, w1, X, Y, n, (hsum w w1).symm, hx⟩
    · rintro ⟨-, -, w', h1, x, y, n', hp, hx⟩
      rw [← hsum w' h1] at hp
      injection hp with h1 h2
      rw [h1]; exact hx

/-- The verification with a context. -/
theorem extVerify_eq {st : Stack} {preG : List GeStorage} (hG : StoredTable basePoint 16384 preG) {sig msg key : Bytes} (hs : sig.length = 64)
    (hm : msg.length = 32) : ∃ ok, extVerify st preG sig msg key = .ret ok ∧ (ok = true ↔ ∃ q, LibKey key q ∧
      setBytes (sig.drop 32) ≤ curveN / 2 ∧ Valid q (setBytes msg) (setBytes (sig.take 32)) (setBytes (sig.drop 32))) := by
  have ht : (sig.drop 32).take 32 = sig.drop 32 := List.take_of_length_le (by simp [hs])
  obtain ⟨p1, p2⟩ := signatureParse_eq (sig := sig) (by omega)
  rw [ht] at p1 p2
  rw [extVerify]
  by_cases hN : setBytes (sig.take 32) < curveN ∧ setBytes (sig.drop 32) < curveN
  case neg =>
    rw [p1 (by omega)]
    refine ⟨false, rfl, fun h => (by cases h), ?_⟩
    rintro ⟨q, -, -, hv⟩
    exact absurd ⟨hv.r_range.2, hv.s_range.2⟩ hN
  obtain ⟨r, s, e, hr, hs', er, es⟩ := p2 hN.1 hN.2
  rw [e]
  simp only
  by_cases hk : ∃ q, LibKey key q
  case neg =>
    rw [parse_none hk]
    exact ⟨false, rfl, fun h => (by cases h), fun ⟨q, h, _⟩ => absurd ⟨q, h⟩ hk⟩
  obtain ⟨q, hq⟩ := hk
  obtain ⟨g, eg, pg⟩ := parse_storage hq
  rw [eg]
  simp only
  obtain ⟨g', el, pg', -, -⟩ := load_eq pg
  rw [ecdsaVerify]
  simp only
  have hh := isHigh_eq hs'.fits
  rw [es] at hh
  by_cases hhi : curveN / 2 < setBytes (sig.drop 32)
  · rw [if_pos (hh.2 hhi)]
    refine ⟨false, rfl, fun h => (by cases h), ?_⟩
    rintro ⟨_, -, h, -⟩
    omega
  · rw [if_neg (fun h => hhi (hh.1 h)), el]
    obtain ⟨m1, m2, -⟩ := setB32_sc hm
    refine ⟨_, rfl, ?_⟩
    rw [sigVerify_eq hG hr hs' m1 pg' m2, er, es]
    constructor
    · intro hv
      exact ⟨q, hq, by omega, hv⟩
    · rintro ⟨q', hq', -, hv⟩
      rw [libKey_unique hq hq']
      exact hv

/-! ## Recovery -/

theorem id_bits {id : Nat} (h : id < 4) : (id &&& 2 ≠ 0 ↔ id / 2 = 1) ∧ (id &&& 1 ≠ 0 ↔ id % 2 = 1) := by
  have : id = 0 ∨ id = 1 ∨ id = 2 ∨ id = 3 := by omega
  rcases this with rfl | rfl | rfl | rfl <;> decide

/-- The first coordinate of the point. -/
theorem recover_x {r : Sc} (hr : Scalar r) {id : Nat} (hid : id < 4) :
    Is 2 (if id &&& 2 ≠ 0 then feAdd (feSetB32 (scGetB32 r)).1 orderAsFe else (feSetB32 (scGetB32 r)).1)
      ((scNat r + id / 2 * curveN : Nat) : SecpF) ∧
    ((id &&& 2 ≠ 0 ∧ feCmpVar (feSetB32 (scGetB32 r)).1 pMinusOrder ≥ 0) ↔ secpP ≤ scNat r + id / 2 * curveN) := by
  obtain ⟨f1, f2⟩ := scalar_fe hr
  have F : Is 1 (feSetB32 (scGetB32 r)).1 ((scNat r : Nat) : SecpF) := ⟨normal_mag f1, by rw [feVal, f2]⟩
  have S := F.add orderAsFe_eq (by decide)
  have e3 := cmpVar_eq f1 pMinusOrder_eq.1
  rw [f2, pMinusOrder_eq.2] at e3
  have o1 := order_lt
  have hlt := hr.lt
  obtain ⟨b1, -⟩ := id_bits hid
  rw [e3]
  by_cases h : id / 2 = 1
  · rw [if_pos (b1.2 h), h, Nat.one_mul]
    simp only [b1.2 h, ne_eq, not_false_eq_true, true_and]
    refine ⟨⟨S.mag, ?_⟩, by omega⟩
    rw [S.val]; push_cast; ring
  · have h0 : id / 2 = 0 := by omega
    have hb : ¬ (id &&& 2 ≠ 0) := fun hc => h (b1.1 hc)
    rw [if_neg hb, h0, Nat.zero_mul, Nat.add_zero]
    exact ⟨F.up (by decide), fun hc => absurd hc.1 hb, fun hc => by omega⟩

theorem recovers_unique {e r s id : Nat} {q q' : secp.Point} (h : Recovers e r s id q) (h' : Recovers e r s id q') : q = q' := by
  obtain ⟨hr, -, ⟨x, y, n, w, hx, hy, hw, hq⟩, -⟩ := h
  obtain ⟨-, -, ⟨x', y', n', w', hx', hy', hw', hq'⟩, -⟩ := h'
  obtain rfl : x = x' := ZMod.val_injective _ (hx.trans hx'.symm)
  obtain rfl : y = y' := same_y n n' (hy.trans hy'.symm)
  have e1 : (w : ZMod curveN) = w' := by
    rw [eq_inv_of_mul_eq_one_right (one_iff.1 hw), eq_inv_of_mul_eq_one_right (one_iff.1 hw')]
  have e2 : (e * w) • basePoint = (e * w') • basePoint := nsmul_cast (by push_cast; rw [e1]) _
  have e3 : (s * w) • Affine.Point.some x y n = (s * w') • Affine.Point.some x y n := nsmul_cast (by push_cast; rw [e1]) _
  rw [e2, e3, ← hq'] at hq
  exact add_right_cancel hq

/-- The sum that is the key. -/
theorem recover_sum {st : Stack} {preG : List GeStorage} (hG : StoredTable basePoint 16384 preG) {r s m : Sc} (hr : Scalar r)
    (hr0 : scNat r ≠ 0) (hs : Scalar s) (hm : Scalar m) {e : Nat} (he : scNat m = e % curveN) {R : Ge} {P : secp.Point} (hR : Parsed R P)
    (hP : P ≠ 0) : ∃ w p, scNat r * w % curveN = 1 ∧ (∀ w', scNat r * w' % curveN = 1 → (w' : ZMod curveN) = w) ∧
      p + (e * w) • basePoint = (scNat s * w) • P ∧
      GejMag (ecmult st preG (gejSetGe R) (scMul (scInverse r) s) (scNegate (scMul (scInverse r) m))) ∧
      GejRep 1 (ecmult st preG (gejSetGe R) (scMul (scInverse r) s) (scNegate (scMul (scInverse r) m))) p := by
  obtain ⟨w, hw, w1, w2⟩ := inverse_any hr hr0
  obtain ⟨i1, -⟩ := inverse_sc hr
  obtain ⟨u1, u2⟩ := mul_sc i1.fits hm.fits
  obtain ⟨v1, v2⟩ := mul_sc i1.fits hs.fits
  obtain ⟨n1, n2⟩ := negate_sc u1
  rw [hw] at u2 v2
  obtain ⟨e1, e2⟩ := ecmult_eq (st := st) hG hR.mag hR.fin hR.rep hP v1 n1
  refine ⟨w, _, w1, w2, ?_, e1, e2⟩
  clear e1 e2
  generalize scMul (scInverse r) m = M at *
  generalize scMul (scInverse r) s = S at *
  rw [add_assoc, ← add_nsmul]
  have a1 : (scNat (scNegate M) + e * w) • basePoint = 0 • basePoint := by
    refine nsmul_cast ?_ _
    have hc : ((scNat M : Nat) : ZMod curveN) = (w : ZMod curveN) * e := by
      rw [u2, he, ZMod.natCast_mod]
      push_cast
      rw [ZMod.natCast_mod]
    have hneg : ((scNat (scNegate M) : Nat) : ZMod curveN) = -((scNat M : Nat) : ZMod curveN) := by
      rw [n2]
      split
      case isTrue h => rw [h]; simp
      case isFalse h =>
        rw [Nat.cast_sub (le_of_lt u1.lt), CharP.cast_eq_zero (ZMod curveN) curveN, zero_sub]
    push_cast
    rw [hneg, hc]; ring
  rw [a1, zero_nsmul, add_zero]
  refine nsmul_cast ?_ _
  rw [v2, ZMod.natCast_mod]
  push_cast
  ring

/-- The rest of the recovery, from the first coordinate on. -/
def recoverFrom (st : Stack) (q : Ge) (preG : List GeStorage) (fx : Fe) (odd : Bool) (sigr sigs message : Sc) : Option Ge :=
  let x := geSetXoVar fx odd
  if x.2 = false then none
  else
    let rn := scInverse sigr
    let u1 := scNegate (scMul rn message)
    let u2 := scMul rn sigs
    let qj := ecmult st preG (gejSetGe x.1) u2 u1
    let pubkey := geSetGejVar q qj
    if qj.infinity then none else some pubkey

/-- The key that belongs to a first coordinate. -/
structure FromX (e r s K : Nat) (odd : Bool) (q : secp.Point) : Prop where
  point : ∃ x y h w, x.val = K ∧ (y.val % 2 = 1 ↔ odd = true) ∧ r * w % curveN = 1 ∧ q + (e * w) • basePoint = (s * w) • .some x y h
  not_zero : q ≠ 0

theorem setGej_fin (j : Gej) : (geSetGej j).infinity = j.infinity := by rw [geSetGej]

theorem setGejVar_parsed {r : Ge} {j : Gej} {p : secp.Point} (hi : j.infinity = false) (e1 : GejMag j) (e2 : GejRep 1 j p) :
    Parsed (geSetGejVar r j) p := by
  obtain ⟨s1, s2, s3⟩ := setGej_eq e1 e2
  rw [geSetGejVar, if_neg (by rw [hi]; decide)]
  exact ⟨⟨mag_mono (by decide) s1, mag_mono (by decide) s2⟩, by rw [setGej_fin, hi], s3⟩

theorem recoverFrom_eq {st : Stack} {q0 : Ge} {preG : List GeStorage} (hG : StoredTable basePoint 16384 preG) {r s m : Sc} (hr : Scalar r)
    (hr0 : scNat r ≠ 0) (hs : Scalar s) (hm : Scalar m) {e : Nat} (he : scNat m = e % curveN) {fx : Fe} {K : Nat} (hK : K < secpP)
    (x1 : Is 2 fx (K : SecpF)) (odd : Bool) :
    (∀ g, recoverFrom st q0 preG fx odd r s m = some g → ∃ q, Parsed g q ∧ FromX e (scNat r) (scNat s) K odd q) ∧
    ∀ q, FromX e (scNat r) (scNat s) K odd q → (recoverFrom st q0 preG fx odd r s m).isSome = true := by
  rw [recoverFrom]
  obtain ⟨f1, f2, f3⟩ := C106_from_x (x1.up (k := 8) (by decide)).mag odd
  rw [x1.val] at f2 f3
  have hval := val_natCast hK
  generalize geSetXoVar fx odd = G at *
  by_cases hy : G.2 = false
  · simp only [if_pos hy]
    refine ⟨fun g h => (by cases h), fun q hv => ?_⟩
    obtain ⟨x, y, n, -, hx, -⟩ := hv.point
    have : G.2 = true := f2.2 ⟨y, by rw [(natCast_eq_iff hK).2 hx]; exact n⟩
    rw [hy] at this; cases this
  simp only [if_neg hy]
  obtain ⟨g1, g2, g3, g4⟩ := f3 (by simpa using hy)
  generalize G.1 = R at *
  have hn : secp.Nonsingular (feVal R.x) (feVal R.y) := by rw [g2, x1.val]; exact g3
  have hRx : (feVal R.x).val = K := by rw [g2, x1.val]; exact hval
  obtain ⟨w, p, w1, w2, hsum, e1, e2⟩ := recover_sum (st := st) hG hr hr0 hs hm he ⟨f1, g1, point_geRep g1 hn⟩
    (Affine.Point.some_ne_zero _)
  generalize ecmult st preG (gejSetGe R) (scMul (scInverse r) s) (scNegate (scMul (scInverse r) m)) = j at *
  have hinf := gej_infinity e2
  by_cases hi : j.infinity = true
  · rw [if_pos hi]
    refine ⟨fun g h => (by cases h), fun q hv => ?_⟩
    exfalso
    rw [hinf.1 hi, zero_add] at hsum
    obtain ⟨⟨x, y, n, w', hx, hy', hw', hq⟩, hq0⟩ := hv
    obtain rfl : x = feVal R.x := ZMod.val_injective _ (hx.trans hRx.symm)
    obtain rfl : y = feVal R.y := same_y n hn (by have := hy'.trans g4.symm; omega)
    have c1 : (e * w') • basePoint = (e * w) • basePoint := nsmul_cast (by push_cast; rw [w2 w' hw']) _
    have c2 : (scNat s * w') • Affine.Point.some _ _ n = (scNat s * w) • Affine.Point.some _ _ n :=
      nsmul_cast (by push_cast; rw [w2 w' hw']) _
    rw [c1, c2, ← hsum] at hq
    exact hq0 (add_eq_right.1 hq)
  · rw [if_neg hi]
    have hpar := setGejVar_parsed (r := q0) (by simpa using hi) e1 e2
    refine ⟨fun g hg => ?_, fun _ _ => Option.isSome_some⟩
    rw [← Option.some.inj hg]
    exact ⟨p, hpar, ⟨_, _, hn, w, hRx, g4, w1, hsum⟩, fun h => hi (hinf.2 h)⟩

theorem sigRecover_def (st : Stack) (q0 : Ge) (preG : List GeStorage) (r s m : Sc) (id : Nat) : sigRecover st q0 preG r s m id =
    if scIsZero r || scIsZero s then none
    else if id &&& 2 ≠ 0 ∧ feCmpVar (feSetB32 (scGetB32 r)).1 pMinusOrder ≥ 0 then none
    else recoverFrom st q0 preG (if id &&& 2 ≠ 0 then feAdd (feSetB32 (scGetB32 r)).1 orderAsFe else (feSetB32 (scGetB32 r)).1)
      (id &&& 1 ≠ 0) r s m := by
  rw [sigRecover]
  simp only [recoverFrom]

theorem fromX_iff {e r s id : Nat} (hid : id < 4) (hr : 0 < r ∧ r < curveN) (hs : 0 < s ∧ s < curveN) {q : secp.Point} :
    FromX e r s (r + id / 2 * curveN) (id &&& 1 ≠ 0) q ↔ Recovers e r s id q := by
  have hb := (id_bits hid).2
  have key : ∀ y : SecpF, (y.val % 2 = 1 ↔ decide (id &&& 1 ≠ 0) = true) ↔ y.val % 2 = id % 2 := fun y => by
    rw [decide_eq_true_eq]
    constructor
    · intro h
      have := h.trans hb
      omega
    · intro h
      refine Iff.trans ?_ hb.symm
      omega
  constructor
  · rintro ⟨⟨x, y, h, w, hx, hy, h1, h2⟩, h0⟩
    exact ⟨hr, hs, ⟨x, y, h, w, hx, (key y).1 hy, h1, h2⟩, h0⟩
  · rintro ⟨-, -, ⟨x, y, h, w, hx, hy, h1, h2⟩, h0⟩
    exact ⟨⟨x, y, h, w, hx, (key y).2 hy, h1, h2⟩, h0⟩

theorem sigRecover_some {st : Stack} {q0 : Ge} {preG : List GeStorage} (hG : StoredTable basePoint 16384 preG) {r s m : Sc} (hr : Scalar r)
    (hs : Scalar s) (hm : Scalar m) {e : Nat} (he : scNat m = e % curveN) {id : Nat} (hid : id < 4) :
    (∀ g, sigRecover st q0 preG r s m id = some g → ∃ q, Parsed g q ∧ Recovers e (scNat r) (scNat s) id q) ∧
    ∀ q, Recovers e (scNat r) (scNat s) id q → (sigRecover st q0 preG r s m id).isSome = true := by
  rw [sigRecover_def]
  by_cases h0 : scNat r = 0 ∨ scNat s = 0
  · rw [if_pos (by rw [Bool.or_eq_true, isZero_eq, isZero_eq]; exact h0)]
    refine ⟨fun g h => (by cases h), fun q hv => ?_⟩
    have := hv.r_range
    have := hv.s_range
    omega
  rw [if_neg (by rw [Bool.or_eq_true, isZero_eq, isZero_eq]; exact h0)]
  have hr0 : 0 < scNat r ∧ scNat r < curveN := ⟨by omega, hr.lt⟩
  have hs0 : 0 < scNat s ∧ scNat s < curveN := ⟨by omega, hs.lt⟩
  obtain ⟨x1, x2⟩ := recover_x hr hid
  by_cases hp : secpP ≤ scNat r + id / 2 * curveN
  · rw [if_pos (x2.2 hp)]
    refine ⟨fun g h => (by cases h), fun q hv => ?_⟩
    obtain ⟨x, -, -, -, hx, -⟩ := hv.point
    have := ZMod.val_lt x
    omega
  rw [if_neg (fun h => hp (x2.1 h))]
  obtain ⟨a1, a2⟩ := recoverFrom_eq (st := st) (q0 := q0) hG hr (by omega) hs hm he (Nat.lt_of_not_le hp) x1 (id &&& 1 ≠ 0)
  refine ⟨fun g hg => ?_, fun q hq => a2 q ((fromX_iff hid hr0 hs0).2 hq)⟩
  obtain ⟨q, b1, b2⟩ := a1 g hg
  exact ⟨q, b1, (fromX_iff hid hr0 hs0).1 b2⟩

/-- The recovery with a context. -/
theorem extRecover_eq {st : Stack} {q0 : Ge} {preG : List GeStorage} (hG : StoredTable basePoint 16384 preG) {sig msg : Bytes}
    (hs : sig.length = 65) (hid : (sig[64]?.getD 0).toNat < 4) (hm : msg.length = 32) :
    ∃ out, extRecover st q0 preG sig msg = .ret out ∧
      ∀ key, out = some key ↔ key.length = 65 ∧ key.head? = some 4 ∧ ∃ q, LibKey key q ∧
        Recovers (setBytes msg) (setBytes (sig.take 32)) (setBytes ((sig.drop 32).take 32)) (sig[64]?.getD 0).toNat q := by
  have hh : ((sig.drop 64).headD 0).toNat = (sig[64]?.getD 0).toNat := by
    rw [List.headD_eq_head?_getD, List.head?_drop]
  obtain ⟨p1, p2⟩ := signatureParse_eq (sig := sig) (by omega)
  rw [extRecover, hh]
  generalize (sig[64]?.getD 0).toNat = id at *
  rw [if_neg (by omega)]
  by_cases hN : setBytes (sig.take 32) < curveN ∧ setBytes ((sig.drop 32).take 32) < curveN
  case neg =>
    rw [p1 (by omega)]
    refine ⟨none, rfl, fun key => ⟨fun h => (by cases h), ?_⟩⟩
    rintro ⟨-, -, q, -, hv⟩
    exact absurd ⟨hv.r_range.2, hv.s_range.2⟩ hN
  obtain ⟨r, s, e, hr, hs', er, es⟩ := p2 hN.1 hN.2
  rw [e]
  simp only
  obtain ⟨m1, m2, -⟩ := setB32_sc hm
  obtain ⟨c1, c2⟩ := sigRecover_some (st := st) (q0 := q0) hG hr hs' m1 m2 hid
  rw [er, es] at c1 c2
  cases hrec : sigRecover st q0 preG r s (scSetB32 msg).1 id with
  | none =>
    refine ⟨none, rfl, fun key => ⟨fun h => (by cases h), ?_⟩⟩
    rintro ⟨-, -, q, -, hv⟩
    have := c2 q hv
    rw [hrec] at this
    cases this
  | some g =>
    obtain ⟨q, pq, hv⟩ := c1 g hrec
    obtain ⟨g', el, pg', -, -⟩ := load_eq pq
    simp only
    rw [ecPubkeySerialize, el]
    obtain ⟨out, eo, k1, k2, k3⟩ := serialize_eq pg' false
    simp only
    rw [eo]
    refine ⟨_, rfl, fun key => ?_⟩
    rw [Option.some_inj]
    constructor
    · rintro rfl
      exact ⟨k2, k3 rfl, q, k1, hv⟩
    · rintro ⟨l1, l2, q', l3, l4⟩
      rw [← recovers_unique hv l4] at l3
      exact libKey_bytes k1 l3 (k2.trans l1.symm) (fun _ => ⟨k3 rfl, l2⟩)

/-- The encoding of keys anew. -/
theorem extReencode_eq (outlen : Nat) (data : Bytes) : ∃ res, extReencode outlen data = .ret res ∧
    ∀ out, res = some out ↔ out.length = (if outlen = 33 then 33 else 65) ∧ (outlen ≠ 33 → out.head? = some 4) ∧
      ∃ q, LibKey data q ∧ LibKey out q := by
  rw [extReencode]
  by_cases hk : ∃ q, LibKey data q
  case neg =>
    rw [parse_none hk]
    refine ⟨none, rfl, fun out => ⟨fun h => (by cases h), ?_⟩⟩
    rintro ⟨-, -, q, h, -⟩
    exact absurd ⟨q, h⟩ hk
  obtain ⟨q, hq⟩ := hk
  obtain ⟨g, eg, pg⟩ := parse_storage hq
  rw [eg]
  simp only
  obtain ⟨g', el, pg', -, -⟩ := load_eq pg
  rw [ecPubkeySerialize, el]
  obtain ⟨out, eo, k1, k2, k3⟩ := serialize_eq pg' (decide (outlen = 33))
  simp only [decide_eq_true_eq, decide_eq_false_iff_not] at k2 k3
  simp only
  rw [eo]
  refine ⟨_, rfl, fun key => ?_⟩
  rw [Option.some_inj]
  constructor
  · rintro rfl
    exact ⟨k2, k3, q, hq, k1⟩
  · rintro ⟨l1, l2, q', l3, l4⟩
    rw [← libKey_unique hq l3] at l4
    refine libKey_bytes k1 l4 (k2.trans l1.symm) (fun h => ?_)
    have : outlen ≠ 33 := fun h33 => by rw [if_pos h33] at k2; omega
    exact ⟨k3 this, l2 this⟩

end Verif.Proofs
