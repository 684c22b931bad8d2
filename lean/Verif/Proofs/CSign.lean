import Verif.Model.CSign
import Verif.Spec.CSign
import Verif.Proofs.CBlind
import Verif.Props.CEcdsa
/-!
# Signatures made by the C library: lemmas
-/

namespace Verif.Proofs
open Verif Verif.C Verif.Spec Verif.Props WeierstrassCurve

/-! ## What is made -/

theorem neg_point {x y : SecpF} (n : secp.Nonsingular x y) : ∃ m, - (Affine.Point.some x y n : secp.Point) = .some x (-y) m := by
  rw [Affine.Point.neg_some]
  have e : secp.negY x y = -y := by rw [Affine.negY]; simp [secp]
  have m := (secp_nonsingular x (-y)).2 (by rw [neg_sq]; exact (secp_nonsingular _ _).1 n)
  refine ⟨m, ?_⟩
  congr

theorem sub_nsmul {k : Nat} (hk : k ≤ curveN) (q : secp.Point) : (curveN - k) • q = -(k • q) := by
  have e : (curveN - k) • q + k • q = 0 := by
    rw [← add_nsmul, Nat.sub_add_cancel hk]
    exact (C80_all_points q).1
  exact eq_neg_of_add_eq_zero_left e

theorem secp_odd : secpP % 2 = 1 := by decide +kernel

theorem opposite_parity {y : SecpF} (h : y ≠ 0) : (-y).val % 2 = 1 - y.val % 2 := by
  have : NeZero y := ⟨h⟩
  rw [ZMod.val_neg_of_ne_zero]
  have h1 := ZMod.val_lt y
  have h2 := secp_odd
  omega

theorem sub_cast {k : Nat} (hk : k ≤ curveN) : (((curveN - k : Nat)) : ZMod curveN) = -k := by
  rw [Nat.cast_sub hk, CharP.cast_eq_zero, zero_sub]

theorem signed_unique {e d k r s id r' s' id' : Nat} (hk : 0 < k ∧ k < curveN) (h : SignedWith e d k r s id) (h' : SignedWith e d k r' s' id') :
    r = r' ∧ s = s' ∧ id = id' := by
  have hodd := Btcec.half_odd
  have key : ∀ {l r s id r' s' id'}, 0 < l ∧ l < curveN →
      (∃ x y h, l • basePoint = Affine.Point.some x y h ∧ r = x.val % curveN ∧ id = 2 * (x.val / curveN) + y.val % 2 ∧
        s * l % curveN = (e + r * d) % curveN ∧ 0 < s ∧ s ≤ curveN / 2) →
      (∃ x y h, l • basePoint = Affine.Point.some x y h ∧ r' = x.val % curveN ∧ id' = 2 * (x.val / curveN) + y.val % 2 ∧
        s' * l % curveN = (e + r' * d) % curveN ∧ 0 < s' ∧ s' ≤ curveN / 2) → r = r' ∧ s = s' ∧ id = id' := by
    rintro l r s id r' s' id' hl ⟨x, y, n, p, rfl, rfl, e1, s0, s1⟩ ⟨x', y', n', p', rfl, rfl, e1', s0', s1'⟩
    rw [p] at p'
    injection p' with px py
    subst px py
    refine ⟨rfl, ?_, rfl⟩
    have hc := e1.trans e1'.symm
    rw [← ZMod.natCast_eq_natCast_iff', Nat.cast_mul, Nat.cast_mul] at hc
    have := mul_right_cancel₀ (Btcec.cast_ne hl) hc
    rw [ZMod.natCast_eq_natCast_iff', Nat.mod_eq_of_lt (by omega), Nat.mod_eq_of_lt (by omega)] at this
    exact this
  -- both signs cannot occur
  have cross : ∀ {l r s id r' s' id'}, 0 < l ∧ l < curveN →
      (∃ x y h, l • basePoint = Affine.Point.some x y h ∧ r = x.val % curveN ∧ id = 2 * (x.val / curveN) + y.val % 2 ∧
        s * l % curveN = (e + r * d) % curveN ∧ 0 < s ∧ s ≤ curveN / 2) →
      (∃ x y h, (curveN - l) • basePoint = Affine.Point.some x y h ∧ r' = x.val % curveN ∧ id' = 2 * (x.val / curveN) + y.val % 2 ∧
        s' * (curveN - l) % curveN = (e + r' * d) % curveN ∧ 0 < s' ∧ s' ≤ curveN / 2) → False := by
    rintro l r s id r' s' id' hl ⟨x, y, n, p, rfl, rfl, e1, s0, s1⟩ ⟨x', y', n', p', rfl, rfl, e1', s0', s1'⟩
    obtain ⟨m, hm⟩ := neg_point n
    rw [sub_nsmul hl.2.le, p, hm] at p'
    injection p' with px py
    subst px py
    have hc := e1.trans e1'.symm
    rw [← ZMod.natCast_eq_natCast_iff', Nat.cast_mul, Nat.cast_mul, sub_cast hl.2.le] at hc
    have h2 : ((s : Nat) : ZMod curveN) = -((s' : Nat) : ZMod curveN) := by
      refine mul_right_cancel₀ (Btcec.cast_ne hl) (hc.trans (by ring))
    have h3 : ((s + s' : Nat) : ZMod curveN) = 0 := by
      rw [Nat.cast_add, h2]; ring
    rw [ZMod.natCast_eq_zero_iff] at h3
    have := Nat.le_of_dvd (by omega) h3
    omega
  have hk' : 0 < curveN - k ∧ curveN - k < curveN := by omega
  obtain ⟨l, rfl | rfl, h⟩ := h <;> obtain ⟨l', rfl | rfl, h'⟩ := h'
  · exact key hk h h'
  · exact (cross hk h h').elim
  · exact (cross hk h' h).elim
  · exact key hk' h h'

/-- The two ways of a high and a low number. -/
theorem signed_of {e d k t : Nat} {x y : SecpF} {n : secp.Nonsingular x y} (hk : 0 < k ∧ k < curveN) (hp : k • basePoint = .some x y n)
    (ht : t * k % curveN = (e + x.val % curveN * d) % curveN) (h0 : 0 < t) (hN : t < curveN) :
    (t ≤ curveN / 2 → SignedWith e d k (x.val % curveN) t (2 * (x.val / curveN) + y.val % 2)) ∧
    (curveN / 2 < t → SignedWith e d k (x.val % curveN) (curveN - t) (2 * (x.val / curveN) + (1 - y.val % 2))) := by
  refine ⟨fun h => ⟨k, .inl rfl, x, y, n, hp, rfl, rfl, ht, h0, h⟩, fun h => ?_⟩
  obtain ⟨m, hm⟩ := neg_point n
  have hy : y ≠ 0 := fun hy => no_zero_y (hy ▸ n)
  refine ⟨curveN - k, .inr rfl, x, -y, m, by rw [sub_nsmul hk.2.le, hp, hm], rfl, by rw [opposite_parity hy], ?_, by omega, ?_⟩
  · rw [← ht, ← ZMod.natCast_eq_natCast_iff', Nat.cast_mul, Nat.cast_mul, sub_cast hk.2.le, sub_cast hN.le]
    ring
  · have := Btcec.half_odd
    omega

theorem normal_val {a : Fe} (h : Normal a) : feNat a = (feVal a).val := by
  rw [feVal, ZMod.val_natCast, Nat.mod_eq_of_lt h.lt]

theorem curve_order_lt : secpP < 2 * curveN := by decide +kernel

theorem div_curveN (x : SecpF) : x.val / curveN = if curveN ≤ x.val then 1 else 0 := by
  have h1 := ZMod.val_lt x
  have h2 := curve_order_lt
  split
  case isTrue h => exact Nat.div_eq_of_lt_le (by omega) (by omega)
  case isFalse h => exact Nat.div_eq_of_lt (by omega)

theorem recid_eq (a b : Bool) : (((if a then 2 else 0) ||| (if b then 1 else 0) : Nat) = 2 * (if a then 1 else 0) + (if b then 1 else 0)) ∧
    (((if a then 2 else 0) ||| (if b then 1 else 0) : Nat) ^^^ 1 = 2 * (if a then 1 else 0) + (1 - (if b then 1 else 0))) := by
  cases a <;> cases b <;> decide

/-- The signature of the C library, in every context that is good: none only if s would be zero. -/
theorem sigSign_eq {ctx : GenCtx} (h : GenOk ctx) {sec msg non : Sc} (h1 : Scalar sec) (h2 : Scalar msg) (h3 : Scalar non)
    (h0 : scNat non ≠ 0) :
    (∀ o, sigSign ctx sec msg non = some o → Scalar o.1.1 ∧ Scalar o.1.2 ∧
      SignedWith (scNat msg) (scNat sec) (scNat non) (scNat o.1.1) (scNat o.1.2) o.2) ∧
    (sigSign ctx sec msg non = none → ¬ ∃ r s id, SignedWith (scNat msg) (scNat sec) (scNat non) r s id) := by
  have hk : 0 < scNat non ∧ scNat non < curveN := ⟨Nat.pos_of_ne_zero h0, h3.lt⟩
  obtain ⟨m1, m2⟩ := ecmultGen_eq h h3
  have hne := multiple_ne (Nat.not_dvd_of_pos_of_lt hk.1 hk.2) (q := basePoint) (Affine.Point.some_ne_zero _)
  obtain ⟨g1, g2, g3⟩ := setGej_eq m1 m2
  have hi : (geSetGej (ecmultGen ctx non)).infinity = false := by
    rw [← Bool.not_eq_true]
    intro hi
    rw [GeRep, if_pos hi] at g3
    exact hne g3
  obtain ⟨n, hp⟩ := geRep_point hi g3
  obtain ⟨x1, x2, -⟩ := normalize_eq (by decide) g1
  obtain ⟨y1, y2, -⟩ := normalize_eq (by decide) g2
  rw [sigSign]
  generalize geSetGej (ecmultGen ctx non) = g at *
  obtain ⟨b1, b2⟩ := getB32_eq x1
  rw [normal_val x1, x2] at b2
  obtain ⟨r1, r2, r3⟩ := setB32_sc b1
  rw [b2] at r2 r3
  have ho := isOdd_normal y1
  rw [y2] at ho
  generalize hR : scSetB32 (feGetB32 (feNormalize g.x)) = R at *
  generalize hO : feIsOdd (feNormalize g.y) = O at *
  obtain ⟨p1, p2⟩ := mul_sc r1.fits h1.fits
  obtain ⟨a1, a2⟩ := add_sc p1 h2
  obtain ⟨i1, i2⟩ := inverse_sc h3
  obtain ⟨t1, t2⟩ := mul_sc i1.fits a1.fits
  have htk : scNat (scMul (scInverse non) (scAdd (scMul R.1 sec) msg).1) * scNat non % curveN =
      (scNat msg + (feVal g.x).val % curveN * scNat sec) % curveN := by
    rw [← ZMod.natCast_eq_natCast_iff', Nat.cast_mul, t2, ZMod.natCast_mod, Nat.cast_mul, i2, a2, ZMod.natCast_mod, Nat.cast_add, p2,
      ZMod.natCast_mod, r2]
    have := Btcec.cast_ne hk
    push_cast
    field_simp
    ring
  generalize scMul (scInverse non) (scAdd (scMul R.1 sec) msg).1 = t at *
  obtain ⟨q1, q2⟩ := recid_eq R.2 O
  have e1 : (if R.2 = true then 1 else 0) = (feVal g.x).val / curveN := by
    rw [div_curveN]
    by_cases hc : R.2 = true
    · rw [if_pos hc, if_pos (r3.1 hc)]
    · rw [if_neg hc, if_neg (fun h => hc (r3.2 h))]
  have e2 : (if O = true then 1 else 0) = (feVal g.y).val % 2 := by
    by_cases hc : O = true
    · rw [if_pos hc, ho.1 hc]
    · rw [if_neg hc]
      have : ¬ (feVal g.y).val % 2 = 1 := fun h => hc (ho.2 h)
      omega
  by_cases hz : scIsZero t = true
  · rw [if_pos hz]
    refine ⟨fun o h => (nomatch h), fun _ => ?_⟩
    rintro ⟨r, s, id, l, hl, x, y, n', hp', rfl, -, hs, s0, s1⟩
    rw [isZero_eq.1 hz, Nat.zero_mul, Nat.zero_mod] at htk
    have hx : x = feVal g.x := by
      rcases hl with rfl | rfl
      · rw [hp] at hp'
        injection hp' with hx
        exact hx.symm
      · obtain ⟨m, hm⟩ := neg_point n
        rw [sub_nsmul hk.2.le, hp, hm] at hp'
        injection hp' with hx
        exact hx.symm
    rw [hx, ← htk] at hs
    have hpr : curveN.Prime := Fact.out
    have hl' : 0 < l ∧ l < curveN := by omega
    rcases (Nat.Prime.dvd_mul hpr).1 (Nat.dvd_of_mod_eq_zero hs) with hd | hd
    · have := Nat.le_of_dvd s0 hd
      omega
    · have := Nat.le_of_dvd hl'.1 hd
      omega
  · rw [if_neg hz]
    have ht0 : 0 < scNat t := Nat.pos_of_ne_zero (fun h => hz (isZero_eq.2 h))
    obtain ⟨w1, w2⟩ := signed_of hk hp htk ht0 t1.lt
    by_cases hh : scIsHigh t = true
    · rw [if_pos hh]
      refine ⟨fun o h => ?_, fun h => nomatch h⟩
      injection h with h
      rw [← h]
      obtain ⟨n1, n2⟩ := negate_sc t1
      rw [if_neg (by omega)] at n2
      refine ⟨r1, n1, ?_⟩
      show SignedWith _ _ _ (scNat R.1) (scNat (scNegate t)) _
      rw [r2, n2, q2, e1, e2]
      exact w2 ((isHigh_eq t1.fits).1 hh)
    · rw [if_neg hh]
      refine ⟨fun o h => ?_, fun h => nomatch h⟩
      injection h with h
      rw [← h]
      refine ⟨r1, t1, ?_⟩
      show SignedWith _ _ _ (scNat R.1) (scNat t) _
      rw [r2, q1, e1, e2]
      exact w1 (not_lt.1 fun h => hh ((isHigh_eq t1.fits).2 h))

theorem signedWith_mod {e d k r s id : Nat} : SignedWith (e % curveN) d k r s id ↔ SignedWith e d k r s id := by
  simp only [SignedWith, Nat.mod_add_mod]

/-! ## The choice of the secret number -/

theorem nonceRounds_from (mem : HashMem) (seed : Bytes) : ∀ n k, nonceRounds mem n (rngRounds mem seed k).1 (rngRounds mem seed k).2 =
    (rngRounds mem seed (k + n)).2 := by
  intro n
  induction n with
  | zero => intro k; rfl
  | succ n ih =>
    intro k
    have := ih (k + 1)
    rw [rngRounds] at this
    rw [nonceRounds, this, show k + 1 + n = k + (n + 1) by omega]

theorem nonceFunction_eq {mem : HashMem} (hm : mem.Ok) (msg32 key32 : Bytes) (n : Nat) :
    nonceFunction mem msg32 key32 n = rfcCandidate Hash.hmacSha256 (key32 ++ msg32) n := by
  have h := nonceRounds_from mem (key32 ++ msg32) n 0
  rw [rngRounds, Nat.zero_add, rngRounds_eq hm] at h
  rw [nonceFunction, nonceRounds, h]

theorem candidate_length (seed : Bytes) (n : Nat) : (rfcCandidate Hash.hmacSha256 seed n).length = 32 := by
  rw [rfcCandidate]
  cases n with
  | zero => rw [rfcRound]; exact hmac_length _ _
  | succ n => rw [rfcRound]; exact hmac_length _ _

theorem signLoop_eq {mem : HashMem} (hm : mem.Ok) {ctx : GenCtx} (h : GenOk ctx) (msg32 seckey : Bytes) {sec msg : Sc} (h1 : Scalar sec)
    (h2 : Scalar msg) : ∀ (fuel count : Nat),
    (∀ o, signLoop mem ctx msg32 seckey sec msg fuel count = some o → Scalar o.1.1 ∧ Scalar o.1.2 ∧ ∃ n, count ≤ n ∧ n < count + fuel ∧
      (0 < candidates Hash.hmacSha256 seckey msg32 n ∧ candidates Hash.hmacSha256 seckey msg32 n < curveN) ∧
      SignedWith (scNat msg) (scNat sec) (candidates Hash.hmacSha256 seckey msg32 n) (scNat o.1.1) (scNat o.1.2) o.2 ∧
      ∀ m, count ≤ m → m < n → 0 < candidates Hash.hmacSha256 seckey msg32 m ∧ candidates Hash.hmacSha256 seckey msg32 m < curveN →
        ¬ ∃ r s id, SignedWith (scNat msg) (scNat sec) (candidates Hash.hmacSha256 seckey msg32 m) r s id) ∧
    (signLoop mem ctx msg32 seckey sec msg fuel count = none → ∀ m, count ≤ m → m < count + fuel →
      0 < candidates Hash.hmacSha256 seckey msg32 m ∧ candidates Hash.hmacSha256 seckey msg32 m < curveN →
        ¬ ∃ r s id, SignedWith (scNat msg) (scNat sec) (candidates Hash.hmacSha256 seckey msg32 m) r s id) := by
  intro fuel
  induction fuel with
  | zero =>
    intro count
    rw [signLoop]
    exact ⟨fun o h => (nomatch h), fun _ m _ _ => absurd ‹m < count + 0› (by omega)⟩
  | succ fuel ih =>
    intro count
    obtain ⟨i1, i2⟩ := ih (count + 1)
    obtain ⟨s1, s2, s3⟩ := setB32_sc (candidate_length (seckey ++ msg32) count)
    rw [signLoop, nonceFunction_eq hm]
    change scNat _ = candidates Hash.hmacSha256 seckey msg32 count % curveN at s2
    change _ ↔ curveN ≤ candidates Hash.hmacSha256 seckey msg32 count at s3
    generalize scSetB32 (rfcCandidate Hash.hmacSha256 (seckey ++ msg32) count) = non at s1 s2 s3
    -- the rest, if there is no signature with this candidate
    have rest : (0 < candidates Hash.hmacSha256 seckey msg32 count ∧ candidates Hash.hmacSha256 seckey msg32 count < curveN →
          ¬ ∃ r s id, SignedWith (scNat msg) (scNat sec) (candidates Hash.hmacSha256 seckey msg32 count) r s id) →
        (∀ o, signLoop mem ctx msg32 seckey sec msg fuel (count + 1) = some o → Scalar o.1.1 ∧ Scalar o.1.2 ∧
          ∃ n, count ≤ n ∧ n < count + (fuel + 1) ∧
          (0 < candidates Hash.hmacSha256 seckey msg32 n ∧ candidates Hash.hmacSha256 seckey msg32 n < curveN) ∧
          SignedWith (scNat msg) (scNat sec) (candidates Hash.hmacSha256 seckey msg32 n) (scNat o.1.1) (scNat o.1.2) o.2 ∧
          ∀ m, count ≤ m → m < n → 0 < candidates Hash.hmacSha256 seckey msg32 m ∧ candidates Hash.hmacSha256 seckey msg32 m < curveN →
            ¬ ∃ r s id, SignedWith (scNat msg) (scNat sec) (candidates Hash.hmacSha256 seckey msg32 m) r s id) ∧
        (signLoop mem ctx msg32 seckey sec msg fuel (count + 1) = none → ∀ m, count ≤ m → m < count + (fuel + 1) →
          0 < candidates Hash.hmacSha256 seckey msg32 m ∧ candidates Hash.hmacSha256 seckey msg32 m < curveN →
            ¬ ∃ r s id, SignedWith (scNat msg) (scNat sec) (candidates Hash.hmacSha256 seckey msg32 m) r s id) := by
      intro hno
      refine ⟨fun o ho => ?_, fun ho m m1 m2 => ?_⟩
      · obtain ⟨o1, o2, n, n1, n2, n3, n4, n5⟩ := i1 o ho
        refine ⟨o1, o2, n, by omega, by omega, n3, n4, fun m m1 m2 => ?_⟩
        rcases Nat.eq_or_lt_of_le m1 with e | e
        · rw [← e]; exact hno
        · exact n5 m e m2
      · rcases Nat.eq_or_lt_of_le m1 with e | e
        · rw [← e]; exact hno
        · exact i2 ho m e (by omega)
    by_cases hc : (!scIsZero non.1 && !non.2) = true
    · rw [if_pos hc]
      rw [Bool.and_eq_true, Bool.not_eq_true', Bool.not_eq_true', Bool.eq_false_iff, Bool.eq_false_iff, Ne, Ne, isZero_eq, s3, not_le] at hc
      obtain ⟨c1, c2⟩ := hc
      obtain ⟨g1, g2⟩ := sigSign_eq h h1 h2 s1 c1
      rw [s2, Nat.mod_eq_of_lt c2] at g1 g2 c1
      cases hs : sigSign ctx sec msg non.1 with
      | none => exact rest fun _ => g2 hs
      | some o =>
        obtain ⟨o1, o2, o3⟩ := g1 o hs
        refine ⟨fun o' ho' => ?_, fun h => (nomatch h)⟩
        injection ho' with ho'
        rw [← ho']
        exact ⟨o1, o2, count, le_rfl, by omega, ⟨Nat.pos_of_ne_zero c1, c2⟩, o3, fun m m1 m2 => absurd m1 (by omega)⟩
    · rw [if_neg hc]
      refine rest fun ⟨c1, c2⟩ => absurd ?_ hc
      rw [Bool.and_eq_true, Bool.not_eq_true', Bool.not_eq_true', Bool.eq_false_iff, Bool.eq_false_iff, Ne, Ne, isZero_eq, s3, not_le, s2,
        Nat.mod_eq_of_lt c2]
      exact ⟨by omega, c2⟩

theorem firstSigned_mod {c : Nat → Nat} {e d n r s id : Nat} : FirstSigned c (e % curveN) d n r s id ↔ FirstSigned c e d n r s id := by
  constructor <;> rintro ⟨h1, h2, h3⟩
  · refine ⟨h1, signedWith_mod.1 h2, fun m hm hr => ?_⟩
    rintro ⟨r, s, id, h⟩
    exact h3 m hm hr ⟨r, s, id, signedWith_mod.2 h⟩
  · refine ⟨h1, signedWith_mod.2 h2, fun m hm hr => ?_⟩
    rintro ⟨r, s, id, h⟩
    exact h3 m hm hr ⟨r, s, id, signedWith_mod.1 h⟩

theorem firstSigned_unique {c : Nat → Nat} {e d n r s id n' r' s' id' : Nat} (h : FirstSigned c e d n r s id)
    (h' : FirstSigned c e d n' r' s' id') : n = n' ∧ r = r' ∧ s = s' ∧ id = id' := by
  rcases lt_trichotomy n n' with hn | rfl | hn
  · exact absurd ⟨r, s, id, h.signed⟩ (h'.first n hn h.range)
  · exact ⟨rfl, signed_unique h.range h.signed h'.signed⟩
  · exact absurd ⟨r', s', id', h'.signed⟩ (h.first n' hn h'.range)

theorem cSign_eq {mem : HashMem} (hm : mem.Ok) {ctx : GenCtx} (h : GenOk ctx) (fuel : Nat) {msg key : Bytes} (hl : msg.length = 32)
    (hk : key.length = 32) (hr : 0 < setBytes key ∧ setBytes key < curveN) (out : Bytes) (id : Nat) :
    cSign mem ctx fuel msg key = some (out, id) ↔ out.length = 64 ∧ ∃ n < fuel,
      FirstSigned (candidates Hash.hmacSha256 key msg) (setBytes msg) (setBytes key) n (setBytes (out.take 32)) (setBytes (out.drop 32)) id := by
  obtain ⟨k1, k2, k3⟩ := setB32_sc hk
  obtain ⟨m1, m2, -⟩ := setB32_sc hl
  rw [Nat.mod_eq_of_lt hr.2] at k2
  obtain ⟨l1, l2⟩ := signLoop_eq hm h msg key k1 m1 fuel 0
  have hc : (!(scSetB32 key).2 && !scIsZero (scSetB32 key).1) = true := by
    rw [Bool.and_eq_true, Bool.not_eq_true', Bool.not_eq_true', Bool.eq_false_iff, Bool.eq_false_iff, Ne, Ne, isZero_eq, k3, k2]
    omega
  rw [cSign, signRecoverable, if_pos hc]
  rw [k2, m2] at l1 l2
  cases ho : signLoop mem ctx msg key (scSetB32 key).1 (scSetB32 msg).1 fuel 0 with
  | none =>
    refine ⟨fun h => (nomatch h), ?_⟩
    rintro ⟨-, n, hn, hf⟩
    rw [← firstSigned_mod] at hf
    exact absurd ⟨_, _, _, hf.signed⟩ (l2 ho n (Nat.zero_le _) (by omega) hf.range)
  | some o =>
    obtain ⟨⟨r, s⟩, id'⟩ := o
    obtain ⟨o1, o2, n, -, n2, n3, n4, n5⟩ := l1 _ ho
    obtain ⟨b1, b2⟩ := getB32_sc o1.fits
    obtain ⟨c1, c2⟩ := getB32_sc o2.fits
    have hf : FirstSigned (candidates Hash.hmacSha256 key msg) (setBytes msg) (setBytes key) n (scNat r) (scNat s) id' := by
      rw [← firstSigned_mod]
      exact ⟨n3, n4, fun m hm => n5 m (Nat.zero_le _) hm⟩
    show some (scGetB32 r ++ scGetB32 s, id') = some (out, id) ↔ _
    rw [Option.some_inj, Prod.mk.injEq]
    constructor
    · rintro ⟨rfl, rfl⟩
      refine ⟨by rw [List.length_append, b1, c1], n, by omega, ?_⟩
      rw [List.take_left' b1, List.drop_left' b1, b2, c2]
      exact hf
    · rintro ⟨hl, n', -, hf'⟩
      obtain ⟨-, e1, e2, e3⟩ := firstSigned_unique hf hf'
      refine ⟨?_, e3⟩
      rw [← List.take_append_drop 32 out]
      congr 1
      · exact setBytes_inj (by rw [b1, List.length_take, hl]; rfl) (b2.trans e1)
      · exact setBytes_inj (by rw [c1, List.length_drop, hl]) (c2.trans e2)

/-! ## What signatures are worth -/

theorem signed_id {e d k r s id : Nat} (h : SignedWith e d k r s id) : id < 4 := by
  obtain ⟨l, -, x, y, n, -, -, rfl, -⟩ := h
  have := div_curveN x
  split at this <;> omega

theorem signed_ranges {e d k r s id : Nat} (h : SignedWith e d k r s id) : r < curveN ∧ 0 < s ∧ s ≤ curveN / 2 := by
  obtain ⟨l, -, x, y, n, -, rfl, -, -, h0, h1⟩ := h
  exact ⟨Nat.mod_lt _ (by decide +kernel), h0, h1⟩

theorem signed_recovers {e d k r s id : Nat} (hd : 0 < d ∧ d < curveN) (h : SignedWith e d k r s id) (h0 : r ≠ 0) :
    Recovers e r s id (d • basePoint) := by
  obtain ⟨g1, g2, g3⟩ := signed_ranges h
  obtain ⟨l, -, x, y, n, hp, hr, hid, hs, -⟩ := h
  have hr' : 0 < r ∧ r < curveN := ⟨Nat.pos_of_ne_zero h0, g1⟩
  have hw := inverse_of hr'
  have hodd := Btcec.half_odd
  refine ⟨hr', ⟨g2, by omega⟩, ⟨x, y, n, Btcec.inverse r, ?_, by omega, hw, ?_⟩, ?_⟩
  · have := Nat.mod_add_div x.val curveN
    rw [hr, show id / 2 = x.val / curveN by omega, Nat.mul_comm]
    omega
  · generalize Btcec.inverse r = w at hw
    rw [← hp, ← mul_nsmul', ← add_nsmul]
    refine Btcec.nsmul_cast ?_ _
    have c1 := Btcec.one_iff.1 hw
    rw [← ZMod.natCast_eq_natCast_iff'] at hs
    push_cast at hs ⊢
    linear_combination (-(d : ZMod curveN)) * c1 - (w : ZMod curveN) * hs
  · exact multiple_ne (Nat.not_dvd_of_pos_of_lt hd.1 hd.2) (Affine.Point.some_ne_zero _)

/-- When there is a signature. -/
theorem signed_exists {e d k : Nat} {x y : SecpF} {n : secp.Nonsingular x y} (hk : 0 < k ∧ k < curveN) (hp : k • basePoint = .some x y n)
    (h : (e + x.val % curveN * d) % curveN ≠ 0) : ∃ s id, SignedWith e d k (x.val % curveN) s id ∧ id / 2 = x.val / curveN := by
  have hpos : 0 < curveN := by decide +kernel
  have hw := inverse_of hk
  generalize Btcec.inverse k = w at hw
  have ht : (w * (e + x.val % curveN * d)) % curveN * k % curveN = (e + x.val % curveN * d) % curveN := by
    have c1 := Btcec.one_iff.1 hw
    rw [← ZMod.natCast_eq_natCast_iff', Nat.cast_mul, ZMod.natCast_mod]
    push_cast
    linear_combination ((e : ZMod curveN) + (x.val % curveN : Nat) * d) * c1
  have h0 : 0 < (w * (e + x.val % curveN * d)) % curveN := by
    refine Nat.pos_of_ne_zero fun h0 => h ?_
    rw [← ht, h0, Nat.zero_mul, Nat.zero_mod]
  obtain ⟨w1, w2⟩ := signed_of hk hp ht h0 (Nat.mod_lt _ hpos)
  rcases le_or_gt ((w * (e + x.val % curveN * d)) % curveN) (curveN / 2) with hc | hc
  · exact ⟨_, _, w1 hc, by omega⟩
  · exact ⟨_, _, w2 hc, by omega⟩

end Verif.Proofs
