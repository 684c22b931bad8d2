import Verif.Proofs.Ecdsa
import Verif.Props.Sign
/-!
# Signatures of secp256k1: C101, C102

What the keys of the application do with the modelled btcec.
-/

namespace Verif.Props
open Verif Verif.Spec Verif.Btcec WeierstrassCurve

variable {sha256 ripemd160 : Bytes → Bytes}

theorem curve_parse : (curve sha256 ripemd160).parsePubKey = parsePubKey := rfl

/-! ## C101 -/

/-- **C101** Exactly which signatures a public key accepts: 64 bytes with numbers r and s, for which the
equation of ECDSA holds for the point that the key denotes and the hash of the message, and s is at most
half of the order. -/
theorem C101_exact (key msg sig : Bytes) : verifySignature (curve sha256 ripemd160) key msg sig = true ↔
    sig.length = 64 ∧ ∃ q, IsKey key q ∧ setBytes (sig.drop 32) ≤ curveN / 2 ∧
      Valid q (hashNumber (sha256 msg)) (setBytes (sig.take 32)) (setBytes (sig.drop 32)) := by
  have hs : sig.length = 64 → signatureFromBytes sig = (setBytes (sig.take 32), setBytes (sig.drop 32)) := by
    intro h
    rw [signatureFromBytes, List.take_of_length_le (i := 64) (by omega)]
  constructor
  · intro h
    obtain ⟨h1, h2, c, h3, h4⟩ := C57_accepted h
    rw [hs h1] at h2 h4
    obtain ⟨q, hq, hk⟩ := (parse_iff key c).1 h3
    exact ⟨h1, q, hk, h2, (verify_iff hq _ _ _).1 h4⟩
  · rintro ⟨h1, q, hk, h2, hv⟩
    obtain ⟨x, y, hq⟩ : ∃ x y, HasReduced x y q := by
      obtain ⟨_, _, n, rfl, _⟩ := hk
      exact reduced_exists (Affine.Point.some_ne_zero _)
    have hp : (curve sha256 ripemd160).parsePubKey key = some (x, y) := (parse_iff key (x, y)).2 ⟨q, hq, hk⟩
    rw [verifySignature, if_neg (not_not.2 h1), hp, hs h1]
    simp only
    rw [if_neg (by rw [curveHalfN, Nat.shiftRight_one]; omega)]
    exact (verify_iff hq _ _ _).2 hv

theorem padded_ok {n : Nat} (h : n < 256 ^ 32) : (padded n).length = 32 ∧ setBytes (padded n) = n := by
  have := bigBytes_length h
  refine ⟨by simp [padded]; omega, ?_⟩
  rw [padded, setBytes_append, setBytes_zeros, setBytes_bigBytes]
  omega

theorem serialized {a : Pt} {q : secp.Point} (h : IsPoint a q) (hq : q ≠ 0) :
    (serializeCompressed a).length = 33 ∧ IsKey (serializeCompressed a) q := by
  cases a with
  | none => exact absurd h hq
  | some c =>
    obtain ⟨cx, cy⟩ := c
    obtain ⟨x, y, n, rfl, rfl, rfl⟩ := reduced_val h
    have hx : x.val < 256 ^ 32 := lt_trans (ZMod.val_lt x) (by decide +kernel)
    obtain ⟨h1, h2⟩ := padded_ok hx
    have hl : (serializeCompressed (some ((x.val : Int), (y.val : Int)))).length = 33 := by
      simp only [serializeCompressed, coords, List.length_cons, Int.toNat_natCast, h1]
    refine ⟨hl, x, y, n, rfl, .inl ⟨hl, ?_, ?_⟩⟩
    · simp only [serializeCompressed, coords, List.head?_cons]
      congr 1
      have : ((y.val : Int) % 2 = 1) ↔ y.val % 2 = 1 := by omega
      simp only [this]
    · simp only [serializeCompressed, coords, List.tail_cons, Int.toNat_natCast, h2]
      simp

theorem multiple_ne {k : Nat} (h : ¬ curveN ∣ k) {q : secp.Point} (hq : q ≠ 0) : k • q ≠ 0 := by
  intro h0
  have hp : curveN.Prime := Fact.out
  have h1 := addOrderOf_dvd_of_nsmul_eq_zero (C80_all_points q).1
  rcases (Nat.dvd_prime hp).1 h1 with h2 | h2
  · exact hq (AddMonoid.addOrderOf_eq_one_iff.1 h2)
  · rw [← h2] at h
    exact h (addOrderOf_dvd_of_nsmul_eq_zero h0)

/-- **C101** The public key of a private key that is not a multiple of N denotes the multiple of the base
point, in 33 bytes; it can be read. -/
theorem C101_public_key {key : Bytes} (h : ¬ curveN ∣ setBytes key) :
    (pubKey key).length = 33 ∧ IsKey (pubKey key) (setBytes key • basePoint) ∧
      ∃ c, parsePubKey (pubKey key) = some c ∧ HasReduced c.1 c.2 (setBytes key • basePoint) := by
  have hne := multiple_ne h (q := basePoint) (Affine.Point.some_ne_zero _)
  obtain ⟨h1, h2⟩ := serialized (mulBase_ok (setBytes key)) hne
  obtain ⟨x, y, hr⟩ := reduced_exists hne
  exact ⟨h1, h2, (x, y), (parse_iff _ (x, y)).2 ⟨_, hr, h2⟩, hr⟩

/-- Keys that are made from random bytes or derived from a secret are not multiples of N. -/
theorem key_proper {key : Bytes} (h : 1 ≤ setBytes key ∧ setBytes key < curveN) : ¬ curveN ∣ setBytes key :=
  Nat.not_dvd_of_pos_of_lt h.1 h.2

/-- **C101** `Sign` does not crash, and what it returns is accepted under the public key, for that
message; whatever the hash function is, and however the secret number is chosen between 1 and N - 1. -/
theorem C101_verifies {nonce : Nat → Bytes → Nat} (hn : ∀ d h, 0 < nonce d h ∧ nonce d h < curveN) {key : Bytes}
    (h : ¬ curveN ∣ setBytes key) (msg : Bytes) : ∃ r, privSign sha256 nonce key msg = .ret r ∧
      ∀ sig, r = some sig → verifySignature (curve sha256 ripemd160) (pubKey key) msg sig = true := by
  simp only [privSign]
  cases hs : sign (nonce (setBytes key) (sha256 msg)) (setBytes key) (sha256 msg) with
  | none => exact ⟨none, rfl, fun _ h => nomatch h⟩
  | some rs =>
    obtain ⟨r, s⟩ := rs
    obtain ⟨hv, hl⟩ := sign_valid (hn _ _) hs
    have hN : curveN < 2 ^ 256 := by decide +kernel
    obtain ⟨b, h1, h2, h3⟩ := C57_roundtrip (r := r) (s := s) (lt_trans hv.r_range.2 hN) (lt_trans hv.s_range.2 hN)
    refine ⟨some b, by simp only [h1], ?_⟩
    rintro sig ⟨⟩
    rw [signatureFromBytes, List.take_of_length_le (i := 64) (by omega), Prod.mk.injEq] at h3
    refine (C101_exact _ _ _).2 ⟨h2, _, (C101_public_key h).2.1, ?_⟩
    rw [h3.1, h3.2]
    exact ⟨hl, hv⟩

theorem nonceLoop_range {mac : Bytes → Bytes → Bytes} {fuel n : Nat} {k v : Bytes} (h : nonceLoop mac fuel k v = some n) :
    0 < n ∧ n < curveN := by
  induction fuel generalizing k v with
  | zero => cases h
  | succ fuel ih =>
    rw [nonceLoop] at h
    simp only at h
    split at h
    · cases h; assumption
    · exact ih h

/-- **C101** The same with the choice of the code (RFC 6979), if it is made. -/
theorem C101_signs {mac : Bytes → Bytes → Bytes} {fuel : Nat} {key : Bytes} (h : ¬ curveN ∣ setBytes key) {msg : Bytes}
    {out : Out (Option Bytes)} (ho : privSignRFC sha256 mac fuel key msg = some out) : ∃ r, out = .ret r ∧
      ∀ sig, r = some sig → verifySignature (curve sha256 ripemd160) (pubKey key) msg sig = true := by
  rw [privSignRFC, Option.map_eq_some_iff] at ho
  obtain ⟨k, hk, rfl⟩ := ho
  exact C101_verifies (fun _ _ => nonceLoop_range hk) h msg

/-- **C101** Keys that are made from random bytes, or derived from a secret, sign. -/
theorem C101_generated {mac : Bytes → Bytes → Bytes} {fuel : Nat} {key : Bytes}
    (h : (∃ rand, genPrivKey rand = .ret key) ∨ ∃ secret, genPrivKeyFromSecret sha256 secret = .ret key) {msg : Bytes}
    {out : Out (Option Bytes)} (ho : privSignRFC sha256 mac fuel key msg = some out) : ∃ r, out = .ret r ∧
      ∀ sig, r = some sig → verifySignature (curve sha256 ripemd160) (pubKey key) msg sig = true := by
  refine C101_signs (key_proper ?_) ho
  rcases h with ⟨rand, h⟩ | ⟨secret, h⟩
  · exact (C58_generated h).2
  · obtain ⟨key', h1, _, h2, h3, _⟩ := C58_derived sha256 secret
    rw [h] at h1
    cases h1
    exact ⟨h2, h3⟩

/-- **C101** The secret number gives no signature exactly if the x-coordinate of its multiple of the base
point, or the second number, is zero modulo N. -/
theorem C101_none {k d : Nat} {hash : Bytes} : Btcec.sign k d hash = none ↔
    ((coords (mulBase k)).1 % curveN).toNat = 0 ∨
      (d * ((coords (mulBase k)).1 % curveN).toNat + hashNumber hash) * inverse k % curveN = 0 := by
  have hpos : 0 < curveN := by decide +kernel
  simp only [Btcec.sign]
  generalize ((coords (mulBase k)).1 % curveN).toNat = r
  by_cases hr : r = 0
  · simp [hr]
  · rw [if_neg hr]
    have hlt := Nat.mod_lt ((d * r + hashNumber hash) * inverse k) hpos
    rw [show hashToInt hash = hashNumber hash from rfl]
    generalize (d * r + hashNumber hash) * inverse k % curveN = s at hlt
    have : (if s > curveN / 2 then curveN - s else s) = 0 ↔ s = 0 := by split <;> omega
    by_cases hs : s = 0
    · rw [if_pos (this.2 hs)]; simp [hs]
    · rw [if_neg fun h => hs (this.1 h)]; simp [hs, hr]

/-- **C101** If (r, s) is a signature so is (r, N - s), of the same number under the same key; so without
the limit on s every signature would have a second form.  With it exactly one of both is accepted. -/
theorem C101_sibling {q : secp.Point} {e r s : Nat} (h : Valid q e r s) : Valid q e r (curveN - s) ∧
    (curveN - s ≤ curveN / 2 ↔ ¬ s ≤ curveN / 2) := by
  have hs := h.s_range
  have hodd := half_odd
  have hs' : 0 < curveN - s ∧ curveN - s < curveN := by omega
  refine ⟨⟨h.r_range, hs', ?_⟩, by omega⟩
  obtain ⟨w, hw, x, y, n, he, hx⟩ := h.point
  have hc := cast_ne hs'
  have hi : (curveN - s) * inverse (curveN - s) % curveN = 1 :=
    one_iff.2 (by rw [inverse_cast hc]; exact mul_inv_cancel₀ hc)
  refine ⟨inverse (curveN - s), hi, ?_⟩
  have h1 := one_iff.1 hi
  have h2 := one_iff.1 hw
  have hneg : ((curveN - s : Nat) : ZMod curveN) = -(s : ZMod curveN) := by
    rw [Nat.cast_sub hs.2.le, CharP.cast_eq_zero (ZMod curveN) curveN, zero_sub]
  have hww : ((inverse (curveN - s) : Nat) : ZMod curveN) = -(w : ZMod curveN) := by
    rw [hneg] at h1
    have hs0 := cast_ne hs
    apply mul_left_cancel₀ hs0
    linear_combination -h1 + h2
  have hsum : ((e * inverse (curveN - s)) • basePoint + (r * inverse (curveN - s)) • q) +
      ((e * w) • basePoint + (r * w) • q) = 0 := by
    have e1 : (e * inverse (curveN - s)) • basePoint + (e * w) • basePoint = 0 := by
      rw [← add_nsmul]
      refine (nsmul_cast (b := 0) ?_ _).trans (zero_nsmul _)
      push_cast; rw [hww]; ring
    have e2 : (r * inverse (curveN - s)) • q + (r * w) • q = 0 := by
      rw [← add_nsmul]
      refine (nsmul_cast (b := 0) ?_ _).trans (zero_nsmul _)
      push_cast; rw [hww]; ring
    rw [add_add_add_comm, e1, e2, add_zero]
  rw [eq_neg_of_add_eq_zero_left hsum, he, Affine.Point.neg_some]
  exact ⟨_, _, _, rfl, hx⟩

/-- **C101** Every public key that can be read belongs to exactly one private key between 1 and N - 1. -/
theorem C101_owner {b : Bytes} {q : secp.Point} (h : IsKey b q) : ∃! d, (0 < d ∧ d < curveN) ∧ q = d • basePoint := by
  obtain ⟨_, _, n, rfl, _⟩ := h
  exact (C80_all_points _).2 (Affine.Point.some_ne_zero _)

/-- **C101** The public key of a private key that is a multiple of N cannot be read: nothing is accepted
under it. -/
theorem C101_zero {key : Bytes} (h : curveN ∣ setBytes key) (msg sig : Bytes) :
    verifySignature (curve sha256 ripemd160) (pubKey key) msg sig = false := by
  have hz : setBytes key • basePoint = 0 := by
    obtain ⟨k, hk⟩ := h
    rw [hk, mul_comm, mul_nsmul', (C80_all_points _).1, nsmul_zero]
  have hp := mulBase_ok (setBytes key)
  rw [hz] at hp
  have hn : mulBase (setBytes key) = none := by
    cases he : mulBase (setBytes key) with
    | none => rfl
    | some c =>
      rw [he] at hp
      obtain ⟨_, _, n, e, _⟩ := reduced_val hp
      exact absurd e.symm (Affine.Point.some_ne_zero _)
  have hk : (curve sha256 ripemd160).parsePubKey (pubKey key) = none := by
    have : parsePubKey (serializeCompressed none) = none := by decide +kernel
    rw [curve_parse, pubKey, hn, this]; rfl
  rw [verifySignature, hk]
  split <;> rfl

/-- The private key of the test of the repository (secp256k1_test.go:25-31). -/
def testKey : Bytes :=
  (Client.hexDecode b!"a96e62ed3955e65be32703f12d87b6b5cf26039ecfa948dc5107a495418e5330").getD []

/-- Its public key is the one expected there. -/
example : pubKey testKey =
    (Client.hexDecode b!"02950e1cdfcb133d6024109fd489f734eeb4502418e538c28481f22bce276f248c").getD [] := by decide +kernel

/-- It signs. -/
example : ∃ sig, privSign id (fun _ _ => 12345) testKey b!"message" = .ret (some sig) ∧
    verifySignature (curve id id) (pubKey testKey) b!"message" sig = true := by
  obtain ⟨r, h1, h2⟩ := C101_verifies (sha256 := id) (ripemd160 := id) (nonce := fun _ _ => 12345)
    (fun _ _ => by decide +kernel) (key := testKey) (by decide +kernel) b!"message"
  have : (match privSign id (fun _ _ => 12345) testKey b!"message" with | .ret (some _) => true | _ => false) = true := by
    decide +kernel
  rw [h1] at this
  cases r with
  | none => cases this
  | some sig => exact ⟨sig, h1, h2 sig rfl⟩

/-! ## C102 -/

/-- **C102 (partial)** Two keys of 33 bytes that denote the same point, with numbers below P, are the same
bytes. -/
theorem C102_partial {a b : Bytes} {q : secp.Point} (ha : IsKey a q) (hb : IsKey b q) (hla : a.length = 33)
    (hlb : b.length = 33) (hpa : setBytes a.tail < secpP) (hpb : setBytes b.tail < secpP) : a = b := by
  obtain ⟨x, y, n, rfl, ha⟩ := ha
  obtain ⟨x', y', n', e, hb⟩ := hb
  injection e with e1 e2
  subst e1 e2
  obtain ⟨_, h1, h2⟩ := ha.resolve_right (by omega)
  obtain ⟨_, h3, h4⟩ := hb.resolve_right (by omega)
  have h5 : setBytes a.tail = setBytes b.tail := by
    rw [← val_natCast_lt hpa, ← val_natCast_lt hpb, h2, h4]
  cases a with
  | nil => simp at hla
  | cons f l =>
    cases b with
    | nil => simp at hlb
    | cons g l' =>
      simp only [List.head?_cons, Option.some.injEq, List.tail_cons, List.length_cons] at h1 h3 h5 hla hlb
      rw [h1, h3, setBytes_inj (by omega) h5]

/-- **C102 (partial)** In particular public keys that are computed from private keys are the same bytes
if they denote the same point. -/
theorem C102_computed_partial {k l : Bytes} (hk : ¬ curveN ∣ setBytes k) (hl : ¬ curveN ∣ setBytes l) :
    pubKey k = pubKey l ↔ setBytes k % curveN = setBytes l % curveN := by
  constructor
  · intro h
    obtain ⟨c, h1, h2⟩ := (C101_public_key hk).2.2
    obtain ⟨c', h3, h4⟩ := (C101_public_key hl).2.2
    rw [h, h3] at h1
    cases h1
    have e : setBytes k • basePoint = setBytes l • basePoint := point_inj h2.coords h4.coords
    have hn : theCurve.n.toNat = curveN := by decide +kernel
    have hpos : 0 < curveN := by decide +kernel
    have hr : ∀ {n : Nat}, ¬ curveN ∣ n → 0 < n % curveN ∧ n % curveN < theCurve.n.toNat := by
      intro n hd
      exact ⟨Nat.pos_of_ne_zero fun h => hd (Nat.dvd_of_mod_eq_zero h), by rw [hn]; exact Nat.mod_lt _ hpos⟩
    refine (C80_public_keys (hr hk) (hr hl)).2 ?_
    rw [nsmul_cast (ZMod.natCast_mod _ _), nsmul_cast (ZMod.natCast_mod _ _), e]
  · intro h
    have hmul : setBytes k • basePoint = setBytes l • basePoint :=
      nsmul_cast ((ZMod.natCast_eq_natCast_iff' _ _ _).2 h) _
    have h1 := mulBase_ok (setBytes k)
    have h2 := mulBase_ok (setBytes l)
    rw [hmul] at h1
    have hne := multiple_ne hl (q := basePoint) (Affine.Point.some_ne_zero _)
    rw [pubKey, pubKey]
    cases ha : mulBase (setBytes k) with
    | none => rw [ha] at h1; exact absurd h1 hne
    | some c =>
      cases hb : mulBase (setBytes l) with
      | none => rw [hb] at h2; exact absurd h2 hne
      | some d =>
        rw [ha] at h1
        rw [hb] at h2
        obtain ⟨e1, e2⟩ := coords_inj h1 h2
        rw [show c = d from Prod.ext e1 e2]

/-- The point with x = 1, written with x = 1. -/
def oneKey : Bytes := 2 :: padded 1

/-- The same point, written with x = P + 1. -/
def largeKey : Bytes := 2 :: padded (theCurve.p.toNat + 1)

/-- **C102 fails**: there are two different keys of 33 bytes that denote the same point, so whatever
is accepted under one is accepted under the other, in the name of another address. -/
theorem C102_fails : ∃ a b : Bytes, a.length = 33 ∧ b.length = 33 ∧ a ≠ b ∧ (∃ q, IsKey a q ∧ IsKey b q) ∧
    ∀ sha256 ripemd160 msg sig, verifySignature (curve sha256 ripemd160) a msg sig =
      verifySignature (curve sha256 ripemd160) b msg sig := by
  have h : parsePubKey oneKey = parsePubKey largeKey ∧ (parsePubKey oneKey).isSome = true := by decide +kernel
  refine ⟨oneKey, largeKey, by decide +kernel, by decide +kernel, by decide +kernel, ?_, fun s r msg sig => ?_⟩
  · obtain ⟨c, hc⟩ := Option.isSome_iff_exists.1 h.2
    obtain ⟨q, h1, h2⟩ := (parse_iff _ _).1 hc
    rw [h.1] at hc
    obtain ⟨q', h3, h4⟩ := (parse_iff _ _).1 hc
    rw [point_inj h3.coords h1.coords] at h4
    exact ⟨q, h2, h4⟩
  · have e : (curve s r).parsePubKey oneKey = (curve s r).parsePubKey largeKey := by
      rw [curve_parse, h.1]
    rw [verifySignature, verifySignature, e]

/-! ## C82 -/

/-- **C82** (partial) The multiple of any point, for scalars between 1 and N - 1; it is never the point at
infinity.  Missing: other scalars, see `C82_refused`, `C82_crashes` and `C82_fails`. -/
theorem C82_every_point_partial {mul : Bytes → Bytes → Option Bytes} (hm : Multiplies mul) {x y : Int} {q : secp.Point}
    (h : HasReduced x y q) {scalar : Bytes} (hl : scalar.length ≤ 32) (h0 : 0 < setBytes scalar)
    (hN : setBytes scalar < theCurve.n.toNat) :
    ∃ x' y', theCurve.scalarMult mul x y scalar = .ret (some (x', y')) ∧ HasReduced x' y' (setBytes scalar • q) := by
  have hn : theCurve.n.toNat = curveN := by decide +kernel
  refine C82_multiple_partial hm h hl h0 hN (multiple_ne (Nat.not_dvd_of_pos_of_lt h0 (hn ▸ hN)) ?_)
  obtain ⟨_, _, _, rfl, _⟩ := reduced_val h
  exact Affine.Point.some_ne_zero _

end Verif.Props
