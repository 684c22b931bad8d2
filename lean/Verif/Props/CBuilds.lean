import Verif.Props.CSign
/-!
# The signatures of the C library and of btcec: C117
-/

namespace Verif.Props
open Verif Verif.C Verif.Spec Verif.Proofs WeierstrassCurve

/-- What btcec makes with a secret number is what the C library makes, if r is not zero. -/
theorem btcec_signed {k d : Nat} (hk : 0 < k ∧ k < curveN) (hash : Bytes) (r s : Nat) :
    Btcec.sign k d hash = some (r, s) ↔ r ≠ 0 ∧ ∃ id, SignedWith (hashNumber hash) d k r s id := by
  have hpos : 0 < curveN := by decide +kernel
  have hodd := Btcec.half_odd
  have hR := Btcec.mulBase_ok k
  have hne := multiple_ne (Nat.not_dvd_of_pos_of_lt hk.1 hk.2) (q := basePoint) (Affine.Point.some_ne_zero _)
  have hi := inverse_of hk
  rw [Btcec.sign]
  generalize Btcec.mulBase k = R at hR
  cases R with
  | none => exact absurd hR hne
  | some c =>
    obtain ⟨cx, cy⟩ := c
    obtain ⟨x, y, n, e, rfl, rfl⟩ := Btcec.reduced_val hR
    have hmod : (((x.val : Nat) : Int) % (curveN : Int)).toNat = x.val % curveN := by
      rw [← Int.natCast_mod, Int.toNat_natCast]
    simp only [Btcec.coords, hmod]
    rw [show Btcec.hashToInt hash = hashNumber hash from rfl]
    have ht : (d * (x.val % curveN) + hashNumber hash) * Btcec.inverse k % curveN * k % curveN =
        (hashNumber hash + x.val % curveN * d) % curveN := by
      generalize Btcec.inverse k = w at hi
      have c1 := Btcec.one_iff.1 hi
      rw [← ZMod.natCast_eq_natCast_iff', Nat.cast_mul, ZMod.natCast_mod]
      push_cast
      linear_combination ((d : ZMod curveN) * (x.val % curveN : Nat) + (hashNumber hash : ZMod curveN)) * c1
    have hlt := Nat.mod_lt ((d * (x.val % curveN) + hashNumber hash) * Btcec.inverse k) hpos
    generalize (d * (x.val % curveN) + hashNumber hash) * Btcec.inverse k % curveN = t at ht hlt
    -- the r of a signature
    have hr : ∀ {r s id}, SignedWith (hashNumber hash) d k r s id → r = x.val % curveN ∧ (t = 0 → False) := by
      rintro r s id ⟨l, hl, x', y', n', hp, rfl, -, hs, s0, s1⟩
      have hx : x' = x := by
        rcases hl with rfl | rfl
        · rw [e] at hp
          injection hp with hx
          exact hx.symm
        · obtain ⟨m, hm⟩ := neg_point n
          rw [sub_nsmul hk.2.le, e, hm] at hp
          injection hp with hx
          exact hx.symm
      refine ⟨by rw [hx], fun h0 => ?_⟩
      rw [hx, ← ht, h0, Nat.zero_mul, Nat.zero_mod] at hs
      have hpr : curveN.Prime := Fact.out
      have hl' : 0 < l ∧ l < curveN := by omega
      rcases (Nat.Prime.dvd_mul hpr).1 (Nat.dvd_of_mod_eq_zero hs) with hd | hd
      · have := Nat.le_of_dvd s0 hd
        omega
      · have := Nat.le_of_dvd hl'.1 hd
        omega
    by_cases hr0 : x.val % curveN = 0
    · rw [if_pos hr0]
      refine ⟨fun h => (nomatch h), ?_⟩
      rintro ⟨h0, id, h⟩
      exact absurd ((hr h).1.trans hr0) h0
    rw [if_neg hr0]
    by_cases ht0 : t = 0
    · rw [if_pos (by rw [ht0, if_neg (by omega)])]
      refine ⟨fun h => (nomatch h), ?_⟩
      rintro ⟨-, id, h⟩
      exact ((hr h).2 ht0).elim
    obtain ⟨w1, w2⟩ := signed_of hk e ht (by omega) hlt
    rw [if_neg (by split <;> omega), Option.some_inj, Prod.mk.injEq]
    by_cases hh : t > curveN / 2
    · rw [if_pos hh]
      constructor
      · rintro ⟨rfl, rfl⟩
        exact ⟨hr0, _, w2 hh⟩
      · rintro ⟨-, id, h⟩
        obtain ⟨h1, h2, -⟩ := signed_unique hk h (w2 hh)
        exact ⟨h1.symm, h2.symm⟩
    · rw [if_neg hh]
      constructor
      · rintro ⟨rfl, rfl⟩
        exact ⟨hr0, _, w1 (by omega)⟩
      · rintro ⟨-, id, h⟩
        obtain ⟨h1, h2, -⟩ := signed_unique hk h (w1 (by omega))
        exact ⟨h1.symm, h2.symm⟩

/-! ## The choice of the secret number -/

theorem nonceLoop_eq {mac : Bytes → Bytes → Bytes} (hmac : ∀ k m, (mac k m).length = 32) (seed : Bytes) (k : Nat) : ∀ (fuel n : Nat) (kv : Bytes × Bytes),
    rfcRound mac seed n = (kv.1, mac kv.1 kv.2) →
    (Btcec.nonceLoop mac fuel kv.1 kv.2 = some k ↔ ∃ m, n ≤ m ∧ m < n + fuel ∧ k = setBytes (rfcCandidate mac seed m) ∧
      (0 < setBytes (rfcCandidate mac seed m) ∧ setBytes (rfcCandidate mac seed m) < curveN) ∧
      ∀ j, n ≤ j → j < m → ¬ (0 < setBytes (rfcCandidate mac seed j) ∧ setBytes (rfcCandidate mac seed j) < curveN)) := by
  intro fuel
  induction fuel with
  | zero =>
    intro n kv _
    rw [Btcec.nonceLoop]
    refine ⟨fun h => (nomatch h), ?_⟩
    rintro ⟨m, h1, h2, -⟩
    omega
  | succ fuel ih =>
    intro n kv hkv
    have hc : rfcCandidate mac seed n = mac kv.1 kv.2 := by rw [rfcCandidate, hkv]
    have hh : Btcec.hashToInt (mac kv.1 kv.2) = setBytes (rfcCandidate mac seed n) := by
      rw [Btcec.hashToInt, List.take_of_length_le (by rw [hmac]), hc]
    have hnext : rfcRound mac seed (n + 1) = ((rfcAgain mac (rfcRound mac seed n)).1,
        mac (rfcAgain mac (rfcRound mac seed n)).1 (rfcAgain mac (rfcRound mac seed n)).2) := rfl
    have hi := ih (n + 1) _ hnext
    rw [Btcec.nonceLoop]
    simp only
    rw [hh]
    by_cases hr : 1 ≤ setBytes (rfcCandidate mac seed n) ∧ setBytes (rfcCandidate mac seed n) < curveN
    · rw [if_pos hr, Option.some_inj]
      constructor
      · rintro rfl
        exact ⟨n, le_rfl, by omega, rfl, hr, fun j h1 h2 => absurd h1 (by omega)⟩
      · rintro ⟨m, h1, h2, rfl, h3, h4⟩
        rcases Nat.eq_or_lt_of_le h1 with rfl | h5
        · rfl
        · exact absurd hr (h4 n le_rfl h5)
    · rw [if_neg hr]
      rw [hkv] at hi
      refine Iff.trans hi ?_
      constructor
      · rintro ⟨m, h1, h2, h3, h4, h5⟩
        refine ⟨m, by omega, by omega, h3, h4, fun j j1 j2 => ?_⟩
        rcases Nat.eq_or_lt_of_le j1 with rfl | j3
        · exact hr
        · exact h5 j j3 j2
      · rintro ⟨m, h1, h2, h3, h4, h5⟩
        rcases Nat.eq_or_lt_of_le h1 with rfl | h6
        · exact absurd h4 hr
        · exact ⟨m, h6, by omega, h3, h4, fun j j1 j2 => h5 j (by omega) j2⟩

theorem int2octets_bytes {b : Bytes} (h : b.length = 32) : Btcec.int2octets (setBytes b) = b := by
  have hlt := setBytes_lt256 h
  have hl := bigBytes_length (n := setBytes b) (by rw [show (256 : Nat) ^ 32 = 2 ^ 256 by norm_num]; exact hlt)
  rw [Btcec.int2octets, Nat.sub_eq_zero_of_le hl, List.drop_zero]
  refine setBytes_inj (by rw [List.length_append, List.length_replicate, h]; omega) ?_
  rw [setBytes_append, setBytes_zeros, setBytes_bigBytes, Nat.zero_mul, Nat.zero_add]

theorem bits2octets_bytes {b : Bytes} (h : b.length = 32) (hlt : setBytes b < curveN) : Btcec.bits2octets b = b := by
  have e : Btcec.hashToInt b = setBytes b := by rw [Btcec.hashToInt, List.take_of_length_le (by omega)]
  rw [Btcec.bits2octets, e, if_pos hlt, int2octets_bytes h]

/-- The secret number of btcec is the first candidate in the range. -/
theorem nonce_btcec {mac : Bytes → Bytes → Bytes} (hmac : ∀ k m, (mac k m).length = 32) {key hash : Bytes} (hk : key.length = 32)
    (hh : hash.length = 32) (hlt : setBytes hash < curveN) (fuel k : Nat) :
    Btcec.nonceRFC6979 mac fuel (setBytes key) hash = some k ↔ ∃ n < fuel, k = candidates mac key hash n ∧
      (0 < candidates mac key hash n ∧ candidates mac key hash n < curveN) ∧
      ∀ j < n, ¬ (0 < candidates mac key hash j ∧ candidates mac key hash j < curveN) := by
  have h := nonceLoop_eq hmac (key ++ hash) k fuel 0 (rfcSeeded mac (key ++ hash)) rfl
  rw [Btcec.nonceRFC6979, int2octets_bytes hk, bits2octets_bytes hh hlt]
  refine Iff.trans h ?_
  constructor
  · rintro ⟨n, -, h2, h3, h4, h5⟩
    exact ⟨n, by omega, h3, h4, fun j hj => h5 j (Nat.zero_le _) hj⟩
  · rintro ⟨n, h2, h3, h4, h5⟩
    exact ⟨n, Nat.zero_le _, by omega, h3, h4, fun j _ hj => h5 j hj⟩

/-- What btcec returns. -/
theorem privSign_eq {mac : Bytes → Bytes → Bytes} {sha256 : Bytes → Bytes} (fuel : Nat) (key msg sig : Bytes) :
    Btcec.privSignRFC sha256 mac fuel key msg = some (.ret (some sig)) ↔ sig.length = 64 ∧ ∃ k,
      Btcec.nonceRFC6979 mac fuel (setBytes key) (sha256 msg) = some k ∧
      Btcec.sign k (setBytes key) (sha256 msg) = some (setBytes (sig.take 32), setBytes (sig.drop 32)) := by
  have h256 : curveN < 2 ^ 256 := by decide +kernel
  rw [Btcec.privSignRFC, Option.map_eq_some_iff]
  -- of one number
  have one : ∀ k, Btcec.nonceRFC6979 mac fuel (setBytes key) (sha256 msg) = some k →
      (Btcec.privSign sha256 (fun _ _ => k) key msg = .ret (some sig) ↔
        sig.length = 64 ∧ Btcec.sign k (setBytes key) (sha256 msg) = some (setBytes (sig.take 32), setBytes (sig.drop 32))) := by
    intro k hn
    have hk := nonceLoop_range hn
    rw [Btcec.privSign]
    cases hs : Btcec.sign k (setBytes key) (sha256 msg) with
    | none => exact ⟨fun h => (by simp at h), fun h => (nomatch h.2)⟩
    | some o =>
      obtain ⟨r, s⟩ := o
      obtain ⟨-, id, hw⟩ := (btcec_signed hk _ r s).1 hs
      obtain ⟨g1, g2, g3⟩ := signed_ranges hw
      obtain ⟨b, e1, e2, e3⟩ := C57_roundtrip (r := r) (s := s) (by omega) (by omega)
      rw [signatureFromBytes, List.take_of_length_le (i := 64) (by omega), Prod.mk.injEq] at e3
      simp only
      rw [e1]
      simp only [Out.ret.injEq, Option.some_inj]
      constructor
      · rintro rfl
        exact ⟨e2, by rw [e3.1, e3.2]⟩
      · rintro ⟨l, h⟩
        rw [Prod.mk.injEq] at h
        rw [← List.take_append_drop 32 b, ← List.take_append_drop 32 sig]
        congr 1
        · exact setBytes_inj (by rw [List.length_take, List.length_take, e2, l]) (e3.1.trans h.1)
        · exact setBytes_inj (by rw [List.length_drop, List.length_drop, e2, l]) (e3.2.trans h.2)
  constructor
  · rintro ⟨k, hn, h⟩
    obtain ⟨l, h⟩ := (one k hn).1 h
    exact ⟨l, k, hn, h⟩
  · rintro ⟨l, k, hn, h⟩
    exact ⟨k, hn, (one k hn).2 ⟨l, h⟩⟩

/-! ## C117 -/

variable {st st' : Stack} {q0 : Ge} {hmem : HashMem} {ctx : GenCtx} {fuel : Nat}

/-- **C117** The property "both builds make the same signatures" in part: if the hash is a number below N, then what the build without cgo
returns the C library returns too, before the identifier; and conversely if r is not zero and the first candidate in the range gives a
signature. -/
theorem C117_same_partial (hm : hmem.Ok) (hc : GenReach hmem ctx) {sha256 : Bytes → Bytes} {key msg : Bytes} (hk : key.length = 32)
    (hr : 0 < setBytes key ∧ setBytes key < curveN) (hh : (sha256 msg).length = 32) (hlt : setBytes (sha256 msg) < curveN) (sig : Bytes) :
    (Btcec.privSignRFC sha256 Hash.hmacSha256 fuel key msg = some (.ret (some sig)) →
      ∃ v, (wholeLib st st' q0 hmem ctx fuel).signature (sha256 msg) key = .ok (sig ++ [v])) ∧
    (∀ v, sig.length = 64 → (wholeLib st st' q0 hmem ctx fuel).signature (sha256 msg) key = .ok (sig ++ [v]) → setBytes (sig.take 32) ≠ 0 →
      (∀ n, (0 < candidates Hash.hmacSha256 key (sha256 msg) n ∧ candidates Hash.hmacSha256 key (sha256 msg) n < curveN) →
        (∀ j < n, ¬ (0 < candidates Hash.hmacSha256 key (sha256 msg) j ∧ candidates Hash.hmacSha256 key (sha256 msg) j < curveN)) →
        ∃ r s id, SignedWith (setBytes (sha256 msg)) (setBytes key) (candidates Hash.hmacSha256 key (sha256 msg) n) r s id) →
      Btcec.privSignRFC sha256 Hash.hmacSha256 fuel key msg = some (.ret (some sig))) := by
  have hn : hashNumber (sha256 msg) = setBytes (sha256 msg) := by rw [hashNumber, List.take_of_length_le (by omega)]
  constructor
  · intro h
    obtain ⟨l, k, h1, h2⟩ := (privSign_eq fuel key msg sig).1 h
    obtain ⟨n, n1, rfl, n3, n4⟩ := (nonce_btcec hmac_length hk hh hlt fuel k).1 h1
    obtain ⟨h3, id, h4⟩ := (btcec_signed n3 _ _ _).1 h2
    rw [hn] at h4
    have hid := signed_id h4
    refine ⟨UInt8.ofNat id, ?_⟩
    rw [C116_exact hm hc]
    refine ⟨hh, hk, hr, by rw [List.length_append, l]; rfl, n, n1, ?_⟩
    rw [List.take_append_of_le_length (by omega), List.drop_append_of_le_length (by omega),
      List.take_append_of_le_length (by rw [List.length_drop, l]), List.take_of_length_le (l := sig.drop 32) (by rw [List.length_drop, l]),
      List.getElem?_append_right (by omega), l]
    have e : (UInt8.ofNat id).toNat = id := by rw [UInt8.toNat_ofNat']; omega
    show FirstSigned _ _ _ _ _ _ (UInt8.ofNat id).toNat
    rw [e]
    exact ⟨n3, h4, fun m h1 h2 => absurd h2 (n4 m h1)⟩
  · intro v l h h0 hfirst
    obtain ⟨-, -, -, -, n, n1, hf⟩ := (C116_exact hm hc _ _ _).1 h
    rw [List.take_append_of_le_length (by omega), List.drop_append_of_le_length (by omega),
      List.take_append_of_le_length (by rw [List.length_drop, l]), List.take_of_length_le (l := sig.drop 32) (by rw [List.length_drop, l])] at hf
    rw [privSign_eq]
    have hnone : ∀ j < n, ¬ (0 < candidates Hash.hmacSha256 key (sha256 msg) j ∧ candidates Hash.hmacSha256 key (sha256 msg) j < curveN) := by
      intro j
      induction j using Nat.strong_induction_on with
      | _ j ih =>
        intro hj hrange
        exact hf.first j hj hrange (hfirst j hrange fun i hi => ih i hi (by omega))
    refine ⟨l, candidates Hash.hmacSha256 key (sha256 msg) n, ?_, ?_⟩
    · rw [nonce_btcec hmac_length hk hh hlt]
      exact ⟨n, n1, rfl, hf.range, hnone⟩
    · rw [btcec_signed hf.range, hn]
      exact ⟨h0, _, hf.signed⟩

/-! ## A hash that is N -/

/-- N as 32 bytes. -/
def orderBytes : Bytes :=
  [255, 255, 255, 255, 255, 255, 255, 255, 255, 255, 255, 255, 255, 255, 255, 254, 186, 174, 220, 230, 175, 72, 160, 59, 191, 210, 94, 140, 208, 54, 65, 65]

theorem orderBytes_val : setBytes orderBytes = curveN := by decide +kernel

/-- The first round of the generator of the C library, for the key 1 and the hash N. -/
def firstOfC : Bytes × Bytes :=
  ([211, 65, 150, 170, 134, 167, 228, 3, 171, 88, 140, 165, 25, 235, 251, 201, 191, 127, 32, 249, 41, 38, 112, 33, 102, 230, 105, 128, 2, 138, 60, 31],
   [13, 155, 118, 152, 187, 102, 194, 253, 126, 223, 30, 145, 254, 144, 209, 198, 36, 123, 105, 75, 211, 76, 241, 50, 47, 207, 148, 224, 116, 162, 197, 24])

/-- The first round of the generator of btcec, for which the hash is reduced. -/
def firstOfBtcec : Bytes × Bytes :=
  ([71, 169, 144, 94, 18, 165, 101, 201, 19, 249, 123, 173, 245, 166, 47, 135, 252, 4, 122, 32, 45, 10, 206, 253, 138, 20, 145, 153, 88, 6, 89, 113],
   [1, 4, 151, 211, 105, 179, 213, 37, 202, 21, 236, 41, 193, 4, 166, 148, 33, 11, 181, 159, 246, 202, 191, 193, 10, 254, 109, 240, 40, 56, 150, 223])

set_option maxRecDepth 100000 in
theorem firstOfC_eq : rfcRound Hash.hmacSha256 (oneBytes ++ orderBytes) 0 = firstOfC := by decide +kernel

set_option maxRecDepth 100000 in
theorem firstOfBtcec_eq : rfcRound Hash.hmacSha256 (oneBytes ++ List.replicate 32 0) 0 = firstOfBtcec := by decide +kernel

theorem bits2octets_order : Btcec.bits2octets orderBytes = List.replicate 32 0 := by decide +kernel

theorem firstOfC_range : 0 < setBytes firstOfC.2 ∧ setBytes firstOfC.2 < curveN := by decide +kernel

theorem firstOfBtcec_range : 0 < setBytes firstOfBtcec.2 ∧ setBytes firstOfBtcec.2 < curveN := by decide +kernel

/-- The signature that the C library makes. -/
def signedC : Nat × Nat := (39940589321954180235392745650003830493494877514915213467815949823371666656112,
  35201042790997116917143605164027157295334902320137866538396176248638654602991)

/-- The signature that btcec makes. -/
def signedBtcec : Nat × Nat := (72687201794607335770376625339678533083457947201644627590368835286197510267364,
  8109447218838624529250472094270127202499713651044141199238310867220054199890)

set_option maxRecDepth 100000 in
theorem signedC_eq : Btcec.sign (setBytes firstOfC.2) (setBytes oneBytes) orderBytes = some signedC := by decide +kernel

set_option maxRecDepth 100000 in
theorem signedBtcec_eq : Btcec.sign (setBytes firstOfBtcec.2) (setBytes oneBytes) orderBytes = some signedBtcec := by decide +kernel

theorem oneBytes_val : setBytes oneBytes = 1 := by decide +kernel

theorem nonceRFC_first {mac : Bytes → Bytes → Bytes} (hmac : ∀ k m, (mac k m).length = 32) {key hash seed : Bytes} {kv : Bytes × Bytes}
    (e : Btcec.int2octets (setBytes key) ++ Btcec.bits2octets hash = seed) (h : rfcRound mac seed 0 = kv)
    (hr : 0 < setBytes kv.2 ∧ setBytes kv.2 < curveN) (fuel : Nat) :
    Btcec.nonceRFC6979 mac (fuel + 1) (setBytes key) hash = some (setBytes kv.2) := by
  have hl := nonceLoop_eq hmac seed (setBytes kv.2) (fuel + 1) 0 (rfcSeeded mac seed) rfl
  rw [Btcec.nonceRFC6979, e]
  refine hl.2 ⟨0, le_rfl, by omega, ?_, ?_, fun j _ hj => absurd hj (by omega)⟩
  · rw [rfcCandidate, h]
  · rw [rfcCandidate, h]
    exact hr

/-- What the C library returns if the first candidate gives a signature. -/
theorem cSign_first (hm : hmem.Ok) (hc : GenReach hmem ctx) {key hash : Bytes} (hk : key.length = 32)
    (hr : 0 < setBytes key ∧ setBytes key < curveN) (hh : hash.length = 32) {kv : Bytes × Bytes} (h : rfcRound Hash.hmacSha256 (key ++ hash) 0 = kv)
    (hv : 0 < setBytes kv.2 ∧ setBytes kv.2 < curveN) {r s : Nat} (hs : Btcec.sign (setBytes kv.2) (setBytes key) hash = some (r, s)) :
    ∃ sig v, (wholeLib st st' q0 hmem ctx (fuel + 1)).signature hash key = .ok (sig ++ [v]) ∧ sig.length = 64 ∧
      setBytes (sig.take 32) = r ∧ setBytes (sig.drop 32) = s := by
  have h256 : curveN < 2 ^ 256 := by decide +kernel
  have hn : hashNumber hash = setBytes hash := by rw [hashNumber, List.take_of_length_le (by omega)]
  obtain ⟨-, id, hw⟩ := (btcec_signed hv _ r s).1 hs
  have hid := signed_id hw
  obtain ⟨g1, g2, g3⟩ := signed_ranges hw
  obtain ⟨b, -, l, e3⟩ := C57_roundtrip (r := r) (s := s) (by omega) (by omega)
  rw [signatureFromBytes, List.take_of_length_le (i := 64) (by omega), Prod.mk.injEq] at e3
  refine ⟨b, UInt8.ofNat id, ?_, l, e3⟩
  rw [C116_exact hm hc]
  refine ⟨hh, hk, hr, by rw [List.length_append, l]; rfl, 0, by omega, ?_⟩
  rw [List.take_append_of_le_length (by omega), List.drop_append_of_le_length (by omega),
    List.take_append_of_le_length (by rw [List.length_drop, l]), List.take_of_length_le (l := b.drop 32) (by rw [List.length_drop, l]),
    List.getElem?_append_right (by omega), l, e3.1, e3.2]
  have e : (UInt8.ofNat id).toNat = id := by rw [UInt8.toNat_ofNat']; omega
  have ec : candidates Hash.hmacSha256 key hash 0 = setBytes kv.2 := by rw [candidates, rfcCandidate, h]
  show FirstSigned _ _ _ _ _ _ (UInt8.ofNat id).toNat
  rw [e]
  refine ⟨by rw [ec]; exact hv, by rw [ec, ← hn]; exact hw, fun m hm => absurd hm (by omega)⟩

/-- What btcec returns if the first candidate gives a signature. -/
theorem privSign_first {sha256 : Bytes → Bytes} {key msg seed : Bytes} {kv : Bytes × Bytes}
    (e : Btcec.int2octets (setBytes key) ++ Btcec.bits2octets (sha256 msg) = seed) (h : rfcRound Hash.hmacSha256 seed 0 = kv)
    (hv : 0 < setBytes kv.2 ∧ setBytes kv.2 < curveN) {r s : Nat} (hs : Btcec.sign (setBytes kv.2) (setBytes key) (sha256 msg) = some (r, s)) :
    ∃ sig, Btcec.privSignRFC sha256 Hash.hmacSha256 (fuel + 1) key msg = some (.ret (some sig)) ∧ sig.length = 64 ∧
      setBytes (sig.take 32) = r ∧ setBytes (sig.drop 32) = s := by
  have h256 : curveN < 2 ^ 256 := by decide +kernel
  obtain ⟨-, id, hw⟩ := (btcec_signed hv _ r s).1 hs
  obtain ⟨g1, g2, g3⟩ := signed_ranges hw
  obtain ⟨b, -, l, e3⟩ := C57_roundtrip (r := r) (s := s) (by omega) (by omega)
  rw [signatureFromBytes, List.take_of_length_le (i := 64) (by omega), Prod.mk.injEq] at e3
  refine ⟨b, ?_, l, e3⟩
  rw [privSign_eq]
  exact ⟨l, _, nonceRFC_first hmac_length e h hv fuel, by rw [e3.1, e3.2]; exact hs⟩

/-- **C117** The property fails for a message whose hash is not below N: btcec reduces the hash before it seeds the generator, as the
standard says, and the C library does not. For the hash N and the key 1 both return a signature, and they differ. (No message with such
a hash is known.) -/
theorem C117_fails (hm : hmem.Ok) (hc : GenReach hmem ctx) {sha256 : Bytes → Bytes} {msg : Bytes} (h : sha256 msg = orderBytes) :
    ∃ sig sig' v, Btcec.privSignRFC sha256 Hash.hmacSha256 (fuel + 1) oneBytes msg = some (.ret (some sig)) ∧
      (wholeLib st st' q0 hmem ctx (fuel + 1)).signature (sha256 msg) oneBytes = .ok (sig' ++ [v]) ∧ sig'.length = 64 ∧ sig ≠ sig' := by
  have h1 : oneBytes.length = 32 := by decide
  have hr : 0 < setBytes oneBytes ∧ setBytes oneBytes < curveN := by rw [oneBytes_val]; decide +kernel
  obtain ⟨sig, p1, -, p3, -⟩ := privSign_first (fuel := fuel) (sha256 := sha256) (msg := msg)
    (by rw [h, int2octets_bytes h1, bits2octets_order]) firstOfBtcec_eq firstOfBtcec_range (by rw [h]; exact signedBtcec_eq)
  obtain ⟨sig', v, q1, q2, q3, -⟩ := cSign_first (st := st) (st' := st') (q0 := q0) (fuel := fuel) hm hc h1 hr (by decide)
    firstOfC_eq firstOfC_range signedC_eq
  refine ⟨sig, sig', v, p1, by rw [h]; exact q1, q2, fun e => ?_⟩
  rw [e, q3] at p3
  exact absurd p3 (by decide +kernel)

/-- Not vacuous: the C library makes a signature, which verifies and from which the key is recovered. -/
example (hm : hmem.Ok) (hc : GenReach hmem ctx) : ∃ sig, (wholeLib st st' q0 hmem ctx (fuel + 1)).signature orderBytes oneBytes = .ok sig ∧
    ∃ pub, (wholeLib st st' q0 hmem ctx (fuel + 1)).recoverPubkey orderBytes sig = .ok pub ∧ LibKey pub basePoint := by
  have h1 : oneBytes.length = 32 := by decide
  have hr : 0 < setBytes oneBytes ∧ setBytes oneBytes < curveN := by rw [oneBytes_val]; decide +kernel
  obtain ⟨sig, v, q1, q2, q3, -⟩ := cSign_first (st := st) (st' := st') (q0 := q0) (fuel := fuel) hm hc h1 hr (by decide)
    firstOfC_eq firstOfC_range signedC_eq
  obtain ⟨-, pub, p1, p2⟩ := C116_verifies_partial hm hc q1 (by
    rw [List.take_append_of_le_length (by omega), q3]
    decide +kernel)
  rw [oneBytes_val, one_nsmul] at p2
  exact ⟨_, q1, pub, p1, p2⟩

theorem signedZero_eq : Btcec.sign (setBytes firstOfBtcec.2) (setBytes oneBytes) (List.replicate 32 0) = some signedBtcec := by
  have h1 : hashNumber orderBytes % curveN = hashNumber (List.replicate 32 0) := by decide +kernel
  obtain ⟨h0, id, h⟩ := (btcec_signed firstOfBtcec_range orderBytes _ _).1 signedBtcec_eq
  exact (btcec_signed firstOfBtcec_range _ _ _).2 ⟨h0, id, by rw [← h1]; exact signedWith_mod.2 h⟩

/-- Not vacuous: both make a signature for the hash zero and the key 1. -/
example (hm : hmem.Ok) (hc : GenReach hmem ctx) {sha256 : Bytes → Bytes} {msg : Bytes} (h : sha256 msg = List.replicate 32 0) :
    ∃ sig v, Btcec.privSignRFC sha256 Hash.hmacSha256 (fuel + 1) oneBytes msg = some (.ret (some sig)) ∧
      (wholeLib st st' q0 hmem ctx (fuel + 1)).signature (sha256 msg) oneBytes = .ok (sig ++ [v]) := by
  have h1 : oneBytes.length = 32 := by decide
  have hr : 0 < setBytes oneBytes ∧ setBytes oneBytes < curveN := by rw [oneBytes_val]; decide +kernel
  have hz : setBytes (List.replicate 32 0) < curveN := by decide +kernel
  obtain ⟨sig, p1, -⟩ := privSign_first (fuel := fuel) (sha256 := sha256) (msg := msg)
    (by rw [h, int2octets_bytes h1, bits2octets_bytes (by decide) hz]) firstOfBtcec_eq firstOfBtcec_range (by rw [h]; exact signedZero_eq)
  obtain ⟨v, e⟩ := (C117_same_partial (st := st) (st' := st') (q0 := q0) (fuel := fuel + 1) hm hc h1 hr (by rw [h]; decide) (by rw [h]; exact hz) sig).1 p1
  exact ⟨sig, v, p1, e⟩

end Verif.Props
