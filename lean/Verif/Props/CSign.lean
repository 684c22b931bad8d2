import Verif.Proofs.CSign
import Verif.Props.CGen
/-!
# Signatures made by the C library: C116

The library is that of secp256.go, with a context that has been built and perhaps blinded; the memory that is not initialized
may hold anything. `fuel` is a bound for the number of candidates that are tried.
-/

namespace Verif.Props
open Verif Verif.C Verif.Spec Verif.Proofs WeierstrassCurve

variable {st st' : Stack} {q0 : Ge} {hmem : HashMem} {ctx : GenCtx} {fuel : Nat}

/-- The library with the signing of the C code. -/
abbrev wholeLib (st st' : Stack) (q0 : Ge) (hmem : HashMem) (ctx : GenCtx) (fuel : Nat) : CLib := theLib st st' q0 (cSign hmem ctx fuel)

/-! ## C116 -/

/-- **C116** Exactly what `Sign` of secp256.go returns: r, s and the identifier for the first candidate of RFC 6979 with which there is
a signature; for messages and keys of 32 bytes and keys between 1 and N - 1. -/
theorem C116_exact (hm : hmem.Ok) (hc : GenReach hmem ctx) (msg key sig : Bytes) : (wholeLib st st' q0 hmem ctx fuel).signature msg key = .ok sig ↔
    msg.length = 32 ∧ key.length = 32 ∧ (0 < setBytes key ∧ setBytes key < curveN) ∧ sig.length = 65 ∧ ∃ n < fuel,
      FirstSigned (candidates Hash.hmacSha256 key msg) (setBytes msg) (setBytes key) n (setBytes (sig.take 32))
        (setBytes ((sig.drop 32).take 32)) (sig[64]?.getD 0).toNat := by
  rw [CLib.signature]
  by_cases h1 : msg.length = 32
  case neg => rw [if_pos h1]; exact ⟨fun h => (nomatch h), fun h => absurd h.1 h1⟩
  rw [if_neg (fun h => h h1)]
  by_cases h2 : key.length = 32
  case neg => rw [if_pos h2]; exact ⟨fun h => (nomatch h), fun h => absurd h.2.1 h2⟩
  rw [if_neg (fun h => h h2)]
  have hk := C110_seckey (st := st) (st' := st') (q0 := q0) (sign := cSign hmem ctx fuel) h2
  by_cases h3 : 0 < setBytes key ∧ setBytes key < curveN
  case neg =>
    rw [if_pos (by rw [← Bool.not_eq_true, hk]; exact h3)]
    exact ⟨fun h => (nomatch h), fun h => absurd h.2.2.1 h3⟩
  rw [if_neg (by rw [hk.2 h3]; decide)]
  have hs := cSign_eq hm (genReach_ok hm hc) fuel h1 h2 h3
  change (match cSign hmem ctx fuel msg key with
    | none => Except.error SecpErr.signFailed
    | some (sig, recid) => Except.ok (sig ++ [UInt8.ofNat recid])) = Except.ok sig ↔ _
  constructor
  · intro h
    cases ho : cSign hmem ctx fuel msg key with
    | none => rw [ho] at h; exact nomatch h
    | some o =>
      obtain ⟨out, id⟩ := o
      rw [ho] at h
      injection h with h
      obtain ⟨l, n, hn, hf⟩ := (hs out id).1 ho
      have hid := signed_id hf.signed
      refine ⟨h1, h2, h3, by rw [← h, List.length_append, l]; rfl, n, hn, ?_⟩
      rw [← h, List.take_append_of_le_length (by omega), List.drop_append_of_le_length (by omega),
        List.take_append_of_le_length (by rw [List.length_drop, l]), List.take_of_length_le (l := out.drop 32) (by rw [List.length_drop, l]),
        List.getElem?_append_right (by omega), l]
      have e : (UInt8.ofNat id).toNat = id := by rw [UInt8.toNat_ofNat']; omega
      show FirstSigned _ _ _ _ _ _ (UInt8.ofNat id).toNat
      rw [e]
      exact hf
  · rintro ⟨-, -, -, l, n, hn, hf⟩
    have e1 : (sig.take 64).take 32 = sig.take 32 := by rw [List.take_take]; rfl
    have e2 : (sig.take 64).drop 32 = (sig.drop 32).take 32 := by rw [List.drop_take]
    rw [← e1, ← e2] at hf
    rw [(hs (sig.take 64) _).2 ⟨by rw [List.length_take, l]; rfl, n, hn, hf⟩]
    show Except.ok (sig.take 64 ++ [UInt8.ofNat (sig[64]?.getD 0).toNat]) = _
    rw [UInt8.ofNat_toNat, List.getElem?_eq_getElem (by omega), Option.getD_some]
    rw [← List.take_succ_eq_append_getElem (by omega), List.take_of_length_le (by omega)]

/-- **C116** The property "what `Sign` returns is a signature that verifies, and from which the key is recovered" in part: if r is
not zero. -/
theorem C116_verifies_partial (hm : hmem.Ok) (hc : GenReach hmem ctx) {msg key sig : Bytes}
    (h : (wholeLib st st' q0 hmem ctx fuel).signature msg key = .ok sig) (h0 : setBytes (sig.take 32) ≠ 0) :
    (∀ pub, LibKey pub (setBytes key • basePoint) → (wholeLib st st' q0 hmem ctx fuel).verifySignature pub msg (sig.take 64) = true) ∧
    ∃ pub, (wholeLib st st' q0 hmem ctx fuel).recoverPubkey msg sig = .ok pub ∧ LibKey pub (setBytes key • basePoint) := by
  obtain ⟨h1, h2, h3, h4, n, -, hf⟩ := (C116_exact hm hc msg key sig).1 h
  have hr := signed_recovers h3 hf.signed h0
  obtain ⟨-, -, hs⟩ := signed_ranges hf.signed
  constructor
  · intro pub hp
    rw [C111_exact]
    refine ⟨h1, by rw [List.length_take, h4]; rfl, _, hp, ?_, ?_⟩
    · rw [List.drop_take]; exact hs
    · rw [List.drop_take, List.take_take]
      exact C112_valid hr
  · obtain ⟨x, y, hxy⟩ := reduced_exists hr.not_zero
    obtain ⟨k1, k2⟩ := marshal_key hxy
    obtain ⟨-, -, -, pub, ⟨l1, l2, l3⟩, -⟩ := C110_unique k1
    refine ⟨pub, ?_, l3⟩
    rw [C112_exact]
    exact ⟨h1, h4, signed_id hf.signed, l1, l2, _, l3, hr⟩

/-- A point with a given first coordinate, as a multiple of the base point by a scalar. -/
theorem scalar_for {m : Nat} (hm : m < secpP) (h : ∃ y, secp.Nonsingular (m : SecpF) y) : ∃ non : Sc, Scalar non ∧ scNat non ≠ 0 ∧
    ∃ x y n, scNat non • basePoint = .some x y n ∧ x.val = m := by
  obtain ⟨y, n⟩ := h
  obtain ⟨k, ⟨hk, hq⟩, -⟩ := (C80_all_points (.some _ _ n)).2 (Affine.Point.some_ne_zero _)
  have hN : curveN < 256 ^ 32 := by decide +kernel
  obtain ⟨p1, p2⟩ := padded_ok (lt_trans hk.2 hN)
  obtain ⟨s1, s2, -⟩ := setB32_sc p1
  rw [p2, Nat.mod_eq_of_lt hk.2] at s2
  refine ⟨_, s1, by omega, _, _, n, by rw [s2, ← hq], ?_⟩
  rw [ZMod.val_natCast, Nat.mod_eq_of_lt hm]

theorem order_on_curve : ∃ y, secp.Nonsingular (curveN : SecpF) y := by
  have h : (Btcec.decompress curveN false).isSome = true := by decide +kernel
  obtain ⟨c, hc⟩ := Option.isSome_iff_exists.1 h
  obtain ⟨y, n, -⟩ := (Btcec.decompress_iff _ _ _).1 hc
  exact ⟨y, n⟩

theorem order_two_on_curve : ∃ y, secp.Nonsingular ((curveN + 2 : Nat) : SecpF) y := by
  have h : (Btcec.decompress (curveN + 2) false).isSome = true := by decide +kernel
  obtain ⟨c, hc⟩ := Option.isSome_iff_exists.1 h
  obtain ⟨y, n, -⟩ := (Btcec.decompress_iff _ _ _).1 hc
  exact ⟨y, n⟩

/-- **C116** The property fails for one secret number and its opposite: there is a point whose first coordinate is N, so that r is zero.
The C library returns such signatures, for all keys and all messages that are not multiples of N; nothing accepts them. (It is not
known for which message the generator gives that number.) -/
theorem C116_fails : ∃ non : Sc, Scalar non ∧ scNat non ≠ 0 ∧ ∀ hmem ctx, hmem.Ok → GenReach hmem ctx → ∀ sec msg, Scalar sec → Scalar msg →
    scNat msg ≠ 0 → ∃ r s id, sigSign ctx sec msg non = some ((r, s), id) ∧ scNat r = 0 ∧ ∀ q, ¬ Valid q (scNat msg) (scNat r) (scNat s) := by
  obtain ⟨non, h1, h2, x, y, n, hp, hx⟩ := scalar_for (m := curveN) (by decide +kernel) order_on_curve
  refine ⟨non, h1, h2, fun hmem ctx hm hc sec msg hs hmsg h0 => ?_⟩
  have hk : 0 < scNat non ∧ scNat non < curveN := ⟨Nat.pos_of_ne_zero h2, h1.lt⟩
  obtain ⟨g1, g2⟩ := sigSign_eq (genReach_ok hm hc) hs hmsg h1 h2
  obtain ⟨s, id, hw, -⟩ := signed_exists (e := scNat msg) (d := scNat sec) hk hp (by
    rw [hx, Nat.mod_self, Nat.zero_mul, Nat.add_zero, Nat.mod_eq_of_lt hmsg.lt]
    exact h0)
  cases ho : sigSign ctx sec msg non with
  | none => exact absurd ⟨_, _, _, hw⟩ (g2 ho)
  | some o =>
    obtain ⟨⟨r, s'⟩, id'⟩ := o
    obtain ⟨-, -, hw'⟩ := g1 _ ho
    have hr := (signed_unique hk hw' hw).1
    rw [hx, Nat.mod_self] at hr
    change scNat r = 0 at hr
    refine ⟨r, s', id', rfl, hr, fun q hv => ?_⟩
    have := hv.r_range.1
    omega

/-- **C116** The comment of `Sign`, "V is 0 or 1", in part: V is at most 3, and at most 1 if the first coordinate of the point is below N. -/
theorem C116_identifier_partial (hm : hmem.Ok) (hc : GenReach hmem ctx) {msg key sig : Bytes}
    (h : (wholeLib st st' q0 hmem ctx fuel).signature msg key = .ok sig) : (sig[64]?.getD 0).toNat < 4 ∧
      ∃ (l : Nat) (x y : SecpF) (n : _), l • basePoint = .some x y n ∧ setBytes (sig.take 32) = x.val % curveN ∧
        ((sig[64]?.getD 0).toNat < 2 ↔ x.val < curveN) := by
  obtain ⟨h1, h2, h3, h4, n, -, hf⟩ := (C116_exact hm hc msg key sig).1 h
  refine ⟨signed_id hf.signed, ?_⟩
  obtain ⟨l, -, x, y, n, hp, hr, hid, -⟩ := hf.signed
  refine ⟨l, x, y, n, hp, hr, ?_⟩
  have := div_curveN x
  split at this <;> omega

/-- **C116** That comment is wrong for one secret number and its opposite: there is a point whose first coordinate is N + 2, and the
signatures with it are valid, and V is 2 or 3. -/
theorem C116_identifier_fails : ∃ non : Sc, Scalar non ∧ scNat non ≠ 0 ∧ ∀ hmem ctx, hmem.Ok → GenReach hmem ctx → ∀ sec msg, Scalar sec →
    scNat sec ≠ 0 → Scalar msg → (scNat msg + 2 * scNat sec) % curveN ≠ 0 → ∃ r s id, sigSign ctx sec msg non = some ((r, s), id) ∧
      2 ≤ id ∧ Valid (scNat sec • basePoint) (scNat msg) (scNat r) (scNat s) := by
  obtain ⟨non, h1, h2, x, y, n, hp, hx⟩ := scalar_for (m := curveN + 2) (by decide +kernel) order_two_on_curve
  refine ⟨non, h1, h2, fun hmem ctx hm hc sec msg hs hs0 hmsg h0 => ?_⟩
  have hk : 0 < scNat non ∧ scNat non < curveN := ⟨Nat.pos_of_ne_zero h2, h1.lt⟩
  have h2N : (curveN + 2) % curveN = 2 := by decide +kernel
  have h2D : (curveN + 2) / curveN = 1 := by decide +kernel
  obtain ⟨g1, g2⟩ := sigSign_eq (genReach_ok hm hc) hs hmsg h1 h2
  obtain ⟨s, id, hw, hid⟩ := signed_exists (e := scNat msg) (d := scNat sec) hk hp (by rw [hx, h2N]; exact h0)
  rw [hx, h2D] at hid
  cases ho : sigSign ctx sec msg non with
  | none => exact absurd ⟨_, _, _, hw⟩ (g2 ho)
  | some o =>
    obtain ⟨⟨r, s'⟩, id'⟩ := o
    obtain ⟨-, -, hw'⟩ := g1 _ ho
    obtain ⟨hr, -, hi⟩ := signed_unique hk hw' hw
    rw [hx, h2N] at hr
    change scNat r = 2 at hr
    change id' = id at hi
    refine ⟨r, s', id', rfl, by omega, ?_⟩
    exact C112_valid (signed_recovers ⟨Nat.pos_of_ne_zero hs0, hs.lt⟩ hw' (by show scNat r ≠ 0; omega))

end Verif.Props
