import Verif.Proofs.CEcdsa
import Verif.Props.CGroup
import Verif.Props.Ecdsa
/-!
# Keys and signatures in the C library: C110 to C113

What `secp256.go` does with the C library, as it is modelled: the context is that of `secp256k1_context_create`.
-/

namespace Verif.Props
open Verif Verif.C Verif.Spec Verif.Proofs WeierstrassCurve

/-! ## C110 -/

/-- **C110** Exactly which bytes are parsed as public keys. -/
theorem C110_parse (b : Bytes) : (ecPubkeyParse b).isSome = true ↔ ∃ q, LibKey b q := by
  constructor
  · intro h
    by_contra hc
    rw [parse_none hc] at h
    cases h
  · rintro ⟨q, h⟩
    obtain ⟨g, e, -⟩ := parse_storage h
    rw [e]; rfl

/-- **C110** Bytes denote at most one point, and a point has exactly one encoding of 33 bytes and exactly one of 65 bytes that
begins with 4. -/
theorem C110_unique {b : Bytes} {q : secp.Point} (h : LibKey b q) : (∀ q', LibKey b q' → q' = q) ∧ q ≠ 0 ∧
    (∃! out : Bytes, out.length = 33 ∧ LibKey out q) ∧ ∃! out : Bytes, out.length = 65 ∧ out.head? = some 4 ∧ LibKey out q := by
  refine ⟨fun q' h' => libKey_unique h' h, ?_, ?_, ?_⟩
  · obtain ⟨x, y, n, rfl, -⟩ := h
    exact Affine.Point.some_ne_zero _
  · obtain ⟨g, -, p⟩ := pubkeyParse_of h
    obtain ⟨out, -, k1, k2, -⟩ := serialize_eq p true
    exact ⟨out, ⟨k2, k1⟩, fun out' ⟨l, k⟩ => libKey_bytes k k1 (l.trans k2.symm) (fun h => by omega)⟩
  · obtain ⟨g, -, p⟩ := pubkeyParse_of h
    obtain ⟨out, -, k1, k2, k3⟩ := serialize_eq p false
    exact ⟨out, ⟨k2, k3 rfl, k1⟩, fun out' ⟨l, l4, k⟩ => libKey_bytes k k1 (l.trans k2.symm) (fun _ => ⟨l4, k3 rfl⟩)⟩

/-- **C110** Encoding a key anew does not panic; it gives the encoding of the same point with the length that is asked for, and
fails exactly if the bytes are not a key. -/
theorem C110_reencode (outlen : Nat) (data : Bytes) : ∃ res, extReencode outlen data = .ret res ∧
    (res = none ↔ ¬ ∃ q, LibKey data q) ∧
    ∀ out, res = some out ↔ out.length = (if outlen = 33 then 33 else 65) ∧ (outlen ≠ 33 → out.head? = some 4) ∧
      ∃ q, LibKey data q ∧ LibKey out q := by
  obtain ⟨res, e, h⟩ := extReencode_eq outlen data
  refine ⟨res, e, ⟨?_, ?_⟩, h⟩
  · rintro rfl ⟨q, hq⟩
    obtain ⟨g, -, p⟩ := pubkeyParse_of hq
    obtain ⟨out, -, k1, k2, k3⟩ := serialize_eq p (decide (outlen = 33))
    simp only [decide_eq_true_eq, decide_eq_false_iff_not] at k2 k3
    exact nomatch (h out).2 ⟨k2, k3, q, hq, k1⟩
  · intro hc
    cases res with
    | none => rfl
    | some out =>
      obtain ⟨-, -, q, hq, -⟩ := (h out).1 rfl
      exact absurd ⟨q, hq⟩ hc

variable {st st' : Stack} {q0 : Ge} {sign : Bytes → Bytes → Option (Bytes × Nat)}

/-- The library with its context. -/
abbrev theLib (st st' : Stack) (q0 : Ge) (sign : Bytes → Bytes → Option (Bytes × Nat)) : CLib := cLib st q0 (contextTable st') sign

theorem reencode_some {n : Nat} {key out : Bytes} : (theLib st st' q0 sign).reencode n key = some out ↔
    out.length = (if n = 33 then 33 else 65) ∧ (n ≠ 33 → out.head? = some 4) ∧ ∃ q, LibKey key q ∧ LibKey out q := by
  obtain ⟨res, e, h⟩ := extReencode_eq n key
  rw [show (theLib st st' q0 sign).reencode n key = orNone (extReencode n key) from rfl, e]
  exact h out

/-- 65 bytes after 4 are the coordinates. -/
theorem libKey_65 {out : Bytes} {q : secp.Point} (h : LibKey out q) (hl : out.length = 65) :
    HasReduced (setBytes (out.tail.take 32)) (setBytes (out.tail.drop 32)) q := by
  obtain ⟨x, y, n, rfl, h⟩ := h
  obtain ⟨-, -, hx, hy⟩ := h.resolve_left (by rw [hl]; rintro ⟨h, -⟩; cases h)
  have h1 := ZMod.val_lt x
  have h2 := ZMod.val_lt y
  have ex : ((setBytes (out.tail.take 32) : Nat) : SecpF) = x := by rw [hx, ZMod.natCast_zmod_val]
  have ey : ((setBytes (out.tail.drop 32) : Nat) : SecpF) = y := by rw [hy, ZMod.natCast_zmod_val]
  refine ⟨?_, by omega, by omega⟩
  rw [HasCoords]
  simp only [Int.cast_natCast, ex, ey]
  exact ⟨n, trivial⟩

theorem reduced_unique {x y x' y' : Int} {q : secp.Point} (h : HasReduced x y q) (h' : HasReduced x' y' q) : x = x' ∧ y = y' := by
  obtain ⟨a, b, n, e, rfl, rfl⟩ := Btcec.reduced_val h
  obtain ⟨a', b', n', e', rfl, rfl⟩ := Btcec.reduced_val h'
  rw [e] at e'
  injection e' with e1 e2
  subst e1 e2
  exact ⟨rfl, rfl⟩

/-- **C110** `DecompressPubkey` gives the coordinates of the point that 33 bytes denote, and nil for all other bytes. -/
theorem C110_decompress (key : Bytes) (x y : Int) : (theLib st st' q0 sign).decompressPubkey key = some (x, y) ↔
    key.length = 33 ∧ ∃ q, LibKey key q ∧ HasReduced x y q := by
  rw [CLib.decompressPubkey]
  by_cases hl : key.length = 33
  case neg => rw [if_pos hl]; exact ⟨fun h => (by cases h), fun h => absurd h.1 hl⟩
  rw [if_neg (by rw [hl]; decide)]
  have hsome := fun out => reencode_some (st := st) (st' := st') (q0 := q0) (sign := sign) (n := 65) (key := key) (out := out)
  cases he : (theLib st st' q0 sign).reencode 65 key with
  | none =>
    refine ⟨fun h => (by cases h), ?_⟩
    rintro ⟨-, q, hq, -⟩
    obtain ⟨-, -, -, out, ⟨l1, l2, l3⟩, -⟩ := C110_unique hq
    have := (hsome out).2 ⟨l1, fun _ => l2, q, hq, l3⟩
    rw [he] at this
    cases this
  | some out =>
    obtain ⟨l1, -, q, hq, ho⟩ := (hsome out).1 he
    have hr := libKey_65 ho l1
    have e1 : (out.take 33).drop 1 = out.tail.take 32 := by rw [List.drop_take, List.drop_one]
    have e2 : out.drop 33 = out.tail.drop 32 := by rw [← List.drop_one, List.drop_drop]
    simp only
    rw [e1, e2, Option.some_inj, Prod.mk.injEq]
    constructor
    · rintro ⟨rfl, rfl⟩
      exact ⟨hl, q, hq, hr⟩
    · rintro ⟨-, q', hq', hr'⟩
      rw [libKey_unique hq' hq] at hr'
      exact reduced_unique hr hr'

theorem marshal_key {x y : Int} {q : secp.Point} (h : HasReduced x y q) : LibKey (theCurve.marshal x y) q ∧
    (theCurve.marshal x y).length = 65 := by
  have hp : (secpP : Int) < 2 ^ 256 := by decide +kernel
  obtain ⟨h1, h2⟩ := C81_roundtrip (x := x) (y := y) (by have := h.x_range; omega) (by have := h.y_range; omega)
  obtain ⟨a, b, n, rfl, rfl, rfl⟩ := Btcec.reduced_val h
  rw [BitCurve.unmarshal, if_neg (by rw [h1]; decide), if_neg (by rw [BitCurve.marshal]; exact fun h => h rfl), byteLen_eq, Option.some_inj,
    Prod.mk.injEq] at h2
  obtain ⟨h2, h3⟩ := h2
  refine ⟨⟨a, b, n, rfl, .inr ⟨h1, .inl rfl, ?_, ?_⟩⟩, h1⟩
  · rw [List.drop_take, List.drop_one] at h2
    exact_mod_cast h2
  · have e2 : (theCurve.marshal a.val b.val).drop (1 + 32) = (theCurve.marshal a.val b.val).tail.drop 32 := by
      rw [← List.drop_one, List.drop_drop]
    rw [e2] at h3
    exact_mod_cast h3

/-- **C110** `CompressPubkey` of the coordinates of a point gives the 33 bytes that denote it; of coordinates that are reduced
but not on the curve it panics. -/
theorem C110_compress {x y : Int} (hx : 0 ≤ x ∧ x < secpP) (hy : 0 ≤ y ∧ y < secpP) :
    (∀ q, HasReduced x y q → ∃ out, (theLib st st' q0 sign).compressPubkey x y = .ret out ∧ out.length = 33 ∧ LibKey out q) ∧
    ((¬ ∃ q, HasReduced x y q) → (theLib st st' q0 sign).compressPubkey x y = .panic) := by
  have hsome := fun out => reencode_some (st := st) (st' := st') (q0 := q0) (sign := sign) (n := 33) (key := theCurve.marshal x y)
    (out := out)
  rw [CLib.compressPubkey]
  constructor
  · intro q h
    obtain ⟨k1, -⟩ := marshal_key h
    obtain ⟨-, -, ⟨out, ⟨l1, l2⟩, -⟩, -⟩ := C110_unique k1
    rw [(hsome out).2 ⟨l1, fun h => absurd rfl h, q, k1, l2⟩]
    exact ⟨out, rfl, l1, l2⟩
  · intro hc
    cases he : (theLib st st' q0 sign).reencode 33 (theCurve.marshal x y) with
    | none => rfl
    | some out =>
      exfalso
      obtain ⟨-, -, q, hq, -⟩ := (hsome out).1 he
      have hp : (secpP : Int) < 2 ^ 256 := by decide +kernel
      obtain ⟨h1, h2⟩ := C81_roundtrip (x := x) (y := y) (by omega) (by omega)
      have hr := libKey_65 hq h1
      rw [BitCurve.unmarshal, if_neg (by rw [h1]; decide), if_neg (by rw [BitCurve.marshal]; exact fun h => h rfl), byteLen_eq, Option.some_inj,
        Prod.mk.injEq] at h2
      have e1 : ((theCurve.marshal x y).take (1 + 32)).drop 1 = (theCurve.marshal x y).tail.take 32 := by
        rw [List.drop_take, List.drop_one]
      have e2 : (theCurve.marshal x y).drop (1 + 32) = (theCurve.marshal x y).tail.drop 32 := by
        rw [← List.drop_one, List.drop_drop]
      rw [e1, e2] at h2
      rw [h2.1, h2.2] at hr
      exact hc ⟨q, hr⟩

/-- **C110** Decompressing a key and compressing the coordinates gives the key again. -/
theorem C110_roundtrip {key : Bytes} {x y : Int} (h : (theLib st st' q0 sign).decompressPubkey key = some (x, y)) :
    (theLib st st' q0 sign).compressPubkey x y = .ret key := by
  obtain ⟨hl, q, hq, hr⟩ := (C110_decompress key x y).1 h
  obtain ⟨out, e, l1, l2⟩ := (C110_compress hr.x_range hr.y_range).1 q hr
  rw [e, libKey_bytes l2 hq (l1.trans hl.symm) (fun h => by omega)]

/-- **C110** A private key is accepted exactly if it is between 1 and N - 1. -/
theorem C110_seckey {key : Bytes} (h : key.length = 32) : (theLib st st' q0 sign).seckeyVerify key = true ↔
    0 < setBytes key ∧ setBytes key < curveN := by
  obtain ⟨s1, s2, s3⟩ := setB32_sc h
  rw [show (theLib st st' q0 sign).seckeyVerify key = seckeyVerify key from rfl, seckeyVerify]
  rw [Bool.and_eq_true, Bool.not_eq_true', Bool.not_eq_true', Bool.eq_false_iff, Bool.eq_false_iff, Ne, Ne, s3, isZero_eq, s2, not_le]
  constructor
  · rintro ⟨h1, h2⟩
    rw [Nat.mod_eq_of_lt h1] at h2
    exact ⟨by omega, h1⟩
  · rintro ⟨h1, h2⟩
    rw [Nat.mod_eq_of_lt h2]
    exact ⟨h2, by omega⟩

/-- The keys of the C library are keys of btcec, for the same point. -/
theorem libKey_isKey {b : Bytes} {q : secp.Point} (h : LibKey b q) : IsKey b q := by
  obtain ⟨x, y, n, rfl, ⟨hl, hh, hx⟩ | ⟨hl, hh, hx, hy⟩⟩ := h
  · exact ⟨x, y, n, rfl, .inl ⟨hl, hh, by rw [hx, ZMod.natCast_zmod_val]⟩⟩
  · exact ⟨x, y, n, rfl, .inr ⟨hl, hh.imp id .inr, hx, hy⟩⟩

theorem isKey_unique {b : Bytes} {q q' : secp.Point} (h : IsKey b q) (h' : IsKey b q') : q = q' := by
  obtain ⟨x, y, n, rfl, h⟩ := h
  obtain ⟨x', y', n', rfl, h'⟩ := h'
  have par : ∀ {u v : UInt8}, u ≠ v → ∀ {k k' : Nat}, (if k % 2 = 1 then some u else some v) = (if k' % 2 = 1 then some u else some v) →
      k % 2 = k' % 2 := by
    intro u v huv k k' e
    split at e <;> split at e
    · omega
    · exact absurd (Option.some.inj e) huv
    · exact absurd (Option.some.inj e).symm huv
    · omega
  rcases h with ⟨hl, hh, hx⟩ | ⟨hl, hh, hx, hy⟩ <;> rcases h' with ⟨hl', hh', hx'⟩ | ⟨hl', hh', hx', hy'⟩
  · obtain rfl : x = x' := hx.symm.trans hx'
    have hp := hh.symm.trans hh'
    rw [apply_ite some, apply_ite some] at hp
    obtain rfl := same_y n n' (par (by decide) hp)
    rfl
  · omega
  · omega
  · obtain rfl : x = x' := ZMod.val_injective _ (hx.symm.trans hx')
    obtain rfl : y = y' := ZMod.val_injective _ (hy.symm.trans hy')
    rfl

/-- **C113** The property "the C library and btcec read the same public keys" in part: every key that the C library reads btcec reads as the
same point; and conversely if the first byte is not 5 and a first coordinate of 33 bytes is below P. -/
theorem C113_keys_partial (b : Bytes) (q : secp.Point) : (LibKey b q → IsKey b q) ∧
    (IsKey b q → b.head? ≠ some 5 → (b.length = 33 → setBytes b.tail < secpP) → LibKey b q) := by
  refine ⟨libKey_isKey, ?_⟩
  rintro ⟨x, y, n, rfl, ⟨hl, hh, hx⟩ | ⟨hl, hh, hx, hy⟩⟩ h5 hlt
  · refine ⟨x, y, n, rfl, .inl ⟨hl, hh, ?_⟩⟩
    rw [← hx, val_natCast (hlt hl)]
  · refine ⟨x, y, n, rfl, .inr ⟨hl, ?_, hx, hy⟩⟩
    rcases hh with h | h | h
    · exact .inl h
    · exact absurd h h5
    · exact .inr h

/-- The coordinates of the base point as bytes. -/
def baseXY : Bytes := feGetB32 constG.x ++ feGetB32 constG.y

theorem baseXY_ok : baseXY.length = 64 ∧ setBytes (baseXY.take 32) = theCurve.gx.toNat ∧ setBytes (baseXY.drop 32) = theCurve.gy.toNat := by
  decide +kernel

theorem base_vals : ((theCurve.gx : Int) : SecpF).val = theCurve.gx.toNat ∧ ((theCurve.gy : Int) : SecpF).val = theCurve.gy.toNat := by
  have h1 : theCurve.gx = ((theCurve.gx.toNat : Nat) : Int) := by decide +kernel
  have h2 : theCurve.gy = ((theCurve.gy.toNat : Nat) : Int) := by decide +kernel
  have l1 : theCurve.gx.toNat < secpP := by decide +kernel
  have l2 : theCurve.gy.toNat < secpP := by decide +kernel
  constructor
  · conv_lhs => rw [h1, Int.cast_natCast, val_natCast l1]
  · conv_lhs => rw [h2, Int.cast_natCast, val_natCast l2]

theorem base_key : LibKey (4 :: baseXY) basePoint := by
  obtain ⟨b1, b2, b3⟩ := baseXY_ok
  obtain ⟨v1, v2⟩ := base_vals
  exact ⟨_, _, base_nonsingular, rfl, .inr ⟨by rw [List.length_cons, b1], .inl rfl, by rw [List.tail_cons, b2, v1],
    by rw [List.tail_cons, b3, v2]⟩⟩

/-- The bytes 2 and then P + 1: btcec takes the first coordinate modulo P. -/
def overKey : Bytes :=
  [2, 0xff, 0xff, 0xff, 0xff, 0xff, 0xff, 0xff, 0xff, 0xff, 0xff, 0xff, 0xff, 0xff, 0xff, 0xff, 0xff, 0xff, 0xff, 0xff, 0xff,
    0xff, 0xff, 0xff, 0xff, 0xff, 0xff, 0xff, 0xfe, 0xff, 0xff, 0xfc, 0x30]

/-- **C113** The property fails: 65 bytes after 5, and 33 bytes with a first coordinate not below P, are public keys for btcec
(the build without cgo), but not for the C library. -/
theorem C113_keys_fails : (IsKey (5 :: baseXY) basePoint ∧ ¬ ∃ q, LibKey (5 :: baseXY) q) ∧
    ((∃ q, IsKey overKey q) ∧ ¬ ∃ q, LibKey overKey q) := by
  refine ⟨⟨?_, ?_⟩, ?_, ?_⟩
  · obtain ⟨b1, b2, b3⟩ := baseXY_ok
    obtain ⟨v1, v2⟩ := base_vals
    exact ⟨_, _, base_nonsingular, rfl, .inr ⟨by rw [List.length_cons, b1], .inr (.inl rfl), by rw [List.tail_cons, b2, v1],
      by rw [List.tail_cons, b3, v2]⟩⟩
  · rintro ⟨q, x, y, n, -, ⟨hl, -⟩ | ⟨-, hh, -⟩⟩
    · rw [List.length_cons, baseXY_ok.1] at hl; cases hl
    · rcases hh with h | h
      · exact absurd (Option.some.inj h) (by decide)
      · split at h <;> exact absurd (Option.some.inj h) (by decide)
  · obtain ⟨-, h2, -⟩ := C106_from_x (x := feSetInt 1) (is_one.up (by decide)).mag false
    obtain ⟨-, -, h3⟩ := C106_from_x (x := feSetInt 1) (is_one.up (by decide)).mag false
    have ht : (geSetXoVar (feSetInt 1) false).2 = true := by decide +kernel
    obtain ⟨-, -, n, hp⟩ := h3 ht
    refine ⟨_, _, _, n, rfl, .inl ⟨rfl, ?_, ?_⟩⟩
    · rw [if_neg (fun h => absurd (hp.1 h) (by decide))]; rfl
    · have e : setBytes overKey.tail = secpP + 1 := by decide +kernel
      have ev : feVal (feSetInt 1) = 1 := is_one.val
      rw [e, ev, Nat.cast_add, CharP.cast_eq_zero SecpF secpP, zero_add, Nat.cast_one]
  · rintro ⟨q, x, y, n, -, ⟨-, -, hx⟩ | ⟨hl, -⟩⟩
    · have e : setBytes overKey.tail = secpP + 1 := by decide +kernel
      have := ZMod.val_lt x
      omega
    · cases hl

/-! ## C111 -/

/-- **C111** The sum of two multiples: whatever was in memory before, and for every point that is not zero and all scalars. -/
theorem C111_ecmult {a : Ge} {p : secp.Point} (hm : GeMag a) (hi : a.infinity = false) (ha : GeRep 1 a p) {na ng : Sc} (hna : Scalar na)
    (hng : Scalar ng) : GejMag (ecmult st (contextTable st') (gejSetGe a) na ng) ∧
      GejRep 1 (ecmult st (contextTable st') (gejSetGe a) na ng) (scNat na • p + scNat ng • basePoint) := by
  refine ecmult_eq (contextTable_eq st') hm hi ha ?_ hna hng
  obtain ⟨n, rfl⟩ := geRep_point hi ha
  exact Affine.Point.some_ne_zero _

/-- **C111** The verification of the C library does not panic for buffers of the right sizes, whatever they hold. -/
theorem C111_no_panic {sig msg : Bytes} (hs : sig.length = 64) (hm : msg.length = 32) (key : Bytes) :
    extVerify st (contextTable st') sig msg key ≠ .panic := by
  obtain ⟨ok, e, -⟩ := extVerify_eq (st := st) (contextTable_eq st') hs hm (key := key)
  rw [e]
  exact nofun

/-- **C111** Exactly which signatures `VerifySignature` of secp256.go accepts: 64 bytes for a hash of 32 bytes, for which the
equation of ECDSA holds for the point that the key denotes, and s is at most half of the order. -/
theorem C111_exact (key msg sig : Bytes) : (theLib st st' q0 sign).verifySignature key msg sig = true ↔
    msg.length = 32 ∧ sig.length = 64 ∧ ∃ q, LibKey key q ∧ setBytes (sig.drop 32) ≤ curveN / 2 ∧
      Valid q (setBytes msg) (setBytes (sig.take 32)) (setBytes (sig.drop 32)) := by
  rw [CLib.verifySignature]
  by_cases hc : msg.length ≠ 32 ∨ sig.length ≠ 64 ∨ key.length = 0
  · rw [if_pos hc]
    refine ⟨fun h => (by cases h), ?_⟩
    rintro ⟨h1, h2, q, h3, -⟩
    exfalso
    have h0 : key.length = 0 := by omega
    obtain ⟨x, y, n, -, ⟨hl, -⟩ | ⟨hl, -⟩⟩ := h3 <;> omega
  · rw [if_neg hc]
    have h1 : msg.length = 32 := by omega
    have h2 : sig.length = 64 := by omega
    obtain ⟨ok, e, h⟩ := extVerify_eq (st := st) (contextTable_eq st') h2 h1 (key := key)
    rw [show (theLib st st' q0 sign).verify sig msg key =
      orFalse (extVerify st (contextTable st') sig msg key) from rfl, e]
    rw [show orFalse (.ret ok) = ok from rfl, h]
    exact ⟨fun h => ⟨h1, h2, h⟩, fun h => h.2.2⟩

/-- **C113** What the C library accepts for the hash of a message, the build without cgo accepts for the message; and conversely
for keys that both read. -/
theorem C113_signatures_partial {sha256 ripemd160 : Bytes → Bytes} (hsha : ∀ m, (sha256 m).length = 32) (key msg sig : Bytes) :
    ((theLib st st' q0 sign).verifySignature key (sha256 msg) sig = true →
      verifySignature (Btcec.curve sha256 ripemd160) key msg sig = true) ∧
    ((∃ q, LibKey key q) → verifySignature (Btcec.curve sha256 ripemd160) key msg sig = true →
      (theLib st st' q0 sign).verifySignature key (sha256 msg) sig = true) := by
  have hh : hashNumber (sha256 msg) = setBytes (sha256 msg) := by
    rw [hashNumber, List.take_of_length_le (by rw [hsha])]
  rw [C111_exact, C101_exact, hh]
  constructor
  · rintro ⟨-, h1, q, h2, h3⟩
    exact ⟨h1, q, libKey_isKey h2, h3⟩
  · rintro ⟨q, hq⟩ ⟨h1, q', h2, h3⟩
    refine ⟨hsha msg, h1, q, hq, ?_⟩
    rwa [isKey_unique h2 (libKey_isKey hq)] at h3

/-- A signature of every number, with the nonce 1. -/
theorem valid_one {d e : Nat} (h : (e + theCurve.gx.toNat * d) % curveN ≠ 0) :
    Valid (d • basePoint) e theCurve.gx.toNat ((e + theCurve.gx.toNat * d) % curveN) := by
  have hpos : 0 < curveN := by decide +kernel
  have hlt := Nat.mod_lt (e + theCurve.gx.toNat * d) hpos
  have hne := Btcec.cast_ne ⟨Nat.pos_of_ne_zero h, hlt⟩
  obtain ⟨v1, -⟩ := base_vals
  have hw : ((e + theCurve.gx.toNat * d) % curveN) * Btcec.inverse ((e + theCurve.gx.toNat * d) % curveN) % curveN = 1 := by
    rw [Btcec.one_iff, Btcec.inverse_cast hne, mul_inv_cancel₀ hne]
  refine ⟨by constructor <;> decide +kernel, ⟨Nat.pos_of_ne_zero h, hlt⟩, _, hw, _, _, base_nonsingular, ?_, ?_⟩
  · rw [← mul_nsmul', ← add_nsmul]
    rw [Btcec.nsmul_cast (b := 1), one_nsmul]
    · rfl
    · rw [Btcec.one_iff, ZMod.natCast_mod] at hw
      push_cast at hw ⊢
      linear_combination hw
  · rw [v1]
    decide +kernel

/-- The coordinates of the opposite of the base point as bytes. -/
def oppositeXY : Bytes := feGetB32 constG.x ++ feGetB32 (feNormalize (feNegate constG.y 1))

theorem oppositeXY_ok : oppositeXY.length = 64 ∧ setBytes (oppositeXY.take 32) = theCurve.gx.toNat ∧
    setBytes (oppositeXY.drop 32) = secpP - theCurve.gy.toNat := by decide +kernel

theorem opposite_eq : ∃ n, (curveN - 1) • basePoint = .some ((theCurve.gx : Int) : SecpF) (-((theCurve.gy : Int) : SecpF)) n := by
  have h : (curveN - 1) • basePoint = - basePoint := by
    rw [eq_neg_iff_add_eq_zero, ← succ_nsmul, Nat.sub_add_cancel (by decide +kernel), (C80_all_points _).1]
  have hn : ∀ (x y : SecpF) n, ∃ m, - (Affine.Point.some x y n : secp.Point) = .some x (-y) m := fun x y n => by
    rw [Affine.Point.neg_some]
    have e : secp.negY x y = -y := by rw [Affine.negY]; simp [secp]
    have m := (secp_nonsingular x (-y)).2 (by rw [neg_sq]; exact (secp_nonsingular _ _).1 n)
    refine ⟨m, ?_⟩
    congr
  rw [h]
  exact hn _ _ base_nonsingular

theorem opposite_val : (-((theCurve.gy : Int) : SecpF)).val = secpP - theCurve.gy.toNat := by
  have hne : ((theCurve.gy : Int) : SecpF) ≠ 0 := by
    intro h
    have := base_vals.2
    rw [h, ZMod.val_zero] at this
    exact absurd this (by decide +kernel)
  have : NeZero ((theCurve.gy : Int) : SecpF) := ⟨hne⟩
  rw [ZMod.val_neg_of_ne_zero, base_vals.2]

/-- Bytes of two numbers. -/
theorem sixty_four {a b : Nat} (ha : a < 256 ^ 32) (hb : b < 256 ^ 32) : ∃ sig : Bytes, sig.length = 64 ∧ setBytes (sig.take 32) = a ∧
    setBytes (sig.drop 32) = b := by
  obtain ⟨a1, a2⟩ := padded_ok ha
  obtain ⟨b1, b2⟩ := padded_ok hb
  refine ⟨Btcec.padded a ++ Btcec.padded b, by rw [List.length_append, a1, b1], ?_, ?_⟩
  · rw [List.take_left' a1, a2]
  · rw [List.drop_left' a1, b2]

/-- **C113** The property "both accept the same signatures" fails, whatever the hash function is: for every message there
are a key that begins with 5 and a signature, which the build without cgo accepts and the C library does not. -/
theorem C113_signatures_fails (sha256 ripemd160 : Bytes → Bytes) (msg : Bytes) : ∃ key sig : Bytes,
    verifySignature (Btcec.curve sha256 ripemd160) key msg sig = true ∧
    ∀ st st' q0 sign m, (theLib st st' q0 sign).verifySignature key m sig = false := by
  have hg : theCurve.gx.toNat < 256 ^ 32 := by decide +kernel
  have hN : curveN < 256 ^ 32 := by decide +kernel
  -- a signature with a small s
  have low : ∀ {q e r s}, Valid q e r s → ∃ s, Valid q e r s ∧ s ≤ curveN / 2 := fun {q e r s} h => by
    by_cases hs : s ≤ curveN / 2
    · exact ⟨s, h, hs⟩
    · obtain ⟨h1, h2⟩ := C101_sibling h
      exact ⟨_, h1, h2.2 hs⟩
  -- a key that begins with 5
  have key : ∀ {b : Bytes} {q : secp.Point} {d : Nat}, b.length = 64 → IsKey (5 :: b) q → q = d • basePoint →
      (hashNumber (sha256 msg) + theCurve.gx.toNat * d) % curveN ≠ 0 → ∃ key sig : Bytes,
      verifySignature (Btcec.curve sha256 ripemd160) key msg sig = true ∧
      ∀ st st' q0 sign m, (theLib st st' q0 sign).verifySignature key m sig = false := by
    intro b q d hl hb hq hne
    obtain ⟨s, hv, hs⟩ := low (valid_one hne)
    obtain ⟨sig, l1, l2, l3⟩ := sixty_four hg (lt_trans hv.s_range.2 hN)
    refine ⟨5 :: b, sig, ?_, fun st st' q0 sign m => ?_⟩
    · rw [C101_exact, l2, l3]
      exact ⟨l1, q, hb, hs, hq ▸ hv⟩
    · rw [Bool.eq_false_iff, Ne, C111_exact]
      rintro ⟨-, -, q, ⟨x, y, n, -, ⟨hl', -⟩ | ⟨-, hh, -⟩⟩, -⟩
      · rw [List.length_cons, hl] at hl'; cases hl'
      · rcases hh with h | h
        · exact absurd (Option.some.inj h) (by decide)
        · split at h <;> exact absurd (Option.some.inj h) (by decide)
  by_cases h1 : (hashNumber (sha256 msg) + theCurve.gx.toNat * 1) % curveN = 0
  · obtain ⟨b1, b2, b3⟩ := oppositeXY_ok
    obtain ⟨n, hn⟩ := opposite_eq
    refine key (b := oppositeXY) (d := curveN - 1) b1 ?_ rfl ?_
    · exact ⟨_, _, n, hn, .inr ⟨by rw [List.length_cons, b1], .inr (.inl rfl), by rw [List.tail_cons, b2, base_vals.1],
        by rw [List.tail_cons, b3, opposite_val]⟩⟩
    · intro h2
      have c1 : ((hashNumber (sha256 msg) + theCurve.gx.toNat * 1 : Nat) : ZMod curveN) = 0 := by
        rw [ZMod.natCast_eq_zero_iff]; exact Nat.dvd_of_mod_eq_zero h1
      have c2 : ((hashNumber (sha256 msg) + theCurve.gx.toNat * (curveN - 1) : Nat) : ZMod curveN) = 0 := by
        rw [ZMod.natCast_eq_zero_iff]; exact Nat.dvd_of_mod_eq_zero h2
      have c3 : (((curveN - 1 : Nat)) : ZMod curveN) = -1 := by
        rw [Nat.cast_sub (by decide +kernel), CharP.cast_eq_zero, Nat.cast_one, zero_sub]
      rw [Nat.cast_add, Nat.cast_mul] at c1 c2
      rw [c3] at c2
      rw [Nat.cast_one] at c1
      have c4 : ((2 * theCurve.gx.toNat : Nat) : ZMod curveN) = 0 := by
        rw [Nat.cast_mul]
        push_cast
        linear_combination c1 - c2
      rw [ZMod.natCast_eq_zero_iff] at c4
      exact absurd (Nat.mod_eq_zero_of_dvd c4) (by decide +kernel)
  · exact key (b := baseXY) baseXY_ok.1 C113_keys_fails.1.1 (one_nsmul _).symm h1

/-- Not vacuous: for every hash of 32 bytes there are a key and a signature that the C library accepts. -/
example (m : Bytes) (hm : m.length = 32) : ∃ key sig : Bytes, (theLib st st' q0 sign).verifySignature key m sig = true := by
  have hg : theCurve.gx.toNat < 256 ^ 32 := by decide +kernel
  have hN : curveN < 256 ^ 32 := by decide +kernel
  by_cases h1 : (setBytes m + theCurve.gx.toNat * 1) % curveN = 0
  · -- the key of 2 times the base point
    have h2 : (setBytes m + theCurve.gx.toNat * 2) % curveN ≠ 0 := by
      intro h2
      have : curveN ∣ theCurve.gx.toNat := by
        have := Nat.dvd_sub (Nat.dvd_of_mod_eq_zero h2) (Nat.dvd_of_mod_eq_zero h1)
        rwa [show setBytes m + theCurve.gx.toNat * 2 - (setBytes m + theCurve.gx.toNat * 1) = theCurve.gx.toNat by omega] at this
      exact absurd (Nat.mod_eq_zero_of_dvd this) (by decide +kernel)
    have hv := valid_one h2
    obtain ⟨s, hv, hs⟩ : ∃ s, Valid (2 • basePoint) (setBytes m) theCurve.gx.toNat s ∧ s ≤ curveN / 2 := by
      by_cases hs : (setBytes m + theCurve.gx.toNat * 2) % curveN ≤ curveN / 2
      · exact ⟨_, hv, hs⟩
      · exact ⟨_, (C101_sibling hv).1, (C101_sibling hv).2.2 hs⟩
    obtain ⟨sig, l1, l2, l3⟩ := sixty_four hg (lt_trans hv.s_range.2 hN)
    obtain ⟨x, y, hr⟩ := reduced_exists (multiple_ne (k := 2) (by decide +kernel) (q := basePoint) (Affine.Point.some_ne_zero _))
    refine ⟨theCurve.marshal x y, sig, ?_⟩
    rw [C111_exact, l2, l3]
    exact ⟨hm, l1, _, (marshal_key hr).1, hs, hv⟩
  · have hv := valid_one h1
    obtain ⟨s, hv, hs⟩ : ∃ s, Valid (1 • basePoint) (setBytes m) theCurve.gx.toNat s ∧ s ≤ curveN / 2 := by
      by_cases hs : (setBytes m + theCurve.gx.toNat * 1) % curveN ≤ curveN / 2
      · exact ⟨_, hv, hs⟩
      · exact ⟨_, (C101_sibling hv).1, (C101_sibling hv).2.2 hs⟩
    obtain ⟨sig, l1, l2, l3⟩ := sixty_four hg (lt_trans hv.s_range.2 hN)
    refine ⟨4 :: baseXY, sig, ?_⟩
    rw [C111_exact, l2, l3]
    exact ⟨hm, l1, _, base_key, hs, by rwa [one_nsmul] at hv⟩

/-! ## C112 -/

/-- **C112** The recovery does not panic for buffers of the right sizes, whatever they hold. -/
theorem C112_no_panic {sig msg : Bytes} (hs : sig.length = 65) (hid : (sig[64]?.getD 0).toNat < 4) (hm : msg.length = 32) :
    extRecover st q0 (contextTable st') sig msg ≠ .panic := by
  obtain ⟨out, e, -⟩ := extRecover_eq (st := st) (q0 := q0) (contextTable_eq st') hs hid hm
  rw [e]
  exact nofun

/-- **C112** Exactly what `RecoverPubkey` returns: the 65 bytes of the key that the hash, the signature and the identifier give,
and an error if there is none. -/
theorem C112_exact (msg sig key : Bytes) : (theLib st st' q0 sign).recoverPubkey msg sig = .ok key ↔
    msg.length = 32 ∧ sig.length = 65 ∧ (sig[64]?.getD 0).toNat < 4 ∧ key.length = 65 ∧ key.head? = some 4 ∧ ∃ q, LibKey key q ∧
      Recovers (setBytes msg) (setBytes (sig.take 32)) (setBytes ((sig.drop 32).take 32)) (sig[64]?.getD 0).toNat q := by
  rw [CLib.recoverPubkey]
  by_cases hm : msg.length = 32
  case neg => rw [if_pos hm]; exact ⟨fun h => (by cases h), fun h => absurd h.1 hm⟩
  rw [if_neg (fun h => h hm), checkSignature]
  by_cases hs : sig.length = 65
  case neg => rw [if_pos hs]; exact ⟨fun h => (by cases h), fun h => absurd h.2.1 hs⟩
  rw [if_neg (fun h => h hs)]
  by_cases hid : 4 ≤ (sig[64]?.getD 0).toNat
  · rw [if_pos hid]; exact ⟨fun h => (by cases h), fun h => absurd h.2.2.1 (by omega)⟩
  rw [if_neg hid]
  obtain ⟨out, e, h⟩ := extRecover_eq (st := st) (q0 := q0) (contextTable_eq st') hs (by omega) hm
  simp only
  rw [show (theLib st st' q0 sign).recover sig msg = orNone (extRecover st q0 (contextTable st') sig msg) from rfl, e,
    show orNone (.ret out) = out from rfl]
  have hk := h key
  constructor
  · intro he
    refine ⟨hm, hs, by omega, hk.1 ?_⟩
    cases out with
    | none => cases he
    | some k => cases he; rfl
  · rintro ⟨-, -, -, h4⟩
    rw [hk.2 h4]

theorem inverse_of {s : Nat} (h : 0 < s ∧ s < curveN) : s * Btcec.inverse s % curveN = 1 := by
  rw [Btcec.one_iff, Btcec.inverse_cast (Btcec.cast_ne h), mul_inv_cancel₀ (Btcec.cast_ne h)]

/-- **C112** The signature is valid under the key that it gives. -/
theorem C112_valid {e r s id : Nat} {q : secp.Point} (h : Recovers e r s id q) : Valid q e r s := by
  obtain ⟨hr, hs, ⟨x, y, n, w, hx, -, hw, hq⟩, -⟩ := h
  have hv := inverse_of hs
  refine ⟨hr, hs, Btcec.inverse s, hv, x, y, n, ?_, by rw [hx, Nat.add_mul_mod_self_right, Nat.mod_eq_of_lt hr.2]⟩
  generalize Btcec.inverse s = v at hv
  have c1 := Btcec.one_iff.1 hw
  have c2 := Btcec.one_iff.1 hv
  have e1 : (r * v) • (q + (e * w) • basePoint) = (e * v) • basePoint + (r * v) • q := by
    rw [nsmul_add, ← mul_nsmul', add_comm]
    congr 1
    refine Btcec.nsmul_cast ?_ _
    push_cast
    linear_combination ((e : ZMod curveN) * v) * c1
  rw [← e1, hq, ← mul_nsmul', Btcec.nsmul_cast (b := 1), one_nsmul]
  push_cast
  linear_combination ((s : ZMod curveN) * v) * c1 + c2

/-- **C112** Every key for which the signature is valid is given with one of the four identifiers. -/
theorem C112_complete {e r s : Nat} {q : secp.Point} (h : Valid q e r s) (h0 : q ≠ 0) : ∃ id < 4, Recovers e r s id q := by
  obtain ⟨hr, hs, v, hv, x, y, n, hp, hx⟩ := h
  have hw := inverse_of hr
  have h1 := ZMod.val_lt x
  have h2 := prime_lt
  have hdm := Nat.div_add_mod x.val curveN
  have hk : x.val / curveN < 2 := Nat.div_lt_of_lt_mul (by omega)
  refine ⟨2 * (x.val / curveN) + y.val % 2, by omega, hr, hs, ⟨x, y, n, Btcec.inverse r, ?_, by omega, hw, ?_⟩, h0⟩
  · rw [show (2 * (x.val / curveN) + y.val % 2) / 2 = x.val / curveN by omega, Nat.mul_comm (x.val / curveN)]
    omega
  · generalize Btcec.inverse r = w at hw
    have c1 := Btcec.one_iff.1 hw
    have c2 := Btcec.one_iff.1 hv
    rw [← hp, nsmul_add, ← mul_nsmul', ← mul_nsmul', add_comm]
    congr 1
    · refine Btcec.nsmul_cast ?_ _
      push_cast
      linear_combination -((e : ZMod curveN) * w) * c2
    · conv_lhs => rw [← one_nsmul q]
      refine Btcec.nsmul_cast ?_ _
      push_cast
      linear_combination -((s : ZMod curveN) * v) * c1 - c2

/-- **C112** The signature verifies under the key that is recovered from it, exactly if s is at most half of the order. -/
theorem C112_verifies {msg sig key : Bytes} (h : (theLib st st' q0 sign).recoverPubkey msg sig = .ok key) :
    (theLib st st' q0 sign).verifySignature key msg (sig.take 64) = true ↔ setBytes ((sig.drop 32).take 32) ≤ curveN / 2 := by
  obtain ⟨h1, h2, -, -, -, q, hk, hr⟩ := (C112_exact msg sig key).1 h
  rw [C111_exact, List.take_take, Nat.min_eq_left (by decide), List.drop_take]
  constructor
  · rintro ⟨-, -, _, -, h, -⟩
    exact h
  · exact fun h => ⟨h1, by simp [h2], q, hk, h, C112_valid hr⟩

/-- **C112** Every key under which a signature verifies is recovered from it, with one of the four identifiers. -/
theorem C112_recovers {msg sig key : Bytes} (h : (theLib st st' q0 sign).verifySignature key msg sig = true) :
    ∃ (id : UInt8) (out : Bytes) (q : secp.Point), (theLib st st' q0 sign).recoverPubkey msg (sig ++ [id]) = .ok out ∧ LibKey out q ∧ LibKey key q := by
  obtain ⟨h1, h2, q, hk, -, hv⟩ := (C111_exact key msg sig).1 h
  obtain ⟨-, h0, -, out, ⟨o1, o2, o3⟩, -⟩ := C110_unique hk
  obtain ⟨id, hid, hr⟩ := C112_complete hv h0
  refine ⟨UInt8.ofNat id, out, q, ?_, o3, hk⟩
  have e1 : (sig ++ [UInt8.ofNat id])[64]?.getD 0 = UInt8.ofNat id := by
    rw [List.getElem?_append_right (by omega), h2]; rfl
  have e2 : (UInt8.ofNat id).toNat = id := by
    rw [UInt8.toNat_ofNat']; omega
  rw [C112_exact, e1, e2, List.take_append_of_le_length (by omega), List.drop_append_of_le_length (by omega),
    List.take_left' (by simp [h2])]
  exact ⟨h1, by simp [h2], hid, o1, o2, q, o3, hr⟩

/-- Not vacuous: from a valid signature a key is recovered. -/
example : ∃ id < 4, Recovers 0 theCurve.gx.toNat theCurve.gx.toNat id basePoint := by
  have h := valid_one (d := 1) (e := 0) (by decide +kernel)
  rw [one_nsmul, show (0 + theCurve.gx.toNat * 1) % curveN = theCurve.gx.toNat by decide +kernel] at h
  exact C112_complete h (Affine.Point.some_ne_zero _)

end Verif.Props
