import Verif.Spec.Nist
import Verif.Props.Secp
import Mathlib.Data.ZMod.Basic
import Mathlib.Algebra.Field.ZMod
import Mathlib.Tactic.LinearCombination
/-!
# Lemmas on keys of other curves
-/

namespace Verif.Nist
open Spec Props

/-! ## DER -/

theorem setBytes_cons (x : UInt8) (r : Bytes) : setBytes (x :: r) = x.toNat * 256 ^ r.length + setBytes r := by
  rw [show x :: r = [x] ++ r from rfl, setBytes_append]
  simp [setBytes]

theorem ofNat_toNat (x : UInt8) : UInt8.ofNat x.toNat = x := by simp

theorem toNat_ofNat {n : Nat} (h : n < 256) : (UInt8.ofNat n).toNat = n := by
  simp [Nat.mod_eq_of_lt h]

theorem byte_lt (x : UInt8) : x.toNat < 256 := x.toNat_lt

theorem byte_zero {x : UInt8} : x.toNat = 0 ↔ x = 0 := by
  rw [← UInt8.toNat_inj]; rfl

theorem longLength_some : ∀ {k len : Nat} {b rest : Bytes} {n : Nat}, longLength k len b = some (n, rest) →
    ∃ r, r.length = k ∧ b = r ++ rest ∧ n = len * 256 ^ k + setBytes r ∧ (len = 0 → ∀ x ∈ r.head?, x ≠ 0)
  | 0, len, b, rest, n, h => by
    simp only [longLength, Option.some.injEq, Prod.mk.injEq] at h
    obtain ⟨rfl, rfl⟩ := h
    exact ⟨[], rfl, rfl, by simp [setBytes], by simp⟩
  | k + 1, len, [], rest, n, h => by cases h
  | k + 1, len, x :: b, rest, n, h => by
    simp only [longLength] at h
    split at h
    · cases h
    split at h
    · cases h
    rename_i h1 h2
    obtain ⟨r, rfl, rfl, rfl, -⟩ := longLength_some h
    refine ⟨x :: r, rfl, rfl, ?_, ?_⟩
    · rw [setBytes_cons, pow_succ]
      ring
    · rintro rfl y hy rfl
      cases hy
      exact h2 (by simp)

theorem longLength_of : ∀ (r : Bytes) {len : Nat} (rest : Bytes), (len ≠ 0 ∨ ∀ x ∈ r.head?, x ≠ 0) →
    len * 256 ^ r.length + setBytes r < 2 ^ 31 →
    longLength r.length len (r ++ rest) = some (len * 256 ^ r.length + setBytes r, rest)
  | [], len, rest, _, _ => by simp [longLength, setBytes]
  | x :: r, len, rest, h0, hlt => by
    have e : len * 256 ^ (x :: r).length + setBytes (x :: r) = (len * 256 + x.toNat) * 256 ^ r.length + setBytes r := by
      rw [setBytes_cons, List.length_cons, pow_succ]
      ring
    rw [e] at hlt ⊢
    have hp : 1 ≤ 256 ^ r.length := Nat.one_le_pow _ _ (by omega)
    have hle : len * 256 + x.toNat ≤ (len * 256 + x.toNat) * 256 ^ r.length := Nat.le_mul_of_pos_right _ hp
    have hne : len * 256 + x.toNat ≠ 0 := by
      rcases h0 with h | h
      · omega
      · have := h x rfl
        rw [Ne, ← byte_zero] at this
        omega
    rw [List.cons_append, List.length_cons, longLength, if_neg (by omega), if_neg hne]
    exact longLength_of r rest (.inl hne) hlt

theorem header_some {b rest : Bytes} {h : Header} (hp : parseTagAndLength b = some (h, rest)) :
    ∃ t l, b = t :: (l ++ rest) ∧ LengthBytes l h.len ∧ t.toNat % 32 ≠ 31 ∧
      h = ⟨t.toNat / 64, decide (t.toNat / 32 % 2 = 1), t.toNat % 32, h.len⟩ := by
  match b, hp with
  | [], hp => cases hp
  | [_], hp => cases hp
  | t :: l :: b, hp =>
    simp only [parseTagAndLength] at hp
    split at hp
    · cases hp
    rename_i h31
    split at hp
    · rename_i hl
      simp only [Option.some.injEq, Prod.mk.injEq] at hp
      obtain ⟨rfl, rfl⟩ := hp
      exact ⟨t, [l], rfl, .inl ⟨hl, by rw [ofNat_toNat]⟩, h31, rfl⟩
    split at hp
    · cases hp
    rename_i h1 h2
    cases hq : longLength (l.toNat - 128) 0 b with
    | none => rw [hq] at hp; cases hp
    | some q =>
      obtain ⟨len, q⟩ := q
      rw [hq] at hp
      dsimp only at hp
      split at hp
      · cases hp
      rename_i h3
      simp only [Option.some.injEq, Prod.mk.injEq] at hp
      obtain ⟨rfl, rfl⟩ := hp
      obtain ⟨r, hr, rfl, hn, h0⟩ := longLength_some hq
      cases r with
      | nil => simp only [List.length_nil] at hr; omega
      | cons x r =>
        refine ⟨t, l :: x :: r, rfl, .inr ⟨(by show 128 ≤ len; omega), x, r, ?_, ?_, h0 rfl x rfl, by simp [hn]⟩, h31, rfl⟩
        · rw [hr, show 128 + (l.toNat - 128) = l.toNat by omega, ofNat_toNat]
        · have := byte_lt l
          omega

theorem header_of {t : UInt8} {l rest : Bytes} {n : Nat} (ht : t.toNat % 32 ≠ 31) (hl : LengthBytes l n) (hn : n < 2 ^ 31) :
    parseTagAndLength (t :: (l ++ rest)) = some (⟨t.toNat / 64, decide (t.toNat / 32 % 2 = 1), t.toNat % 32, n⟩, rest) := by
  rcases hl with ⟨h, rfl⟩ | ⟨h, x, r, rfl, hr, hx, hv⟩
  · have e : (UInt8.ofNat n).toNat = n := toNat_ofNat (by omega)
    simp only [parseTagAndLength, List.cons_append, List.nil_append, if_neg ht, e, if_pos h]
  · have e : (UInt8.ofNat (128 + (x :: r).length)).toNat = 128 + (x :: r).length := toNat_ofNat (by omega)
    have hp : 0 < (x :: r).length := by simp
    have := longLength_of (x :: r) (len := 0) rest (.inr (by rintro y hy; cases hy; exact hx)) (by rw [hv]; omega)
    rw [hv, Nat.zero_mul, Nat.zero_add] at this
    simp only [parseTagAndLength, List.cons_append, if_neg ht]
    rw [e, if_neg (by omega), if_neg (by omega), show 128 + (x :: r).length - 128 = (x :: r).length by omega, ← List.cons_append, this]
    simp only [if_neg (show ¬ n < 128 by omega)]

/-- An element is read exactly as it is written. -/
theorem element_iff {tag : Nat} {compound : Bool} {T : UInt8}
    (hT : ∀ t : UInt8, (t.toNat / 64 = 0 ∧ t.toNat % 32 = tag ∧ decide (t.toNat / 32 % 2 = 1) = compound ∧ t.toNat % 32 ≠ 31) ↔ t = T)
    {b content rest : Bytes} (hb : b.length < 2 ^ 31) :
    parseElement tag compound b = some (content, rest) ↔ ∃ e, ElementBytes e T content ∧ b = e ++ rest := by
  rw [parseElement]
  constructor
  · intro h
    cases hp : parseTagAndLength b with
    | none => rw [hp] at h; cases h
    | some q =>
      obtain ⟨hd, q⟩ := q
      rw [hp] at h
      dsimp only at h
      split at h
      · cases h
      rename_i h1
      split at h
      · cases h
      rename_i h2
      simp only [Option.some.injEq, Prod.mk.injEq] at h
      obtain ⟨rfl, rfl⟩ := h
      obtain ⟨t, l, rfl, hl, h31, he⟩ := header_some hp
      obtain ⟨cls, cmp, tg, ln⟩ := hd
      simp only [Header.mk.injEq, and_true] at he
      obtain ⟨rfl, rfl, rfl⟩ := he
      dsimp only at h1 h2 hl ⊢
      have hlen : (q.take ln).length = ln := by rw [List.length_take]; omega
      have := (hT t).1 ⟨by omega, by omega, by_contra fun h => h1 (.inr (.inr h)), h31⟩
      subst this
      refine ⟨t :: (l ++ q.take ln), ⟨l, by rw [hlen]; exact hl, rfl⟩, ?_⟩
      rw [List.cons_append, List.append_assoc, List.take_append_drop]
  · rintro ⟨e, ⟨l, hl, rfl⟩, rfl⟩
    obtain ⟨h1, h2, h3, h4⟩ := (hT T).2 rfl
    rw [List.cons_append, List.append_assoc, header_of h4 hl (by
      simp only [List.cons_append, List.length_cons, List.length_append] at hb
      omega)]
    dsimp only
    rw [if_neg (by rintro (h | h | h) <;> contradiction), if_neg (by rw [List.length_append]; omega), List.take_left, List.drop_left]

theorem tag48 (t : UInt8) : (t.toNat / 64 = 0 ∧ t.toNat % 32 = 16 ∧ decide (t.toNat / 32 % 2 = 1) = true ∧ t.toNat % 32 ≠ 31) ↔ t = 48 := by
  rw [← UInt8.toNat_inj, show UInt8.toNat 48 = 48 from rfl, decide_eq_true_eq]
  have := byte_lt t
  omega

theorem tag2 (t : UInt8) : (t.toNat / 64 = 0 ∧ t.toNat % 32 = 2 ∧ decide (t.toNat / 32 % 2 = 1) = false ∧ t.toNat % 32 ≠ 31) ↔ t = 2 := by
  rw [← UInt8.toNat_inj, show UInt8.toNat 2 = 2 from rfl, decide_eq_false_iff_not]
  have := byte_lt t
  omega

theorem bigInt_iff {b : Bytes} {n : Nat} : parseBigInt b = some (n : Int) ↔ NatBytes b n := by
  match b with
  | [] => exact ⟨fun h => (by cases h), fun ⟨_, x, r, h, _⟩ => (by cases h)⟩
  | [x] =>
    simp only [parseBigInt, Option.some.injEq]
    constructor
    · intro h
      split at h
      · omega
      · exact ⟨by omega, x, [], rfl, by omega, fun _ y hy => by cases hy⟩
    · rintro ⟨h, y, r, he, hy, -⟩
      injection he with e1 e2
      subst e1
      rw [if_neg (by omega), h]
  | x :: y :: b =>
    simp only [parseBigInt]
    constructor
    · intro h
      split at h
      · cases h
      rename_i h1
      simp only [Option.some.injEq] at h
      split at h
      · omega
      rename_i h2
      refine ⟨by omega, x, y :: b, rfl, by omega, ?_⟩
      rintro hx z hz
      cases hz
      by_contra hlt
      exact h1 (.inl ⟨hx, by omega⟩)
    · rintro ⟨h, z, r, he, hz, h0⟩
      injection he with e1 e2
      subst e1 e2
      rw [if_neg, if_neg (by omega), h]
      rintro (⟨hx, hy⟩ | ⟨hx, -⟩)
      · have := h0 hx y rfl
        omega
      · rw [hx] at hz
        exact absurd hz (by decide)

/-- The numbers that are read from a signature, if they are not negative. -/
theorem parse_iff {sig : Bytes} (hs : sig.length < 2 ^ 31) {r s : Nat} :
    parseSignature sig = some ((r : Int), (s : Int)) ↔ SignatureBytes sig r s := by
  constructor
  · intro h
    rw [parseSignature] at h
    cases h1 : parseElement 16 true sig with
    | none => rw [h1] at h; cases h
    | some q =>
      obtain ⟨content, outer⟩ := q
      rw [h1] at h
      dsimp only at h
      obtain ⟨seq, hseq, rfl⟩ := (element_iff tag48 hs).1 h1
      have hc : content.length < 2 ^ 31 := by
        obtain ⟨l, -, rfl⟩ := hseq
        simp only [List.cons_append, List.length_cons, List.length_append] at hs
        omega
      cases h2 : parseElement 2 false content with
      | none => rw [h2] at h; cases h
      | some q =>
        obtain ⟨cr, rest⟩ := q
        rw [h2] at h
        dsimp only at h
        obtain ⟨er, her, rfl⟩ := (element_iff tag2 hc).1 h2
        cases h3 : parseBigInt cr with
        | none => rw [h3] at h; cases h
        | some r' =>
          cases h4 : parseElement 2 false rest with
          | none => rw [h3, h4] at h; cases h
          | some q =>
            obtain ⟨cs, inner⟩ := q
            rw [h3, h4] at h
            dsimp only at h
            obtain ⟨es, hes, rfl⟩ := (element_iff tag2 (by rw [List.length_append] at hc; omega)).1 h4
            cases h5 : parseBigInt cs with
            | none => rw [h5] at h; cases h
            | some s' =>
              rw [h5] at h
              simp only [Option.some.injEq, Prod.mk.injEq] at h
              obtain ⟨rfl, rfl⟩ := h
              exact ⟨cr, cs, er, es, inner, outer, seq, bigInt_iff.1 h3, bigInt_iff.1 h5, her, hes,
                by rw [List.append_assoc]; exact hseq, rfl⟩
  · rintro ⟨cr, cs, er, es, inner, outer, seq, hr, hs', her, hes, hseq, rfl⟩
    have hc : (er ++ (es ++ inner)).length < 2 ^ 31 := by
      obtain ⟨l, -, rfl⟩ := hseq
      simp only [List.cons_append, List.length_cons, List.length_append] at hs ⊢
      omega
    rw [List.append_assoc] at hseq
    rw [parseSignature, (element_iff tag48 hs).2 ⟨seq, hseq, rfl⟩]
    dsimp only
    rw [(element_iff tag2 hc).2 ⟨er, her, rfl⟩]
    dsimp only
    rw [bigInt_iff.2 hr, (element_iff tag2 (by rw [List.length_append] at hc; omega)).2 ⟨es, hes, rfl⟩]
    dsimp only
    rw [bigInt_iff.2 hs']

theorem bigBytes_head {n : Nat} : ∀ x ∈ (bigBytes n).head?, x ≠ 0 := by
  intro x hx h0
  subst h0
  cases hb : bigBytes n with
  | nil => rw [hb] at hx; cases hx
  | cons y r =>
    rw [hb] at hx
    cases hx
    have e := setBytes_bigBytes n
    rw [hb, setBytes_cons, show UInt8.toNat 0 = 0 from rfl, Nat.zero_mul, Nat.zero_add] at e
    have := setBytes_lt r
    rw [e] at this
    have := bigBytes_length this
    rw [hb, List.length_cons] at this
    omega

theorem length_ok {n : Nat} (h : n < 2 ^ 31) : LengthBytes (asn1Length n) n := by
  rw [asn1Length]
  by_cases hn : n < 128
  · rw [if_pos hn]
    exact .inl ⟨hn, rfl⟩
  · rw [if_neg hn]
    have hl : (bigBytes n).length ≤ 4 := bigBytes_length (by omega)
    have hh := bigBytes_head (n := n)
    have hv := setBytes_bigBytes n
    cases hb : bigBytes n with
    | nil => rw [hb] at hv; simp [setBytes] at hv; omega
    | cons x r =>
      rw [hb] at hl hh hv
      exact .inr ⟨by omega, x, r, rfl, by omega, hh x rfl, hv⟩

theorem element_ok {tag : UInt8} {b : Bytes} (h : b.length < 2 ^ 31) : ElementBytes (asn1Element tag b) tag b :=
  ⟨_, length_ok h, rfl⟩

/-- The content of an integer. -/
def natContent (n : Nat) : Bytes :=
  match bigBytes n with
  | [] => [0]
  | x :: b => if x.toNat ≥ 128 then 0 :: x :: b else x :: b

theorem natContent_ok (n : Nat) : NatBytes (natContent n) n := by
  have hv := setBytes_bigBytes n
  have hh := bigBytes_head (n := n)
  rw [natContent]
  cases hb : bigBytes n with
  | nil =>
    rw [hb] at hv
    exact ⟨hv, 0, [], rfl, by decide, fun _ y hy => by cases hy⟩
  | cons x r =>
    rw [hb] at hv hh
    dsimp only
    split
    · rename_i h
      refine ⟨?_, 0, x :: r, rfl, by decide, ?_⟩
      · rw [setBytes_cons, show UInt8.toNat 0 = 0 from rfl, Nat.zero_mul, Nat.zero_add, hv]
      · rintro - y hy
        cases hy
        exact h
    · rename_i h
      exact ⟨hv, x, r, rfl, by omega, fun h0 => absurd h0 (hh x rfl)⟩

theorem natContent_length {n k : Nat} (h : n < 256 ^ k) : (natContent n).length ≤ k + 1 := by
  have := bigBytes_length h
  rw [natContent]
  cases hb : bigBytes n with
  | nil => simp
  | cons x r =>
    rw [hb] at this
    dsimp only
    split <;> simp only [List.length_cons] at this ⊢ <;> omega

theorem asn1Length_length {n : Nat} (h : n < 2 ^ 31) : (asn1Length n).length ≤ 5 := by
  rw [asn1Length]
  have hl : (bigBytes n).length ≤ 4 := bigBytes_length (by omega)
  split <;> simp only [List.length_cons, List.length_nil] <;> omega

theorem element_length {tag : UInt8} {b : Bytes} (h : b.length < 2 ^ 31) : (asn1Element tag b).length ≤ b.length + 6 := by
  have := asn1Length_length h
  rw [asn1Element, List.length_cons, List.length_append]
  omega

/-- What is written is a signature, and short. -/
theorem asn1Signature_ok {r s : Nat} (hr : r < 256 ^ 1000) (hs : s < 256 ^ 1000) :
    SignatureBytes (asn1Signature r s) r s ∧ (asn1Signature r s).length < 2 ^ 12 := by
  have h1 := natContent_length hr
  have h2 := natContent_length hs
  have h3 : (asn1BigInt r).length ≤ 1007 := (element_length (b := natContent r) (by omega)).trans (by omega)
  have h4 : (asn1BigInt s).length ≤ 1007 := (element_length (b := natContent s) (by omega)).trans (by omega)
  have h5 : (asn1BigInt r ++ asn1BigInt s).length < 2 ^ 31 := by rw [List.length_append]; omega
  refine ⟨⟨natContent r, natContent s, asn1BigInt r, asn1BigInt s, [], [], asn1Signature r s, natContent_ok r, natContent_ok s,
    element_ok (b := natContent r) (by omega), element_ok (b := natContent s) (by omega), ?_, (List.append_nil _).symm⟩, ?_⟩
  · rw [List.append_nil]
    exact element_ok h5
  · have := element_length (tag := 48) h5
    rw [asn1Signature]
    rw [List.length_append] at this
    omega

/-! ## Signatures -/

section
variable {c : Elliptic} {G : Type} [AddCommGroup G] {pt : G → Nat × Nat} {base : G}

theorem nsmul_cast (hc : CurveGroup c pt base) {a b : Nat} (h : (a : ZMod c.n) = b) (q : G) : a • q = b • q := by
  have key : ∀ a : Nat, (a % c.n) • q = a • q := by
    intro a
    conv_rhs => rw [← Nat.mod_add_div a c.n, add_nsmul, mul_nsmul, hc.order, nsmul_zero, add_zero]
  rw [← key a, ← key b, (ZMod.natCast_eq_natCast_iff' a b c.n).1 h]

theorem cast_ne {s : Nat} (h : 0 < s ∧ s < c.n) : (s : ZMod c.n) ≠ 0 := by
  rw [Ne, ZMod.natCast_eq_zero_iff]
  exact Nat.not_dvd_of_pos_of_lt h.1 h.2

theorem inverse_cast (hp : c.n.Prime) {s : Nat} (h : (s : ZMod c.n) ≠ 0) : (s : ZMod c.n) * (inverse c s : Nat) = 1 := by
  have hpos : (0 : ℤ) < c.n := by exact_mod_cast hp.pos
  have hc : Int.gcd s c.n = 1 := by
    rw [Int.gcd_natCast_natCast, Nat.gcd_comm]
    exact (Nat.Prime.coprime_iff_not_dvd hp).2 (by rwa [Ne, ZMod.natCast_eq_zero_iff] at h)
  have hb := Int.gcd_eq_gcd_ab s c.n
  rw [hc] at hb
  have h1 : (s : ZMod c.n) * (Int.gcdA s c.n : ZMod c.n) = 1 := by
    have := congrArg (fun t : ℤ => (t : ZMod c.n)) hb
    push_cast at this
    rw [CharP.cast_eq_zero (ZMod c.n) c.n, zero_mul, add_zero] at this
    exact this.symm
  have h2 : (((inverse c s : Nat) : ℤ) : ZMod c.n) = (Int.gcdA s c.n : ZMod c.n) := by
    rw [inverse, Int.toNat_of_nonneg (Int.emod_nonneg _ hpos.ne')]
    exact ZMod.intCast_mod _ _
  rw [Int.cast_natCast] at h2
  rw [h2]
  exact h1

theorem one_iff (hp : c.n.Prime) {s w : Nat} : s * w % c.n = 1 ↔ (s : ZMod c.n) * w = 1 := by
  have h1 : 1 % c.n = 1 := Nat.mod_eq_of_lt hp.one_lt
  constructor
  · intro h
    have := (ZMod.natCast_eq_natCast_iff' (s * w) 1 c.n).2 (by rw [h, h1])
    push_cast at this
    exact this
  · intro h
    rw [← h1]
    refine (ZMod.natCast_eq_natCast_iff' (s * w) 1 c.n).1 ?_
    push_cast
    exact h

theorem verify_iff (hc : CurveGroup c pt base) (q : G) (hash : Bytes) (r s : Int) :
    verify c (pt q) hash r s = true ↔ ∃ r' s' : Nat, r = r' ∧ s = s' ∧ SignatureOf c pt base q (hashToInt c hash) r' s' := by
  rw [verify]
  by_cases hr : r ≤ 0 ∨ s ≤ 0 ∨ r ≥ c.n ∨ s ≥ c.n
  · rw [if_pos hr]
    refine ⟨fun h => (by cases h), ?_⟩
    rintro ⟨r', s', rfl, rfl, hv⟩
    have := hv.r_range
    have := hv.s_range
    omega
  · rw [if_neg hr]
    obtain ⟨r, rfl⟩ := Int.eq_ofNat_of_zero_le (show 0 ≤ r by omega)
    obtain ⟨s, rfl⟩ := Int.eq_ofNat_of_zero_le (show 0 ≤ s by omega)
    have hs : 0 < s ∧ s < c.n := by omega
    have hsc := cast_ne hs
    have hw := inverse_cast hc.prime hsc
    have : Fact c.n.Prime := ⟨hc.prime⟩
    have ht : ∀ a b : Nat, c.add (c.baseMult (bigBytes a)) (c.mult (pt q) (bigBytes b)) = pt (a • base + b • q) := by
      intro a b
      rw [hc.baseMult, hc.mult, hc.add, setBytes_bigBytes, setBytes_bigBytes]
    simp only [Int.toNat_natCast, ht]
    have hu : ∀ {w : Nat}, s * w % c.n = 1 → (hashToInt c hash * inverse c s % c.n) • base + (r * inverse c s % c.n) • q =
        (hashToInt c hash * w) • base + (r * w) • q := by
      intro w h1
      have e : (w : ZMod c.n) = (inverse c s : Nat) :=
        (eq_inv_of_mul_eq_one_right ((one_iff hc.prime).1 h1)).trans (eq_inv_of_mul_eq_one_right hw).symm
      congr 1
      · refine nsmul_cast hc ?_ _
        rw [ZMod.natCast_mod]
        push_cast
        rw [e]
      · refine nsmul_cast hc ?_ _
        rw [ZMod.natCast_mod]
        push_cast
        rw [e]
    have hi : s * inverse c s % c.n = 1 := (one_iff hc.prime).2 hw
    constructor
    · intro h
      split at h
      · cases h
      rename_i h0
      rw [hc.zero, hu hi] at h0
      rw [hu hi, decide_eq_true_eq] at h
      exact ⟨r, s, rfl, rfl, by omega, hs, _, hi, h0, h⟩
    · rintro ⟨r', s', e1, e2, hv⟩
      obtain rfl := Int.natCast_inj.1 e1
      obtain rfl := Int.natCast_inj.1 e2
      obtain ⟨w, h1, h0, hx⟩ := hv.point
      rw [hu h1, if_neg (by rw [hc.zero]; exact h0), decide_eq_true_eq]
      exact hx

theorem sign_valid (hc : CurveGroup c pt base) {d r s : Nat} {hash : Bytes} : ∀ {ks : List Nat}, (∀ k ∈ ks, 0 < k ∧ k < c.n) →
    sign c d hash ks = some (r, s) → SignatureOf c pt base (d • base) (hashToInt c hash) r s
  | [], _, h => by cases h
  | k :: ks, hk, h => by
    simp only [sign] at h
    split at h
    · exact sign_valid hc (fun k' h' => hk k' (List.mem_cons_of_mem _ h')) h
    rename_i hr0
    split at h
    · exact sign_valid hc (fun k' h' => hk k' (List.mem_cons_of_mem _ h')) h
    rename_i hs0
    simp only [Option.some.injEq, Prod.mk.injEq] at h
    obtain ⟨hr, hs⟩ := h
    rw [hc.baseMult, setBytes_bigBytes] at hr hr0 hs hs0
    rw [hr] at hr0 hs hs0
    rw [hs] at hs0
    have hpos := hc.prime.pos
    have hrlt : r < c.n := by rw [← hr]; exact Nat.mod_lt _ hpos
    have hslt : s < c.n := by rw [← hs]; exact Nat.mod_lt _ hpos
    have hkc := inverse_cast hc.prime (cast_ne (hk k List.mem_cons_self))
    have hsi := inverse_cast hc.prime (cast_ne (c := c) (s := s) ⟨by omega, hslt⟩)
    have hsk : (s : ZMod c.n) * k = d * r + hashToInt c hash := by
      rw [← hs, ZMod.natCast_mod]
      push_cast
      linear_combination ((d : ZMod c.n) * r + hashToInt c hash) * hkc
    have hi : s * inverse c s % c.n = 1 := (one_iff hc.prime).2 hsi
    have hsum : (hashToInt c hash * inverse c s) • base + (r * inverse c s) • d • base = k • base := by
      rw [← mul_nsmul', ← add_nsmul]
      refine nsmul_cast hc ?_ _
      push_cast
      linear_combination (-(inverse c s : Nat) : ZMod c.n) * hsk + (k : ZMod c.n) * hsi
    refine ⟨⟨by omega, hrlt⟩, ⟨by omega, hslt⟩, inverse c s, hi, ?_, ?_⟩
    · rw [hsum]
      intro h0
      rw [h0, (hc.zero 0).2 rfl, Nat.zero_mod] at hr
      omega
    · rw [hsum, hr]

/-- With s, N - s makes a signature. -/
theorem signature_other (hc : CurveGroup c pt base) {q : G} {e r s : Nat} (h : SignatureOf c pt base q e r s) :
    SignatureOf c pt base q e r (c.n - s) := by
  obtain ⟨hr, hs, w, hw, h0, hx⟩ := h
  have hwlt : 0 < w % c.n := by
    rcases Nat.eq_zero_or_pos (w % c.n) with h | h
    · rw [Nat.mul_mod, h, Nat.mul_zero, Nat.zero_mod] at hw
      omega
    · exact h
  have hlt := Nat.mod_lt w hc.prime.pos
  have hcast : ((c.n - w % c.n : Nat) : ZMod c.n) = -w := by
    rw [Nat.cast_sub hlt.le, ZMod.natCast_mod, CharP.cast_eq_zero (ZMod c.n) c.n, zero_sub]
  have hneg : (e * (c.n - w % c.n)) • base + (r * (c.n - w % c.n)) • q = -((e * w) • base + (r * w) • q) := by
    rw [eq_neg_iff_add_eq_zero, add_add_add_comm, ← add_nsmul, ← add_nsmul]
    have z : ∀ (a : Nat) (g : G), (a * (c.n - w % c.n) + a * w) • g = 0 := by
      intro a g
      rw [nsmul_cast hc (b := 0) ?_ g, zero_nsmul]
      push_cast
      rw [hcast]
      ring
    rw [z, z, add_zero]
  refine ⟨hr, by omega, c.n - w % c.n, ?_, ?_, ?_⟩
  · rw [one_iff hc.prime] at hw ⊢
    rw [hcast, Nat.cast_sub hs.2.le, CharP.cast_eq_zero (ZMod c.n) c.n]
    linear_combination hw
  · rw [hneg, Ne, neg_eq_zero]
    exact h0
  · rw [hneg, hc.neg, hx]

end

end Verif.Nist
