import Verif.Proofs.Nist
import Verif.Model.Hash
import Mathlib.Tactic.IntervalCases
/-!
# Keys of other curves: what is proved (C119 to C122)
-/

namespace Verif.Props
open Spec Nist

variable {c : Elliptic} {G : Type} [AddCommGroup G] {pt : G → Nat × Nat} {base : G}

/-! ## C119: signatures -/

theorem hashBits_unique (hc : c.n ≠ 0) {hash : Bytes} {e : Nat} (h : hashBits c hash e) : e = Nist.hashToInt c hash := by
  obtain ⟨bits, h1, h2, h3⟩ := h
  have hb : bits = c.n.log2 + 1 := by
    cases bits with
    | zero => simp at h2; omega
    | succ k =>
      rw [Nat.add_sub_cancel] at h1
      rw [(Nat.log2_eq_iff hc).2 ⟨h1, h2⟩]
  simp only [Nist.hashToInt]
  rw [← hb]
  by_cases hl : hash.length ≤ (bits + 7) / 8
  · rw [List.take_of_length_le hl]
    rcases h3 with ⟨h3, rfl⟩ | ⟨h3, rfl⟩
    · rw [if_neg (by omega)]
    · rw [if_pos (by omega)]
  · rcases h3 with ⟨h3, -⟩ | ⟨h3, rfl⟩
    · omega
    have hlen : (hash.take ((bits + 7) / 8)).length = (bits + 7) / 8 := by rw [List.length_take]; omega
    have hd : setBytes (hash.take ((bits + 7) / 8)) = setBytes hash / 256 ^ (hash.length - (bits + 7) / 8) := by
      have := setBytes_append (hash.take ((bits + 7) / 8)) (hash.drop ((bits + 7) / 8))
      rw [List.take_append_drop, List.length_drop] at this
      have h4 := setBytes_lt (hash.drop ((bits + 7) / 8))
      rw [List.length_drop] at h4
      conv_rhs => rw [this, Nat.mul_comm, Nat.mul_add_div (Nat.pow_pos (by omega)), Nat.div_eq_of_lt h4, Nat.add_zero]
    have hp : (256 : Nat) ^ (hash.length - (bits + 7) / 8) = 2 ^ (8 * (hash.length - (bits + 7) / 8)) := by
      rw [Nat.pow_mul]
    rw [hlen, hd, hp]
    split
    · rw [Nat.div_div_eq_div_mul, ← Nat.pow_add]
      congr 2
      omega
    · congr 2
      omega

theorem hashBits_exists (hc : c.n ≠ 0) (hash : Bytes) : ∃ e, hashBits c hash e := by
  have h1 := Nat.log2_self_le hc
  have h2 := Nat.lt_log2_self (n := c.n)
  by_cases h : hash.length * 8 ≤ c.n.log2 + 1
  · exact ⟨_, _, h1, h2, .inl ⟨h, rfl⟩⟩
  · exact ⟨_, _, h1, h2, .inr ⟨by omega, rfl⟩⟩

/-- **C119** The bytes of a signature are accepted exactly if they start with two numbers in a sequence of DER
that are a signature of the first bits of the hash. -/
theorem C119_accepts_iff (hc : CurveGroup c pt base) (q : G) {pk : Nist.PubKey} (hcurve : pk.curve = c) (hq : (pk.x, pk.y) = pt q)
    (sha256 : Bytes → Bytes) (msg sig : Bytes) (hl : sig.length < 2 ^ 31) {e : Nat} (he : hashBits c (sha256 msg) e) :
    pk.verifySignature sha256 msg sig = true ↔ ∃ r s, SignatureBytes sig r s ∧ SignatureOf c pt base q e r s := by
  obtain rfl := hashBits_unique hc.prime.ne_zero he
  rw [Nist.PubKey.verifySignature, hcurve, hq]
  constructor
  · intro h
    cases hp : parseSignature sig with
    | none => rw [hp] at h; cases h
    | some z =>
      obtain ⟨r, s⟩ := z
      rw [hp] at h
      obtain ⟨r', s', rfl, rfl, hv⟩ := (verify_iff hc q _ _ _).1 h
      exact ⟨r', s', (parse_iff hl).1 hp, hv⟩
  · rintro ⟨r, s, hb, hv⟩
    rw [(parse_iff hl).2 hb]
    exact (verify_iff hc q _ _ _).2 ⟨r, s, rfl, rfl, hv⟩

/-- **C119** What a private key signs, its public key accepts. -/
theorem C119_signs (hc : CurveGroup c pt base) {sk : PrivKey} (hcurve : sk.curve = c) (hq : (sk.x, sk.y) = pt (sk.d • base))
    (sha256 : Bytes → Bytes) {msg sig : Bytes} {ks : List Nat} (hk : ∀ k ∈ ks, 0 < k ∧ k < c.n)
    (h : sk.sign sha256 msg ks = some sig) : sk.pubKey.verifySignature sha256 msg sig = true := by
  rw [PrivKey.sign, hcurve] at h
  cases hs : Nist.sign c sk.d (sha256 msg) ks with
  | none => rw [hs] at h; cases h
  | some z =>
    obtain ⟨r, s⟩ := z
    rw [hs] at h
    simp only [Option.some.injEq] at h
    subst h
    have hv := sign_valid hc hk hs
    obtain ⟨h1, h2⟩ := asn1Signature_ok (hv.r_range.2.trans hc.size) (hv.s_range.2.trans hc.size)
    obtain ⟨e, he⟩ := hashBits_exists (c := c) hc.prime.ne_zero (sha256 msg)
    refine (C119_accepts_iff hc (sk.d • base) (pk := sk.pubKey) hcurve hq sha256 msg _ (by omega) he).2 ⟨r, s, h1, ?_⟩
    rw [hashBits_unique hc.prime.ne_zero he]
    exact hv

/-- **C119** Keys that are read or generated have the public key that `C119_signs` asks for. -/
theorem C119_keys (hc : CurveGroup c pt base) {sk : PrivKey} :
    ((∃ bz size, PrivKey.unmarshal bz c size = some sk) ∨ ∃ k, Nist.genPrivKey c k = sk) → sk.curve = c ∧ (sk.x, sk.y) = pt (sk.d • base) := by
  rintro (⟨bz, size, h⟩ | ⟨k, rfl⟩)
  · rw [PrivKey.unmarshal] at h
    split at h
    · cases h
    simp only [Option.some.injEq] at h
    subst h
    exact ⟨rfl, hc.baseMult bz⟩
  · refine ⟨rfl, ?_⟩
    have := hc.baseMult (bigBytes k)
    rw [setBytes_bigBytes] at this
    exact this

/-! ## C120: one encoding of a signature -/

theorem signatureBytes_extend {sig : Bytes} {r s : Nat} (h : SignatureBytes sig r s) (extra : Bytes) : SignatureBytes (sig ++ extra) r s := by
  obtain ⟨cr, cs, er, es, inner, outer, seq, h1, h2, h3, h4, h5, rfl⟩ := h
  exact ⟨cr, cs, er, es, inner, outer ++ extra, seq, h1, h2, h3, h4, h5, List.append_assoc _ _ _⟩

theorem accepted_numbers {sha256 : Bytes → Bytes} {pk : Nist.PubKey} {msg sig : Bytes} (hl : sig.length < 2 ^ 31)
    (h : pk.verifySignature sha256 msg sig = true) : ∃ r s : Nat, SignatureBytes sig r s ∧
      ∀ sig', sig'.length < 2 ^ 31 → SignatureBytes sig' r s → pk.verifySignature sha256 msg sig' = true := by
  rw [Nist.PubKey.verifySignature] at h
  cases hp : parseSignature sig with
  | none => rw [hp] at h; cases h
  | some z =>
    obtain ⟨r, s⟩ := z
    rw [hp] at h
    dsimp only at h
    have h0 : 0 ≤ r ∧ 0 ≤ s := by
      by_contra h0
      rw [verify, if_pos (by omega)] at h
      cases h
    obtain ⟨r, rfl⟩ := Int.eq_ofNat_of_zero_le h0.1
    obtain ⟨s, rfl⟩ := Int.eq_ofNat_of_zero_le h0.2
    refine ⟨r, s, (parse_iff hl).1 hp, fun sig' hl' hb => ?_⟩
    rw [Nist.PubKey.verifySignature, (parse_iff hl').2 hb]
    exact h

/-- **C120** Bytes after a signature do not matter, for all curves and keys. -/
theorem C120_extra (sha256 : Bytes → Bytes) (pk : Nist.PubKey) (msg sig extra : Bytes) (hl : (sig ++ extra).length < 2 ^ 31)
    (h : pk.verifySignature sha256 msg sig = true) : pk.verifySignature sha256 msg (sig ++ extra) = true := by
  obtain ⟨r, s, hb, ht⟩ := accepted_numbers (by rw [List.length_append] at hl; omega) h
  exact ht _ hl (signatureBytes_extend hb extra)

/-- **C120** With a signature the one with N - s in place of s is accepted. -/
theorem C120_other (hc : CurveGroup c pt base) (q : G) {pk : Nist.PubKey} (hcurve : pk.curve = c) (hq : (pk.x, pk.y) = pt q)
    (sha256 : Bytes → Bytes) (msg sig : Bytes) (hl : sig.length < 2 ^ 31) (h : pk.verifySignature sha256 msg sig = true) :
    ∃ r s, SignatureBytes sig r s ∧ 0 < s ∧ s < c.n ∧ pk.verifySignature sha256 msg (asn1Signature r (c.n - s)) = true := by
  obtain ⟨e, he⟩ := hashBits_exists (c := c) hc.prime.ne_zero (sha256 msg)
  obtain ⟨r, s, hb, hv⟩ := (C119_accepts_iff hc q hcurve hq sha256 msg sig hl he).1 h
  have ho := signature_other hc hv
  obtain ⟨h1, h2⟩ := asn1Signature_ok (ho.r_range.2.trans hc.size) (ho.s_range.2.trans hc.size)
  exact ⟨r, s, hb, hv.s_range.1, hv.s_range.2, (C119_accepts_iff hc q hcurve hq sha256 msg _ (by omega) he).2 ⟨r, c.n - s, h1, ho⟩⟩

theorem bigBytes_unique {x : UInt8} {r : Bytes} (hx : x ≠ 0) : bigBytes (setBytes (x :: r)) = x :: r := by
  have hv := setBytes_bigBytes (setBytes (x :: r))
  refine setBytes_inj ?_ hv
  have h1 := bigBytes_length (setBytes_lt (x :: r))
  have h2 := setBytes_lt (bigBytes (setBytes (x :: r)))
  rw [hv] at h2
  have h3 : 256 ^ r.length ≤ setBytes (x :: r) := by
    rw [setBytes_cons]
    have : 0 < x.toNat := Nat.pos_of_ne_zero fun h => hx (byte_zero.1 h)
    exact (Nat.le_mul_of_pos_left _ this).trans (Nat.le_add_right _ _)
  have h4 : r.length < (bigBytes (setBytes (x :: r))).length := (Nat.pow_lt_pow_iff_right (by omega : 1 < 256)).1 (h3.trans_lt h2)
  rw [List.length_cons] at h1 ⊢
  omega

theorem natBytes_unique {b : Bytes} {n : Nat} (h : NatBytes b n) : b = natContent n := by
  obtain ⟨rfl, x, r, rfl, hx, h0⟩ := h
  by_cases hz : x = 0
  · subst hz
    have e : setBytes (0 :: r) = setBytes r := by
      rw [setBytes_cons, show UInt8.toNat 0 = 0 from rfl, Nat.zero_mul, Nat.zero_add]
    rw [natContent, e]
    cases r with
    | nil => rfl
    | cons y r =>
      have hy := h0 rfl y rfl
      rw [bigBytes_unique (by rintro rfl; exact absurd hy (by decide))]
      dsimp only
      rw [if_pos hy]
  · rw [natContent, bigBytes_unique hz]
    dsimp only
    rw [if_neg (by omega)]

theorem lengthBytes_unique {l : Bytes} {n : Nat} (h : LengthBytes l n) : l = asn1Length n := by
  rcases h with ⟨h, rfl⟩ | ⟨h, x, r, rfl, hr, hx, rfl⟩
  · rw [asn1Length, if_pos h]
  · rw [asn1Length, if_neg (by omega), bigBytes_unique hx]

theorem element_unique {b content : Bytes} {tag : UInt8} (h : ElementBytes b tag content) : b = asn1Element tag content := by
  obtain ⟨l, hl, rfl⟩ := h
  rw [asn1Element, lengthBytes_unique hl]

/-- **C120** In part: two numbers have one encoding, that of `Sign`, if nothing follows them in the sequence and after it. -/
theorem C120_one_partial {r s : Nat} {cr cs er es seq : Bytes} (hr : NatBytes cr r) (hs : NatBytes cs s) (her : ElementBytes er 2 cr)
    (hes : ElementBytes es 2 cs) (hseq : ElementBytes seq 48 (er ++ es)) : seq = asn1Signature r s := by
  rw [element_unique hseq, element_unique her, element_unique hes, natBytes_unique hr, natBytes_unique hs]
  rfl

/-! ## C121: addresses -/

/-- The address of a key for a name. -/
def AddressIs (sha256 : Bytes → Bytes) (pk : Nist.PubKey) (name a : Bytes) : Prop :=
  ∃ b, pk.bytes = .ret b ∧ a = sha256 (sha256 name ++ b)

/-- **C121** The first address is right, and the same name gives the same address later. -/
theorem C121_first_partial (sha256 : Bytes → Bytes) {pk pk' : Nist.PubKey} (hf : pk.address = none) {name a : Bytes}
    (h : pk.addressFor sha256 name = .ret (a, pk')) : AddressIs sha256 pk name a ∧ pk'.addressFor sha256 name = .ret (a, pk') := by
  rw [Nist.PubKey.addressFor, hf] at h
  cases hb : pk.bytes with
  | panic => rw [hb] at h; cases h
  | ret b =>
    rw [hb] at h
    simp only [Out.ret.injEq, Prod.mk.injEq] at h
    obtain ⟨rfl, rfl⟩ := h
    exact ⟨⟨b, hb, rfl⟩, rfl⟩

/-- **C121** Later every other name gives that address too. -/
theorem C121_cached (sha256 : Bytes → Bytes) {pk pk' : Nist.PubKey} {name a : Bytes} (h : pk.addressFor sha256 name = .ret (a, pk'))
    (other : Bytes) : pk'.addressFor sha256 other = .ret (a, pk') := by
  rw [Nist.PubKey.addressFor] at h
  split at h
  · rename_i a' ha
    simp only [Out.ret.injEq, Prod.mk.injEq] at h
    obtain ⟨rfl, rfl⟩ := h
    rw [Nist.PubKey.addressFor, ha]
  · split at h
    · cases h
    simp only [Out.ret.injEq, Prod.mk.injEq] at h
    obtain ⟨rfl, rfl⟩ := h
    rfl

/-- **C121** A key that is read in place of another one keeps its address. -/
theorem C121_read (sha256 : Bytes → Bytes) {pk pk' pk'' : Nist.PubKey} {name a : Bytes} (h : pk.addressFor sha256 name = .ret (a, pk'))
    {bz : Bytes} {size : Nat} (hu : pk'.unmarshal bz c size = .ret (some pk'')) (other : Bytes) :
    pk''.addressFor sha256 other = .ret (a, pk'') := by
  have hc : pk'.address = some a := by
    have h1 := C121_cached sha256 h name
    rw [Nist.PubKey.addressFor] at h1
    split at h1
    · rename_i a' ha
      simp only [Out.ret.injEq, Prod.mk.injEq, and_true] at h1
      rw [ha, h1]
    · rename_i ha
      split at h1
      · cases h1
      · simp only [Out.ret.injEq, Prod.mk.injEq] at h1
        have := congrArg Nist.PubKey.address h1.2
        rw [ha] at this
        cases this
  rw [Nist.PubKey.unmarshal] at hu
  split at hu
  · cases hu
  split at hu
  · simp only [Out.ret.injEq, Option.some.injEq] at hu
    subst hu
    rw [Nist.PubKey.addressFor]
    dsimp only
    rw [hc]
  · split at hu <;> cases hu

/-! ## C122: keys and bytes -/

theorem fillBytes_ok {n len : Nat} (h : n < 256 ^ len) : ∃ b, fillBytes n len = .ret b ∧ b.length = len ∧ setBytes b = n := by
  have hl := bigBytes_length h
  refine ⟨_, by rw [fillBytes, if_neg (by omega)], ?_, ?_⟩
  · rw [List.length_append, List.length_replicate]
    omega
  · rw [setBytes_append, setBytes_zeros, setBytes_bigBytes, Nat.zero_mul, Nat.zero_add]

theorem other_root {c : Elliptic} (hf : FieldOk c) {y : Nat} (hy : y < c.p) (h0 : y ≠ 0) :
    (c.p - y) % c.p = c.p - y ∧ (c.p - y) % 2 = 1 - y % 2 := by
  have := hf.odd
  refine ⟨Nat.mod_eq_of_lt (by omega), by omega⟩

/-- **C122** The bytes of a public key are read as this key. -/
theorem C122_public {c : Elliptic} (hf : FieldOk c) {pk : Nist.PubKey} (hcurve : pk.curve = c) (hp : OnCurve c pk.x pk.y) (pk' : Nist.PubKey) :
    ∃ b, pk.bytes = .ret b ∧ b.length = 1 + c.byteLen ∧
      pk'.unmarshal b c (1 + c.byteLen) = .ret (some { pk with address := pk'.address }) := by
  obtain ⟨hx, hy, he⟩ := hp
  obtain ⟨b, hb, hl, hv⟩ := fillBytes_ok (hx.trans_le hf.fits)
  have hlen : ((if pk.y % 2 = 1 then 3 else 2 : UInt8) :: b).length = 1 + c.byteLen := by rw [List.length_cons, hl]; omega
  refine ⟨(if pk.y % 2 = 1 then 3 else 2) :: b, ?_, hlen, ?_⟩
  · rw [Nist.PubKey.bytes, marshalCompressed, hcurve, hb]
  · rw [Nist.PubKey.unmarshal, if_neg (by rw [hlen]; simp), unmarshalCompressed, if_neg (by rw [hlen]; simp)]
    dsimp only
    rw [if_neg (by split <;> decide), hv, if_neg (by omega)]
    cases hs : c.sqrt (c.poly pk.x) with
    | none => exact absurd he (hf.no_root _ hs _)
    | some z =>
      obtain ⟨hz, hz2⟩ := hf.root _ _ hs
      have hpar : (decide ((if pk.y % 2 = 1 then 3 else 2 : UInt8) = 3)) = decide (pk.y % 2 = 1) := by split <;> simp_all
      have hy' : (if decide (z % 2 = 1) ≠ decide ((if pk.y % 2 = 1 then 3 else 2 : UInt8) = 3) then (c.p - z) % c.p else z) = pk.y := by
        rw [hpar]
        rcases hf.two z pk.y hz hy (by rw [hz2, he]) with h | h
        · rw [h, if_neg (by simp)]
        · by_cases h0 : z = 0
          · subst h0
            rw [Nat.sub_zero, Nat.mod_self] at h ⊢
            rw [h, if_neg (by simp)]
          · obtain ⟨h1, h2⟩ := other_root hf hz h0
            rw [h1] at h
            rw [if_pos, h1, h]
            rw [h, h2]
            intro hd
            rw [decide_eq_decide] at hd
            omega
      dsimp only
      rw [hy', if_pos (by rw [Elliptic.isOnCurve, decide_eq_true_eq]; exact he)]
      dsimp only
      rw [← hcurve]

/-- **C122** What is read is a point of the curve, and its bytes are those that were read, unless y is zero. -/
theorem C122_read {c : Elliptic} (hf : FieldOk c) {pk pk' : Nist.PubKey} {bz : Bytes} {size : Nat}
    (h : pk.unmarshal bz c size = .ret (some pk')) : pk'.curve = c ∧ OnCurve c pk'.x pk'.y ∧ size = 1 + c.byteLen ∧
      (pk'.y ≠ 0 → pk'.bytes = .ret bz) := by
  rw [Nist.PubKey.unmarshal] at h
  split at h
  · cases h
  rename_i hsize
  cases hu : unmarshalCompressed c bz with
  | none =>
    rw [hu] at h
    dsimp only at h
    split at h <;> cases h
  | some z =>
    obtain ⟨x, y⟩ := z
    rw [hu] at h
    simp only [Out.ret.injEq, Option.some.injEq] at h
    subst h
    rw [unmarshalCompressed.eq_def] at hu
    split at hu
    · cases hu
    rename_i hlen
    cases bz with
    | nil => cases hu
    | cons f r =>
      dsimp only at hu
      split at hu
      · cases hu
      rename_i hf23
      split at hu
      · cases hu
      rename_i hx
      cases hs : c.sqrt (c.poly (setBytes r)) with
      | none => rw [hs] at hu; cases hu
      | some z =>
        rw [hs] at hu
        obtain ⟨hz, hz2⟩ := hf.root _ _ hs
        dsimp only at hu
        generalize hy : (if decide (z % 2 = 1) ≠ decide (f = 3) then (c.p - z) % c.p else z) = y' at hu
        by_cases hon : c.isOnCurve (setBytes r) y' = true
        · rw [if_pos hon] at hu
          simp only [Option.some.injEq, Prod.mk.injEq] at hu
          obtain ⟨rfl, rfl⟩ := hu
          have hylt : y' < c.p := by
            rw [← hy]
            split
            · exact Nat.mod_lt _ (by omega)
            · exact hz
          rw [Elliptic.isOnCurve, decide_eq_true_eq] at hon
          refine ⟨rfl, ⟨(by show setBytes r < c.p; omega), hylt, hon⟩, by omega, fun h0 => ?_⟩
          dsimp only at h0
          rw [List.length_cons] at hlen
          obtain ⟨b, hb, hl, hv⟩ := fillBytes_ok (n := setBytes r) (len := c.byteLen) ((show setBytes r < c.p by omega).trans_le hf.fits)
          have hbr : b = r := setBytes_inj (by omega) hv
          have hpar : decide (y' % 2 = 1) = decide (f = 3) := by
            rw [← hy]
            split
            · rename_i hne
              by_cases hz0 : z = 0
              · subst hz0
                rw [if_pos hne, Nat.sub_zero, Nat.mod_self] at hy
                exact absurd hy.symm h0
              · obtain ⟨h1, h2⟩ := other_root hf hz hz0
                rw [h1, h2]
                have hm : z % 2 = 0 ∨ z % 2 = 1 := by omega
                rcases hm with hm | hm <;> rw [hm] at hne ⊢ <;> by_cases h3 : f = 3 <;> simp_all
            · rename_i hne
              exact not_not.1 hne
          rw [Nist.PubKey.bytes, marshalCompressed]
          dsimp only
          rw [hb, hbr]
          rw [decide_eq_decide] at hpar
          by_cases h3 : f = 3
          · rw [if_pos (hpar.2 h3), h3]
          · have h2 : f = 2 := by
              by_contra h2
              exact hf23 ⟨h2, h3⟩
            rw [if_neg (fun h => h3 (hpar.1 h)), h2]
        · rw [if_neg hon] at hu
          cases hu

/-- **C122** The bytes of a private key are read as this key, and read bytes are written again. -/
theorem C122_private {c : Elliptic} (hn : c.n ≤ 256 ^ c.byteLen) (hm : ∀ a b, setBytes a = setBytes b → c.baseMult a = c.baseMult b) :
    (∀ k, k < c.n → ∃ b, (Nist.genPrivKey c k).bytes = .ret b ∧ PrivKey.unmarshal b c c.byteLen = some (Nist.genPrivKey c k)) ∧
    ∀ bz sk, PrivKey.unmarshal bz c c.byteLen = some sk → sk.bytes = .ret bz := by
  constructor
  · intro k hk
    obtain ⟨b, hb, hl, hv⟩ := fillBytes_ok (hk.trans_le hn)
    refine ⟨b, hb, ?_⟩
    rw [PrivKey.unmarshal, if_neg (by rw [hl]; simp), Nist.genPrivKey, hv, hm b (bigBytes k) (by rw [hv, setBytes_bigBytes])]
  · intro bz sk h
    rw [PrivKey.unmarshal] at h
    split at h
    · cases h
    rename_i hl
    simp only [Option.some.injEq] at h
    subst h
    rw [ne_eq, not_not] at hl
    obtain ⟨b, hb, hl', hv⟩ := fillBytes_ok (n := setBytes bz) (len := c.byteLen) (by rw [← hl]; exact setBytes_lt bz)
    rw [PrivKey.bytes, hb, setBytes_inj (hl'.trans hl.symm) hv]

/-- **C122** Private keys that are multiples of N are read, and have no public key: the coordinates are (0, 0). -/
theorem C122_fails (hc : CurveGroup c pt base) {bz : Bytes} (h : c.n ∣ setBytes bz) :
    ∃ sk, PrivKey.unmarshal bz c bz.length = some sk ∧ sk.pubKey.x = 0 ∧ sk.pubKey.y = 0 := by
  obtain ⟨k, hk⟩ := h
  have hz : c.baseMult bz = (0, 0) := by
    rw [hc.baseMult, (hc.zero _).2]
    rw [hk, mul_nsmul, hc.order, nsmul_zero]
  exact ⟨_, by rw [PrivKey.unmarshal, if_neg (by simp)], by simp [PrivKey.pubKey, hz], by simp [PrivKey.pubKey, hz]⟩

/-! ## A curve

y² = x³ - 3x + 6 over the field of 7 elements, with 11 points; the base point is (1, 2). -/

/-- The multiples of the base point. -/
def smallPoint (q : ZMod 11) : Nat × Nat :=
  [(0, 0), (1, 2), (5, 5), (2, 6), (6, 6), (4, 4), (4, 3), (6, 1), (2, 1), (5, 2), (1, 5)].getD q.val (0, 0)

/-- The multiple of the base point that a point is. -/
def smallIndex (c : Nat × Nat) : ZMod 11 :=
  ((List.range 11).find? fun (i : Nat) => smallPoint i == c).getD 0

def smallCurve : Elliptic where
  bitSize := 3
  p := 7
  n := 11
  poly := fun x => (x * x * x + 4 * x + 6) % 7
  sqrt := fun a => (List.range 7).find? fun y => y * y % 7 == a
  add := fun a b => smallPoint (smallIndex a + smallIndex b)
  mult := fun a b => smallPoint ((setBytes b : Nat) * smallIndex a)
  baseMult := fun b => smallPoint ((setBytes b : Nat) : ZMod 11)

theorem smallIndex_point : ∀ q, smallIndex (smallPoint q) = q := by decide +kernel

/-- The assumptions on curves can be met. -/
theorem smallCurve_group : CurveGroup smallCurve smallPoint 1 where
  prime := by decide +kernel
  size := by
    refine lt_of_lt_of_le (b := 256 ^ 1) (by decide) ?_
    exact Nat.pow_le_pow_right (by omega) (by omega)
  order := by decide +kernel
  zero := by decide +kernel
  neg := by decide +kernel
  add := fun q q' => by
    show smallPoint (smallIndex (smallPoint q) + smallIndex (smallPoint q')) = _
    rw [smallIndex_point, smallIndex_point]
  mult := fun q b => by
    show smallPoint ((setBytes b : Nat) * smallIndex (smallPoint q)) = _
    rw [smallIndex_point, nsmul_eq_mul]
  baseMult := fun b => by
    show smallPoint ((setBytes b : Nat) : ZMod 11) = _
    rw [nsmul_one]

theorem smallCurve_field : FieldOk smallCurve where
  odd := rfl
  fits := by decide +kernel
  poly := fun _ => Nat.mod_lt _ (by decide)
  root := fun a y h => by
    have h1 := List.find?_some h
    have h2 := List.mem_of_find?_eq_some h
    exact ⟨List.mem_range.1 h2, (beq_iff_eq.1 h1 : y * y % 7 = a)⟩
  no_root := fun a h y he => by
    have h1 := List.find?_eq_none.1 h (y % 7) (List.mem_range.2 (Nat.mod_lt _ (by decide)))
    refine h1 ?_
    rw [beq_iff_eq, ← Nat.mul_mod]
    exact he
  two := by
    have h : ∀ y < 7, ∀ z < 7, y * y % 7 = z * z % 7 → z = y ∨ z = (7 - y) % 7 := by decide
    exact fun y z hy hz he => h y hy z hz he

/-- The private key 5 of this curve. -/
def smallKey : Nist.PrivKey := Nist.genPrivKey smallCurve 5

/-- Not vacuous: it signs, with the real SHA-256, and the signature is accepted with and without a byte after it, and with the
other s. -/
example : ∃ sig, smallKey.sign Hash.sha256 b!"message" [10, 3] = some sig ∧
    smallKey.pubKey.verifySignature Hash.sha256 b!"message" sig = true ∧
    smallKey.pubKey.verifySignature Hash.sha256 b!"message" (sig ++ [0]) = true ∧
    smallKey.pubKey.verifySignature Hash.sha256 b!"message" [48, 6, 2, 1, 1, 2, 1, 4] = true ∧
    smallKey.pubKey.verifySignature Hash.sha256 b!"messages" sig = false :=
  ⟨[48, 6, 2, 1, 1, 2, 1, 7], by decide +kernel, by decide +kernel, by decide +kernel, by decide +kernel, by decide +kernel⟩

/-- **C120** The property fails: a message has a signature, by the private key, that is accepted with other bytes. -/
theorem C120_fails : ∃ sig sig', sig ≠ sig' ∧ smallKey.sign Hash.sha256 b!"message" [10, 3] = some sig ∧
    smallKey.pubKey.verifySignature Hash.sha256 b!"message" sig = true ∧
    smallKey.pubKey.verifySignature Hash.sha256 b!"message" sig' = true :=
  ⟨[48, 6, 2, 1, 1, 2, 1, 7], [48, 6, 2, 1, 1, 2, 1, 7, 0], by decide, by decide +kernel, by decide +kernel, by decide +kernel⟩

/-- **C121** The property fails: asked for another name, or as another key, a key has the address it had first. -/
theorem C121_fails : ∃ a pk', smallKey.pubKey.addressFor Hash.sha256 b!"a" = .ret (a, pk') ∧
    pk'.addressFor Hash.sha256 b!"b" = .ret (a, pk') ∧ ¬ AddressIs Hash.sha256 pk' b!"b" a ∧
    ∃ pk'', pk'.unmarshal [2, 1] smallCurve 2 = .ret (some pk'') ∧ pk''.addressFor Hash.sha256 b!"a" = .ret (a, pk'') ∧
      ¬ AddressIs Hash.sha256 pk'' b!"a" a := by
  refine ⟨_, _, rfl, rfl, ?_, _, rfl, rfl, ?_⟩
  · rintro ⟨b, hb, h⟩
    injection hb with hb
    subst hb
    revert h
    decide +kernel
  · rintro ⟨b, hb, h⟩
    injection hb with hb
    subst hb
    revert h
    decide +kernel

/-- Not vacuous: keys of this curve are written and read. -/
example : OnCurve smallCurve 4 3 ∧ (⟨smallCurve, 4, 3, none⟩ : Nist.PubKey).bytes = .ret [3, 4] ∧ smallKey.bytes = .ret [5] :=
  ⟨⟨by decide, by decide, by decide⟩, by decide +kernel, by decide +kernel⟩

end Verif.Props
