import Verif.Model.Secp
import Verif.Model.Authn
import Verif.Proofs.Bytes
import Mathlib.Data.List.Induction
import Mathlib.Tactic.Ring
/-!
# Keys, signatures and sign documents (C41, C57, C58)
-/

set_option linter.unusedSectionVars false

namespace Verif.Props

/-! ## Big-endian numbers -/

theorem setBytes_append (a b : Bytes) : setBytes (a ++ b) = setBytes a * 256 ^ b.length + setBytes b := by
  have key : ∀ (b : Bytes) (n : Nat), b.foldl (fun n x => n * 256 + x.toNat) n =
      n * 256 ^ b.length + b.foldl (fun n x => n * 256 + x.toNat) 0 := by
    intro b
    induction b with
    | nil => simp
    | cons x xs ih =>
      intro n
      rw [List.foldl_cons, ih, List.foldl_cons, ih (0 * 256 + x.toNat), List.length_cons, pow_succ]
      ring
  rw [setBytes, List.foldl_append, key]
  rfl

theorem setBytes_lt (b : Bytes) : setBytes b < 256 ^ b.length := by
  induction b using List.reverseRecOn with
  | nil => simp [setBytes]
  | append_singleton l x ih =>
    rw [setBytes_append]
    have hx := x.toNat_lt
    have : setBytes [x] = x.toNat := by simp [setBytes]
    rw [this, List.length_append, pow_add]
    simp only [List.length_singleton, pow_one]
    omega

theorem setBytes_zeros (n : Nat) : setBytes (List.replicate n 0) = 0 := by
  induction n with
  | zero => rfl
  | succ n ih =>
    rw [List.replicate_succ', setBytes_append, ih]
    rfl

theorem littleBytes_spec (fuel : Nat) : ∀ n, n ≤ fuel → setBytes (littleBytes fuel n).reverse = n ∧
    (∀ k, n < 256 ^ k → (littleBytes fuel n).length ≤ k) := by
  induction fuel with
  | zero =>
    intro n hn
    obtain rfl : n = 0 := by omega
    exact ⟨rfl, fun k _ => by simp [littleBytes]⟩
  | succ fuel ih =>
    intro n hn
    rw [littleBytes]
    split
    · next h => subst h; exact ⟨rfl, by simp⟩
    · next h =>
      obtain ⟨h1, h2⟩ := ih (n / 256) (by omega)
      refine ⟨?_, fun k hk => ?_⟩
      · rw [List.reverse_cons, setBytes_append, h1]
        have : setBytes [UInt8.ofNat (n % 256)] = n % 256 := by
          simp only [setBytes, List.foldl_cons, List.foldl_nil, Nat.zero_mul, Nat.zero_add]
          exact toNat_ofNat_lt (by omega)
        rw [this]
        simp only [List.length_singleton, pow_one]
        omega
      · rw [List.length_cons]
        cases k with
        | zero => simp at hk; omega
        | succ k =>
          have := h2 k (by rw [pow_succ] at hk; omega)
          omega

theorem setBytes_bigBytes (n : Nat) : setBytes (bigBytes n) = n := (littleBytes_spec n n le_rfl).1

theorem bigBytes_length {n k : Nat} (h : n < 256 ^ k) : (bigBytes n).length ≤ k := by
  rw [bigBytes, List.length_reverse]
  exact (littleBytes_spec n n le_rfl).2 k h

theorem copyBefore_zeros {k n : Nat} (h : n < 256 ^ k) :
    copyBefore (List.replicate k 0) k (bigBytes n) =
      .ret (List.replicate (k - (bigBytes n).length) 0 ++ bigBytes n) := by
  rw [copyBefore, if_pos (bigBytes_length h)]
  simp

/-! ## C57 -/

/-- **C57**: what is written for numbers below 2^256 has 64 bytes and reads back. -/
theorem C57_roundtrip {r s : Nat} (hr : r < 2 ^ 256) (hs : s < 2 ^ 256) :
    ∃ sig, serializeSig r s = .ret sig ∧ sig.length = 64 ∧ signatureFromBytes sig = (r, s) := by
  have e : (2 : Nat) ^ 256 = 256 ^ 32 := by norm_num
  rw [e] at hr hs
  have lr := bigBytes_length hr
  have ls := bigBytes_length hs
  have h1 : copyBefore (List.replicate 64 0) 32 (bigBytes r) =
      .ret ((List.replicate (32 - (bigBytes r).length) 0 ++ bigBytes r) ++ List.replicate 32 0) := by
    rw [copyBefore, if_pos lr]
    simp only [List.take_replicate, List.drop_replicate]
    congr 4
    omega
  have lp : (List.replicate (32 - (bigBytes r).length) (0 : UInt8) ++ bigBytes r).length = 32 := by simp; omega
  have h2 : serializeSig r s = .ret ((List.replicate (32 - (bigBytes r).length) 0 ++ bigBytes r) ++
      (List.replicate (32 - (bigBytes s).length) 0 ++ bigBytes s)) := by
    rw [serializeSig, h1]
    simp only []
    generalize List.replicate (32 - (bigBytes r).length) (0 : UInt8) ++ bigBytes r = p at *
    rw [copyBefore, if_pos (by omega), List.take_append, List.take_of_length_le (by omega), lp, List.drop_of_length_le (by simp [lp])]
    have : min (64 - (bigBytes s).length - 32) 32 = 32 - (bigBytes s).length := by omega
    simp only [List.take_replicate, this, List.append_nil, List.append_assoc]
  have lq : (List.replicate (32 - (bigBytes s).length) (0 : UInt8) ++ bigBytes s).length = 32 := by simp; omega
  refine ⟨_, h2, by rw [List.length_append, lp, lq], ?_⟩
  rw [signatureFromBytes, List.take_append_of_le_length (by omega), List.take_of_length_le (by omega),
    List.take_of_length_le (by rw [List.length_append, lp, lq]), List.drop_append_of_le_length (by omega),
    List.drop_of_length_le (by omega), List.nil_append]
  simp only [setBytes_append, setBytes_zeros, Nat.zero_mul, Nat.zero_add, setBytes_bigBytes]

/-- Conversely, 64 bytes are determined by the two numbers read from them: there is one encoding
of each pair. -/
theorem setBytes_inj : ∀ {a b : Bytes}, a.length = b.length → setBytes a = setBytes b → a = b := by
  intro a
  induction a using List.reverseRecOn with
  | nil => intro b h _; exact (List.length_eq_zero_iff.1 h.symm).symm
  | append_singleton l x ih =>
    intro b h e
    rcases List.eq_nil_or_concat b with rfl | ⟨l', y, rfl⟩
    · simp at h
    · rw [List.concat_eq_append] at h e ⊢
      rw [setBytes_append, setBytes_append] at e
      have ex : ∀ z : UInt8, setBytes [z] = z.toNat := fun z => by simp [setBytes]
      simp only [ex, List.length_singleton, pow_one] at e
      have hx := x.toNat_lt
      have hy := y.toNat_lt
      have h1 : setBytes l = setBytes l' := by omega
      have h2 : x.toNat = y.toNat := by omega
      rw [ih (by simpa using h) h1, UInt8.toNat_inj.1 h2]

/-- **C57**: a pair of numbers has exactly one encoding of 64 bytes. -/
theorem C57_unique {a b : Bytes} (ha : a.length = 64) (hb : b.length = 64)
    (h : signatureFromBytes a = signatureFromBytes b) : a = b := by
  rw [signatureFromBytes, signatureFromBytes, List.take_of_length_le (i := 64) (by omega),
    List.take_of_length_le (i := 64) (by omega), Prod.mk.injEq] at h
  have h1 := setBytes_inj (by simp; omega) h.1
  have h2 := setBytes_inj (by simp; omega) h.2
  rw [← List.take_append_drop 32 a, h1, h2, List.take_append_drop]

/-- **C57**: what verification accepts: 64 bytes, a key that parses, and a second number of at most
half of the order. -/
theorem C57_accepted {c : Curve} {key msg sig : Bytes} (h : verifySignature c key msg sig = true) :
    sig.length = 64 ∧ (signatureFromBytes sig).2 ≤ curveN / 2 ∧ ∃ p, c.parsePubKey key = some p ∧
      c.verify p (c.sha256 msg) (signatureFromBytes sig).1 (signatureFromBytes sig).2 = true := by
  rw [verifySignature] at h
  split at h
  · cases h
  · next hl =>
    cases hp : c.parsePubKey key with
    | none => rw [hp] at h; cases h
    | some p =>
      rw [hp] at h
      simp only [] at h
      split at h
      · cases h
      · next hs =>
        exact ⟨by omega, by rw [curveHalfN, Nat.shiftRight_one] at hs; omega, p, rfl, h⟩

/-- **C57**: if a signature (r, s) is accepted, the encoding of its sibling (r, n - s) is not, for
any message and any key. -/
theorem C57_sibling {c : Curve} {key msg sig sig' : Bytes} (h : verifySignature c key msg sig = true)
    (hs : signatureFromBytes sig' = ((signatureFromBytes sig).1, curveN - (signatureFromBytes sig).2)) :
    ∀ key' msg', verifySignature c key' msg' sig' = false := by
  intro key' msg'
  obtain ⟨_, h1, _⟩ := C57_accepted h
  cases h2 : verifySignature c key' msg' sig' with
  | false => rfl
  | true =>
    obtain ⟨_, h3, _⟩ := C57_accepted h2
    rw [hs] at h3
    have : curveN % 2 = 1 := by decide +kernel
    simp only at h3
    omega

/-- A curve that accepts everything. -/
def anyCurve : Curve := ⟨Unit, id, id, fun _ => some (), fun _ _ _ _ => true⟩

/-- Non-vacuity: small numbers are accepted, their siblings can be written and are rejected. -/
example : ∃ sig sig', serializeSig 5 7 = .ret sig ∧ verifySignature anyCurve [] [] sig = true ∧
    serializeSig 5 (curveN - 7) = .ret sig' ∧ verifySignature anyCurve [] [] sig' = false := by
  obtain ⟨sig, h1, h2, h3⟩ := C57_roundtrip (r := 5) (s := 7) (by decide +kernel) (by decide +kernel)
  obtain ⟨sig', h1', h2', h3'⟩ := C57_roundtrip (r := 5) (s := curveN - 7) (by decide +kernel) (by decide +kernel)
  have ha : verifySignature anyCurve [] [] sig = true := by
    rw [verifySignature, if_neg (by omega), h3]
    decide +kernel
  exact ⟨sig, sig', h1, ha, h1', C57_sibling ha (by rw [h3', h3]) _ _⟩

/-! ## C58 -/

/-- **C58**: the private key derived from any secret, with any hash function, is a number between 1
and n - 1 in 32 bytes, and the derivation does not panic. -/
theorem C58_derived (sha256 : Bytes → Bytes) (secret : Bytes) : ∃ key, genPrivKeyFromSecret sha256 secret = .ret key ∧
    key.length = 32 ∧ 1 ≤ setBytes key ∧ setBytes key < curveN ∧
    setBytes key = setBytes (sha256 secret) % (curveN - 1) + 1 := by
  have hn : 1 < curveN - 1 := by decide +kernel
  have hm : curveN < 256 ^ 32 := by decide +kernel
  have hlt := Nat.mod_lt (setBytes (sha256 secret)) (show 0 < curveN - 1 by omega)
  have hk : setBytes (sha256 secret) % (curveN - 1) + 1 < 256 ^ 32 := by omega
  have hl := bigBytes_length hk
  refine ⟨_, copyBefore_zeros hk, by simp; omega, ?_⟩
  rw [setBytes_append, setBytes_zeros, setBytes_bigBytes]
  omega

/-- **C58**: so is a key made from random bytes. -/
theorem C58_generated {rand key : Bytes} (h : genPrivKey rand = .ret key) :
    key.length = 32 ∧ 1 ≤ setBytes key ∧ setBytes key < curveN := by
  rw [genPrivKey] at h
  generalize rand.length + 1 = fuel at h
  induction fuel generalizing rand with
  | zero => cases h
  | succ fuel ih =>
    rw [genPrivKeyLoop] at h
    split at h
    · cases h
    · next hl =>
      simp only [] at h
      split at h
      · next hd =>
        cases h
        exact ⟨by simp; omega, hd.1, hd.2⟩
      · exact ih h

/-- A source of random bytes fails to give a key exactly if no whole block of 32 bytes in it is a
valid scalar. -/
theorem C58_exhausted (rand : Bytes) : genPrivKey rand = .panic ↔
    ∀ i, 32 * (i + 1) ≤ rand.length →
      ¬ (0 < setBytes ((rand.drop (32 * i)).take 32) ∧ setBytes ((rand.drop (32 * i)).take 32) < curveN) := by
  have key : ∀ (fuel : Nat) (rand : Bytes), rand.length < fuel → (genPrivKeyLoop fuel rand = .panic ↔
      ∀ i, 32 * (i + 1) ≤ rand.length →
      ¬ (0 < setBytes ((rand.drop (32 * i)).take 32) ∧ setBytes ((rand.drop (32 * i)).take 32) < curveN)) := by
    intro fuel
    induction fuel with
    | zero => intro rand h; omega
    | succ fuel ih =>
      intro rand h
      rw [genPrivKeyLoop]
      split
      · next hl => exact ⟨fun _ i hi => by omega, fun _ => rfl⟩
      · next hl =>
        simp only []
        split
        · next hd =>
          refine ⟨fun h => (by cases h), fun h => absurd hd ?_⟩
          have := h 0 (by omega)
          simpa using this
        · next hd =>
          rw [ih _ (by simp; omega)]
          simp only [List.length_drop, List.drop_drop]
          refine ⟨fun h i hi => ?_, fun h i hi => ?_⟩
          · cases i with
            | zero => simpa using hd
            | succ i =>
              have := h i (by omega)
              rwa [show 32 + 32 * i = 32 * (i + 1) by omega] at this
          · have := h (i + 1) (by omega)
            rwa [show 32 * (i + 1) = 32 + 32 * i by omega] at this
  exact key _ _ (by omega)

/-- Non-vacuity: one block that is zero is skipped, the next one is the key. -/
example : genPrivKey (List.replicate 63 0 ++ [1]) = .ret (List.replicate 31 0 ++ [1]) := by decide +kernel

/-! ## C41 -/

/-- A field of length-delimited type, left out if empty. -/
def lenField (tag : UInt8) (v : Bytes) : Bytes := if v = [] then [] else tag :: appendBytes v

theorem lenField_append {tag : UInt8} {a b x y : Bytes} (ha : a.length < 2 ^ 64) (hb : b.length < 2 ^ 64)
    (hx : x.head? ≠ some tag) (hy : y.head? ≠ some tag) (h : lenField tag a ++ x = lenField tag b ++ y) :
    a = b ∧ x = y := by
  rw [lenField, lenField] at h
  by_cases h1 : a = [] <;> by_cases h2 : b = []
  · rw [if_pos h1, if_pos h2] at h
    exact ⟨by rw [h1, h2], h⟩
  · rw [if_pos h1, if_neg h2, List.nil_append] at h
    rw [h] at hx
    exact absurd rfl hx
  · rw [if_neg h1, if_pos h2, List.nil_append] at h
    rw [← h] at hy
    exact absurd rfl hy
  · rw [if_neg h1, if_neg h2, List.cons_append, List.cons_append, List.cons.injEq] at h
    have e1 := consumeBytes_append ha x
    have e2 := consumeBytes_append hb y
    rw [h.2, e2] at e1
    injection e1 with e1 e3
    exact ⟨e1.symm, e3.symm⟩

theorem lenField_head {tag t : UInt8} {v x : Bytes} (ht : tag ≠ t) (hx : x.head? ≠ some t) :
    (lenField tag v ++ x).head? ≠ some t := by
  rw [lenField]
  split
  · exact hx
  · simpa using ht

/-- **C41**: sign documents with the same bytes are the same.  Byte strings in Go are shorter than
2^64. -/
theorem C41_injective {body body' auth auth' chain chain' : Bytes} {n n' : BitVec 64}
    (h1 : body.length < 2 ^ 64) (h1' : body'.length < 2 ^ 64) (h2 : auth.length < 2 ^ 64)
    (h2' : auth'.length < 2 ^ 64) (h3 : chain.length < 2 ^ 64) (h3' : chain'.length < 2 ^ 64)
    (h : signDoc body auth chain n = signDoc body' auth' chain' n') :
    body = body' ∧ auth = auth' ∧ chain = chain' ∧ n = n' := by
  have e : ∀ b a c (n : BitVec 64), signDoc b a c n = lenField 0x0a b ++ (lenField 0x12 a ++ (lenField 0x1a c ++
      (if n = 0 then [] else 0x20 :: appendVarint n.toNat))) := by
    intro b a c n
    simp only [signDoc, lenField, List.append_assoc]
  have t : ∀ (n : BitVec 64) (t : UInt8), 0x20 ≠ t →
      ((if n = 0 then [] else 0x20 :: appendVarint n.toNat) : Bytes).head? ≠ some t := by
    intro n t ht
    split
    · simp
    · simpa using ht
  rw [e, e] at h
  obtain ⟨r1, h⟩ := lenField_append h1 h1' (lenField_head (by decide) (lenField_head (by decide) (t _ _ (by decide))))
    (lenField_head (by decide) (lenField_head (by decide) (t _ _ (by decide)))) h
  obtain ⟨r2, h⟩ := lenField_append h2 h2' (lenField_head (by decide) (t _ _ (by decide)))
    (lenField_head (by decide) (t _ _ (by decide))) h
  obtain ⟨r3, h⟩ := lenField_append h3 h3' (t _ _ (by decide)) (t _ _ (by decide)) h
  refine ⟨r1, r2, r3, ?_⟩
  by_cases z : n = 0 <;> by_cases z' : n' = 0
  · rw [z, z']
  · rw [if_pos z, if_neg z'] at h; cases h
  · rw [if_neg z, if_pos z'] at h; cases h
  · rw [if_neg z, if_neg z', List.cons.injEq] at h
    exact BitVec.eq_of_toNat_eq (appendVarint_inj n.isLt n'.isLt h.2)

/-- **C41**: so it is for what `DirectSignBytes` returns, when it does not fail. -/
theorem C41_marshalled {body body' auth auth' chain chain' : Bytes} {n n' : BitVec 64} {doc : Bytes}
    (h1 : body.length < 2 ^ 64) (h1' : body'.length < 2 ^ 64) (h2 : auth.length < 2 ^ 64)
    (h2' : auth'.length < 2 ^ 64) (h3 : chain.length < 2 ^ 64) (h3' : chain'.length < 2 ^ 64)
    (h : directSignBytes body auth chain n = .ok doc) (h' : directSignBytes body' auth' chain' n' = .ok doc) :
    body = body' ∧ auth = auth' ∧ chain = chain' ∧ n = n' := by
  rw [directSignBytes] at h h'
  split at h <;> split at h'
  · rw [Except.ok.injEq] at h h'
    exact C41_injective h1 h1' h2 h2' h3 h3' (h.trans h'.symm)
  · cases h'
  · cases h
  · cases h

/-- Non-vacuity: a sign document, and one that differs in the account number. -/
example : signDoc [1] [2] b!"c" 3 = [10, 1, 1, 18, 1, 2, 26, 1, 99, 32, 3] ∧
    signDoc [1] [2] b!"c" 3 ≠ signDoc [1] [2] b!"c" 0 := by decide +kernel

end Verif.Props
