import Verif.Model.Spare
import Verif.Spec.Spare
import Verif.Proofs.Sign
import Verif.Proofs.Kind
/-!
# C123: the encoders set aside for further kinds give each value a key of its own
-/

namespace Verif.Props
open Verif Spec Spare

theorem zigZag_spec (x : BitVec 64) : ZigZag x.toInt (zigZag x).toNat := by
  have hx := x.isLt
  by_cases h : x.toNat < 2 ^ 63
  · have hm : x.msb = false := by rw [BitVec.msb_eq_decide]; simp; omega
    have hs : x.sshiftRight 63 = 0#64 := by
      apply BitVec.eq_of_toNat_eq
      rw [BitVec.sshiftRight_eq_of_msb_false hm]
      simp only [BitVec.toNat_ushiftRight, Nat.shiftRight_eq_div_pow, BitVec.toNat_ofNat]
      omega
    left
    rw [zigZag, hs, BitVec.xor_zero, BitVec.toInt_eq_toNat_of_msb hm]
    simp only [BitVec.toNat_shiftLeft, Nat.shiftLeft_eq]
    omega
  · have hm : x.msb = true := by rw [BitVec.msb_eq_decide]; simp; omega
    have hs : x.sshiftRight 63 = BitVec.allOnes 64 := by
      apply BitVec.eq_of_toNat_eq
      rw [BitVec.sshiftRight_eq_of_msb_true hm]
      simp only [BitVec.toNat_not, BitVec.toNat_ushiftRight, Nat.shiftRight_eq_div_pow, BitVec.toNat_allOnes]
      omega
    right
    rw [zigZag, hs, BitVec.xor_allOnes, BitVec.toInt_eq_toNat_cond]
    simp only [BitVec.toNat_not, BitVec.toNat_shiftLeft, Nat.shiftLeft_eq]
    rw [if_neg (by omega)]
    omega

theorem zigZag_unique {i j : Int} {n : Nat} (h : ZigZag i n) (h' : ZigZag j n) : i = j := by
  rcases h with h | h <;> rcases h' with h' | h' <;> omega

theorem ofNat_toNat (n : Nat) : (UInt8.ofNat n).toNat = n % 256 := by
  simp

theorem fixed32_spec (v : BitVec 32) : Fixed 4 (Spare.fixed32 v) v.toNat := by
  refine ⟨rfl, ?_⟩
  have := v.isLt
  simp only [Spare.fixed32, littleEndian, ofNat_toNat, Nat.shiftRight_eq_div_pow]
  omega

theorem fixed64_spec (v : BitVec 64) : Fixed 8 (Spare.fixed64 v) v.toNat := by
  refine ⟨rfl, ?_⟩
  have := v.isLt
  simp only [Spare.fixed64, littleEndian, ofNat_toNat, Nat.shiftRight_eq_div_pow]
  omega

theorem isVarint_unique {b : Bytes} {n m : Nat} (h : IsVarint b n) (h' : IsVarint b m) : n = m := by
  have e := (consumeVarint_iff (b ++ []) n []).2 ⟨b, rfl, h⟩
  have e' := (consumeVarint_iff (b ++ []) m []).2 ⟨b, rfl, h'⟩
  rw [e] at e'; injection e'

/-- That widening a `float32` loses nothing, for all that are numbers; what becomes of the others depends on the
machine. -/
def Exact (fl : FloatLib) : Prop := ∀ b, number32 b → fl.narrow (fl.widen b) = b

/-- **C123** Where there is a conversion and an encoder, each argument of the Go type of the kind (of those that are
floating-point numbers, the numbers) has exactly the bytes that the wire format of protobuf says, no other argument is
converted, and nothing panics. -/
theorem C123_encodes (fl : FloatLib) (hf : Exact fl) (k : Kind) (f : Argument → Option Value) (e : Value → Out Bytes)
    (a : Argument) (hk : toValue fl k = some f) (he : fieldEncoder fl k = some e)
    (ha : ∀ v, a = .float32 v → number32 v) :
    (f a = none ∧ ∀ b, ¬ FieldBytes k a b) ∨ ∃ v b, f a = some v ∧ e v = .ret b ∧ FieldBytes k a b := by
  have hw : ∀ v : BitVec 32, (v.signExtend 64).setWidth 32 = v := fun v => by
    apply BitVec.eq_of_getLsbD_eq
    intro i hi
    rw [BitVec.getLsbD_setWidth, BitVec.getLsbD_signExtend]
    simp [hi]; omega
  cases k <;> simp only [toValue, fieldEncoder, Option.some.injEq, reduceCtorEq] at hk he <;> subst hk <;> subst he <;>
    cases a <;> first
    | exact .inl ⟨rfl, fun b h => nomatch h⟩
    | right
  · rename_i v
    have h1 := BitVec.toInt_signExtend_of_le (x := v) (v := 64) (by omega)
    rw [BitVec.toInt_eq_toNat_cond] at h1
    exact ⟨_, _, rfl, rfl, .enum (by split at h1 <;> omega) (Client.isVarint_append (BitVec.isLt _)) (BitVec.isLt _)⟩
  · rename_i v
    refine ⟨_, _, rfl, rfl, .sint32 ?_ (Client.isVarint_append (BitVec.isLt _))⟩
    have := zigZag_spec (v.signExtend 64)
    rw [BitVec.toInt_signExtend_of_le (by omega)] at this
    rw [hw]; exact this
  · rename_i v
    exact ⟨_, _, rfl, rfl, .sint64 (zigZag_spec v) (Client.isVarint_append (BitVec.isLt _))⟩
  · rename_i v
    refine ⟨_, _, rfl, rfl, .sfixed32 ?_⟩
    simp only [hw]; exact fixed32_spec v
  · rename_i v
    refine ⟨_, _, rfl, rfl, .fixed32 ?_⟩
    have : (v.setWidth 64).setWidth 32 = v := by simp
    simp only [this]; exact fixed32_spec v
  · rename_i v
    refine ⟨_, _, rfl, rfl, .float ?_⟩
    simp only [hf v (ha v rfl)]; exact fixed32_spec v
  · exact ⟨_, _, rfl, rfl, .sfixed64 (fixed64_spec _)⟩
  · exact ⟨_, _, rfl, rfl, .fixed64 (fixed64_spec _)⟩
  · exact ⟨_, _, rfl, rfl, .double (fixed64_spec _)⟩

/-- **C123** Different arguments have different bytes. -/
theorem C123_distinct {k : Kind} {a a' : Argument} {b : Bytes} (h : FieldBytes k a b) (h' : FieldBytes k a' b) :
    a = a' := by
  have fix : ∀ {w : Nat} {x y : BitVec w} {size : Nat}, Fixed size b x.toNat → Fixed size b y.toNat → x = y :=
    fun hx hy => BitVec.eq_of_toNat_eq (hx.2.symm.trans hy.2)
  cases h with
  | enum e l i => cases h' with
    | enum e' l' i' =>
      cases isVarint_unique l l'
      rename_i v _ w
      have hv := BitVec.toInt_lt (x := v)
      have hv' := BitVec.le_toInt (x := v)
      have hw := BitVec.toInt_lt (x := w)
      have hw' := BitVec.le_toInt (x := w)
      rw [BitVec.eq_of_toInt_eq (x := v) (y := w) (by simp at hv hv' hw hw'; omega)]
  | sint32 z l => cases h' with
    | sint32 z' l' =>
      cases isVarint_unique l l'
      rw [BitVec.eq_of_toInt_eq (zigZag_unique z z')]
  | sint64 z l => cases h' with
    | sint64 z' l' =>
      cases isVarint_unique l l'
      rw [BitVec.eq_of_toInt_eq (zigZag_unique z z')]
  | sfixed32 x => cases h' with
    | sfixed32 y => rw [fix x y]
  | fixed32 x => cases h' with
    | fixed32 y => rw [fix x y]
  | float x => cases h' with
    | float y => rw [fix x y]
  | sfixed64 x => cases h' with
    | sfixed64 y => rw [fix x y]
  | fixed64 x => cases h' with
    | fixed64 y => rw [fix x y]
  | double x => cases h' with
    | double y => rw [fix x y]

/-- **C123** There are a conversion and an encoder for exactly enums and the kinds that a schema may not have
(`unsupportedKinds`), without groups, and `sint64`. -/
theorem C123_kinds_partial (fl : FloatLib) (k : Kind) :
    ((toValue fl k).isSome ∧ (fieldEncoder fl k).isSome ↔
      k ∈ [.enum, .sint32, .sint64, .sfixed32, .fixed32, .float, .sfixed64, .fixed64, .double]) := by
  cases k <;> simp [toValue, fieldEncoder]

/-- The full statement: a kind has a conversion exactly if it has an encoder. -/
def SameKinds (fl : FloatLib) : Prop := ∀ k, (toValue fl k).isSome = (fieldEncoder fl k).isSome

/-- **C123** fails: the numbers of kind `uint64` have an encoder and no conversion, bytes a conversion and no
encoder. -/
theorem C123_kinds_fails (fl : FloatLib) : ¬ SameKinds fl ∧
    (∀ k, (toValue fl k).isSome ≠ (fieldEncoder fl k).isSome ↔ k = .uint64 ∨ k = .bytes) := by
  refine ⟨fun h => ?_, fun k => by cases k <;> simp [toValue, fieldEncoder]⟩
  have := h .bytes
  simp [toValue, fieldEncoder] at this

/-- **C123** fails for equal numbers: the two zeros are equal as numbers, but an index would have them apart. -/
theorem C123_zeros_fails (fl : FloatLib) (hf : Exact fl) : ∃ f e x y bx bz,
    toValue fl .float = some f ∧ fieldEncoder fl .float = some e ∧ f (.float32 zeros32.1) = some x ∧
    f (.float32 zeros32.2) = some y ∧ e x = .ret bx ∧ e y = .ret bz ∧ bx ≠ bz := by
  refine ⟨_, _, _, _, _, _, rfl, rfl, rfl, rfl, rfl, rfl, ?_⟩
  have h1 := hf zeros32.1 (by unfold number32; decide)
  have h2 := hf zeros32.2 (by unfold number32; decide)
  show Spare.fixed32 (fl.narrow (fl.widen zeros32.1)) ≠ Spare.fixed32 (fl.narrow (fl.widen zeros32.2))
  rw [h1, h2]
  decide

/-- **C123** The kind `sint64` is the only one of them with an encoder in use, and that one always panics
(`Kind.encodeValue`), where the one set aside does not. -/
theorem C123_sint64 (fl : FloatLib) : Kind.hasEncoder .sint64 = true ∧ (∀ v, Kind.encodeValue .sint64 v = .panic) ∧
    (∃ e, fieldEncoder fl .sint64 = some e ∧ ∀ v, ∃ b, e (.int64 v) = .ret b) ∧
    ∀ k, (fieldEncoder fl k).isSome → (toValue fl k).isSome → k.hasEncoder → k = .sint64 :=
  ⟨rfl, fun v => by cases v <;> rfl, ⟨_, rfl, fun v => ⟨_, rfl⟩⟩,
    fun k h1 h2 h3 => by cases k <;> simp_all [fieldEncoder, toValue, Kind.hasEncoder]⟩

/-- The hypotheses can be met: a library that widens with zeros; and -1 as `sint32` is one byte. -/
example : Exact ⟨fun b => b.setWidth 64, fun b => b.setWidth 32⟩ ∧
    (∃ f e, toValue ⟨fun b => b.setWidth 64, fun b => b.setWidth 32⟩ .sint32 = some f ∧
      fieldEncoder ⟨fun b => b.setWidth 64, fun b => b.setWidth 32⟩ .sint32 = some e ∧
      f (.int32 (-1)) = some (.int32 (-1)) ∧ e (.int32 (-1)) = .ret [1]) ∧ FieldBytes .fixed32 (.uint32 258) [2, 1, 0, 0] :=
  ⟨fun b _ => by simp, ⟨_, _, rfl, rfl, rfl, by decide⟩, .fixed32 ⟨rfl, rfl⟩⟩

end Verif.Props
