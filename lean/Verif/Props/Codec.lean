import Verif.Proofs.Index
import Verif.Spec.History
/-!
# Properties of keys and of the key-value layer: C01–C07, C17, C18
-/

namespace Verif.Props
open Verif Spec

/-! ## C01 -/

/-- **C01** Index keys of different quadruples differ. -/
theorem C01_index_keys_injective (a b : IndexKey) (ha : a.Small) (hb : b.Small)
    (h : a.marshal = b.marshal) :
    a.objectPrefix = b.objectPrefix ∧ a.indexPrefix = b.indexPrefix ∧
      a.secondaryKeyValue = b.secondaryKeyValue ∧ a.primaryKey = b.primaryKey := by
  cases IndexKey.marshal_inj ha hb h; exact ⟨rfl, rfl, rfl, rfl⟩

/-- **C01** Decoding a stored index key gives its components back (and neither fails nor
panics). -/
theorem C01_index_key_roundtrip (k : IndexKey) (h : k.Small) :
    IndexKey.unmarshal k.marshal = .ret (some k) :=
  IndexKey.unmarshal_marshal h

/-- Two entries whose plain concatenations coincide, but whose keys do not. -/
example : ({ objectPrefix := b!"ab", indexPrefix := b!"c", secondaryKeyValue := b!"d",
             primaryKey := b!"e" } : IndexKey).Small ∧
    ({ objectPrefix := b!"a", indexPrefix := b!"bc", secondaryKeyValue := b!"",
       primaryKey := b!"de" } : IndexKey).Small := by
  simp [indexKey_small_iff, maxLen_eq]

/-! ## C02 -/

/-- **C02** The prefix scanned for a query `(type, field, value)` is a prefix of the key of an
entry iff the entry has that type, field and value; the remainder is the entry's primary key. -/
theorem C02_prefix_scan_exact (ty field value : Bytes) (e : IndexKey) (r : Bytes)
    (h1 : ty.length < maxLen) (h2 : field.length < maxLen)
    (h3 : value.length < maxLen) (he : e.Small) :
    e.marshal = IndexKey.marshal ⟨ty, field, value, []⟩ ++ r ↔
      e.objectPrefix = ty ∧ e.indexPrefix = field ∧ e.secondaryKeyValue = value ∧
        e.primaryKey = r :=
  IndexKey.marshal_prefix (q := ⟨ty, field, value, []⟩) ⟨h1, h2, h3⟩ he rfl

/-- A value that is a prefix of another value, a case where naive concatenation fails. -/
example : ({ objectPrefix := b!"t", indexPrefix := b!"f", secondaryKeyValue := b!"vv",
             primaryKey := b!"k" } : IndexKey).Small ∧ (b!"v").length < maxLen := by
  simp [indexKey_small_iff, maxLen_eq]

/-! ## C03 -/

/-- **C03** Encoding and decoding a non-empty index list is the identity; anything appended to
an encoding makes decoding fail. -/
theorem C03_index_list_roundtrip (l : List Bytes) (hne : l ≠ []) (hlen : l.length < 2 ^ 63)
    (hl : ∀ v ∈ l, v.length < 2 ^ 64) :
    indexListUnmarshal (indexListMarshal l) = .ret (some l) ∧
      ∀ t, t ≠ [] → indexListUnmarshal (indexListMarshal l ++ t) = .ret none := by
  constructor
  · have := indexListUnmarshal_append hne hlen hl []
    simpa using this
  · intro t ht
    rw [indexListUnmarshal_append hne hlen hl t]; simp [ht]

example : ([b!"", b!"abc"] : List Bytes) ≠ [] ∧ ([b!"", b!"abc"] : List Bytes).length < 2 ^ 63 ∧
    ∀ v ∈ ([b!"", b!"abc"] : List Bytes), v.length < 2 ^ 64 := by simp

/-- Not every *shortened* encoding is rejected: cut at an element boundary it decodes, without
error, to the empty list (runtime/orm/indexes/types.go:119-121). -/
theorem C03_truncated_list_accepted_fails :
    ¬ ∀ (l : List Bytes) (p s : Bytes), l ≠ [] → s ≠ [] → indexListMarshal l = p ++ s →
      p ≠ [] → indexListUnmarshal p = .ret none := by
  intro h
  have := h [b!"a", b!"b"] [1, 2, 1, 97] [1, 98] (by simp) (by simp)
    (by simp [indexListMarshal, appendBytes, appendVarint_eq]) (by simp)
  simp [indexListUnmarshal, consumeVarint, consumeVarintAux, indexListLoop, consumeBytes] at this

/-! ## C04 -/

/-- **C04** Within one kind, different values have different key bytes. -/
theorem C04_encoding_injective (k : Kind) (v w : Val) (b : Bytes)
    (kv : kindOf v = some k) (kw : kindOf w = some k)
    (hv : k.encodeValue v = .ret b) (hw : k.encodeValue w = .ret b) : v = w := by
  cases v <;> simp only [kindOf, Option.some.injEq, reduceCtorEq] at kv <;> subst kv <;>
    cases w <;> simp only [kindOf, Option.some.injEq, reduceCtorEq] at kw <;>
    simp only [Kind.encodeValue] at hv hw <;>
    simp only [Out.ret.injEq] at hv hw <;> rw [← hw] at hv
  · next x y =>
    have := appendVarint_inj (by split <;> simp) (by split <;> simp) hv
    cases x <;> cases y <;> simp_all
  · next x y =>
    have := appendVarint_inj (BitVec.isLt _) (BitVec.isLt _) hv
    rw [signExtend_inj (BitVec.eq_of_toNat_eq this)]
  · next x y =>
    have hx := x.isLt; have hy := y.isLt
    have := appendVarint_inj (by omega) (by omega) hv
    rw [BitVec.eq_of_toNat_eq this]
  · next x y =>
    have := appendVarint_inj (BitVec.isLt _) (BitVec.isLt _) hv
    rw [BitVec.eq_of_toNat_eq this]
  · next x y =>
    have := appendVarint_inj (BitVec.isLt _) (BitVec.isLt _) hv
    rw [BitVec.eq_of_toNat_eq this]
  · rw [appendBytes_drop_inj hv]
  · rw [appendBytes_drop_inj hv]

/-- Every value of a supported kind has an encoding, so the theorem above is not about an
empty set of values. -/
theorem C04_encoding_total (v : Val) (k : Kind) (h : kindOf v = some k) :
    ∃ b, k.encodeValue v = .ret b := by
  cases v <;> simp [kindOf] at h <;> subst h <;> exact ⟨_, rfl⟩

/-- Negative numbers are encoded sign-extended to ten bytes. -/
example : Kind.int32.encodeValue (.int32 (-1)) =
    .ret [255, 255, 255, 255, 255, 255, 255, 255, 255, 1] := by
  simp [Kind.encodeValue, appendVarint_eq]

/-! ## C05, encoder level (the store level is in `Props/ORM`) -/

/-- **C05** (key level) The key of a string (or bytes) primary key `s` is the identifier `s`
itself exactly when `s` is shorter than 128 bytes. -/
theorem C05_string_key_is_identifier_iff (s : Bytes) :
    (Kind.string.encodeValue (.str s) = .ret s ↔ s.length < 128) ∧
      (Kind.bytes.encodeValue (.bytes s) = .ret s ↔ s.length < 128) := by
  have : (appendBytes s).drop 1 = s ↔ s.length < 128 := by
    constructor
    · intro h
      rcases Nat.lt_or_ge s.length 128 with h1 | h1
      · exact h1
      · exact absurd h (appendBytes_drop_long h1)
    · exact appendBytes_drop_short
  simpa [Kind.encodeValue] using this

/-! ## C06 -/

/-- **C06** The canonical text of a value of kind `k` is parsed back to that value. -/
theorem C06_text_agrees (k : Kind) (v : Val) (h : kindOf v = some k) :
    k.encodeString (text v) = .ret (some v) := by
  cases v with
  | bool b => cases h; cases b <;> rfl
  | int32 v =>
    cases h
    have h1 := @BitVec.le_toInt 32 v
    have h2 := @BitVec.toInt_lt 32 v
    have := (parseInt_eq_some (.inl rfl)).2 ⟨denotesInt_decimalInt v.toInt, by simpa using h1, by simpa using h2⟩
    simp [Kind.encodeString, text, this]
  | uint32 v =>
    cases h
    simp [Kind.encodeString, text, parseUint_decimal v.isLt]
  | int64 v =>
    cases h
    have h1 := @BitVec.le_toInt 64 v
    have h2 := @BitVec.toInt_lt 64 v
    have := (parseInt_eq_some (.inr rfl)).2 ⟨denotesInt_decimalInt v.toInt, by simpa using h1, by simpa using h2⟩
    simp [Kind.encodeString, text, this]
  | uint64 v =>
    cases h
    simp [Kind.encodeString, text, parseUint_decimal v.isLt]
  | str s => cases h; rfl
  | bytes b => cases h; simp [Kind.encodeString, text, b64decode_base64]
  | unsupported t => simp [kindOf] at h

/-- **C06** A typed argument is accepted exactly when its dynamic type is the kind's Go type,
and then denotes itself. -/
theorem C06_interface_exact (k : Kind) (a : Arg) (v : Val) (hk : ∃ w, kindOf w = some k) :
    k.encodeInterface a = .ret (some v) ↔ argValue a = some v ∧ kindOf v = some k := by
  obtain ⟨w, hw⟩ := hk
  cases w <;> simp [kindOf] at hw <;> subst hw <;> cases a <;> cases v <;>
    simp [Kind.encodeInterface, argValue, kindOf]

/-- **C06** A typed argument of any other type is rejected with an error, never a panic. -/
theorem C06_interface_rejects (k : Kind) (a : Arg) (hk : ∃ w, kindOf w = some k)
    (h : ∀ v, argValue a = some v → kindOf v ≠ some k) : k.encodeInterface a = .ret none := by
  obtain ⟨w, hw⟩ := hk
  cases w <;> simp [kindOf] at hw <;> subst hw <;> cases a <;>
    simp_all [Kind.encodeInterface, argValue, kindOf]

/-- **C06** Integer texts are accepted exactly when they denote a number in the range of the
kind, which is then the value. -/
theorem C06_integer_text_exact (s : Bytes) :
    (∀ v, Kind.int32.encodeString s = .ret (some v) ↔
      ∃ i : Int, DenotesInt s i ∧ -2 ^ 31 ≤ i ∧ i < 2 ^ 31 ∧ v = .int32 (BitVec.ofInt 32 i)) ∧
    (∀ v, Kind.int64.encodeString s = .ret (some v) ↔
      ∃ i : Int, DenotesInt s i ∧ -2 ^ 63 ≤ i ∧ i < 2 ^ 63 ∧ v = .int64 (BitVec.ofInt 64 i)) ∧
    (∀ v, Kind.uint32.encodeString s = .ret (some v) ↔
      ∃ n : Nat, DenotesNat s n ∧ n < 2 ^ 32 ∧ v = .uint32 (BitVec.ofNat 32 n)) ∧
    (∀ v, Kind.uint64.encodeString s = .ret (some v) ↔
      ∃ n : Nat, DenotesNat s n ∧ n < 2 ^ 64 ∧ v = .uint64 (BitVec.ofNat 64 n)) := by
  refine ⟨fun v => ?_, fun v => ?_, fun v => ?_, fun v => ?_⟩
  · simp only [Kind.encodeString, Out.ret.injEq, Option.map_eq_some_iff,
      parseInt_eq_some (bits := 32) (.inl rfl), and_assoc, eq_comm (b := v)]
  · simp only [Kind.encodeString, Out.ret.injEq, Option.map_eq_some_iff,
      parseInt_eq_some (bits := 64) (.inr rfl), and_assoc, eq_comm (b := v)]
  · simp only [Kind.encodeString, Out.ret.injEq, Option.map_eq_some_iff, parseUint_eq_some,
      and_assoc, eq_comm (b := v)]
  · simp only [Kind.encodeString, Out.ret.injEq, Option.map_eq_some_iff, parseUint_eq_some,
      and_assoc, eq_comm (b := v)]

example : text (.int32 (-7)) = b!"-7" ∧ text (.bytes b!"hi") = b!"aGk" := by
  constructor
  · simp [text, decimalInt, decimal]
  · rfl

/-! ## C07 -/

/-- **C07** Storage keys are equal only for equal type names and equal primary keys. -/
theorem C07_storage_keys_injective (s t : Schema) (k l b : Bytes)
    (hs : 47 ∉ s.name) (ht : 47 ∉ t.name)
    (hk : saveKeyRaw s k = .ok b) (hl : saveKeyRaw t l = .ok b) : s.name = t.name ∧ k = l := by
  unfold saveKeyRaw at hk hl
  split at hk
  · cases hk
  · split at hl
    · cases hl
    · cases hk
      injection hl with hl
      have := sep_inj ht hs hl
      exact ⟨this.1.symm, this.2.symm⟩

/-- **C07** Type names are equal only for equal group and kind (kinds are protobuf message
names, which contain no dot). -/
theorem C07_type_names_injective (a b : APIDef) (ha : 46 ∉ a.kind) (hb : 46 ∉ b.kind)
    (h : a.name = b.name) : a = b := by
  have := sep_inj_right ha hb h
  cases a; cases b; simp_all

/-- Without the restriction on kinds, names do collide. -/
theorem C07_type_names_collide_with_dots_fails :
    ¬ ∀ a b : APIDef, a.name = b.name → a = b := by
  intro h
  have := h ⟨b!"a.b", b!"c"⟩ ⟨b!"a", b!"b.c"⟩ rfl
  simp at this

example : saveKeyRaw ⟨⟨b!"bank.v1", b!"Balance"⟩, none, []⟩ b!"a/b" = .ok b!"bank.v1.Balance/a/b" ∧
    47 ∉ (⟨⟨b!"bank.v1", b!"Balance"⟩, none, []⟩ : Schema).name := by decide

/-! ## C17 -/

/-- Database contents after a history (most recent write first). -/
def dbAfter {V : Type} : List (KVOp V) → KV V
  | [] => KV.empty
  | .set k v :: h => (dbAfter h).set k v
  | .delete k :: h => ((dbAfter h).delete k).2

theorem dbAfter_sorted {V : Type} (h : List (KVOp V)) : (dbAfter h).Sorted := by
  induction h with
  | nil => exact KV.sorted_empty
  | cons op h ih => cases op with
    | set k v => exact KV.sorted_set ih k v
    | delete k => exact KV.sorted_delete ih k

/-- **C17** `Get` returns the last write; `Has` tells whether there is one. -/
theorem C17_get_is_last_write {V : Type} (h : List (KVOp V)) (k : Bytes) :
    (dbAfter h).get k = lastWrite k h ∧ (dbAfter h).has k = (lastWrite k h).isSome := by
  have : (dbAfter h).get k = lastWrite k h := by
    induction h with
    | nil => rfl
    | cons op h ih => cases op with
      | set j v =>
        simp only [dbAfter, lastWrite, KV.get_set, ih, eq_comm (a := k)]
      | delete j =>
        simp only [dbAfter, lastWrite, KV.get_delete, ih, eq_comm (a := k)]
  exact ⟨this, by rw [KV.has, this]⟩

/-- **C17** Prefix iteration produces, in strictly increasing order (hence without
repetition), exactly the stored keys with the prefix, with their values. -/
theorem C17_prefix_iteration {V : Type} (h : List (KVOp V)) (p : Bytes) :
    StrictlyIncreasing (((dbAfter h).iteratePrefix p).map fun e => e.1) ∧
      ∀ r v, (r, v) ∈ (dbAfter h).iteratePrefix p ↔ lastWrite (p ++ r) h = some v := by
  have hs := dbAfter_sorted h
  refine ⟨KV.iteratePrefix_increasing hs p, fun r v => ?_⟩
  rw [← (C17_get_is_last_write h (p ++ r)).1]
  exact KV.mem_iteratePrefix hs p r v

example : (dbAfter [.set b!"ab" 1, .set b!"b" 2, .delete b!"aa", .set b!"aa" 3, .set b!"a" 4]
    : KV Nat).iteratePrefix b!"a" = [(b!"", 4), (b!"b", 1)] := by decide

/-! ## C18 -/

/-- **C18 is false**: a range iteration does not produce every stored key of the range. -/
theorem C18_range_iteration_complete_fails :
    ¬ ∀ (h : List (KVOp Nat)) (start stop k : Bytes) (v : Nat), lastWrite k h = some v →
      Bytes.lt k start = false → Bytes.lt stop k = false →
      (k, v) ∈ (dbAfter h).iterate start stop := by
  intro h
  have := h [.set b!"b" 2, .set b!"a" 1] b!"a" b!"c" b!"b" 2 (by decide) (by decide) (by decide)
  revert this; decide

/-- **C18 (partial)** What a range iteration produces is stored and in the range, and the
start key is produced if it is stored and not beyond the end.  Missing: all other keys of the
range, which are never produced. -/
theorem C18_range_iteration_partial {V : Type} (h : List (KVOp V)) (start stop k : Bytes) (v : V) :
    (k, v) ∈ (dbAfter h).iterate start stop ↔
      k = start ∧ lastWrite k h = some v ∧ (stop ≠ [] → Bytes.lt stop k = false) := by
  rw [← (C17_get_is_last_write h k).1]
  unfold KV.iterate
  cases hg : (dbAfter h).get start with
  | none =>
    simp only [List.not_mem_nil, false_iff, not_and]
    rintro rfl h2; rw [hg] at h2; cases h2
  | some w =>
    simp only
    split
    · next hc =>
      simp only [List.not_mem_nil, false_iff, not_and]
      rintro rfl _ h3; have := h3 hc.1; rw [hc.2] at this; cases this
    · next hc =>
      simp only [List.mem_singleton, Prod.mk.injEq]
      constructor
      · rintro ⟨rfl, rfl⟩
        refine ⟨rfl, hg, fun h1 => ?_⟩
        cases h2 : Bytes.lt stop k with
        | false => rfl
        | true => exact absurd ⟨h1, h2⟩ hc
      · rintro ⟨rfl, h2, _⟩; rw [hg] at h2; cases h2; exact ⟨rfl, rfl⟩

end Verif.Props
