import Verif.Model.ORM
import Verif.Proofs.Kind
/-! Lemmas about index keys and index lists. -/

namespace Verif

/-- The three length-prefixed components are shorter than what an `int` can hold. -/
structure IndexKey.Small (k : IndexKey) : Prop where
  obj : k.objectPrefix.length < maxLen
  idx : k.indexPrefix.length < maxLen
  val : k.secondaryKeyValue.length < maxLen

theorem maxLen_eq : maxLen = 2 ^ 63 - 8 := by unfold maxLen; rfl

theorem IndexKey.encode_eq {k : IndexKey} {b : Bytes} (h : k.encode = .ret b) :
    b = k.marshal ∧ k.marshal.length < maxLen := by
  unfold IndexKey.encode at h
  split at h
  · rename_i hl; exact ⟨by injection h with h; exact h.symm, hl⟩
  · cases h

theorem IndexKey.encode_of {k : IndexKey} (h : k.marshal.length < maxLen) : k.encode = .ret k.marshal := by
  unfold IndexKey.encode; rw [if_pos h]

theorem indexKey_small_iff (k : IndexKey) : k.Small ↔ k.objectPrefix.length < maxLen ∧
    k.indexPrefix.length < maxLen ∧ k.secondaryKeyValue.length < maxLen :=
  ⟨fun h => ⟨h.1, h.2, h.3⟩, fun h => ⟨h.1, h.2.1, h.2.2⟩⟩

theorem consumeLengthPrefixed_append {v : Bytes} (h : v.length < maxLen) (rest : Bytes) :
    consumeLengthPrefixed (lengthPrefixed v ++ rest) = .ret (some (v, rest)) := by
  have h64 : v.length < 2 ^ 64 := by rw [maxLen_eq] at h; omega
  simp only [consumeLengthPrefixed, lengthPrefixed, List.append_assoc, readLe64_le64 h64]
  rw [if_neg (by omega), if_neg (by simp)]
  simp

theorem lengthPrefixed_append_inj {u v r s : Bytes} (hu : u.length < maxLen)
    (hv : v.length < maxLen) (h : lengthPrefixed u ++ r = lengthPrefixed v ++ s) :
    u = v ∧ r = s := by
  have h1 := consumeLengthPrefixed_append hu r
  have h2 := consumeLengthPrefixed_append hv s
  rw [h, h2] at h1
  simp at h1
  exact ⟨h1.1.symm, h1.2.symm⟩

theorem IndexKey.marshal_eq (k : IndexKey) : k.marshal =
    0 :: (lengthPrefixed k.objectPrefix ++ (lengthPrefixed k.indexPrefix
      ++ (lengthPrefixed k.secondaryKeyValue ++ k.primaryKey))) := by
  simp [marshal, List.append_assoc]

/-- The bytes scanned for, followed by what is left. -/
theorem IndexKey.marshal_prefix {q e : IndexKey} {r : Bytes} (hq : q.Small) (he : e.Small)
    (hpk : q.primaryKey = []) :
    e.marshal = q.marshal ++ r ↔
      e.objectPrefix = q.objectPrefix ∧ e.indexPrefix = q.indexPrefix ∧
        e.secondaryKeyValue = q.secondaryKeyValue ∧ e.primaryKey = r := by
  rw [marshal_eq, marshal_eq, hpk]
  simp only [List.append_nil, List.cons_append, List.append_assoc, List.cons.injEq, true_and]
  constructor
  · intro h
    obtain ⟨h1, h⟩ := lengthPrefixed_append_inj he.obj hq.obj h
    obtain ⟨h2, h⟩ := lengthPrefixed_append_inj he.idx hq.idx h
    obtain ⟨h3, h⟩ := lengthPrefixed_append_inj he.val hq.val h
    exact ⟨h1, h2, h3, h⟩
  · rintro ⟨h1, h2, h3, h4⟩
    rw [h1, h2, h3, h4]

theorem IndexKey.marshal_inj {a b : IndexKey} (ha : a.Small) (hb : b.Small)
    (h : a.marshal = b.marshal) : a = b := by
  rw [marshal_eq, marshal_eq] at h
  simp only [List.cons.injEq, true_and] at h
  obtain ⟨h1, h⟩ := lengthPrefixed_append_inj ha.obj hb.obj h
  obtain ⟨h2, h⟩ := lengthPrefixed_append_inj ha.idx hb.idx h
  obtain ⟨h3, h⟩ := lengthPrefixed_append_inj ha.val hb.val h
  cases a; cases b; simp_all

theorem IndexKey.unmarshal_of {buf b1 b2 x y z pk : Bytes} {c : UInt8}
    (h1 : consumeLengthPrefixed buf = .ret (some (x, b1)))
    (h2 : consumeLengthPrefixed b1 = .ret (some (y, b2)))
    (h3 : consumeLengthPrefixed b2 = .ret (some (z, pk))) :
    IndexKey.unmarshal (c :: buf) = .ret (some ⟨x, y, z, pk⟩) := by
  simp only [unmarshal, h1, h2, h3]

theorem IndexKey.unmarshal_marshal {k : IndexKey} (h : k.Small) :
    IndexKey.unmarshal k.marshal = .ret (some k) := by
  rw [marshal_eq]
  exact unmarshal_of (consumeLengthPrefixed_append h.obj _) (consumeLengthPrefixed_append h.idx _)
    (consumeLengthPrefixed_append h.val _)

theorem appendBytes_ne_nil (v : Bytes) : appendBytes v ≠ [] := by
  simp [appendBytes, appendVarint_ne_nil]

theorem indexListLoop_flatMap {l : List Bytes} (hl : ∀ v ∈ l, v.length < 2 ^ 64) (t : Bytes)
    (acc : List Bytes) :
    indexListLoop l.length (l.flatMap appendBytes ++ t) acc = if t = [] then some (acc ++ l) else none := by
  induction l generalizing acc with
  | nil => simp [indexListLoop]
  | cons v l ih =>
    simp only [List.length_cons, List.flatMap_cons, List.append_assoc, indexListLoop]
    rw [if_neg (by simp [appendBytes_ne_nil]), consumeBytes_append (hl v (by simp))]
    simp only
    rw [ih (fun w hw => hl w (by simp [hw]))]
    simp

theorem indexListUnmarshal_append {l : List Bytes} (hne : l ≠ []) (hlen : l.length < 2 ^ 63)
    (hl : ∀ v ∈ l, v.length < 2 ^ 64) (t : Bytes) :
    indexListUnmarshal (indexListMarshal l ++ t) = .ret (if t = [] then some l else none) := by
  have h0 : l.length ≠ 0 := by simpa using hne
  simp only [indexListMarshal, h0, if_false, List.cons_append, List.append_assoc, indexListUnmarshal]
  rw [consumeVarint_append (by omega)]
  simp only
  rw [if_neg (by omega), indexListLoop_flatMap hl]
  simp

theorem sep_inj {c : UInt8} {a b r s : Bytes} (ha : c ∉ a) (hb : c ∉ b)
    (h : a ++ c :: r = b ++ c :: s) : a = b ∧ r = s := by
  induction a generalizing b with
  | nil =>
    cases b with
    | nil => simpa using h
    | cons y ys => simp at h; simp [h.1] at hb
  | cons x xs ih =>
    cases b with
    | nil => simp at h; simp [h.1] at ha
    | cons y ys =>
      simp only [List.cons_append, List.cons.injEq] at h
      obtain ⟨h1, h2⟩ := ih (fun hc => ha (by simp [hc])) (fun hc => hb (by simp [hc])) h.2
      exact ⟨by rw [h.1, h1], h2⟩

theorem sep_inj_right {c : UInt8} {a b r s : Bytes} (hr : c ∉ r) (hs : c ∉ s)
    (h : a ++ c :: r = b ++ c :: s) : a = b ∧ r = s := by
  have h' := congrArg List.reverse h
  simp only [List.reverse_append, List.reverse_cons, List.append_assoc, List.singleton_append] at h'
  have := sep_inj (by simpa using hr) (by simpa using hs) h'
  exact ⟨List.reverse_inj.1 this.2, List.reverse_inj.1 this.1⟩

end Verif
