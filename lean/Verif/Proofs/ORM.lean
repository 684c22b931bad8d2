import Verif.Proofs.Index
import Verif.Spec.Assumptions
/-! The index invariant of the ORM store and its preservation. -/

namespace Verif
variable {O : Type} [StateObject O]

/-- Type name of an object (`meta.Name`). -/
abbrev oname (o : O) : Bytes := (StateObject.api o).name

theorem Registry.get_mem {r : Registry} {n : Bytes} {s : Schema} (h : r.get n = some s) :
    s ∈ r ∧ s.name = n := by
  unfold Registry.get at h
  exact ⟨List.mem_of_find?_eq_some h, by simpa using List.find?_some h⟩

theorem Registry.get_of_mem {r : Registry} (hr : (r.map Schema.name).Nodup) {s : Schema} (h : s ∈ r) :
    r.get s.name = some s := by
  induction r with
  | nil => simp at h
  | cons x r ih =>
    simp only [List.map_cons, List.nodup_cons, List.mem_map, not_exists, not_and] at hr
    unfold Registry.get
    rcases List.mem_cons.1 h with rfl | h
    · simp
    · have : x.name ≠ s.name := fun e => hr.1 s h e.symm
      simp only [List.find?_cons, this, decide_false]
      exact ih hr.2 h

/-- Encoded value of an indexed field (empty if the encoder panics). -/
def idxVal (i : Indexer) (o : O) : Bytes :=
  match i.encodeFromObject o with
  | .ret b => b
  | .panic => []

/-- The index keys of an object. -/
def ikeysOf (sch : Schema) (o : O) (pk : Bytes) (is : List Indexer) : List Bytes :=
  is.map fun i => IndexKey.marshal ⟨sch.name, i.name, idxVal i o, pk⟩

/-- The index keys of an object for all its secondary keys. -/
abbrev ikeys (sch : Schema) (o : O) (pk : Bytes) : List Bytes := ikeysOf sch o pk sch.indexes

/-- `o` is stored under primary key `pk`. -/
structure Live (s : Store O) (sch : Schema) (pk : Bytes) (o : O) : Prop where
  reg : s.reg.get (oname o) = some sch
  enc : sch.encodePrimaryKey o = .ret pk
  get : s.objects.get (sch.name ++ 47 :: pk) = some o

/-- The store invariant. -/
structure Inv (s : Store O) : Prop where
  reg : RegOk s.reg
  objs : ∀ key o, s.objects.get key = some o → ∃ sch pk, s.reg.get (oname o) = some sch ∧
    sch.encodePrimaryKey o = .ret pk ∧ pk ≠ [] ∧ key = sch.name ++ 47 :: pk ∧
    (∀ i ∈ sch.indexes, i.encodeFromObject o = .ret (idxVal i o)) ∧
    (∀ k ∈ ikeys sch o pk, k.length < maxLen)
  idx : ∀ t, s.index.has (0 :: t) = true ↔ ∃ sch pk o, Live s sch pk o ∧ (0 :: t) ∈ ikeys sch o pk
  plist : ∀ sch pk o, Live s sch pk o → sch.indexes ≠ [] →
    s.index.get (typePrefixedKey sch.name pk) = some (indexListMarshal (ikeys sch o pk))
  sorted : s.index.Sorted

theorem indexKey_small_of_length {k : IndexKey} (h : k.marshal.length < maxLen) : k.Small := by
  rw [IndexKey.marshal_eq] at h
  simp only [List.length_cons, List.length_append, lengthPrefixed, le64_length] at h
  exact ⟨by omega, by omega, by omega⟩

theorem mem_ikeysOf {sch : Schema} {o : O} {pk k : Bytes} {is : List Indexer} :
    k ∈ ikeysOf sch o pk is ↔ ∃ i ∈ is, IndexKey.marshal ⟨sch.name, i.name, idxVal i o, pk⟩ = k := by
  simp [ikeysOf]

theorem Physical.keys {reg : Registry} {o : O} (h : Physical reg o) {sch : Schema}
    (hs : reg.get (oname o) = some sch) {pk : Bytes} (hp : sch.encodePrimaryKey o = .ret pk) :
    ∀ k ∈ ikeys sch o pk, k.length < maxLen := by
  intro k hk
  obtain ⟨i, hi, rfl⟩ := mem_ikeysOf.1 hk
  have := h sch hs pk hp i hi
  rw [IndexKey.marshal_eq]
  simp only [List.length_cons, List.length_append, lengthPrefixed, le64_length, idxVal]
  cases he : i.encodeFromObject o <;> simp only [he] at this ⊢
  · omega
  · simp only [List.length_nil]; omega

theorem idxVal_of {i : Indexer} {o : O} (h : ∃ v, i.encodeFromObject o = .ret v) :
    i.encodeFromObject o = .ret (idxVal i o) := by
  obtain ⟨v, h⟩ := h
  simp [idxVal, h]

theorem ikeys_head {sch : Schema} {o : O} {pk k : Bytes} {is : List Indexer}
    (h : k ∈ ikeysOf sch o pk is) : ∃ t, k = 0 :: t := by
  obtain ⟨i, _, rfl⟩ := mem_ikeysOf.1 h
  exact ⟨_, rfl⟩

/-- An index key determines type, primary key and value. -/
theorem ikey_eq {sch sch' : Schema} {o o' : O} {pk pk' k : Bytes} {is is' : List Indexer}
    (hk : k.length < maxLen) (h : k ∈ ikeysOf sch o pk is) (h' : k ∈ ikeysOf sch' o' pk' is') :
    sch.name = sch'.name ∧ pk = pk' := by
  obtain ⟨i, _, rfl⟩ := mem_ikeysOf.1 h
  obtain ⟨i', _, e⟩ := mem_ikeysOf.1 h'
  have := IndexKey.marshal_inj (indexKey_small_of_length (by rw [e]; exact hk))
    (indexKey_small_of_length hk) e
  simp only [IndexKey.mk.injEq] at this
  exact ⟨this.1.symm, this.2.2.2.symm⟩

theorem indexLoop_spec {sch : Schema} {o : O} {pk : Bytes} (is : List Indexer) :
    ∀ (kv : KV Bytes) (acc : List Bytes) (r : Except OrmErr (List Bytes) × KV Bytes),
    indexLoop sch o pk is kv acc = .ret r → (is.map (·.name)).Nodup →
    (∀ k ∈ ikeysOf sch o pk is, k.length < maxLen → kv.has k = false) → kv.Sorted →
    r.1 = .ok (acc ++ ikeysOf sch o pk is) ∧
      (∀ i ∈ is, i.encodeFromObject o = .ret (idxVal i o)) ∧
      (∀ k ∈ ikeysOf sch o pk is, k.length < maxLen) ∧
      (∀ j, r.2.get j = if j ∈ ikeysOf sch o pk is then some [] else kv.get j) ∧ r.2.Sorted := by
  induction is with
  | nil =>
    intro kv acc r h _ _ hs
    simp only [indexLoop, Out.ret.injEq] at h
    subst h
    simp [ikeysOf, hs]
  | cons i is ih =>
    intro kv acc r h hn hf hs
    simp only [indexLoop] at h
    cases he : i.encodeFromObject o with
    | panic => simp [he] at h
    | ret v =>
      have hv : idxVal i o = v := by simp [idxVal, he]
      simp only [he] at h
      cases hk : IndexKey.encode ⟨sch.name, i.name, v, pk⟩ with
      | panic => simp [hk] at h
      | ret key =>
        obtain ⟨rfl, hkl⟩ := IndexKey.encode_eq hk
        simp only [hk] at h
        simp only [ikeysOf, List.map_cons, hv, List.nodup_cons, List.mem_cons, forall_eq_or_imp] at hn hf ⊢
        rw [if_neg (by simp [hf.1 hkl])] at h
        have := ih _ _ r h hn.2 (by
          intro k hk hl
          rw [KV.has_set, hf.2 k hk hl]
          simp only [Bool.or_false, decide_eq_false_iff_not]
          rintro rfl
          obtain ⟨j, hj, e⟩ := mem_ikeysOf.1 hk
          have := IndexKey.marshal_inj (indexKey_small_of_length (by rw [e]; exact hkl))
            (indexKey_small_of_length hkl) e
          simp only [IndexKey.mk.injEq] at this
          exact hn.1 (List.mem_map.2 ⟨j, hj, this.2.1⟩)) (KV.sorted_set hs _ _)
        obtain ⟨h1, h2, hp, h3, h4⟩ := this
        refine ⟨by rw [h1]; simp [ikeysOf], ⟨he, h2⟩, ⟨hkl, hp⟩, fun j => ?_, h4⟩
        rw [h3 j, KV.get_set]
        by_cases hj : j ∈ ikeysOf sch o pk is
        · have hj' := hj
          simp only [ikeysOf] at hj'
          simp [hj, hj']
        · have hj' := hj
          simp only [ikeysOf] at hj'
          simp [hj, hj']

theorem indexLoop_total {sch : Schema} {o : O} {pk : Bytes} (is : List Indexer)
    (he : ∀ i ∈ is, i.encodeFromObject o = .ret (idxVal i o))
    (hp : ∀ k ∈ ikeysOf sch o pk is, k.length < maxLen) :
    ∀ (kv : KV Bytes) (acc : List Bytes), ∃ r, indexLoop sch o pk is kv acc = .ret r := by
  induction is with
  | nil => intro kv acc; exact ⟨_, rfl⟩
  | cons i is ih =>
    intro kv acc
    simp only [ikeysOf, List.map_cons, List.mem_cons, forall_eq_or_imp] at hp
    simp only [indexLoop, he i (by simp), IndexKey.encode_of hp.1]
    split
    · exact ⟨_, rfl⟩
    · exact ih (fun j hj => he j (by simp [hj])) hp.2 _ _

theorem clearLoop_spec (ks : List Bytes) : ∀ kv : KV Bytes, ∃ kv', clearLoop ks kv = .ret kv' ∧
    (∀ j, kv'.get j = if j ∈ ks then none else kv.get j) ∧ (kv.Sorted → kv'.Sorted) := by
  induction ks with
  | nil => intro kv; exact ⟨kv, rfl, by simp, id⟩
  | cons k ks ih =>
    intro kv
    obtain ⟨kv', h1, h2, h3⟩ := ih (kv.delete k).2
    refine ⟨kv', ?_, fun j => ?_, fun hs => h3 (KV.sorted_delete hs k)⟩
    · simp only [clearLoop, KV.delete, if_true]; exact h1
    · rw [h2 j, KV.get_delete]
      by_cases hj : j ∈ ks
      · simp [hj]
      · simp [hj]

/-- The storage key of a primary-key list is not an index key. -/
theorem typePrefixedKey_ne {sch : Schema} (h : SchemaOk sch) (pk t : Bytes) :
    typePrefixedKey sch.name pk ≠ 0 :: t := by
  intro e
  cases hn : sch.name with
  | nil =>
    have : sch.name ≠ [] := by simp [Schema.name, APIDef.name]
    exact this hn
  | cons x xs =>
    rw [hn] at e
    simp only [typePrefixedKey, List.cons_append, List.cons.injEq] at e
    exact h.head xs (by rw [hn, e.1])

/-! ### Consequences of the invariant -/

section
variable {s : Store O} (hi : Inv s)
include hi

theorem Inv.schemaOk {n : Bytes} {sch : Schema} (h : s.reg.get n = some sch) : SchemaOk sch :=
  hi.reg.ok _ (Registry.get_mem h).1

/-- Two live objects under the same storage key are the same. -/
theorem Inv.live_of_get {n : Bytes} {sch : Schema} (hn : s.reg.get n = some sch) {pk : Bytes} {o : O}
    (hg : s.objects.get (sch.name ++ 47 :: pk) = some o) :
    Live s sch pk o ∧ pk ≠ [] ∧ oname o = sch.name ∧
    (∀ i ∈ sch.indexes, i.encodeFromObject o = .ret (idxVal i o)) ∧
    (∀ k ∈ ikeys sch o pk, k.length < maxLen) := by
  obtain ⟨sch', pk', h1, h2, h3, h4, h5, h6⟩ := hi.objs _ _ hg
  obtain ⟨e1, e2⟩ := sep_inj (hi.schemaOk hn).noSlash (hi.schemaOk h1).noSlash h4
  subst e2
  have hm := Registry.get_mem hn
  have hm' := Registry.get_mem h1
  have : sch' = sch := by
    have a := Registry.get_of_mem hi.reg.names hm.1
    have b := Registry.get_of_mem hi.reg.names hm'.1
    rw [e1, b] at a; injection a
  subst this
  exact ⟨⟨h1, h2, hg⟩, h3, hm'.2.symm, h5, h6⟩

theorem Inv.live_phys {sch : Schema} {pk : Bytes} {o : O} (hl : Live s sch pk o) :
    pk ≠ [] ∧ (∀ i ∈ sch.indexes, i.encodeFromObject o = .ret (idxVal i o)) ∧
    (∀ k ∈ ikeys sch o pk, k.length < maxLen) :=
  have h := hi.live_of_get hl.reg hl.get
  ⟨h.2.1, h.2.2.2⟩

omit hi in
theorem Inv.live_unique {sch sch' : Schema} {pk : Bytes} {o o' : O} (h : Live s sch pk o)
    (h' : Live s sch' pk o') (hn : sch.name = sch'.name) : o = o' ∧ sch = sch' := by
  have hg := h.get
  rw [hn, h'.get] at hg
  injection hg with hg; subst hg
  have := h.reg; rw [h'.reg] at this; injection this with this
  exact ⟨rfl, this.symm⟩


end

/-! ### Index operations under the invariant -/

/-- Indexing an object none of whose keys are present. -/
theorem indexObject_spec {kv : KV Bytes} {sch : Schema} {o : O} {pk : Bytes}
    (hok : SchemaOk sch) (hpk : sch.encodePrimaryKey o = .ret pk)
    (hfresh : ∀ k ∈ ikeys sch o pk, k.length < maxLen → kv.has k = false) (hs : kv.Sorted)
    {r : Except OrmErr Unit × KV Bytes} (h : indexObject kv sch o = .ret r) :
    r.1 = .ok () ∧ (∀ i ∈ sch.indexes, i.encodeFromObject o = .ret (idxVal i o)) ∧
      (∀ k ∈ ikeys sch o pk, k.length < maxLen) ∧
      (∀ t, r.2.get (0 :: t) = if (0 :: t) ∈ ikeys sch o pk then some [] else kv.get (0 :: t)) ∧
      (∀ j, j ≠ typePrefixedKey sch.name pk → j ∉ ikeys sch o pk → r.2.get j = kv.get j) ∧
      (sch.indexes ≠ [] →
        r.2.get (typePrefixedKey sch.name pk) = some (indexListMarshal (ikeys sch o pk))) ∧
      r.2.Sorted := by
  unfold indexObject at h
  by_cases hx : sch.indexes = []
  · simp [Schema.hasIndexes, hx] at h
    subst h
    simp [ikeysOf, hx, hs]
  · simp only [Schema.hasIndexes, ne_eq, hx, not_false_eq_true, decide_true, Bool.not_true,
      Bool.false_eq_true, if_false, hpk] at h
    cases hl : indexLoop sch o pk sch.indexes kv [] with
    | panic => simp [hl] at h
    | ret q =>
      obtain ⟨h1, h2, hp, h3, h4⟩ := indexLoop_spec _ _ _ _ hl hok.nodup hfresh hs
      rw [hl] at h
      obtain ⟨q1, q2⟩ := q
      simp only at h1; subst h1
      simp only [List.nil_append, Out.ret.injEq] at h
      subst h
      refine ⟨rfl, h2, hp, fun t => ?_, fun j hj1 hj2 => ?_, fun _ => ?_, KV.sorted_set h4 _ _⟩
      · rw [KV.get_set_ne _ _ (Ne.symm (typePrefixedKey_ne hok pk t))]
        exact h3 _
      · rw [KV.get_set_ne _ _ hj1, h3 j, if_neg hj2]
      · exact KV.get_set_self ..

theorem indexObject_total {kv : KV Bytes} {sch : Schema} {o : O} {pk : Bytes}
    (hpk : sch.encodePrimaryKey o = .ret pk)
    (he : ∀ i ∈ sch.indexes, i.encodeFromObject o = .ret (idxVal i o))
    (hp : ∀ k ∈ ikeys sch o pk, k.length < maxLen) :
    ∃ r, indexObject kv sch o = .ret r := by
  unfold indexObject
  split
  · exact ⟨_, rfl⟩
  · rw [hpk]
    obtain ⟨r, hr⟩ := indexLoop_total (sch := sch) (pk := pk) sch.indexes he hp kv []
    simp only [hr]
    obtain ⟨r1, r2⟩ := r
    cases r1 <;> exact ⟨_, rfl⟩

/-- Clearing the indexes of an object whose key list is `ikeys sch old pk`. -/
theorem clearIndexes_spec {kv : KV Bytes} {sch : Schema} {o old : O} {pk : Bytes}
    (hok : SchemaOk sch) (hpk : sch.encodePrimaryKey o = .ret pk)
    (hphys : ∀ k ∈ ikeys sch old pk, k.length < maxLen)
    (hlist : sch.indexes ≠ [] →
      kv.get (typePrefixedKey sch.name pk) = some (indexListMarshal (ikeys sch old pk))) :
    ∃ kv', clearIndexes kv sch o = .ret (.ok (), kv') ∧
      (∀ j, kv'.get j = if j ∈ ikeys sch old pk then none else kv.get j) ∧
      (kv.Sorted → kv'.Sorted) := by
  unfold clearIndexes
  by_cases hx : sch.indexes = []
  · refine ⟨kv, by simp [Schema.hasIndexes, hx], by simp [ikeysOf, hx], id⟩
  · simp only [Schema.hasIndexes, ne_eq, hx, not_false_eq_true, decide_true, Bool.not_true,
      Bool.false_eq_true, if_false, hpk, hlist hx]
    have hne : ikeys sch old pk ≠ [] := by simpa [ikeysOf] using hx
    have hu := indexListUnmarshal_append hne (by simpa [ikeysOf] using hok.count)
      (fun v hv => by have := hphys v hv; rw [maxLen_eq] at this; omega) []
    simp only [List.append_nil, if_true] at hu
    simp only [hu]
    obtain ⟨kv', h1, h2, h3⟩ := clearLoop_spec (ikeys sch old pk) kv
    exact ⟨kv', by simp [h1], h2, h3⟩

/-! ### Preservation -/

theorem Inv.new_reg {reg : Registry} (h : RegOk reg) :
    Inv ({ objects := KV.empty, index := KV.empty, reg := reg } : Store O) where
  reg := h
  objs := by intro key o h; simp [KV.empty, KV.get] at h
  idx := by
    intro t
    simp only [KV.has, KV.empty, KV.get, Option.isSome_none, Bool.false_eq_true, false_iff,
      not_exists, not_and]
    intro sch pk o hl
    have := hl.get
    simp [KV.get] at this
  plist := by intro sch pk o hl; have := hl.get; simp [KV.empty, KV.get] at this
  sorted := KV.sorted_empty

section
variable {s : Store O} (hi : Inv s)
include hi

/-- No index key of `(sch, pk)` is present when nothing is stored there. -/
theorem Inv.fresh {sch : Schema} {pk : Bytes} {o : O}
    (hphys : ∀ k ∈ ikeys sch o pk, k.length < maxLen)
    (hfree : s.objects.get (sch.name ++ 47 :: pk) = none) :
    ∀ k ∈ ikeys sch o pk, s.index.has k = false := by
  intro k hk
  obtain ⟨t, rfl⟩ := ikeys_head hk
  cases h : s.index.has (0 :: t) with
  | false => rfl
  | true =>
    obtain ⟨sch', pk', o', hl, hk'⟩ := (hi.idx t).1 h
    obtain ⟨e1, e2⟩ := ikey_eq (hphys _ hk) hk hk'
    subst e2
    have := hl.get
    rw [← e1, hfree] at this; cases this

/-- Shared final step of `create` and `update`: the object database has `o` at its key, the
index database has the keys of all live objects other than the one previously at that key. -/
theorem Inv.after_write {sch : Schema} {pk : Bytes} {o : O} {index idx' : KV Bytes}
    {r : Except OrmErr Unit}
    (hreg : s.reg.get (oname o) = some sch) (hpk : sch.encodePrimaryKey o = .ret pk) (hne : pk ≠ [])
    (hidx : ∀ t, index.has (0 :: t) = true ↔ ∃ sch' pk' o', Live s sch' pk' o' ∧
      (0 :: t) ∈ ikeys sch' o' pk' ∧ ¬ (sch'.name = sch.name ∧ pk' = pk))
    (hpl : ∀ sch' pk' o', Live s sch' pk' o' → sch'.indexes ≠ [] →
      ¬ (sch'.name = sch.name ∧ pk' = pk) →
      index.get (typePrefixedKey sch'.name pk') = some (indexListMarshal (ikeys sch' o' pk')))
    (hsort : index.Sorted) (h : indexObject index sch o = .ret (r, idx')) :
    r = .ok () ∧ Inv { s with objects := s.objects.set (sch.name ++ 47 :: pk) o, index := idx' } := by
  have hok := hi.schemaOk hreg
  have hname := (Registry.get_mem hreg).2
  have hfresh : ∀ k ∈ ikeys sch o pk, k.length < maxLen → index.has k = false := by
    intro k hk hlt
    obtain ⟨t, rfl⟩ := ikeys_head hk
    cases hh : index.has (0 :: t) with
    | false => rfl
    | true =>
      obtain ⟨sch', pk', o', hl, hk', hnot⟩ := (hidx t).1 hh
      obtain ⟨e1, e2⟩ := ikey_eq hlt hk hk'
      exact absurd ⟨e1.symm, e2.symm⟩ hnot
  obtain ⟨h1, h2, hphys, h3, h4, h5, h6⟩ := indexObject_spec hok hpk hfresh hsort h
  simp only at h1 h3 h4 h5 h6
  -- live objects of the new store
  have live_new : ∀ sch' pk' o', Live (O := O) { s with objects := s.objects.set (sch.name ++ 47 :: pk) o, index := idx' } sch' pk' o' ↔
      (sch' = sch ∧ pk' = pk ∧ o' = o) ∨ (Live s sch' pk' o' ∧ ¬ (sch'.name = sch.name ∧ pk' = pk)) := by
    intro sch' pk' o'
    constructor
    · intro hl
      have hg := hl.get
      simp only [KV.get_set] at hg
      by_cases he : sch'.name ++ 47 :: pk' = sch.name ++ 47 :: pk
      · rw [if_pos he] at hg
        cases hg
        have := sep_inj (hi.schemaOk hl.reg).noSlash hok.noSlash he
        have e : sch' = sch := by
          have a := hl.reg
          simp only at a
          rw [hreg] at a; injection a with a; exact a.symm
        exact .inl ⟨e, this.2, rfl⟩
      · rw [if_neg he] at hg
        refine .inr ⟨⟨hl.reg, hl.enc, hg⟩, ?_⟩
        rintro ⟨e1, e2⟩; exact he (by rw [e1, e2])
    · rintro (⟨rfl, rfl, rfl⟩ | ⟨hl, hnot⟩)
      · exact ⟨hreg, hpk, KV.get_set_self ..⟩
      · refine ⟨hl.reg, hl.enc, ?_⟩
        simp only
        rw [KV.get_set_ne]
        · exact hl.get
        · intro he
          exact hnot (sep_inj (hi.schemaOk hl.reg).noSlash hok.noSlash he)
  refine ⟨h1, ⟨hi.reg, ?_, ?_, ?_, h6⟩⟩
  · intro key o' hg
    simp only [KV.get_set] at hg
    by_cases he : key = sch.name ++ 47 :: pk
    · rw [if_pos he] at hg
      cases hg
      exact ⟨sch, pk, hreg, hpk, hne, he, h2, hphys⟩
    · rw [if_neg he] at hg
      exact hi.objs _ _ hg
  · intro t
    simp only [KV.has, h3 t]
    constructor
    · intro hh
      by_cases hm : (0 :: t) ∈ ikeys sch o pk
      · exact ⟨sch, pk, o, (live_new _ _ _).2 (.inl ⟨rfl, rfl, rfl⟩), hm⟩
      · rw [if_neg hm] at hh
        obtain ⟨sch', pk', o', hl, hk, hnot⟩ := (hidx t).1 hh
        exact ⟨sch', pk', o', (live_new _ _ _).2 (.inr ⟨hl, hnot⟩), hk⟩
    · rintro ⟨sch', pk', o', hl, hk⟩
      rcases (live_new _ _ _).1 hl with ⟨rfl, rfl, rfl⟩ | ⟨hl', hnot⟩
      · rw [if_pos hk]; rfl
      · split
        · rfl
        · exact (hidx t).2 ⟨sch', pk', o', hl', hk, hnot⟩
  · intro sch' pk' o' hl hx
    rcases (live_new _ _ _).1 hl with ⟨rfl, rfl, rfl⟩ | ⟨hl', hnot⟩
    · exact h5 hx
    · simp only
      rw [h4]
      · exact hpl _ _ _ hl' hx hnot
      · intro he
        exact hnot (sep_inj (hi.schemaOk hl'.reg).noSlash hok.noSlash he)
      · intro hm
        obtain ⟨t, ht⟩ := ikeys_head hm
        exact typePrefixedKey_ne (hi.schemaOk hl'.reg) _ _ ht

/-- The index entries and key lists of all objects but the one at `(sch, pk)`, after clearing
the latter. -/
theorem Inv.after_clear {sch : Schema} {pk : Bytes} {old : O} {idx' : KV Bytes}
    (hl : Live s sch pk old)
    (hget : ∀ j, idx'.get j = if j ∈ ikeys sch old pk then none else s.index.get j) :
    (∀ t, idx'.has (0 :: t) = true ↔ ∃ sch' pk' o', Live s sch' pk' o' ∧
      (0 :: t) ∈ ikeys sch' o' pk' ∧ ¬ (sch'.name = sch.name ∧ pk' = pk)) ∧
    (∀ sch' pk' o', Live s sch' pk' o' → sch'.indexes ≠ [] →
      ¬ (sch'.name = sch.name ∧ pk' = pk) →
      idx'.get (typePrefixedKey sch'.name pk') = some (indexListMarshal (ikeys sch' o' pk'))) := by
  have hphys := (hi.live_phys hl).2.2
  constructor
  · intro t
    simp only [KV.has, hget]
    constructor
    · intro hh
      by_cases hm : (0 :: t) ∈ ikeys sch old pk
      · rw [if_pos hm] at hh; cases hh
      · rw [if_neg hm] at hh
        obtain ⟨sch', pk', o', hl', hk⟩ := (hi.idx t).1 hh
        refine ⟨sch', pk', o', hl', hk, ?_⟩
        rintro ⟨e1, e2⟩
        subst e2
        obtain ⟨rfl, rfl⟩ := Inv.live_unique hl' hl e1
        exact hm hk
    · rintro ⟨sch', pk', o', hl', hk, hnot⟩
      rw [if_neg]
      · exact (hi.idx t).2 ⟨sch', pk', o', hl', hk⟩
      · intro hm
        obtain ⟨e1, e2⟩ := ikey_eq (hphys _ hm) hm hk
        exact hnot ⟨e1.symm, e2.symm⟩
  · intro sch' pk' o' hl' hx hnot
    rw [hget, if_neg]
    · exact hi.plist _ _ _ hl' hx
    · intro hm
      obtain ⟨t, ht⟩ := ikeys_head hm
      exact typePrefixedKey_ne (hi.schemaOk hl'.reg) _ _ ht

end
end Verif
