import Verif.Proofs.ORMList
import Verif.Spec.Schema
/-! Facts used by the ORM property theorems. -/

namespace Verif
open Spec (view Op)

/-- Strictly increasing lists with the same members are equal. -/
theorem increasing_ext {l m : List Bytes} (hl : l.Pairwise fun a b => Bytes.lt a b = true)
    (hm : m.Pairwise fun a b => Bytes.lt a b = true) (h : ∀ x, x ∈ l ↔ x ∈ m) : l = m := by
  induction l generalizing m with
  | nil =>
    cases m with
    | nil => rfl
    | cons y m => have := (h y).2 (by simp); simp at this
  | cons x l ih =>
    cases m with
    | nil => have := (h x).1 (by simp); simp at this
    | cons y m =>
      rw [List.pairwise_cons] at hl hm
      have hxy : x = y := by
        rcases List.mem_cons.1 ((h x).1 (by simp)) with e | hx
        · exact e
        · rcases List.mem_cons.1 ((h y).2 (by simp)) with e | hy
          · exact e.symm
          · have h1 := hl.1 y hy
            have h2 := hm.1 x hx
            have := Bytes.lt_trans h1 h2
            rw [Bytes.lt_irrefl] at this; cases this
      subst hxy
      congr 1
      refine ih hl.2 hm.2 fun z => ?_
      have hz := h z
      simp only [List.mem_cons] at hz
      constructor
      · intro hz1
        rcases hz.1 (.inr hz1) with e | h2
        · subst e; have := hl.1 z hz1; rw [Bytes.lt_irrefl] at this; cases this
        · exact h2
      · intro hz1
        rcases hz.2 (.inr hz1) with e | h2
        · subst e; have := hm.1 z hz1; rw [Bytes.lt_irrefl] at this; cases this
        · exact h2

theorem Schema.indexer_some {sch : Schema} {f : Bytes} {i : Indexer} (h : sch.indexer f = some i) :
    i ∈ sch.indexes ∧ i.name = f := by
  unfold Schema.indexer at h
  exact ⟨List.mem_of_find?_eq_some h, by simpa using List.find?_some h⟩

theorem Schema.indexer_of_mem {sch : Schema} (hok : SchemaOk sch) {i : Indexer} (h : i ∈ sch.indexes) :
    sch.indexer i.name = some i := by
  unfold Schema.indexer
  cases hf : sch.indexes.find? fun j => j.name = i.name with
  | none =>
    rw [List.find?_eq_none] at hf
    have := hf i h
    simp at this
  | some j =>
    have hj := Schema.indexer_some (sch := sch) hf
    rw [inj_of_nodup_map hok.nodup hj.1 h hj.2]

/-- The prefixes to scan are those of indexed fields of the schema, for the given conditions. -/
theorem prefixesInterface_mem {sch : Schema} {l : List (Bytes × Arg)} {ks : List IndexKey}
    (h : prefixesInterface sch l = .ret (.ok ks)) :
    ks.length = l.length ∧ ∀ k ∈ ks, ∃ c ∈ l, ∃ i b, sch.indexer c.1 = some i ∧
      i.encodeInterface c.2 = .ret (some b) ∧ k = (⟨sch.name, i.name, b, []⟩ : IndexKey) := by
  induction l generalizing ks with
  | nil =>
    simp only [prefixesInterface, Out.ret.injEq, Except.ok.injEq] at h
    subst h; simp
  | cons c l ih =>
    obtain ⟨f, a⟩ := c
    simp only [prefixesInterface] at h
    cases hi : sch.indexer f with
    | none => simp [hi] at h
    | some i =>
      simp only [hi] at h
      cases he : i.encodeInterface a with
      | panic => simp [he] at h
      | ret ob =>
        cases ob with
        | none => simp [he] at h
        | some b =>
          simp only [he] at h
          cases hr : prefixesInterface sch l with
          | panic => simp [hr] at h
          | ret e =>
            cases e with
            | error e => simp [hr] at h
            | ok ks' =>
              simp only [hr, Out.ret.injEq, Except.ok.injEq] at h
              subst h
              obtain ⟨g1, g2⟩ := ih hr
              refine ⟨by simp [g1], fun k hk => ?_⟩
              rcases List.mem_cons.1 hk with rfl | hk
              · exact ⟨(f, a), by simp, i, b, hi, he, rfl⟩
              · obtain ⟨c, hc, rest⟩ := g2 k hk
                exact ⟨c, List.mem_cons_of_mem _ hc, rest⟩

theorem prefixesString_mem {sch : Schema} {l : List (Bytes × Bytes)} {ks : List IndexKey}
    (h : prefixesString sch l = .ret (.ok ks)) :
    ks.length = l.length ∧ ∀ k ∈ ks, ∃ c ∈ l, ∃ i b, sch.indexer c.1 = some i ∧
      i.encodeString c.2 = .ret (some b) ∧ k = (⟨sch.name, i.name, b, []⟩ : IndexKey) := by
  induction l generalizing ks with
  | nil =>
    simp only [prefixesString, Out.ret.injEq, Except.ok.injEq] at h
    subst h; simp
  | cons c l ih =>
    obtain ⟨f, a⟩ := c
    simp only [prefixesString] at h
    cases hi : sch.indexer f with
    | none => simp [hi] at h
    | some i =>
      simp only [hi] at h
      cases he : i.encodeString a with
      | panic => simp [he] at h
      | ret ob =>
        cases ob with
        | none => simp [he] at h
        | some b =>
          simp only [he] at h
          cases hr : prefixesString sch l with
          | panic => simp [hr] at h
          | ret e =>
            cases e with
            | error e => simp [hr] at h
            | ok ks' =>
              simp only [hr, Out.ret.injEq, Except.ok.injEq] at h
              subst h
              obtain ⟨g1, g2⟩ := ih hr
              refine ⟨by simp [g1], fun k hk => ?_⟩
              rcases List.mem_cons.1 hk with rfl | hk
              · exact ⟨(f, a), by simp, i, b, hi, he, rfl⟩
              · obtain ⟨c, hc, rest⟩ := g2 k hk
                exact ⟨c, List.mem_cons_of_mem _ hc, rest⟩

theorem prefixesToScan_ok {sch : Schema} {opt : ListOptions} {ks : List IndexKey}
    (h : prefixesToScan sch opt = .ret (.ok ks)) :
    ∃ k1 k2, ks = k1 ++ k2 ∧ prefixesInterface sch opt.matchInterface = .ret (.ok k1) ∧
      prefixesString sch opt.matchString = .ret (.ok k2) := by
  unfold prefixesToScan at h
  cases h1 : prefixesInterface sch opt.matchInterface with
  | panic => simp [h1] at h
  | ret e =>
    cases e with
    | error e => simp [h1] at h
    | ok k1 =>
      simp only [h1] at h
      cases h2 : prefixesString sch opt.matchString with
      | panic => simp [h2] at h
      | ret e =>
        cases e with
        | error e => simp [h2] at h
        | ok k2 =>
          simp only [h2, Out.ret.injEq, Except.ok.injEq] at h
          exact ⟨k1, k2, h.symm, rfl, rfl⟩

theorem prefixesToScan_mem {sch : Schema} {opt : ListOptions} {ks : List IndexKey}
    (h : prefixesToScan sch opt = .ret (.ok ks)) :
    ∀ k ∈ ks, ∃ i b, i ∈ sch.indexes ∧ k = (⟨sch.name, i.name, b, []⟩ : IndexKey) := by
  obtain ⟨k1, k2, rfl, h1, h2⟩ := prefixesToScan_ok h
  intro k hk
  rcases List.mem_append.1 hk with hk | hk
  · obtain ⟨c, _, i, b, hi, _, rfl⟩ := (prefixesInterface_mem h1).2 k hk
    exact ⟨i, b, (Schema.indexer_some hi).1, rfl⟩
  · obtain ⟨c, _, i, b, hi, _, rfl⟩ := (prefixesString_mem h2).2 k hk
    exact ⟨i, b, (Schema.indexer_some hi).1, rfl⟩

/-- Descriptor checks: without map fields at the top level, only the top level is looked at. -/
theorem hasMap_eq (env : DescEnv) (fuel : Nat) (d : MsgDesc) :
    hasMap env (fuel + 1) d = some (d.fields.any FieldDesc.isMap) := by
  unfold hasMap hasMapAux
  by_cases h : d.fields.any FieldDesc.isMap = true
  · simp [h]
  · simp only [h, if_false, Bool.false_eq_true]
    have : ∀ (ms : List MsgDesc) (insp : List Bytes), d.fullName ∈ insp →
        hasMapAux.loop env fuel d insp ms = some (false, insp) := by
      intro ms
      induction ms with
      | nil => intro insp _; simp [hasMapAux.loop]
      | cons m ms ih => intro insp hm; simp only [hasMapAux.loop, hm, if_true]; exact ih insp hm
    rw [this _ _ (by simp)]
    simp

theorem hasKind_go_eq {env : DescEnv} {k : Kind} {fuel : Nat} {fs : List FieldDesc}
    (h : fs.any FieldDesc.isMap = false) :
    hasKind.go env k fuel fs = some (fs.any fun f => f.kind = k) := by
  induction fs with
  | nil => simp [hasKind.go]
  | cons f fs ih =>
    simp only [List.any_cons, Bool.or_eq_false_iff] at h
    unfold hasKind.go
    cases hc : f.card with
    | map a b c => simp [FieldDesc.isMap, hc] at h
    | single =>
      simp only [List.any_cons, ih h.2]
      by_cases he : f.kind = k <;> simp [he]
    | list =>
      simp only [List.any_cons, ih h.2]
      by_cases he : f.kind = k <;> simp [he]

theorem hasKinds_eq {env : DescEnv} {fuel : Nat} {d : MsgDesc} (h : d.fields.any FieldDesc.isMap = false)
    (ks : List Kind) :
    hasKinds env (fuel + 1) d ks = some (ks.any fun k => d.fields.any fun f => f.kind = k) := by
  induction ks with
  | nil => rfl
  | cons k ks ih =>
    simp only [hasKinds, hasKind, hasKind_go_eq h, ih, List.any_cons]
    cases d.fields.any fun f => decide (f.kind = k) <;> rfl

theorem newIndexer_ok {d : MsgDesc} {n : Bytes} {i : Indexer} (h : newIndexer d n = .ok i) :
    i.name = n ∧ ∃ f ∈ d.fields, f.json = n ∧ f.kind = i.kind ∧ f.kind.hasEncoder = true := by
  unfold newIndexer at h
  cases hf : d.fields.find? fun f => f.json = n with
  | none => simp [hf] at h
  | some f =>
    simp only [hf] at h
    split at h
    · injection h with h; subst h
      exact ⟨rfl, f, List.mem_of_find?_eq_some hf, by simpa using List.find?_some hf, rfl, by assumption⟩
    · cases h

theorem newIndexers_ok {d : MsgDesc} {ns : List Bytes} {is : List Indexer} (h : newIndexers d ns = .ok is) :
    is.map (·.name) = ns ∧ ∀ i ∈ is, ∃ f ∈ d.fields, f.json = i.name ∧ f.kind = i.kind ∧
      f.kind.hasEncoder = true := by
  induction ns generalizing is with
  | nil => simp only [newIndexers] at h; injection h with h; subst h; simp
  | cons n ns ih =>
    simp only [newIndexers] at h
    cases h1 : newIndexer d n with
    | error e => simp [h1] at h
    | ok i =>
      simp only [h1] at h
      cases h2 : newIndexers d ns with
      | error e => simp [h2] at h
      | ok is' =>
        simp only [h2] at h
        injection h with h; subst h
        obtain ⟨g1, g2⟩ := newIndexer_ok h1
        obtain ⟨g3, g4⟩ := ih h2
        refine ⟨by simp [g1, g3], fun j hj => ?_⟩
        rcases List.mem_cons.1 hj with rfl | hj
        · rw [g1]; exact g2
        · exact g4 j hj

/-- What a parsed schema looks like. -/
theorem parseObjectSchema_ok {env : DescEnv} {fuel : Nat} {api : APIDef} {d : MsgDesc} {o : SchemaDef}
    {sch : Schema} (h : parseObjectSchema env fuel api d o = some (.ok sch)) :
    sch.api = api ∧ sch.indexes.map (·.name) = o.secondaryKeys ∧
      (∀ i ∈ sch.indexes, ∃ f ∈ d.fields, f.json = i.name ∧ f.kind = i.kind ∧ f.kind.hasEncoder = true) ∧
      ((o.singleton = true ∧ sch.pk = none) ∨ (o.singleton = false ∧ ∃ f ∈ d.fields,
        f.json = o.primaryKey ∧ sch.pk = some (o.primaryKey, f.kind) ∧ f.kind.hasEncoder = true)) ∧
      hasMap env fuel d = some false ∧ hasKinds env fuel d unsupportedKinds = some false ∧
      o.validate = true := by
  unfold parseObjectSchema at h
  split at h
  · cases h
  · rename_i hv
    simp only [Bool.not_eq_true, Bool.not_eq_false'] at hv
    cases hm : hasMap env fuel d with
    | none => simp [hm] at h
    | some bm =>
      cases bm with
      | true => simp [hm] at h
      | false =>
        simp only [hm] at h
        cases hk : hasKinds env fuel d unsupportedKinds with
        | none => simp [hk] at h
        | some bk =>
          cases bk with
          | true => simp [hk] at h
          | false =>
            simp only [hk] at h
            by_cases hs : o.singleton = true
            · simp only [hs, if_true] at h
              split at h
              · cases h
              · rename_i pk hpk
                split at hpk
                · cases hpk
                · injection hpk with hpk; subst hpk
                  split at h
                  · rename_i hsec
                    injection h with h; injection h with h; subst h
                    exact ⟨rfl, by simp [hsec], by simp, .inl ⟨hs, rfl⟩, rfl, rfl, by simpa using hv⟩
                  · cases h
            · have hs' : o.singleton = false := by simpa using hs
              simp only [hs', Bool.false_eq_true, if_false] at h
              cases hf : d.fields.find? fun f => f.json = o.primaryKey with
              | none => simp [hf] at h
              | some f =>
                have hfm := List.mem_of_find?_eq_some hf
                have hfn : f.json = o.primaryKey := by simpa using List.find?_some hf
                simp only [hf] at h
                by_cases he : f.kind.hasEncoder = true
                · simp only [he, if_true] at h
                  split at h
                  · rename_i hsec
                    injection h with h; injection h with h; subst h
                    exact ⟨rfl, by simp [hsec], by simp, .inr ⟨hs', f, hfm, hfn, rfl, he⟩, rfl, rfl, by simpa using hv⟩
                  · cases hn : newIndexers d o.secondaryKeys with
                    | error e => simp [hn] at h
                    | ok is =>
                      simp only [hn] at h
                      injection h with h; injection h with h; subst h
                      have := newIndexers_ok hn
                      exact ⟨rfl, this.1, this.2, .inr ⟨hs', f, hfm, hfn, rfl, he⟩, rfl, rfl, by simpa using hv⟩
                · simp [he] at h

/-- Kinds of the fields of a message that was accepted. -/
theorem parseObjectSchema_kinds {env : DescEnv} {fuel : Nat} {api : APIDef} {d : MsgDesc} {o : SchemaDef}
    {sch : Schema} (h : parseObjectSchema env fuel api d o = some (.ok sch)) :
    ∀ f ∈ d.fields, f.isMap = false ∧ f.kind ∉ unsupportedKinds := by
  obtain ⟨_, _, _, _, hm, hk, _⟩ := parseObjectSchema_ok h
  cases fuel with
  | zero => simp [hasMap, hasMapAux] at hm
  | succ fuel =>
    rw [hasMap_eq] at hm
    have ha : d.fields.any FieldDesc.isMap = false := by simpa using hm
    rw [hasKinds_eq ha] at hk
    intro f hf
    simp only [Option.some.injEq, List.any_eq_false] at hk ha
    refine ⟨by simpa using ha f hf, fun hu => ?_⟩
    have := hk f.kind hu
    simp only [List.any_eq_true, not_exists, not_and] at this
    exact this f hf (by simp)

/-- Key fields of an accepted message have a kind with a working encoder. -/
theorem keyKind_of_hasEncoder {k : Kind} (h : k.hasEncoder = true) (hu : k ∉ unsupportedKinds) :
    k ∈ Spec.keyKinds := by
  cases k <;> first | decide | (exact absurd h (by decide)) | (exact absurd (by decide) hu)

end Verif
