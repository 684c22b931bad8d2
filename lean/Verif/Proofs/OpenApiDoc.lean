import Verif.Proofs.OpenApi
/-!
# Lemmas about the schemas of the OpenAPI document
-/

namespace Verif

open Spec

variable {env : DocEnv} {ord : MapOrder}

theorem mem_require {l : List Bytes} {t x : Bytes} : x ∈ require l t ↔ x ∈ l ∨ x = t := by
  unfold require
  split
  · rename_i h
    constructor
    · exact Or.inl
    · rintro (h' | rfl)
      · exact h'
      · exact h
  · simp

theorem properties_fst : ∀ (fs : List FieldDesc) (r : List Bytes),
    (properties env r fs).1 = fs.map fun f => (f.json, (fieldSchema env f).1)
  | [], _ => rfl
  | f :: fs, r => by
    rw [properties]
    simp only [List.map_cons]
    rw [properties_fst fs]

theorem properties_snd : ∀ (fs : List FieldDesc) (r : List Bytes) (t : Bytes),
    t ∈ (properties env r fs).2 ↔ t ∈ r ∨ ∃ f ∈ fs, (fieldSchema env f).2 = some t
  | [], r, t => by simp [properties]
  | f :: fs, r, t => by
    rw [properties]
    simp only
    rw [properties_snd fs]
    cases hf : (fieldSchema env f).2 with
    | none => simp [hf]
    | some t' =>
      simp only [mem_require, List.mem_cons, exists_eq_or_imp, hf, Option.some.injEq]
      constructor
      · rintro ((h | rfl) | h)
        · exact Or.inl h
        · exact Or.inr (Or.inl rfl)
        · exact Or.inr (Or.inr h)
      · rintro (h | rfl | h)
        · exact Or.inl (Or.inl h)
        · exact Or.inl (Or.inr rfl)
        · exact Or.inr h

theorem messageSchema_cases (t : Bytes) :
    (∃ a b, messageSchema t = (.plain a b, none)) ∨ messageSchema t = (.ref (schemaRef t), some t) := by
  unfold messageSchema
  split
  · exact Or.inl ⟨_, _, rfl⟩
  · split
    · exact Or.inl ⟨_, _, rfl⟩
    · split
      · exact Or.inl ⟨_, _, rfl⟩
      · exact Or.inr rfl

/-- The references of a field and the type name it requires are those of its message type. -/
theorem fieldSchema_refs (f : FieldDesc) :
    (FieldSchema.refs (fieldSchema env f).1 = [] ∧ (fieldSchema env f).2 = none) ∨
    (f.kind = .message ∧ FieldSchema.refs (fieldSchema env f).1 = [schemaRef (env f.msg).typeName] ∧
      (fieldSchema env f).2 = some (env f.msg).typeName) := by
  have hm : ∀ t, (FieldSchema.refs (messageSchema t).1 = [] ∧ (messageSchema t).2 = none) ∨
      (FieldSchema.refs (messageSchema t).1 = [schemaRef t] ∧ (messageSchema t).2 = some t) := by
    intro t
    rcases messageSchema_cases t with ⟨a, b, h⟩ | h
    · rw [h]; exact Or.inl ⟨rfl, rfl⟩
    · rw [h]; exact Or.inr ⟨rfl, rfl⟩
  have hp : ∀ k : Kind, FieldSchema.refs k.plainSchema = [] := by intro k; cases k <;> rfl
  unfold fieldSchema
  split
  · split
    · rename_i h; exact Or.inr ⟨h, rfl, rfl⟩
    · exact Or.inl ⟨rfl, rfl⟩
  · split
    · exact Or.inl ⟨rfl, rfl⟩
    · split
      · rename_i h
        rcases hm (env f.msg).typeName with h' | h'
        · exact Or.inl h'
        · exact Or.inr ⟨h, h'⟩
      · exact Or.inl ⟨hp _, rfl⟩
  · split
    · rename_i h
      rcases hm (env f.msg).typeName with h' | h'
      · exact Or.inl h'
      · exact Or.inr ⟨h, h'⟩
    · exact Or.inl ⟨hp _, rfl⟩

/-- The properties of the schema of a message. -/
def schemaProps (env : DocEnv) (d : MsgDesc) : List (Bytes × FieldSchema) :=
  d.fields.map fun f => (f.json, (fieldSchema env f).1)

/-- The type name under which `addSchemasToDocumentV3` looks for a message. -/
def typeNameIn (f : DocFile) (name : Bytes) : Bytes := 46 :: (f.package ++ 46 :: name)

theorem addSchema_eq (package : Bytes) (s : SchemaState) (m : Bytes × MsgDesc) :
    addSchema env package s m =
      if 46 :: (package ++ 46 :: m.1) ∉ s.required ∨ 46 :: (package ++ 46 :: m.1) ∈ s.generated then s
      else ⟨(properties env s.required m.2.fields).2, s.generated ++ [46 :: (package ++ 46 :: m.1)],
        s.schemas ++ [(m.2.fullName, schemaProps env m.2)]⟩ := by
  unfold addSchema schemaProps
  simp only [properties_fst]

/-- The messages of the files with the type names under which they are looked for. -/
def declared (files : List DocFile) : List (Bytes × MsgDesc) :=
  files.flatMap fun f => f.messages.map fun m => (typeNameIn f m.1, m.2)

/-- `addSchema` on a message with its type name. -/
def addTyped (env : DocEnv) (s : SchemaState) (m : Bytes × MsgDesc) : SchemaState :=
  if m.1 ∉ s.required ∨ m.1 ∈ s.generated then s
  else ⟨(properties env s.required m.2.fields).2, s.generated ++ [m.1],
    s.schemas ++ [(m.2.fullName, schemaProps env m.2)]⟩

theorem foldl_addFileSchemas : ∀ (files : List DocFile) (s : SchemaState),
    files.foldl (addFileSchemas env) s = (declared files).foldl (addTyped env) s
  | [], s => rfl
  | f :: fs, s => by
    rw [List.foldl_cons, foldl_addFileSchemas fs]
    unfold declared
    rw [List.flatMap_cons, List.foldl_append, List.foldl_map]
    congr 1
    unfold addFileSchemas
    congr 1
    funext s m
    exact addSchema_eq f.package s m

/-- What holds while schemas are generated, if the names in `T` are all that will be required and
`desc` gives the message of a name. -/
structure Generates (env : DocEnv) (T : Bytes → MsgDesc → Prop) (s : SchemaState) : Prop where
  required : ∀ t, t ∈ s.required ↔ ∃ d, T t d
  schemas : ∀ e, e ∈ s.schemas ↔ ∃ t d, t ∈ s.generated ∧ T t d ∧ e = (d.fullName, schemaProps env d)

theorem generates_fold {T : Bytes → MsgDesc → Prop} (hT : ∀ t d d', T t d → T t d' → d = d')
    (hclosed : ∀ t d, T t d → ∀ f ∈ d.fields, ∀ t', (fieldSchema env f).2 = some t' → ∃ d', T t' d') :
    ∀ (l : List (Bytes × MsgDesc)) (s : SchemaState), (∀ m ∈ l, ∀ d, T m.1 d → m.2 = d) →
      Generates env T s → Generates env T (l.foldl (addTyped env) s) ∧
      ∀ t, t ∈ (l.foldl (addTyped env) s).generated ↔ t ∈ s.generated ∨ ((∃ d, T t d) ∧ ∃ m ∈ l, m.1 = t)
  | [], s, _, hg => ⟨hg, by simp⟩
  | m :: l, s, hl, hg => by
    have step : Generates env T (addTyped env s m) ∧
        ∀ t, t ∈ (addTyped env s m).generated ↔ t ∈ s.generated ∨ ((∃ d, T t d) ∧ m.1 = t) := by
      unfold addTyped
      split
      · rename_i h
        refine ⟨hg, fun t => ⟨Or.inl, ?_⟩⟩
        rintro (h' | ⟨hd, rfl⟩)
        · exact h'
        · rcases h with h | h
          · exact absurd ((hg.required _).2 hd) h
          · exact h
      · rename_i h
        rw [not_or, not_not] at h
        obtain ⟨d, hd⟩ := (hg.required _).1 h.1
        have hmd : m.2 = d := hl m List.mem_cons_self d hd
        refine ⟨⟨?_, ?_⟩, ?_⟩
        · intro t
          rw [properties_snd, hg.required]
          constructor
          · rintro (h' | ⟨f, hf, h'⟩)
            · exact h'
            · rw [hmd] at hf; exact hclosed _ d hd f hf t h'
          · exact Or.inl
        · intro e
          rw [List.mem_append, List.mem_singleton, hg.schemas]
          constructor
          · rintro (⟨t, d', ht, hT', he⟩ | he)
            · exact ⟨t, d', List.mem_append_left _ ht, hT', he⟩
            · exact ⟨m.1, d, by simp, hd, by rw [he, hmd]⟩
          · rintro ⟨t, d', ht, hT', he⟩
            rcases List.mem_append.1 ht with ht | ht
            · exact Or.inl ⟨t, d', ht, hT', he⟩
            · rw [List.mem_singleton.1 ht] at hT'
              rw [hT _ _ _ hT' hd] at he
              exact Or.inr (by rw [he, hmd])
        · intro t
          rw [List.mem_append, List.mem_singleton]
          constructor
          · rintro (h' | rfl)
            · exact Or.inl h'
            · exact Or.inr ⟨⟨d, hd⟩, rfl⟩
          · rintro (h' | ⟨_, rfl⟩)
            · exact Or.inl h'
            · exact Or.inr rfl
    obtain ⟨h1, h2⟩ := generates_fold hT hclosed l _ (fun m' hm' => hl m' (List.mem_cons_of_mem _ hm')) step.1
    refine ⟨h1, fun t => ?_⟩
    rw [List.foldl_cons, h2, step.2]
    constructor
    · rintro ((h | ⟨h, rfl⟩) | ⟨h, m', hm', rfl⟩)
      · exact Or.inl h
      · exact Or.inr ⟨h, m, List.mem_cons_self, rfl⟩
      · exact Or.inr ⟨h, m', List.mem_cons_of_mem _ hm', rfl⟩
    · rintro (h | ⟨h, m', hm', rfl⟩)
      · exact Or.inl (Or.inl h)
      · rcases List.mem_cons.1 hm' with rfl | hm'
        · exact Or.inl (Or.inr ⟨h, rfl⟩)
        · exact Or.inr ⟨h, m', hm', rfl⟩

theorem mem_requireResponses : ∀ (ops : List RawOp) (l : List Bytes) (t : Bytes),
    t ∈ requireResponses l ops ↔ t ∈ l ∨ ∃ r ∈ ops, (responseContent r.response).2 = some t
  | [], l, t => by simp [requireResponses]
  | r :: rs, l, t => by
    have : requireResponses l (r :: rs) = requireResponses (match (responseContent r.response).2 with
      | none => l
      | some t => require l t) rs := rfl
    rw [this, mem_requireResponses rs]
    cases hr : (responseContent r.response).2 with
    | none => simp [hr]
    | some t' =>
      simp only [mem_require, List.mem_cons, exists_eq_or_imp, hr, Option.some.injEq]
      constructor
      · rintro ((h | rfl) | h)
        · exact Or.inl h
        · exact Or.inr (Or.inl rfl)
        · exact Or.inr (Or.inr h)
      · rintro (h | rfl | h)
        · exact Or.inl (Or.inl h)
        · exact Or.inl (Or.inr rfl)
        · exact Or.inr h

theorem mem_requirePasses {ops : List RawOp} : ∀ (files : List DocFile) (l : List Bytes) (t : Bytes),
    (∀ r ∈ ops, ∀ t, (responseContent r.response).2 = some t → t ∈ l) →
    (t ∈ files.foldl (fun rs _ => requireResponses rs ops) l ↔ t ∈ l)
  | [], _, _, _ => Iff.rfl
  | f :: fs, l, t, h => by
    rw [List.foldl_cons, mem_requirePasses fs]
    · rw [mem_requireResponses]
      constructor
      · rintro (h' | ⟨r, hr, h'⟩)
        · exact h'
        · exact h r hr t h'
      · exact Or.inl
    · intro r hr t' ht'
      rw [mem_requireResponses]
      exact Or.inl (h r hr t' ht')

theorem responseContent_cases (m : MsgOf) :
    ((responseContent m).2 = none ∧ ∀ r, (responseContent m).1 ≠ .json r) ∨
    responseContent m = (.json (schemaRef m.typeName), some m.typeName) := by
  unfold responseContent
  split
  · exact Or.inl ⟨rfl, by simp⟩
  · split
    · exact Or.inl ⟨rfl, by simp⟩
    · exact Or.inr rfl

theorem mem_declared {files : List DocFile} {e : Bytes × MsgDesc} :
    e ∈ declared files ↔ ∃ h ∈ files, ∃ m ∈ h.messages, e = (typeNameIn h m.1, m.2) := by
  unfold declared
  simp only [List.mem_flatMap, List.mem_map]
  constructor
  · rintro ⟨h, hh, m, hm, rfl⟩; exact ⟨h, hh, m, hm, rfl⟩
  · rintro ⟨h, hh, m, hm, rfl⟩; exact ⟨h, hh, m, hm, rfl⟩

theorem answered_field {objs : List ApiObject} {x : MsgOf} (hx : Answered env objs x) {f : FieldDesc}
    (hf : f ∈ x.desc.fields) (hk : f.kind = .message) : Answered env objs (env f.msg) := by
  obtain ⟨o, ho, r, hr, h⟩ := hx
  exact ⟨o, ho, r, hr, Relation.ReflTransGen.tail h ⟨f, hf, Or.inl hk, rfl⟩⟩

theorem needed_of_mem_files {objs : List ApiObject} {g : Gen} (h : Requires env (objs.flatMap answers) g)
    {f : DocFile} (hf : f ∈ g.files) : Needed env objs f := by
  rcases addDeps_sub _ _ _ hf with hf | ⟨f', hf', hw⟩
  · cases hf
  · obtain ⟨x, hx, rfl⟩ := List.mem_map.1 hf'
    exact ⟨x, answered_iff.2 (h.reached x hx), hw⟩

/-- The operations answer with messages that occur in answers. -/
theorem apiOps_answered {objs : List ApiObject} {r : RawOp} (hr : r ∈ objs.flatMap apiOps) :
    Answered env objs r.response := by
  obtain ⟨o, ho, hr⟩ := List.mem_flatMap.1 hr
  refine ⟨o, ho, r.response, ?_, Relation.ReflTransGen.refl⟩
  unfold apiOps at hr
  unfold answers
  split at hr
  · rename_i hs; rw [if_pos hs]; rw [List.mem_singleton.1 hr]; simp
  · rename_i hs
    rw [if_neg hs]
    rcases List.mem_cons.1 hr with rfl | hr
    · simp
    · rw [List.mem_singleton.1 hr]; simp

/-- Every schema is generated under a type name of its own. -/
theorem addTyped_names : ∀ (l : List (Bytes × MsgDesc)) (s : SchemaState) (q : List (Bytes × MsgDesc)),
    s.generated = q.map (·.1) → s.schemas = q.map (fun e => (e.2.fullName, schemaProps env e.2)) →
    (q.map (·.1)).Nodup →
    ∃ q' : List (Bytes × MsgDesc), (l.foldl (addTyped env) s).generated = q'.map (·.1) ∧
      (l.foldl (addTyped env) s).schemas = q'.map (fun e => (e.2.fullName, schemaProps env e.2)) ∧
      (q'.map (·.1)).Nodup ∧ ∀ e ∈ q', e ∈ q ∨ e ∈ l
  | [], _, q, h1, h2, h3 => ⟨q, h1, h2, h3, fun _ => Or.inl⟩
  | m :: l, s, q, h1, h2, h3 => by
    by_cases h : m.1 ∉ s.required ∨ m.1 ∈ s.generated
    · have he : addTyped env s m = s := if_pos h
      rw [List.foldl_cons, he]
      obtain ⟨q', k1, k2, k3, k4⟩ := addTyped_names l s q h1 h2 h3
      exact ⟨q', k1, k2, k3, fun e he => (k4 e he).imp id (List.mem_cons_of_mem _)⟩
    · have he : addTyped env s m = ⟨(properties env s.required m.2.fields).2, s.generated ++ [m.1],
        s.schemas ++ [(m.2.fullName, schemaProps env m.2)]⟩ := if_neg h
      rw [List.foldl_cons, he]
      rw [not_or, not_not, h1] at h
      obtain ⟨q', k1, k2, k3, k4⟩ := addTyped_names l
        ⟨(properties env s.required m.2.fields).2, s.generated ++ [m.1],
          s.schemas ++ [(m.2.fullName, schemaProps env m.2)]⟩ (q ++ [m]) (by simp [h1]) (by simp [h2]) (by
          rw [List.map_append, List.map_singleton, List.nodup_append]
          refine ⟨h3, by simp, ?_⟩
          intro a ha b hb he
          rw [List.mem_singleton.1 hb] at he
          rw [he] at ha
          exact h.2 ha)
      refine ⟨q', k1, k2, k3, fun e he => ?_⟩
      rcases k4 e he with h' | h'
      · rcases List.mem_append.1 h' with h' | h'
        · exact Or.inl h'
        · rw [List.mem_singleton.1 h']; exact Or.inr List.mem_cons_self
      · exact Or.inr (List.mem_cons_of_mem _ h')

/-- The message that is found under a type name, if one is. -/
def TypedDesc (env : DocEnv) (objs : List ApiObject) (files : List DocFile) (t : Bytes) (d : MsgDesc) : Prop :=
  (∃ x, Answered env objs x ∧ x.typeName = t) ∧
    ((t, d) ∈ declared files ∨ ((∀ m ∈ declared files, m.1 ≠ t) ∧ d = ⟨[], []⟩))

/-- The schemas of the document. -/
theorem build_schemas (hn : NamesKnown env) {objs : List ApiObject} (hu : NamesUnique env objs)
    (hd : DeclaredOnce env objs) {g : Gen} (h : Requires env (objs.flatMap answers) g)
    (hops : g.ops = objs.flatMap apiOps) :
    (∀ e, e ∈ (g.build env).schemas ↔ ∃ x, Answered env objs x ∧
      (∃ f ∈ g.files, ∃ m ∈ f.messages, typeNameIn f m.1 = x.typeName) ∧
      e = (x.desc.fullName, schemaProps env x.desc)) ∧
    ∃ l, (g.build env).schemas = sortNamed l ∧ (l.map (·.1)).Nodup := by
  have hreq : ∀ t, t ∈ g.schemas ↔ ∃ x, Answered env objs x ∧ x.typeName = t := by
    intro t
    rw [h.schemas, List.mem_map]
    constructor
    · rintro ⟨x, hx, he⟩; exact ⟨x, (mem_objects_iff hn hu h x).1 hx, he⟩
    · rintro ⟨x, hx, he⟩; exact ⟨x, (mem_objects_iff hn hu h x).2 hx, he⟩
  have hdecl : ∀ m ∈ declared g.files, ∀ x, Answered env objs x → x.typeName = m.1 → m.2 = x.desc := by
    rintro m hm x hx hxt
    obtain ⟨f, hf, m', hm', rfl⟩ := mem_declared.1 hm
    refine hd x hx f (needed_of_mem_files h hf) m' hm' ?_
    have : 46 :: (x.file.package ++ 46 :: x.name) = 46 :: (f.package ++ 46 :: m'.1) := hxt
    exact (List.cons.inj this).2.symm
  have hex : ∀ t, (∃ x, Answered env objs x ∧ x.typeName = t) → ∃ d, TypedDesc env objs g.files t d := by
    intro t ht
    by_cases hm : ∃ m ∈ declared g.files, m.1 = t
    · obtain ⟨m, hm, rfl⟩ := hm
      exact ⟨m.2, ht, Or.inl hm⟩
    · exact ⟨⟨[], []⟩, ht, Or.inr ⟨fun m hm' hmt => hm ⟨m, hm', hmt⟩, rfl⟩⟩
  have hT : ∀ t d d', TypedDesc env objs g.files t d → TypedDesc env objs g.files t d' → d = d' := by
    rintro t d d' ⟨⟨x, hx, hxt⟩, h1⟩ ⟨_, h2⟩
    rcases h1 with h1 | ⟨h1, rfl⟩
    · rcases h2 with h2 | ⟨h2, _⟩
      · rw [show d = x.desc from hdecl _ h1 x hx hxt, show d' = x.desc from hdecl _ h2 x hx hxt]
      · exact absurd rfl (h2 _ h1)
    · rcases h2 with h2 | ⟨_, rfl⟩
      · exact absurd rfl (h1 _ h2)
      · rfl
  have hclosed : ∀ t d, TypedDesc env objs g.files t d → ∀ f ∈ d.fields, ∀ t', (fieldSchema env f).2 = some t' →
      ∃ d', TypedDesc env objs g.files t' d' := by
    rintro t d ⟨⟨x, hx, hxt⟩, h1⟩ f hf t' ht'
    rcases h1 with h1 | ⟨_, rfl⟩
    · rw [show d = x.desc from hdecl _ h1 x hx hxt] at hf
      rcases fieldSchema_refs (env := env) f with ⟨_, h'⟩ | ⟨hk, _, h'⟩
      · rw [h'] at ht'; cases ht'
      · rw [h'] at ht'
        exact hex t' ⟨env f.msg, answered_field hx hf hk, Option.some.inj ht'⟩
    · cases hf
  have hg0 : Generates env (TypedDesc env objs g.files)
      { required := g.files.foldl (fun rs _ => requireResponses rs g.ops) g.schemas } := by
    refine ⟨fun t => ?_, fun e => by simp⟩
    show t ∈ g.files.foldl (fun rs _ => requireResponses rs g.ops) g.schemas ↔ _
    rw [mem_requirePasses, hreq]
    · exact ⟨hex t, fun ⟨d, hd⟩ => hd.1⟩
    · intro r hr t ht'
      rw [hops] at hr
      rcases responseContent_cases r.response with ⟨h', _⟩ | h'
      · rw [h'] at ht'; cases ht'
      · rw [h'] at ht'
        exact (hreq t).2 ⟨r.response, apiOps_answered hr, Option.some.inj ht'⟩
  have hl : ∀ m ∈ declared g.files, ∀ d, TypedDesc env objs g.files m.1 d → m.2 = d := by
    intro m hm d hd'
    exact hT m.1 m.2 d ⟨hd'.1, Or.inl hm⟩ hd'
  have hgen := generates_fold hT hclosed (declared g.files) _ hl hg0
  obtain ⟨q, k1, k2, k3, k4⟩ := addTyped_names (env := env) (declared g.files)
    { required := g.files.foldl (fun rs _ => requireResponses rs g.ops) g.schemas } [] rfl rfl List.nodup_nil
  have hb : (g.build env).schemas = sortNamed ((declared g.files).foldl (addTyped env)
      { required := g.files.foldl (fun rs _ => requireResponses rs g.ops) g.schemas }).schemas := by
    rw [← foldl_addFileSchemas]; rfl
  refine ⟨?_, _, hb, ?_⟩
  · intro e
    rw [hb, mem_sortNamed, hgen.1.schemas]
    constructor
    · rintro ⟨t, d, ht', hd', he⟩
      rw [hgen.2] at ht'
      rcases ht' with ht' | ⟨_, m, hm, hmt⟩
      · cases ht'
      · obtain ⟨x, hx, hxt⟩ := hd'.1
        have := hdecl m hm x hx (by rw [hxt, hmt])
        rw [← hl m hm d (by rw [hmt]; exact hd'), this] at he
        obtain ⟨f, hf, m', hm', rfl⟩ := mem_declared.1 hm
        exact ⟨x, hx, ⟨f, hf, m', hm', by rw [hxt]; exact hmt⟩, he⟩
    · rintro ⟨x, hx, ⟨f, hf, m, hm, hfm⟩, he⟩
      have hm' : (typeNameIn f m.1, m.2) ∈ declared g.files := mem_declared.2 ⟨f, hf, m, hm, rfl⟩
      have hmx : m.2 = x.desc := hdecl _ hm' x hx hfm.symm
      refine ⟨x.typeName, m.2, ?_, ⟨⟨x, hx, rfl⟩, Or.inl (by rw [← hfm]; exact hm')⟩, by rw [hmx]; exact he⟩
      rw [hgen.2]
      exact Or.inr ⟨hex _ ⟨x, hx, rfl⟩, _, hm', hfm⟩
  · rw [k2, List.map_map]
    refine List.Nodup.map_on ?_ (List.Nodup.of_map _ k3)
    intro e he e' he' hee
    have get : ∀ e ∈ q, ∃ x, Answered env objs x ∧ x.typeName = e.1 ∧ e.2 = x.desc := by
      intro e he
      have hgm : e.1 ∈ ((declared g.files).foldl (addTyped env)
          { required := g.files.foldl (fun rs _ => requireResponses rs g.ops) g.schemas }).generated := by
        rw [k1]; exact List.mem_map_of_mem he
      rcases (hgen.2 e.1).1 hgm with h' | ⟨⟨d, hd'⟩, _⟩
      · cases h'
      · obtain ⟨x, hx, hxt⟩ := hd'.1
        rcases k4 e he with h' | h'
        · cases h'
        · exact ⟨x, hx, hxt, hdecl e h' x hx hxt⟩
    obtain ⟨x, hx, hxt, hxd⟩ := get e he
    obtain ⟨y, hy, hyt, hyd⟩ := get e' he'
    have hxy : x = y := hu x y hx hy (by rw [← hxd, ← hyd]; exact hee)
    exact List.inj_on_of_nodup_map k3 he he' (by rw [← hxt, ← hyt, hxy])

theorem apiDocument_some {fuel : Nat} {objs : List ApiObject} {d : Document}
    (h : apiDocument env ord fuel objs = some d) :
    ∃ g, addApiObjects env ord fuel {} objs = some g ∧ d = g.build env := by
  unfold apiDocument at h
  cases hg : addApiObjects env ord fuel {} objs with
  | none => rw [hg] at h; cases h
  | some g => rw [hg] at h; exact ⟨g, rfl, (Option.some.inj h).symm⟩

theorem build_requires (hn : NamesKnown env) (ho : IsOrder ord) {fuel : Nat} {objs : List ApiObject} {g : Gen}
    (h : addApiObjects env ord fuel {} objs = some g) :
    Requires env (objs.flatMap answers) g ∧ g.ops = objs.flatMap apiOps := by
  obtain ⟨h1, h2, _⟩ := addApiObjects_requires hn ho objs requires_empty h
  exact ⟨by simpa using h1, by simpa using h2⟩

end Verif
