import Verif.Spec.GoCode
import Verif.Props.Codegen
/-!
# Generated code compiles: C118
-/

namespace Verif.Props
open Spec

/-- The declarations for an object. -/
theorem mem_object {f : GenFile} {m : GenMsg} {d : SchemaDef} (hm : m ∈ f.messages) (hd : m.object = some d) {x : Decl}
    (h : x ∈ objectClient m ((parseSaveInfo m d).getD none)) : x ∈ fileDecls f := by
  rw [fileDecls, List.mem_append]
  refine .inl (List.mem_flatMap.2 ⟨m, hm, ?_⟩)
  rw [msgDecls, hd]
  exact List.mem_append_right _ h

theorem mem_set {f : GenFile} {x : Decl} (h : x ∈ genClientSet f) : x ∈ fileDecls f := by
  rw [fileDecls]
  exact List.mem_append_right _ (List.mem_append_right _ h)

/-- The kinds of declarations. -/
theorem mem_fileDecls {f : GenFile} {x : Decl} (h : x ∈ fileDecls f) :
    (∃ m ∈ f.messages, ∃ d, m.object = some d ∧ (x = .apiDefinition m.goName f.package m.name false ∨ x = .newStateObject m.goName ∨
      x ∈ objectClient m ((parseSaveInfo m d).getD none))) ∨
    (∃ m ∈ f.messages, x = .apiDefinition m.goName f.package m.name true ∨ x = .newStateTransition m.goName) ∨
    (∃ m d, x = .schema (GenMsg.schemaVar m) d) ∨ x ∈ genClientSet f := by
  rw [fileDecls, List.mem_append, List.mem_append] at h
  rcases h with h | h | h
  · obtain ⟨m, hm, h⟩ := List.mem_flatMap.1 h
    rw [msgDecls] at h
    cases hd : m.object with
    | some d =>
      rw [hd] at h
      simp only [List.cons_append, List.nil_append, List.mem_cons] at h
      exact .inl ⟨m, hm, d, hd, h⟩
    | none =>
      rw [hd] at h
      simp only at h
      split at h
      · simp only [List.mem_cons, List.not_mem_nil, or_false] at h
        exact .inr (.inl ⟨m, hm, h⟩)
      · cases h
  · obtain ⟨o, -, rfl⟩ := List.mem_map.1 h
    exact .inr (.inr (.inl ⟨_, _, rfl⟩))
  · exact .inr (.inr (.inr h))

/-- The declarations of a client set. -/
theorem mem_genClientSet {f : GenFile} {x : Decl} : x ∈ genClientSet f ↔
    x = .clientSetInterface (f.objects.map fun o => (accessorName o.1 o.2, o.1.client)) (f.transitions.map fun t => (b!"Exec" ++ t.goName, t.goName)) ∨
    x = .newClientSet (f.objects.map fun o => o.1.lowerClient) ∨
    x = .clientSetStruct (f.objects.map fun o => (o.1.lowerClient, o.1.client)) ∨
    (∃ o ∈ f.objects, .accessor (accessorName o.1 o.2) o.1.client o.1.lowerClient = x) ∨
    ∃ t ∈ f.transitions, .exec (b!"Exec" ++ t.goName) t.goName = x := by
  simp only [genClientSet, List.cons_append, List.nil_append, List.mem_cons, List.mem_append, List.mem_map]

variable {f : GenFile}

theorem ident_of {x : Decl} {n : Bytes} (h : x ∈ fileDecls f) (hi : declIdent x = some n) : n ∈ (declared (fileDecls f)).idents :=
  List.mem_filterMap.2 ⟨x, h, hi⟩

theorem clientSet_declared : b!"ClientSet" ∈ (declared (fileDecls f)).idents ∧ b!"clientSet" ∈ (declared (fileDecls f)).idents :=
  ⟨ident_of (mem_set (mem_genClientSet.2 (.inl rfl))) rfl, ident_of (mem_set (mem_genClientSet.2 (.inr (.inr (.inl rfl))))) rfl⟩

theorem client_declared {m : GenMsg} {d : SchemaDef} (hm : m ∈ f.messages) (hd : m.object = some d) :
    m.client ∈ (declared (fileDecls f)).idents ∧ m.lowerClient ∈ (declared (fileDecls f)).idents ∧
    (∀ k, (parseSaveInfo m d).getD none = some k → m.iterator ∈ (declared (fileDecls f)).idents ∧ m.lowerIterator ∈ (declared (fileDecls f)).idents) := by
  refine ⟨ident_of (mem_object hm hd (x := .clientInterface m.client m.goName _) (by simp only [objectClient]; simp; exact .inl rfl)) rfl,
    ident_of (mem_object hm hd (x := .clientStruct m.lowerClient) (by simp [objectClient])) rfl, fun k hk => ⟨?_, ?_⟩⟩
  · exact ident_of (mem_object hm hd (x := .iteratorInterface m.iterator m.goName) (by rw [hk]; simp [objectClient])) rfl
  · exact ident_of (mem_object hm hd (x := .iteratorStruct m.lowerIterator) (by rw [hk]; simp [objectClient])) rfl

/-! ## C118 -/

/-- **C118** Every name of the package that generated code uses is declared by it or the name of a message. -/
theorem C118_references {l : List Decl} (hg : genFile f = .ret (some l)) :
    ∀ x ∈ l, ∀ n ∈ declRefs x, n ∈ (declared l).idents ∨ ∃ m ∈ f.messages, m.goName = n := by
  obtain ⟨-, -, rfl⟩ := genFile_some.1 hg
  intro x hx
  obtain ⟨c1, c2⟩ := clientSet_declared (f := f)
  rcases mem_fileDecls hx with ⟨m, hm, d, hd, h⟩ | ⟨m, hm, h⟩ | ⟨m, d, rfl⟩ | h
  · obtain ⟨d1, d2, d3⟩ := client_declared hm hd
    have own : m.goName ∈ (declared (fileDecls f)).idents ∨ ∃ m' ∈ f.messages, m'.goName = m.goName := .inr ⟨m, hm, rfl⟩
    rcases h with rfl | rfl | h
    · simpa [declRefs] using own
    · simpa [declRefs] using own
    · cases hk : (parseSaveInfo m d).getD none with
      | none =>
        rw [hk] at h
        simp only [objectClient, List.cons_append, List.nil_append, List.append_nil, List.mem_cons, List.not_mem_nil, or_false] at h
        rcases h with rfl | rfl | rfl | rfl | rfl | rfl <;> simp only [declRefs, List.forall_mem_cons, List.not_mem_nil, false_implies, implies_true, and_true]
        · exact own
        all_goals exact ⟨.inl d2, own⟩
      | some k =>
        obtain ⟨e1, e2⟩ := d3 k hk
        rw [hk] at h
        simp only [objectClient, List.cons_append, List.nil_append, List.mem_cons, List.not_mem_nil, or_false] at h
        rcases h with rfl | rfl | rfl | rfl | rfl | rfl | rfl | rfl | rfl | rfl | rfl | rfl <;>
          simp only [declRefs, List.forall_mem_cons, List.not_mem_nil, false_implies, implies_true, and_true]
        · exact ⟨own, .inl e1⟩
        · exact ⟨.inl d2, own⟩
        · exact ⟨.inl d2, .inl e1, own, .inl e2⟩
        · exact ⟨.inl d2, own⟩
        · exact ⟨.inl d2, own⟩
        · exact ⟨.inl d2, own⟩
        · exact own
        · exact ⟨.inl e2, own⟩
        · exact .inl e2
        · exact .inl e2
  · rcases h with rfl | rfl <;> simp only [declRefs, List.forall_mem_cons, List.not_mem_nil, false_implies, implies_true, and_true] <;>
      exact .inr ⟨m, hm, rfl⟩
  · intro n hn
    cases hn
  · have obj : ∀ o ∈ f.objects, o.1.client ∈ (declared (fileDecls f)).idents ∧ o.1.lowerClient ∈ (declared (fileDecls f)).idents := by
      intro o ho
      obtain ⟨h1, h2⟩ := mem_objects.1 ho
      exact ⟨(client_declared h1 h2).1, (client_declared h1 h2).2.1⟩
    rcases mem_genClientSet.1 h with rfl | rfl | rfl | ⟨o, ho, rfl⟩ | ⟨t, ht, rfl⟩
    · intro n hn
      simp only [declRefs, List.map_map, List.mem_append, List.mem_map] at hn
      rcases hn with ⟨o, ho, rfl⟩ | ⟨t, ht, rfl⟩
      · exact .inl (obj o ho).1
      · exact .inr ⟨t, (List.mem_filter.1 ht).1, rfl⟩
    · intro n hn
      simp only [declRefs, List.mem_cons, List.mem_map] at hn
      rcases hn with rfl | rfl | ⟨o, ho, rfl⟩
      · exact .inl c1
      · exact .inl c2
      · exact .inl (obj o ho).2
    · intro n hn
      simp only [declRefs, List.map_map, List.mem_map] at hn
      obtain ⟨o, ho, rfl⟩ := hn
      exact .inl (obj o ho).1
    · simp only [declRefs, List.forall_mem_cons, List.not_mem_nil, false_implies, implies_true, and_true]
      exact ⟨.inl c2, .inl (obj o ho).1⟩
    · simp only [declRefs, List.forall_mem_cons, List.not_mem_nil, false_implies, implies_true, and_true]
      exact ⟨.inl c2, .inr ⟨t, (List.mem_filter.1 ht).1, rfl⟩⟩

/-- **C118** The fields that `NewClientSet` sets are those of the struct, and a method returns a field of its type. -/
theorem C118_fields {l : List Decl} (hg : genFile f = .ret (some l)) : ∃ fs gs, Decl.newClientSet fs ∈ l ∧ Decl.clientSetStruct gs ∈ l ∧
    fs = gs.map Prod.fst ∧ (∀ n t x, Decl.accessor n t x ∈ l → (x, t) ∈ gs) ∧
    (∀ fs', Decl.newClientSet fs' ∈ l → fs' = fs) ∧ ∀ gs', Decl.clientSetStruct gs' ∈ l → gs' = gs := by
  obtain ⟨-, -, rfl⟩ := genFile_some.1 hg
  have inSet : ∀ {x : Decl}, x ∈ fileDecls f → (∃ n t y, x = .accessor n t y) ∨ (∃ fs, x = .newClientSet fs) ∨ (∃ gs, x = .clientSetStruct gs) →
      x ∈ genClientSet f := by
    intro x hx hc
    rcases mem_fileDecls hx with ⟨m, -, d, -, h⟩ | ⟨m, -, h⟩ | ⟨m, d, rfl⟩ | h
    · have : x ∈ [Decl.apiDefinition m.goName f.package m.name false, .newStateObject m.goName] ++ objectClient m ((parseSaveInfo m d).getD none) := by
        simpa using h
      cases hk : (parseSaveInfo m d).getD none with
      | none =>
        rw [hk] at this
        rcases hc with ⟨n, t, y, rfl⟩ | ⟨fs, rfl⟩ | ⟨gs, rfl⟩ <;> simp [objectClient] at this
      | some k =>
        rw [hk] at this
        rcases hc with ⟨n, t, y, rfl⟩ | ⟨fs, rfl⟩ | ⟨gs, rfl⟩ <;> simp [objectClient] at this
    · rcases h with rfl | rfl <;> rcases hc with ⟨n, t, y, h⟩ | ⟨fs, h⟩ | ⟨gs, h⟩ <;> cases h
    · rcases hc with ⟨n, t, y, h⟩ | ⟨fs, h⟩ | ⟨gs, h⟩ <;> cases h
    · exact h
  refine ⟨_, _, mem_set (mem_genClientSet.2 (.inr (.inl rfl))), mem_set (mem_genClientSet.2 (.inr (.inr (.inl rfl)))), ?_, ?_, ?_, ?_⟩
  · rw [List.map_map]
    rfl
  · intro n t x h
    rcases mem_genClientSet.1 (inSet h (.inl ⟨n, t, x, rfl⟩)) with h | h | h | ⟨o, ho, h⟩ | ⟨o, ho, h⟩
    · cases h
    · cases h
    · cases h
    · cases h
      exact List.mem_map.2 ⟨o, ho, rfl⟩
    · cases h
  · intro fs h
    rcases mem_genClientSet.1 (inSet h (.inr (.inl ⟨fs, rfl⟩))) with h | h | h | ⟨o, ho, h⟩ | ⟨o, ho, h⟩ <;> cases h
    rfl
  · intro fs h
    rcases mem_genClientSet.1 (inSet h (.inr (.inr ⟨fs, rfl⟩))) with h | h | h | ⟨o, ho, h⟩ | ⟨o, ho, h⟩ <;> cases h
    rfl

/-- **C118** Every struct that is made an interface has its methods. -/
theorem C118_implements {l : List Decl} (hg : genFile f = .ret (some l)) (s i : Bytes) (h : Assigned l s i) : Implements l s i := by
  obtain ⟨fs, gs, hfs, hgs, hmap, -, ufs, ugs⟩ := C118_fields hg
  obtain ⟨-, -, rfl⟩ := genFile_some.1 hg
  have sig : ∀ {x : Decl} {y}, x ∈ fileDecls f → declSignature x = some y → y ∈ (fileDecls f).filterMap declSignature :=
    fun hx hy => List.mem_filterMap.2 ⟨_, hx, hy⟩
  have int : ∀ {x : Decl} {y}, x ∈ fileDecls f → declInterface x = some y → y ∈ (fileDecls f).filterMap declInterface :=
    fun hx hy => List.mem_filterMap.2 ⟨_, hx, hy⟩
  rcases h with ⟨r, o, h, rfl⟩ | ⟨fs', gs', h1, h2, h3, h4⟩ | ⟨fs', h1, rfl, rfl⟩
  · rcases mem_fileDecls h with ⟨m, hm, d, hd, h⟩ | ⟨m, -, h⟩ | ⟨m, d, h⟩ | h
    · rcases h with h | h | h
      · cases h
      · cases h
      have mem := fun {x} => mem_object (f := f) hm hd (x := x)
      cases hk : (parseSaveInfo m d).getD none with
      | none => rw [hk] at h; simp [objectClient] at h
      | some k =>
        rw [hk] at h mem
        simp only [objectClient, List.cons_append, List.nil_append, List.mem_cons, reduceCtorEq, List.not_mem_nil, or_false, false_or,
          Decl.list.injEq] at h
        obtain ⟨rfl, rfl, rfl⟩ := h
        refine ⟨_, int (mem (x := .iteratorInterface m.iterator m.goName) (by simp [objectClient])) rfl, ?_⟩
        simp only [List.forall_mem_cons, List.not_mem_nil, false_implies, implies_true, and_true]
        exact ⟨sig (mem (x := .iteratorGet m.lowerIterator m.goName) (by simp [objectClient])) rfl,
          sig (mem (x := .iteratorValid m.lowerIterator) (by simp [objectClient])) rfl,
          sig (mem (x := .iteratorNext m.lowerIterator) (by simp [objectClient])) rfl⟩
    · rcases h with h | h <;> cases h
    · cases h
    · rcases mem_genClientSet.1 h with h | h | h | ⟨o, -, h⟩ | ⟨o, -, h⟩ <;> cases h
  · have hgs' := ugs gs' h2
    have hgs2 := ugs _ (mem_set (mem_genClientSet.2 (.inr (.inr (.inl rfl)))))
    rw [hgs', ← hgs2] at h4
    obtain ⟨o, ho, e⟩ := List.mem_map.1 h4
    cases e
    obtain ⟨hm, hd⟩ := mem_objects.1 ho
    have mem := fun {x} => mem_object (f := f) hm hd (x := x)
    cases hk : (parseSaveInfo o.1 o.2).getD none with
    | none =>
      rw [hk] at mem
      refine ⟨_, int (mem (x := .clientInterface o.1.client o.1.goName none) (by simp [objectClient])) rfl, ?_⟩
      simp only [List.cons_append, List.nil_append, List.forall_mem_cons, List.not_mem_nil, false_implies, implies_true, and_true]
      exact ⟨sig (mem (x := .getSingleton o.1.lowerClient o.1.goName) (by simp [objectClient])) rfl,
        sig (mem (x := .create o.1.lowerClient o.1.goName (lowerFirst o.1.goName)) (by simp [objectClient])) rfl,
        sig (mem (x := .delete o.1.lowerClient o.1.goName (lowerFirst o.1.goName)) (by simp [objectClient])) rfl,
        sig (mem (x := .update o.1.lowerClient o.1.goName (lowerFirst o.1.goName)) (by simp [objectClient])) rfl⟩
    | some k =>
      obtain ⟨k, t⟩ := k
      rw [hk] at mem
      refine ⟨_, int (mem (x := .clientInterface o.1.client o.1.goName (some (k, t))) (by simp [objectClient])) rfl, ?_⟩
      simp only [List.cons_append, List.nil_append, List.forall_mem_cons, List.not_mem_nil, false_implies, implies_true, and_true]
      exact ⟨sig (mem (x := .getByKey o.1.lowerClient o.1.goName k t (metaIDConstructor t)) (by simp [objectClient])) rfl,
        sig (mem (x := .list o.1.lowerClient o.1.goName o.1.lowerIterator) (by simp [objectClient])) rfl,
        sig (mem (x := .create o.1.lowerClient o.1.goName (lowerFirst o.1.goName)) (by simp [objectClient])) rfl,
        sig (mem (x := .delete o.1.lowerClient o.1.goName (lowerFirst o.1.goName)) (by simp [objectClient])) rfl,
        sig (mem (x := .update o.1.lowerClient o.1.goName (lowerFirst o.1.goName)) (by simp [objectClient])) rfl⟩
  · refine ⟨_, int (mem_set (mem_genClientSet.2 (.inl rfl))) rfl, ?_⟩
    intro m hm
    simp only [List.map_map, List.mem_append, List.mem_map] at hm
    rcases hm with ⟨o, ho, rfl⟩ | ⟨t, ht, rfl⟩
    · exact sig (mem_set (mem_genClientSet.2 (.inr (.inr (.inr (.inl ⟨o, ho, rfl⟩)))))) rfl
    · exact sig (mem_set (mem_genClientSet.2 (.inr (.inr (.inr (.inr ⟨t, ht, rfl⟩)))))) rfl

/-! ### Parameters -/

theorem goName_lit {b : Bytes} {c : UInt8} {r : Bytes} (h : b = c :: r) (h1 : nameStart c) (h2 : ∀ x ∈ r, namePart x) (h3 : b ∉ b!"_" :: goKeywords) :
    GoName b := by
  rw [List.mem_cons, not_or] at h3
  exact ⟨⟨c, r, h, h1, h2⟩, h3⟩

theorem goName_x : GoName b!"x" := goName_lit (c := 120) (r := []) rfl (by unfold nameStart; decide) (by simp) (by decide)

theorem goName_opts : GoName b!"opts" := goName_lit (c := 111) (r := [112, 116, 115]) rfl (by unfold nameStart; decide)
  (by unfold namePart nameStart; decide) (by decide)

theorem goName_client : GoName b!"client" := goName_lit (c := 99) (r := [108, 105, 101, 110, 116]) rfl (by unfold nameStart; decide)
  (by unfold namePart nameStart; decide) (by decide)

theorem goName_msg : GoName b!"msg" := goName_lit (c := 109) (r := [115, 103]) rfl (by unfold nameStart; decide)
  (by unfold namePart nameStart; decide) (by decide)

theorem exported_ne {n : Bytes} (h : Exported n) {c : UInt8} {r : Bytes} (hc : 90 < c) : n ≠ c :: r := by
  rintro rfl
  obtain ⟨c', r', e, -, h2⟩ := h
  cases e
  exact absurd h2 (by rw [UInt8.not_le]; exact hc)

/-- All begin with a byte that is no capital letter. -/
def lowNames (l : List Bytes) : Bool := l.all fun n => match n with
  | [] => true
  | c :: _ => decide (90 < c)

theorem exported_notin {n : Bytes} (h : Exported n) {l : List Bytes} (hl : lowNames l = true) : n ∉ l := by
  intro hm
  have := List.all_eq_true.1 hl n hm
  obtain ⟨c, r, rfl, -, h2⟩ := h
  simp only [decide_eq_true_eq] at this
  exact absurd h2 (by rw [UInt8.not_le]; exact this)

theorem lower_start {c : UInt8} (h1 : 65 ≤ c) (h2 : c ≤ 90) : 97 ≤ c + 32 ∧ c + 32 ≤ 122 := by
  simp only [UInt8.le_iff_toNat_le, UInt8.toNat_add] at *
  have e1 : UInt8.toNat 65 = 65 := rfl
  have e2 : UInt8.toNat 90 = 90 := rfl
  have e3 : UInt8.toNat 97 = 97 := rfl
  have e4 : UInt8.toNat 122 = 122 := rfl
  have e5 : UInt8.toNat 32 = 32 := rfl
  omega

theorem goName_lower {n : Bytes} (h : Exported n) (hl : ∀ c ∈ n, namePart c) (hk : lowerFirst n ∉ goKeywords) : GoName (lowerFirst n) := by
  obtain ⟨c, r, rfl, h1, h2⟩ := h
  have e : lowerFirst (c :: r) = (c + 32) :: r := by simp only [lowerFirst, h1, h2, and_self, if_true]
  obtain ⟨l1, l2⟩ := lower_start h1 h2
  refine ⟨⟨_, _, e, .inr (.inl ⟨l1, l2⟩), fun x hx => hl x (List.mem_cons_of_mem _ hx)⟩, ?_, hk⟩
  rw [e]
  intro h
  injection h with h3
  rw [h3] at l1
  exact absurd l1 (by decide)

theorem scope_change {p : Bytes} : ScopeOk ⟨[b!"x", p, b!"opts"], [], []⟩ ↔ GoName p ∧ p ≠ b!"x" ∧ p ≠ b!"opts" := by
  constructor
  · rintro ⟨h1, h2, -⟩
    refine ⟨h1 p (by simp), ?_, ?_⟩
    · rintro rfl
      simp at h2
    · rintro rfl
      simp at h2
  · rintro ⟨h1, h2, h3⟩
    refine ⟨?_, ?_, by simp⟩
    · simp only [List.forall_mem_cons, List.not_mem_nil, false_implies, implies_true, and_true]
      exact ⟨goName_x, h1, goName_opts⟩
    · simp only [List.append_nil, List.nodup_cons, List.mem_cons, List.not_mem_nil, or_false, not_or, not_false_eq_true, List.nodup_nil, and_true]
      exact ⟨⟨fun h => h2 h.symm, by decide⟩, h3⟩

theorem scope_get {m : GenMsg} (hm : Exported m.goName) {p : Bytes} :
    ScopeOk ⟨[b!"x", p, b!"opts"], [b!"_spfGenO", b!"_spfGenID", b!"_spfGenErr"], [b!"new", m.goName, b!"meta", b!"nil"]⟩ ↔ KeyOk m p := by
  constructor
  · rintro ⟨h1, h2, h3⟩
    refine ⟨h1 p (by simp), ?_, ?_⟩
    · intro hp
      simp only [List.mem_cons, List.not_mem_nil, or_false] at hp
      rcases hp with rfl | rfl | rfl | rfl | rfl | rfl | rfl | rfl
      · simp at h2
      · simp at h2
      · simp at h2
      · simp at h2
      · simp at h2
      · exact h3 b!"new" (by simp) (by simp)
      · exact h3 b!"meta" (by simp) (by simp)
      · exact h3 b!"nil" (by simp) (by simp)
    · rintro rfl
      exact h3 m.goName (by simp) (by simp)
  · rintro ⟨h1, h2, h3⟩
    simp only [List.mem_cons, List.not_mem_nil, or_false, not_or] at h2
    obtain ⟨k1, k2, k3, k4, k5, k6, k7, k8⟩ := h2
    refine ⟨?_, ?_, ?_⟩
    · simp only [List.forall_mem_cons, List.not_mem_nil, false_implies, implies_true, and_true]
      exact ⟨goName_x, h1, goName_opts⟩
    · simp only [List.cons_append, List.nil_append, List.nodup_cons, List.mem_cons, List.not_mem_nil, or_false, not_or, not_false_eq_true,
        List.nodup_nil, and_true]
      exact ⟨⟨fun h => k1 h.symm, by decide, by decide, by decide, by decide⟩, ⟨k2, k3, k4, k5⟩, by decide, by decide, by decide⟩
    · intro u hu
      simp only [List.mem_cons, List.not_mem_nil, or_false] at hu
      simp only [List.cons_append, List.nil_append, List.mem_cons, List.not_mem_nil, or_false, not_or]
      rcases hu with rfl | rfl | rfl | rfl
      · exact ⟨by decide, fun h => k6 h.symm, by decide, by decide, by decide, by decide⟩
      · exact ⟨exported_ne hm (by decide), fun h => h3 h.symm, exported_ne hm (by decide), exported_ne hm (by decide),
          exported_ne hm (by decide), exported_ne hm (by decide)⟩
      · exact ⟨by decide, fun h => k7 h.symm, by decide, by decide, by decide, by decide⟩
      · exact ⟨by decide, fun h => k8 h.symm, by decide, by decide, by decide, by decide⟩

theorem saveInfo_key {m : GenMsg} {d : SchemaDef} {k t : Bytes} (h : (parseSaveInfo m d).getD none = some (k, t)) :
    d.singleton = false ∧ k = d.primaryKey := by
  unfold parseSaveInfo at h
  split at h
  · cases h
  · rename_i hs
    refine ⟨by simpa using hs, ?_⟩
    split at h
    · cases h
    · cases hf : m.fields.find? (fun f => f.json = d.primaryKey) with
      | none => simp [hf] at h
      | some x =>
        cases ht : goTypeOf x.kind with
        | none => simp [hf, ht] at h
        | some t' =>
          simp only [hf, ht, Option.getD_some, Option.some.injEq, Prod.mk.injEq] at h
          exact h.1.symm

theorem saveInfo_some {m : GenMsg} {d : SchemaDef} (ho : ObjectOk m d) (hs : d.singleton = false) :
    ∃ t, (parseSaveInfo m d).getD none = some (d.primaryKey, t) := by
  obtain ⟨k, hk⟩ := parseSaveInfo_some.2 ho.2
  cases k with
  | none =>
    exfalso
    unfold parseSaveInfo at hk
    rw [if_neg (by rw [hs]; decide)] at hk
    split at hk
    · cases hk
    · split at hk
      · cases hk
      · split at hk <;> cases hk
  | some kt =>
    obtain ⟨k, t⟩ := kt
    have e : (parseSaveInfo m d).getD none = some (k, t) := by rw [hk]; rfl
    exact ⟨t, by rw [e, (saveInfo_key e).2]⟩

/-- **C118** Exactly when the parameters of all generated functions are names, different ones, which hide nothing that is used: if no
object is called like a keyword, `X` or `Opts`, and no primary key is a keyword or one of the names in the method `Get`. -/
theorem C118_scopes_iff (hn : GoNamesOk f) (hl : GoLetters f) {l : List Decl} (hg : genFile f = .ret (some l)) :
    (∀ x ∈ l, ∀ s, declScope x = some s → ScopeOk s) ↔
    ∀ m ∈ f.messages, ∀ d, m.object = some d → ParamOk m ∧ (d.singleton = false → KeyOk m d.primaryKey) := by
  obtain ⟨-, hok, rfl⟩ := genFile_some.1 hg
  constructor
  · intro h m hm d hd
    have mem := fun {x} => mem_object (f := f) hm hd (x := x)
    constructor
    · have := scope_change.1 (h _ (mem (x := .create m.lowerClient m.goName (lowerFirst m.goName)) (by
        simp [objectClient])) _ rfl)
      exact ⟨this.1.2.2, this.2⟩
    · intro hs
      obtain ⟨t, ht⟩ := saveInfo_some (hok m hm d hd) hs
      rw [ht] at mem
      exact (scope_get (hn.1 m hm)).1 (h _ (mem (x := .getByKey m.lowerClient m.goName d.primaryKey t (metaIDConstructor t)) (by simp [objectClient])) _ rfl)
  · intro h x hx s hs
    have one : ScopeOk ⟨[b!"x"], [], []⟩ := ⟨by simpa using goName_x, by simp, by simp⟩
    have hx1 : ∀ p ∈ [b!"x"], GoName p := by simpa using goName_x
    have hx2 : ∀ p ∈ [b!"x", b!"opts"], GoName p := by
      simp only [List.forall_mem_cons, List.not_mem_nil, false_implies, implies_true, and_true]
      exact ⟨goName_x, goName_opts⟩
    rcases mem_fileDecls hx with ⟨m, hm, d, hd, hx⟩ | ⟨m, hm, hx⟩ | ⟨m, d, rfl⟩ | hx
    · have hex := hn.1 m hm
      have hself : ∀ {l : List Bytes}, lowNames l = true → m.goName ∉ l := exported_notin hex
      have hp := h m hm d hd
      have hc : ScopeOk ⟨[b!"x", lowerFirst m.goName, b!"opts"], [], []⟩ :=
        scope_change.2 ⟨goName_lower hex (hl m hm) hp.1.1, hp.1.2⟩
      rcases hx with rfl | rfl | hx
      · cases hs
        exact ⟨hx1, by simp, by simp⟩
      · cases hs
        refine ⟨hx1, by simp, ?_⟩
        simp only [List.forall_mem_cons, List.not_mem_nil, false_implies, implies_true, and_true]
        exact ⟨by decide, hself (by decide)⟩
      · cases hk : (parseSaveInfo m d).getD none with
        | none =>
          rw [hk] at hx
          simp only [objectClient, List.cons_append, List.nil_append, List.append_nil, List.mem_cons, List.not_mem_nil, or_false] at hx
          rcases hx with rfl | rfl | rfl | rfl | rfl | rfl <;> cases hs
          · refine ⟨hx2, by simp, ?_⟩
            simp only [List.forall_mem_cons, List.not_mem_nil, false_implies, implies_true, and_true]
            exact ⟨by decide, hself (by decide), by decide, by decide⟩
          all_goals exact hc
        | some k =>
          obtain ⟨k, t⟩ := k
          obtain ⟨hs', rfl⟩ := saveInfo_key hk
          rw [hk] at hx
          simp only [objectClient, List.cons_append, List.nil_append, List.mem_cons, List.not_mem_nil, or_false] at hx
          rcases hx with rfl | rfl | rfl | rfl | rfl | rfl | rfl | rfl | rfl | rfl | rfl | rfl <;> cases hs
          · exact (scope_get hex).2 (hp.2 hs')
          · refine ⟨hx2, by simp, ?_⟩
            simp only [List.forall_mem_cons, List.not_mem_nil, false_implies, implies_true, and_true]
            refine ⟨by decide, hself (by decide), by decide, fun hi => ?_⟩
            have hlen : ∀ n ∈ ([b!"x", b!"opts"] ++ [b!"iter", b!"err"] : List Bytes), n.length < 8 := by decide
            have := hlen _ hi
            rw [GenMsg.lowerIterator, List.length_append] at this
            exact absurd this (by simp)
          · exact hc
          · exact hc
          · exact hc
          · refine ⟨hx1, by simp, ?_⟩
            simp only [List.forall_mem_cons, List.not_mem_nil, false_implies, implies_true, and_true]
            exact ⟨by decide, hself (by decide)⟩
          · exact one
          · exact one
    · rcases hx with rfl | rfl <;> cases hs
      · exact ⟨hx1, by simp, by simp⟩
      · refine ⟨hx1, by simp, ?_⟩
        simp only [List.forall_mem_cons, List.not_mem_nil, false_implies, implies_true, and_true]
        exact ⟨by decide, exported_notin (hn.1 m hm) (by decide)⟩
    · cases hs
    · rcases mem_genClientSet.1 hx with rfl | rfl | rfl | ⟨o, ho, rfl⟩ | ⟨t, ht, rfl⟩ <;> cases hs
      · refine ⟨by simpa using goName_client, by simp, ?_⟩
        intro u hu
        rcases List.mem_cons.1 hu with rfl | hu
        · simp
        · obtain ⟨o, ho, rfl⟩ := List.mem_map.1 hu
          obtain ⟨c, r, e, -⟩ := hn.1 o.1 (mem_objects.1 ho).1
          intro hc
          have := congrArg List.length (List.mem_singleton.1 hc)
          rw [GenMsg.lowerClient, e, lowerFirst, List.length_append, List.length_cons] at this
          simp at this
      · exact one
      · refine ⟨?_, by decide, by simp⟩
        simp only [List.forall_mem_cons, List.not_mem_nil, false_implies, implies_true, and_true]
        exact ⟨goName_x, goName_msg⟩

/-- **C118** The function of the package meta that a generated `Get` calls exists exactly if all primary keys are strings or bytes. -/
theorem C118_constructors_iff {l : List Decl} (hg : genFile f = .ret (some l)) :
    (∀ r o p t c, Decl.getByKey r o p t c ∈ l → c = b!"NewStringID" ∨ c = b!"NewBytesID") ↔
    ∀ m ∈ f.messages, ∀ d, m.object = some d → d.singleton = false →
      ∃ x, m.fields.find? (fun f => f.json = d.primaryKey) = some x ∧ (x.kind = .string ∨ x.kind = .bytes) := by
  obtain ⟨-, hok, rfl⟩ := genFile_some.1 hg
  have key : ∀ m ∈ f.messages, ∀ d, m.object = some d → d.singleton = false → ∃ x t, m.fields.find? (fun f => f.json = d.primaryKey) = some x ∧
      goTypeOf x.kind = some t ∧ (parseSaveInfo m d).getD none = some (d.primaryKey, t) := by
    intro m hm d hd hs
    obtain ⟨-, ho⟩ := hok m hm d hd
    rcases ho with ho | ⟨hp, x, t, hx, ht⟩
    · rw [hs] at ho
      cases ho
    · refine ⟨x, t, hx, ht, ?_⟩
      simp only [parseSaveInfo, hs, hp, hx, ht, Bool.false_eq_true, if_false, Option.getD_some]
  have cons : ∀ {k : Kind} {t : Bytes}, goTypeOf k = some t →
      ((metaIDConstructor t = b!"NewStringID" ∨ metaIDConstructor t = b!"NewBytesID") ↔ (k = .string ∨ k = .bytes)) := by
    intro k t h
    cases k <;> simp only [goTypeOf, Option.some.injEq, reduceCtorEq] at h <;> subst h <;> decide
  constructor
  · intro h m hm d hd hs
    obtain ⟨x, t, hx, ht, hk⟩ := key m hm d hd hs
    refine ⟨x, hx, (cons ht).1 (h m.lowerClient m.goName d.primaryKey t _ (mem_object hm hd ?_))⟩
    rw [hk]
    simp [objectClient]
  · intro h r o p t c hx
    rcases mem_fileDecls hx with ⟨m, hm, d, hd, hx⟩ | ⟨m, -, hx⟩ | ⟨m, d, hx⟩ | hx
    · rcases hx with hx | hx | hx
      · cases hx
      · cases hx
      cases hk : (parseSaveInfo m d).getD none with
      | none => rw [hk] at hx; simp [objectClient] at hx
      | some k =>
        obtain ⟨k, t'⟩ := k
        obtain ⟨hs, rfl⟩ := saveInfo_key hk
        obtain ⟨x, t'', hx', ht, hk'⟩ := key m hm d hd hs
        obtain ⟨y, hy, hkind⟩ := h m hm d hd hs
        rw [hx'] at hy
        cases hy
        rw [hk'] at hx
        simp only [objectClient, List.cons_append, List.nil_append, List.mem_cons, List.not_mem_nil, or_false, reduceCtorEq, false_or,
          Decl.getByKey.injEq] at hx
        obtain ⟨-, -, -, rfl, rfl⟩ := hx
        exact (cons ht).2 hkind
    · rcases hx with hx | hx <;> cases hx
    · cases hx
    · rcases mem_genClientSet.1 hx with h | h | h | ⟨o, -, h⟩ | ⟨o, -, h⟩ <;> cases h

/-- A file with one object. -/
def objectFile (name key : Bytes) : GenFile where
  path := b!"file"
  goImportPath := b!"example.com/file"
  package := b!"file"
  messages := [{ name := name, goName := name, fields := [⟨key, .string, .single, []⟩], object := some { primaryKey := key } }]

/-- **C118** The property fails for an object called `Type`: the generated functions have a parameter `type`, which is a keyword. -/
theorem C118_fails : ∃ l, genFile (objectFile b!"Type" b!"id") = .ret (some l) ∧
    GoNamesOk (objectFile b!"Type" b!"id") ∧ GoLetters (objectFile b!"Type" b!"id") ∧
    ∃ x ∈ l, ∃ s, declScope x = some s ∧ ∃ p ∈ s.params, p ∈ goKeywords := by
  refine ⟨fileDecls (objectFile b!"Type" b!"id"), (by rfl), ⟨?_, (by decide)⟩, ?_, ?_⟩
  · intro m hm
    rw [List.mem_singleton.1 (show m ∈ [_] from hm)]
    exact ⟨_, _, rfl, by decide, by decide⟩
  · intro m hm
    rw [List.mem_singleton.1 (show m ∈ [_] from hm)]
    unfold namePart nameStart
    decide
  · exact ⟨.create b!"typeClient" b!"Type" b!"type", (by decide), _, rfl, b!"type", (by decide), by decide⟩

/-- **C118** It fails as well for a primary key called `x`, like the receiver, or `meta`, which hides the package. -/
theorem C118_key_fails (key : Bytes) (hk : key = b!"x" ∨ key = b!"meta") : ∃ l, genFile (objectFile b!"Post" key) = .ret (some l) ∧
    GoNamesOk (objectFile b!"Post" key) ∧ GoLetters (objectFile b!"Post" key) ∧ ¬ ∀ x ∈ l, ∀ s, declScope x = some s → ScopeOk s := by
  have hn : GoNamesOk (objectFile b!"Post" key) := by
    refine ⟨?_, by simp [objectFile]⟩
    intro m hm
    rw [List.mem_singleton.1 (show m ∈ [_] from hm)]
    exact ⟨_, _, rfl, by decide, by decide⟩
  have hl : GoLetters (objectFile b!"Post" key) := by
    intro m hm
    rw [List.mem_singleton.1 (show m ∈ [_] from hm)]
    show ∀ c ∈ b!"Post", namePart c
    unfold namePart nameStart
    decide
  have hg : genFile (objectFile b!"Post" key) = .ret (some (fileDecls (objectFile b!"Post" key))) := by
    rcases hk with rfl | rfl <;> rfl
  refine ⟨_, hg, hn, hl, fun h => ?_⟩
  have := (((C118_scopes_iff hn hl hg).1 h _ (List.mem_singleton.2 rfl) _ rfl).2 rfl).2.1
  rcases hk with rfl | rfl
  · exact this (by decide)
  · exact this (by decide)

/-- Not vacuous: for a file with one object all of this holds. -/
example : ∃ l, genFile (objectFile b!"Post" b!"id") = .ret (some l) ∧ (∀ x ∈ l, ∀ s, declScope x = some s → ScopeOk s) ∧
    Assigned l b!"postClient" b!"PostClient" := by
  have hn : GoNamesOk (objectFile b!"Post" b!"id") := by
    refine ⟨?_, (by decide)⟩
    intro m hm
    rw [List.mem_singleton.1 (show m ∈ [_] from hm)]
    exact ⟨_, _, rfl, by decide, by decide⟩
  have hl : GoLetters (objectFile b!"Post" b!"id") := by
    intro m hm
    rw [List.mem_singleton.1 (show m ∈ [_] from hm)]
    show ∀ c ∈ b!"Post", namePart c
    unfold namePart nameStart
    decide
  refine ⟨fileDecls (objectFile b!"Post" b!"id"), (by rfl), (C118_scopes_iff hn hl (by rfl)).2 ?_, ?_⟩
  · intro m hm d hd
    rw [List.mem_singleton.1 (show m ∈ [_] from hm)] at hd ⊢
    cases hd
    refine ⟨by unfold ParamOk; decide, fun _ => ⟨goName_lit (c := 105) (r := [100]) rfl (by unfold nameStart; decide)
      (by unfold namePart nameStart; decide) (by decide), by decide, by decide⟩⟩
  · exact .inr (.inl ⟨[b!"postClient"], [(b!"postClient", b!"PostClient")], (by decide), (by decide), (by decide), (by decide)⟩)

instance (c : UInt8) : Decidable (nameStart c) := inferInstanceAs (Decidable (_ ∨ _ ∨ _))

instance (c : UInt8) : Decidable (namePart c) := inferInstanceAs (Decidable (_ ∨ _))

instance (m : GenMsg) : Decidable (ParamOk m) := inferInstanceAs (Decidable (_ ∧ _ ∧ _))

/-- A name, decided. -/
def goNameBool : Bytes → Bool
  | [] => false
  | c :: r => decide (nameStart c) && r.all (fun x => decide (namePart x)) && decide (c :: r ≠ b!"_") && decide (c :: r ∉ goKeywords)

theorem goNameBool_ok {b : Bytes} (h : goNameBool b = true) : GoName b := by
  cases b with
  | nil => cases h
  | cons c r =>
    simp only [goNameBool, Bool.and_eq_true, decide_eq_true_eq, List.all_eq_true] at h
    exact ⟨⟨c, r, rfl, h.1.1.1, h.1.1.2⟩, h.1.2, h.2⟩

/-- The conditions of the theorems above, decided. -/
def codeOkBool (f : GenFile) : Bool :=
  f.messages.all fun m =>
    m.goName.all (fun c => decide (namePart c)) &&
    match m.object with
    | none => true
    | some d => decide (ParamOk m) && (d.singleton || (goNameBool d.primaryKey &&
        decide (d.primaryKey ∉ [b!"x", b!"opts", b!"_spfGenO", b!"_spfGenID", b!"_spfGenErr", b!"new", b!"meta", b!"nil"]) &&
        decide (d.primaryKey ≠ m.goName)))

/-- **C118** The functions generated for the files of the repository have the parameters that Go wants. -/
theorem C118_repository : ∀ f ∈ genFiles, GoLetters f ∧
    ∀ m ∈ f.messages, ∀ d, m.object = some d → ParamOk m ∧ (d.singleton = false → KeyOk m d.primaryKey) := by
  have h : genFiles.all codeOkBool = true := by decide +kernel
  intro f hf
  have := List.all_eq_true.1 h f hf
  simp only [codeOkBool, List.all_eq_true, Bool.and_eq_true, decide_eq_true_eq] at this
  refine ⟨fun m hm => (this m hm).1, fun m hm d hd => ?_⟩
  have := (this m hm).2
  rw [hd] at this
  simp only [Bool.and_eq_true, Bool.or_eq_true, decide_eq_true_eq] at this
  refine ⟨this.1, fun hs => ?_⟩
  rcases this.2 with h | h
  · rw [hs] at h
    cases h
  · exact ⟨goNameBool_ok h.1.1, h.1.2, h.2⟩

end Verif.Props
