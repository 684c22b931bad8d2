import Verif.Proofs.OpenApiDoc
import Verif.Proofs.Bytes
/-!
# The document does not depend on the order of iteration
-/

namespace Verif

open Spec

variable {env : DocEnv} {ord : MapOrder}

/-! ## Sorting by name -/

/-- By name. -/
def NameLt {α : Type} (a b : Bytes × α) : Prop := Bytes.lt a.1 b.1 = true

theorem insertNamed_sorted {α : Type} {a : Bytes × α} : ∀ {l : List (Bytes × α)}, l.Pairwise NameLt →
    (∀ b ∈ l, b.1 ≠ a.1) → (insertNamed a l).Pairwise NameLt
  | [], _, _ => by simp [insertNamed]
  | b :: l, hp, hne => by
    rw [insertNamed]
    rw [List.pairwise_cons] at hp
    split
    · rename_i h
      rw [List.pairwise_cons]
      refine ⟨?_, insertNamed_sorted hp.2 fun c hc => hne c (List.mem_cons_of_mem _ hc)⟩
      intro c hc
      rcases mem_insertNamed.1 hc with rfl | hc
      · exact h
      · exact hp.1 c hc
    · rename_i h
      have hab : NameLt a b := by
        cases hlt : Bytes.lt a.1 b.1 with
        | true => exact hlt
        | false => exact absurd (Bytes.lt_total hlt (by simpa using h)).symm (hne b List.mem_cons_self)
      rw [List.pairwise_cons, List.pairwise_cons]
      refine ⟨?_, hp⟩
      intro c hc
      rcases List.mem_cons.1 hc with rfl | hc
      · exact hab
      · exact Bytes.lt_trans hab (hp.1 c hc)

theorem sortNamed_sorted {α : Type} : ∀ {l : List (Bytes × α)}, (l.map (·.1)).Nodup → (sortNamed l).Pairwise NameLt
  | [], _ => by simp [sortNamed]
  | a :: l, h => by
    rw [List.map_cons, List.nodup_cons] at h
    refine insertNamed_sorted (sortNamed_sorted h.2) ?_
    intro b hb he
    exact h.1 (he ▸ List.mem_map_of_mem (mem_sortNamed.1 hb))

theorem sorted_ext {α : Type} : ∀ {l m : List (Bytes × α)}, l.Pairwise NameLt → m.Pairwise NameLt →
    (∀ e, e ∈ l ↔ e ∈ m) → l = m
  | [], [], _, _, _ => rfl
  | [], b :: m, _, _, h => absurd ((h b).2 List.mem_cons_self) (by simp)
  | a :: l, [], _, _, h => absurd ((h a).1 List.mem_cons_self) (by simp)
  | a :: l, b :: m, hl, hm, h => by
    rw [List.pairwise_cons] at hl hm
    have irr : ∀ x : Bytes × α, ¬ NameLt x x := fun x hx => by
      unfold NameLt at hx; rw [Bytes.lt_irrefl] at hx; cases hx
    have hab : a = b := by
      rcases List.mem_cons.1 ((h a).1 List.mem_cons_self) with h1 | h1
      · exact h1
      · rcases List.mem_cons.1 ((h b).2 List.mem_cons_self) with h2 | h2
        · exact h2.symm
        · exact absurd (Bytes.lt_trans (hm.1 a h1) (hl.1 b h2)) (irr b)
    subst hab
    congr 1
    refine sorted_ext hl.2 hm.2 fun e => ?_
    constructor
    · intro he
      rcases List.mem_cons.1 ((h e).1 (List.mem_cons_of_mem _ he)) with rfl | h'
      · exact absurd (hl.1 e he) (irr e)
      · exact h'
    · intro he
      rcases List.mem_cons.1 ((h e).2 (List.mem_cons_of_mem _ he)) with rfl | h'
      · exact absurd (hm.1 e he) (irr e)
      · exact h'

theorem sortNamed_ext {α : Type} {l m : List (Bytes × α)} (hl : (l.map (·.1)).Nodup) (hm : (m.map (·.1)).Nodup)
    (h : ∀ e, e ∈ l ↔ e ∈ m) : sortNamed l = sortNamed m :=
  sorted_ext (sortNamed_sorted hl) (sortNamed_sorted hm) fun e => by rw [mem_sortNamed, mem_sortNamed, h]

/-! ## Operations -/

theorem addOperation_names {op : Operation} {path : Bytes} : ∀ {l : List (Bytes × Operation)},
    (l.map (·.1)).Nodup → ((addOperation op path l).map (·.1)).Nodup ∧
      ∀ e, e ∈ addOperation op path l ↔ e = (path, op) ∨ (e ∈ l ∧ e.1 ≠ path)
  | [], _ => by simp [addOperation]
  | (p, o) :: l, h => by
    rw [List.map_cons, List.nodup_cons] at h
    rw [addOperation]
    split
    · rename_i hp
      subst hp
      refine ⟨List.nodup_cons.2 h, fun e => ?_⟩
      simp only [List.mem_cons]
      constructor
      · rintro (rfl | he)
        · exact Or.inl rfl
        · exact Or.inr ⟨Or.inr he, fun hh => h.1 (List.mem_map.2 ⟨e, he, hh⟩)⟩
      · rintro (rfl | ⟨rfl | he, hne⟩)
        · exact Or.inl rfl
        · exact absurd rfl hne
        · exact Or.inr he
    · rename_i hp
      obtain ⟨h1, h2⟩ := addOperation_names (op := op) (path := path) h.2
      refine ⟨List.nodup_cons.2 ⟨?_, h1⟩, fun e => ?_⟩
      · intro hm
        obtain ⟨e, he, hep⟩ := List.mem_map.1 hm
        rcases (h2 e).1 he with rfl | ⟨he, _⟩
        · exact hp hep.symm
        · exact h.1 (List.mem_map.2 ⟨e, he, hep⟩)
      · rw [List.mem_cons, h2, List.mem_cons]
        constructor
        · rintro (rfl | h' | ⟨h', hne⟩)
          · exact Or.inr ⟨Or.inl rfl, hp⟩
          · exact Or.inl h'
          · exact Or.inr ⟨Or.inr h', hne⟩
        · rintro (h' | ⟨rfl | h', hne⟩)
          · exact Or.inr (Or.inl h')
          · exact Or.inl rfl
          · exact Or.inr (Or.inr ⟨h', hne⟩)

theorem addRawOps_spec : ∀ (ops : List RawOp) {l : List (Bytes × Operation)}, (l.map (·.1)).Nodup →
    ((addRawOps l ops).map (·.1)).Nodup ∧ ∀ e, e ∈ addRawOps l ops ↔
      (∃ r, LastOf ops r ∧ e = (r.path, r.operation)) ∨ (e ∈ l ∧ ∀ r ∈ ops, r.path ≠ e.1)
  | [], l, h => ⟨h, fun e => by
      show e ∈ l ↔ _
      constructor
      · exact fun he => Or.inr ⟨he, by simp⟩
      · rintro (⟨r, ⟨pre, post, hr, _⟩, _⟩ | h')
        · simp at hr
        · exact h'.1⟩
  | r :: rs, l, h => by
    obtain ⟨h1, h2⟩ := addOperation_names (op := r.operation) (path := r.path) h
    obtain ⟨h3, h4⟩ := addRawOps_spec rs h1
    refine ⟨h3, fun e => ?_⟩
    show e ∈ addRawOps (addOperation r.operation r.path l) rs ↔ _
    rw [h4, h2]
    constructor
    · rintro (⟨r', ⟨pre, post, hr, hp⟩, he⟩ | ⟨rfl | ⟨he, hne⟩, hp⟩)
      · exact Or.inl ⟨r', ⟨r :: pre, post, by rw [hr]; rfl, hp⟩, he⟩
      · exact Or.inl ⟨r, ⟨[], rs, rfl, hp⟩, rfl⟩
      · refine Or.inr ⟨he, ?_⟩
        intro r' hr'
        rcases List.mem_cons.1 hr' with rfl | hr'
        · exact hne.symm
        · exact hp r' hr'
    · rintro (⟨r', ⟨pre, post, hr, hp⟩, he⟩ | ⟨he, hp⟩)
      · cases pre with
        | nil =>
          obtain ⟨rfl, rfl⟩ := List.cons.inj hr
          exact Or.inr ⟨Or.inl he, by rw [he]; exact hp⟩
        | cons a pre =>
          obtain ⟨rfl, rfl⟩ := List.cons.inj hr
          exact Or.inl ⟨r', ⟨pre, post, rfl, hp⟩, he⟩
      · exact Or.inr ⟨Or.inr ⟨he, (hp r List.mem_cons_self).symm⟩, fun r' hr' => hp r' (List.mem_cons_of_mem _ hr')⟩

/-- Every operation, or a later one for its path, is the last one for the path. -/
theorem exists_lastOf : ∀ (ops : List RawOp), ∀ r ∈ ops, ∃ r', LastOf ops r' ∧ r'.path = r.path
  | [], _, h => by cases h
  | a :: ops, r, h => by
    by_cases hr : ∃ r' ∈ ops, r'.path = r.path
    · obtain ⟨r', hr', he⟩ := hr
      obtain ⟨r'', ⟨pre, post, h1, h2⟩, he'⟩ := exists_lastOf ops r' hr'
      exact ⟨r'', ⟨a :: pre, post, by rw [h1]; rfl, h2⟩, by rw [he', he]⟩
    · rcases List.mem_cons.1 h with rfl | h
      · exact ⟨r, ⟨[], ops, rfl, fun r' hr' he => hr ⟨r', hr', he⟩⟩, rfl⟩
      · exact absurd ⟨r, h, rfl⟩ hr

theorem passes_spec {ops : List RawOp} : ∀ (files : List DocFile) {l : List (Bytes × Operation)},
    (l.map (·.1)).Nodup → (∀ e ∈ l, ∃ r ∈ ops, r.path = e.1) → files ≠ [] →
    ((files.foldl (fun ps _ => addRawOps ps ops) l).map (·.1)).Nodup ∧
    ∀ e, e ∈ files.foldl (fun ps _ => addRawOps ps ops) l ↔ ∃ r, LastOf ops r ∧ e = (r.path, r.operation)
  | [], _, _, _, h => absurd rfl h
  | f :: fs, l, h, hl, _ => by
    obtain ⟨h1, h2⟩ := addRawOps_spec ops h
    have h3 : ∀ e, e ∈ addRawOps l ops ↔ ∃ r, LastOf ops r ∧ e = (r.path, r.operation) := by
      intro e
      rw [h2]
      constructor
      · rintro (h' | ⟨he, hne⟩)
        · exact h'
        · obtain ⟨r, hr, hre⟩ := hl e he
          exact absurd hre (hne r hr)
      · exact Or.inl
    rw [List.foldl_cons]
    cases fs with
    | nil => exact ⟨h1, h3⟩
    | cons f' fs =>
      refine passes_spec (f' :: fs) h1 ?_ (by simp)
      intro e he
      obtain ⟨r, ⟨pre, post, hr, _⟩, rfl⟩ := (h3 e).1 he
      exact ⟨r, by rw [hr]; simp, rfl⟩

/-! ## The title -/

theorem title_spec {s : List Bytes} (hs : s ≠ []) : ∀ (files : List DocFile),
    (∀ f ∈ files, f.services = [] ∨ f.services = s) →
    docTitle files = if (∃ f ∈ files, f.services ≠ []) then s.getLastD [] else []
  | [], _ => by simp [docTitle]
  | f :: fs, h => by
    have ih := title_spec hs fs fun f hf => h f (List.mem_cons_of_mem _ hf)
    unfold docTitle at ih ⊢
    rw [List.flatMap_cons]
    by_cases hfs : fs.flatMap DocFile.services = []
    · rw [hfs, List.append_nil]
      rcases h f List.mem_cons_self with hf | hf
      · have hno : ¬ ∃ g ∈ f :: fs, g.services ≠ [] := by
          rintro ⟨g, hg, hne⟩
          rcases List.mem_cons.1 hg with rfl | hg
          · exact hne hf
          · exact hne (List.flatMap_eq_nil_iff.1 hfs g hg)
        rw [if_neg hno, hf]; rfl
      · rw [if_pos ⟨f, List.mem_cons_self, by rw [hf]; exact hs⟩, hf]
    · have hex : ∃ g ∈ fs, g.services ≠ [] := by
        by_contra hno
        apply hfs
        rw [List.flatMap_eq_nil_iff]
        intro g hg
        by_contra hne
        exact hno ⟨g, hg, hne⟩
      rw [if_pos hex] at ih
      obtain ⟨g, hg, hne⟩ := hex
      rw [if_pos ⟨g, List.mem_cons_of_mem _ hg, hne⟩, ← ih]
      rw [List.getLastD_eq_getLast?, List.getLastD_eq_getLast?, List.getLast?_append_of_ne_nil _ hfs]

/-! ## The files of forged lists -/

mutual
theorem addDep_append : ∀ (f : DocFile) (acc : List DocFile), ∃ l, addDep acc f = acc ++ l ∧ ∀ h ∈ l, Within f h
  | .mk path package messages services imports, acc => by
    rw [addDep]
    split
    · exact ⟨[], by simp, by simp⟩
    · obtain ⟨l, h1, h2⟩ := addDeps_append imports acc
      refine ⟨l ++ [.mk path package messages services imports], by rw [h1, List.append_assoc], ?_⟩
      intro h hh
      rcases List.mem_append.1 hh with hh | hh
      · obtain ⟨i, hi, hw⟩ := h2 h hh
        exact .step (g := i) hi hw
      · rw [List.mem_singleton.1 hh]; exact .refl _

theorem addDeps_append : ∀ (fs : List DocFile) (acc : List DocFile), ∃ l, addDeps acc fs = acc ++ l ∧
    ∀ h ∈ l, ∃ f ∈ fs, Within f h
  | [], acc => ⟨[], by rw [addDeps, List.append_nil], by simp⟩
  | f :: fs, acc => by
    rw [addDeps]
    obtain ⟨l, h1, h2⟩ := addDep_append f acc
    obtain ⟨l', k1, k2⟩ := addDeps_append fs (addDep acc f)
    refine ⟨l ++ l', by rw [k1, h1, List.append_assoc], ?_⟩
    intro h hh
    rcases List.mem_append.1 hh with hh | hh
    · exact ⟨f, List.mem_cons_self, h2 h hh⟩
    · obtain ⟨f', hf', hw⟩ := k2 h hh
      exact ⟨f', List.mem_cons_of_mem _ hf', hw⟩
end

/-- The files with the path. -/
def filesAt (p : Bytes) (files : List DocFile) : List DocFile := files.filter fun f => f.path = p

theorem filesAt_append (p : Bytes) (l m : List DocFile) : filesAt p (l ++ m) = filesAt p l ++ filesAt p m := by
  unfold filesAt; rw [List.filter_append]

theorem filesAt_nil {p : Bytes} {l : List DocFile} : filesAt p l = [] ↔ ∀ f ∈ l, f.path ≠ p := by
  unfold filesAt; rw [List.filter_eq_nil_iff]; simp

theorem take_one_append {α : Type} (l m : List α) : (l.take 1 ++ m).take 1 = (l ++ m).take 1 := by
  cases l with
  | nil => rfl
  | cons a l => rfl

/-- A file that no other imports is taken if it is the first of its path. -/
theorem addDep_filesAt {p : Bytes} {f : DocFile} (hi : ∀ i ∈ f.imports, ∀ h, Within i h → h.path ≠ p)
    {acc : List DocFile} (ha : filesAt p acc = (filesAt p acc).take 1) :
    filesAt p (addDep acc f) = (filesAt p (acc ++ [f])).take 1 := by
  cases f with
  | mk path package messages services imports =>
    rw [addDep]
    split
    · rename_i hm
      rw [filesAt_append]
      cases hacc : filesAt p acc with
      | cons x xs => rw [hacc] at ha; rw [ha]; rfl
      | nil =>
        have hne : path ≠ p := by
          obtain ⟨f, hf, he⟩ := List.mem_map.1 hm
          rw [← he]; exact filesAt_nil.1 hacc f hf
        have : filesAt p [DocFile.mk path package messages services imports] = [] := by
          rw [filesAt_nil]
          intro f hf
          rw [List.mem_singleton.1 hf]
          exact hne
        rw [this]; rfl
    · rename_i hm
      obtain ⟨l, h1, h2⟩ := addDeps_append imports acc
      have hl : filesAt p l = [] := filesAt_nil.2 fun h hh => by
        obtain ⟨i, hi', hw⟩ := h2 h hh
        exact hi i hi' h hw
      rw [h1, filesAt_append, filesAt_append, filesAt_append, hl, List.append_nil]
      by_cases hp : path = p
      · have hacc : filesAt p acc = [] := filesAt_nil.2 fun f hf he => hm (by
          rw [hp, ← he]; exact List.mem_map_of_mem hf)
        rw [hacc]
        have : filesAt p [DocFile.mk path package messages services imports] =
            [.mk path package messages services imports] := by
          simp [filesAt, DocFile.path, hp]
        rw [this]; rfl
      · have : filesAt p [DocFile.mk path package messages services imports] = [] := by
          rw [filesAt_nil]
          intro f hf
          rw [List.mem_singleton.1 hf]
          exact hp
        rw [this, List.append_nil]
        exact ha

theorem addDeps_filesAt {p : Bytes} : ∀ {fs acc : List DocFile},
    (∀ f ∈ fs, ∀ i ∈ f.imports, ∀ h, Within i h → h.path ≠ p) → filesAt p acc = (filesAt p acc).take 1 →
    filesAt p (addDeps acc fs) = (filesAt p (acc ++ fs)).take 1
  | [], acc, _, ha => by rw [addDeps, List.append_nil]; exact ha
  | f :: fs, acc, h, ha => by
    have h1 := addDep_filesAt (h f List.mem_cons_self) ha
    rw [addDeps, addDeps_filesAt (fun f' hf' => h f' (List.mem_cons_of_mem _ hf')) (by rw [h1, List.take_take]; rfl),
      filesAt_append, h1, take_one_append, ← filesAt_append, List.append_assoc]
    rfl

/-! ## The messages of forged lists -/

/-- What occurs in the list of an object, besides the list itself, occurs in the object. -/
theorem reaches_forgeList {objs : List ApiObject} (hn : NamesKnown env) (hu : NamesUnique env objs) {o : ApiObject}
    (ho : o ∈ objs) (hs : o.schema.singleton = false) {x : MsgOf} (h : Reaches env (forgeList o.msg) x) :
    x = forgeList o.msg ∨ Reaches env o.msg x := by
  rcases Relation.ReflTransGen.cases_head h with rfl | ⟨y, ⟨f, hf, _, rfl⟩, hy⟩
  · exact Or.inl rfl
  · right
    obtain rfl : f = ⟨b!"list", .message, .list, o.msg.desc.fullName⟩ := List.mem_singleton.1 hf
    have hans : forgeList o.msg ∈ answers o := by unfold answers; rw [hs]; simp
    have hans' : o.msg ∈ answers o := by unfold answers; rw [hs]; simp
    have : env o.msg.desc.fullName = o.msg := hu _ _
      ⟨o, ho, _, hans, Relation.ReflTransGen.single ⟨_, hf, Or.inl rfl, rfl⟩⟩
      ⟨o, ho, _, hans', Relation.ReflTransGen.refl⟩ (hn _)
    rw [this] at hy
    exact hy

theorem answered_cases {objs : List ApiObject} (hn : NamesKnown env) (hu : NamesUnique env objs) {x : MsgOf} :
    Answered env objs x ↔ (∃ o ∈ objs, Reaches env o.msg x) ∨
      ∃ o ∈ objs, o.schema.singleton = false ∧ x = forgeList o.msg := by
  constructor
  · rintro ⟨o, ho, r, hr, h⟩
    unfold answers at hr
    split at hr
    · rw [List.mem_singleton.1 hr] at h; exact Or.inl ⟨o, ho, h⟩
    · rename_i hs
      rcases List.mem_cons.1 hr with rfl | hr
      · exact Or.inl ⟨o, ho, h⟩
      · rw [List.mem_singleton.1 hr] at h
        rcases reaches_forgeList hn hu ho (by simpa using hs) h with h | h
        · exact Or.inr ⟨o, ho, by simpa using hs, h⟩
        · exact Or.inl ⟨o, ho, h⟩
  · rintro (⟨o, ho, h⟩ | ⟨o, ho, hs, rfl⟩)
    · refine ⟨o, ho, o.msg, ?_, h⟩
      unfold answers; split <;> simp
    · refine ⟨o, ho, _, ?_, Relation.ReflTransGen.refl⟩
      unfold answers; rw [hs]; simp

/-- The file of the forged list. -/
theorem forgeList_path (m : MsgOf) : (forgeList m).file.path = b!"dynamic/" ++ m.file.path := rfl

theorem forgeList_imports (m : MsgOf) : (forgeList m).file.imports = [m.file] := rfl

theorem forgeList_services (m : MsgOf) : (forgeList m).file.services = [] := rfl

theorem forgeList_messages (m : MsgOf) :
    (forgeList m).file.messages = [((forgeList m).name, (forgeList m).desc)] := rfl

/-- The objects with lists. -/
def listed (objs : List ApiObject) : List ApiObject := objs.filter fun o => !o.schema.singleton

theorem mem_listed {objs : List ApiObject} {o : ApiObject} :
    o ∈ listed objs ↔ o ∈ objs ∧ o.schema.singleton = false := by
  unfold listed; rw [List.mem_filter]; simp

/-- The first file with a path. -/
def firstAt (p : Bytes) (files : List DocFile) : Option DocFile := (filesAt p files).head?

theorem firstAt_append (p : Bytes) (l m : List DocFile) : firstAt p (l ++ m) = (firstAt p l).or (firstAt p m) := by
  unfold firstAt; rw [filesAt_append, List.head?_append]

theorem firstAt_none {p : Bytes} {l : List DocFile} : firstAt p l = none ↔ ∀ f ∈ l, f.path ≠ p := by
  unfold firstAt; rw [List.head?_eq_none_iff, filesAt_nil]

theorem mem_of_firstAt {p : Bytes} {l : List DocFile} {f : DocFile} (h : firstAt p l = some f) : f ∈ l ∧ f.path = p := by
  have := List.mem_of_head? h
  unfold filesAt at this
  rw [List.mem_filter] at this
  exact ⟨this.1, by simpa using this.2⟩

/-- The first file of a message with the path of a forged one is that of the first object with a
list and the path. -/
theorem objects_firstAt (hn : NamesKnown env) (ho : IsOrder ord) {all : List ApiObject} (hu : NamesUnique env all)
    (hf : FilesOk env all) {fuel : Nat} {p : Bytes} (hp : b!"dynamic/" <+: p) :
    ∀ (objs : List ApiObject) {pre : List ApiObject} {g g' : Gen}, pre ++ objs = all →
      Requires env (pre.flatMap answers) g → addApiObjects env ord fuel g objs = some g' →
      firstAt p (g'.objects.map MsgOf.file) = (firstAt p (g.objects.map MsgOf.file)).or
        (firstAt p ((listed objs).map fun o => (forgeList o.msg).file))
  | [], pre, g, g', _, h, e => by
    rw [addApiObjects] at e
    obtain rfl := Option.some.inj e
    simp [listed, firstAt, filesAt]
  | o :: os, pre, g, g', hall, h, e => by
    rw [addApiObjects] at e
    cases hr : addApiObject env ord fuel g o with
    | none => rw [hr] at e; cases e
    | some g1 =>
      rw [hr] at e
      have hoall : o ∈ all := by rw [← hall]; simp
      obtain ⟨h1, h2, l, h3, h4⟩ := addApiObject_requires hn ho h hr
      have ih := objects_firstAt hn ho hu hf hp os (pre := pre ++ [o]) (by simpa using hall)
        (by simpa using h1) e
      rw [ih, h3, List.map_append, firstAt_append, Option.or_assoc]
      have hl : ∀ x ∈ l, x.file.path = p → o.schema.singleton = false ∧ x = forgeList o.msg := by
        intro x hx hxp
        obtain ⟨r, hr', hreach⟩ := h4 x hx
        have hcomp : ¬ Reaches env o.msg x := fun hc =>
          hf.compiled x.file ⟨o, hoall, x, hc, .refl _⟩ (by rw [hxp]; exact hp)
        unfold answers at hr'
        split at hr'
        · rw [List.mem_singleton.1 hr'] at hreach
          exact absurd hreach hcomp
        · rename_i hs
          rcases List.mem_cons.1 hr' with rfl | hr'
          · exact absurd hreach hcomp
          · rw [List.mem_singleton.1 hr'] at hreach
            rcases reaches_forgeList hn hu hoall (by simpa using hs) hreach with h' | h'
            · exact ⟨by simpa using hs, h'⟩
            · exact absurd h' hcomp
      cases hg : firstAt p (g.objects.map MsgOf.file) with
      | some f => rfl
      | none =>
        rw [Option.none_or, Option.none_or]
        have hsplit : listed (o :: os) = listed [o] ++ listed os := by
          unfold listed; rw [← List.filter_append]; rfl
        rw [hsplit, List.map_append, firstAt_append]
        congr 1
        by_cases hop : o.schema.singleton = false ∧ (forgeList o.msg).file.path = p
        · have hlo : listed [o] = [o] := by unfold listed; simp [hop.1]
          have hin : forgeList o.msg ∈ g1.objects := by
            have hroot := h1.rooted (forgeList o.msg) (List.mem_append_right _ (by
              unfold answers; rw [hop.1]; simp))
            obtain ⟨y, hy, hye⟩ := (h1.names _).1 hroot
            obtain ⟨r, hr', hry⟩ := h1.reached y hy
            have hya : Answered env all y := by
              rw [answered_iff]
              refine ⟨r, ?_, hry⟩
              rw [← hall, List.flatMap_append, List.flatMap_cons]
              rcases List.mem_append.1 hr' with hr' | hr'
              · exact List.mem_append_left _ hr'
              · exact List.mem_append_right _ (List.mem_append_left _ hr')
            rw [← hu y (forgeList o.msg) hya ⟨o, hoall, _, by unfold answers; rw [hop.1]; simp,
              Relation.ReflTransGen.refl⟩ hye]
            exact hy
          have hinl : forgeList o.msg ∈ l := by
            rw [h3] at hin
            rcases List.mem_append.1 hin with hin | hin
            · exact absurd hop.2 (firstAt_none.1 hg _ (List.mem_map_of_mem hin))
            · exact hin
          rw [hlo]
          have hfo : firstAt p (List.map (fun o => (forgeList o.msg).file) [o]) = some (forgeList o.msg).file := by
            unfold firstAt filesAt
            rw [List.map_singleton, List.filter_cons_of_pos (by simpa using hop.2)]
            rfl
          rw [hfo]
          cases hfl : firstAt p (l.map MsgOf.file) with
          | none => exact absurd hop.2 (firstAt_none.1 hfl _ (List.mem_map_of_mem hinl))
          | some f =>
            obtain ⟨hfm, hfp⟩ := mem_of_firstAt hfl
            obtain ⟨x, hx, rfl⟩ := List.mem_map.1 hfm
            rw [(hl x hx hfp).2]
        · have h1' : firstAt p (l.map MsgOf.file) = none := by
            rw [firstAt_none]
            intro f hfm hfp
            obtain ⟨x, hx, rfl⟩ := List.mem_map.1 hfm
            obtain ⟨hs, rfl⟩ := hl x hx hfp
            exact hop ⟨hs, hfp⟩
          have h2' : firstAt p ((listed [o]).map fun o => (forgeList o.msg).file) = none := by
            rw [firstAt_none]
            intro f hfm hfp
            obtain ⟨o', ho', rfl⟩ := List.mem_map.1 hfm
            obtain ⟨ho', hs⟩ := mem_listed.1 ho'
            rw [List.mem_singleton.1 ho'] at hs hfp
            exact hop ⟨hs, hfp⟩
          rw [h1', h2']

theorem firstAt_listed {objs : List ApiObject} {p : Bytes} {h : DocFile} :
    firstAt p ((listed objs).map fun o => (forgeList o.msg).file) = some h ↔
      ∃ o, FirstOfFile objs o ∧ h = (forgeList o.msg).file ∧ h.path = p := by
  induction objs with
  | nil =>
    constructor
    · intro h; simp [listed, firstAt, filesAt] at h
    · rintro ⟨o, ⟨pre, post, ho, _⟩, _⟩; simp at ho
  | cons a objs ih =>
    have hsplit : listed (a :: objs) = listed [a] ++ listed objs := by
      unfold listed; rw [← List.filter_append]; rfl
    rw [hsplit, List.map_append, firstAt_append]
    by_cases ha : a.schema.singleton = false ∧ (forgeList a.msg).file.path = p
    · have hlo : listed [a] = [a] := by unfold listed; simp [ha.1]
      have hfo : firstAt p (List.map (fun o => (forgeList o.msg).file) [a]) = some (forgeList a.msg).file := by
        unfold firstAt filesAt
        rw [List.map_singleton, List.filter_cons_of_pos (by simpa using ha.2)]
        rfl
      rw [hlo, hfo]
      constructor
      · intro he
        have he := Option.some.inj he
        exact ⟨a, ⟨[], objs, rfl, ha.1, by simp⟩, he.symm, by rw [← he]; exact ha.2⟩
      · rintro ⟨o, ⟨pre, post, ho, hs, hpre⟩, rfl, hp⟩
        cases pre with
        | nil => rw [(List.cons.inj ho).1]; rfl
        | cons b pre =>
          obtain ⟨rfl, _⟩ := List.cons.inj ho
          refine absurd ?_ (hpre a List.mem_cons_self ha.1)
          rw [← ha.2, forgeList_path, forgeList_path] at hp
          exact (List.append_cancel_left hp).symm
    · have h1 : firstAt p ((listed [a]).map fun o => (forgeList o.msg).file) = none := by
        rw [firstAt_none]
        intro f hfm hfp
        obtain ⟨o', ho', rfl⟩ := List.mem_map.1 hfm
        obtain ⟨ho', hs⟩ := mem_listed.1 ho'
        rw [List.mem_singleton.1 ho'] at hs hfp
        exact ha ⟨hs, hfp⟩
      rw [h1, Option.none_or, ih]
      constructor
      · rintro ⟨o, ⟨pre, post, rfl, hs, hpre⟩, rfl, hp⟩
        refine ⟨o, ⟨a :: pre, post, rfl, hs, ?_⟩, rfl, hp⟩
        intro o' ho' hs'
        rcases List.mem_cons.1 ho' with rfl | ho'
        · intro he
          refine ha ⟨hs', ?_⟩
          rw [← hp, forgeList_path, forgeList_path, he]
        · exact hpre o' ho' hs'
      · rintro ⟨o, ⟨pre, post, ho, hs, hpre⟩, rfl, hp⟩
        cases pre with
        | nil =>
          obtain ⟨rfl, _⟩ := List.cons.inj ho
          exact absurd ⟨hs, hp⟩ ha
        | cons b pre =>
          obtain ⟨rfl, rfl⟩ := List.cons.inj ho
          exact ⟨o, ⟨pre, post, rfl, hs, fun o' ho' => hpre o' (List.mem_cons_of_mem _ ho')⟩, rfl, hp⟩

theorem within_trans {a b c : DocFile} (h : Within a b) (h' : Within b c) : Within a c := by
  induction h with
  | refl => exact h'
  | step hi _ ih => exact .step hi (ih h')

/-- The files of the document: those of the state objects and, of the forged ones, the first with its
path. -/
theorem mem_files_lists (hn : NamesKnown env) (ho : IsOrder ord) {objs : List ApiObject} (hu : NamesUnique env objs)
    (hf : FilesOk env objs) {fuel : Nat} {g : Gen} (e : addApiObjects env ord fuel {} objs = some g) (h : DocFile) :
    h ∈ g.files ↔ Compiled env objs h ∨ ∃ o, FirstOfFile objs o ∧ h = (forgeList o.msg).file := by
  have hr := (build_requires hn ho e).1
  have hobj : ∀ f, f ∈ g.objects.map MsgOf.file ↔ ∃ x, Answered env objs x ∧ x.file = f := by
    intro f
    rw [List.mem_map]
    constructor
    · rintro ⟨x, hx, rfl⟩; exact ⟨x, (mem_objects_iff hn hu hr x).1 hx, rfl⟩
    · rintro ⟨x, hx, rfl⟩; exact ⟨x, (mem_objects_iff hn hu hr x).2 hx, rfl⟩
  have hcases : ∀ f, Needed env objs f → Compiled env objs f ∨
      ∃ o ∈ objs, o.schema.singleton = false ∧ f = (forgeList o.msg).file := by
    rintro f ⟨x, hx, hw⟩
    rcases (answered_cases hn hu).1 hx with ⟨o, ho', hreach⟩ | ⟨o, ho', hs, rfl⟩
    · exact Or.inl ⟨o, ho', x, hreach, hw⟩
    · cases hw with
      | refl => exact Or.inr ⟨o, ho', hs, rfl⟩
      | step hi hw =>
        rw [forgeList_imports, List.mem_singleton] at hi
        rw [hi] at hw
        exact Or.inl ⟨o, ho', o.msg, Relation.ReflTransGen.refl, hw⟩
  have himp : ∀ f ∈ g.objects.map MsgOf.file, ∀ i ∈ f.imports, ∀ h, Within i h → Compiled env objs h := by
    intro f hfm i hi h hw
    obtain ⟨x, hx, rfl⟩ := (hobj f).1 hfm
    rcases (answered_cases hn hu).1 hx with ⟨o, ho', hreach⟩ | ⟨o, ho', hs, rfl⟩
    · exact ⟨o, ho', x, hreach, .step hi hw⟩
    · rw [forgeList_imports, List.mem_singleton] at hi
      rw [hi] at hw
      exact ⟨o, ho', o.msg, Relation.ReflTransGen.refl, hw⟩
  have hdyn : ∀ p, b!"dynamic/" <+: p → ∀ h, (h ∈ g.files ∧ h.path = p) ↔
      ∃ o, FirstOfFile objs o ∧ h = (forgeList o.msg).file ∧ h.path = p := by
    intro p hp h
    have h1 : filesAt p g.files = (filesAt p (g.objects.map MsgOf.file)).take 1 := by
      unfold Gen.files
      have := addDeps_filesAt (p := p) (fs := g.objects.map MsgOf.file) (acc := [])
        (fun f hfm i hi h hw hhp => hf.compiled h (himp f hfm i hi h hw) (by rw [hhp]; exact hp)) rfl
      rw [this, List.nil_append]
    have h2 := objects_firstAt hn ho hu hf hp objs (pre := []) rfl requires_empty e
    have h3 : firstAt p (List.map MsgOf.file ({} : Gen).objects) = none := rfl
    rw [h3, Option.none_or] at h2
    have h4 : (h ∈ g.files ∧ h.path = p) ↔ h ∈ filesAt p g.files := by
      unfold filesAt; rw [List.mem_filter]; simp
    rw [h4, h1, ← firstAt_listed, ← h2]
    unfold firstAt
    cases filesAt p (g.objects.map MsgOf.file) with
    | nil => simp
    | cons a l => simp [eq_comm]
  constructor
  · intro hm
    rcases hcases h (needed_of_mem_files hr hm) with h' | ⟨o, ho', hs, he⟩
    · exact Or.inl h'
    · obtain ⟨o', h1, h2, _⟩ := (hdyn h.path (by rw [he, forgeList_path]; exact List.prefix_append _ _) h).1 ⟨hm, rfl⟩
      exact Or.inr ⟨o', h1, h2⟩
  · rintro (⟨o, ho', x, hreach, hw⟩ | ⟨o, h1, h2⟩)
    · have key : ∀ f, Compiled env objs f → f.path ∈ g.files.map DocFile.path → f ∈ g.files := by
        intro f hfc hm
        obtain ⟨f', hf', he⟩ := List.mem_map.1 hm
        rcases hcases f' (needed_of_mem_files hr hf') with h' | ⟨o', _, _, he'⟩
        · rw [hf.unique f f' hfc h' he.symm]; exact hf'
        · refine absurd ?_ (hf.compiled f hfc)
          rw [← he, he', forgeList_path]
          exact List.prefix_append _ _
      have hin := addDeps_imports (g.objects.map MsgOf.file) [] (by intro f hf; cases hf)
      have hx : x.file ∈ g.files := key _ ⟨o, ho', x, hreach, .refl _⟩
        (addDeps_path _ [] _ ((hobj _).2 ⟨x, (answered_cases hn hu).2 (Or.inl ⟨o, ho', hreach⟩), rfl⟩))
      have down : ∀ a b, Within a b → Within x.file a → a ∈ g.files → b ∈ g.files := by
        intro a b hab
        induction hab with
        | refl => exact fun _ h => h
        | step hi _ ih =>
          intro hxa ha
          have hxi := within_trans hxa (.step hi (.refl _))
          exact ih hxi (key _ ⟨o, ho', x, hreach, hxi⟩ (hin _ ha _ hi))
      exact down _ _ hw (.refl _) hx
    · exact ((hdyn h.path (by rw [h2, forgeList_path]; exact List.prefix_append _ _) h).2 ⟨o, h1, h2, rfl⟩).1

/-! ## The document -/

theorem files_ne_nil {objs : List ApiObject} {g : Gen} (h : Requires env (objs.flatMap answers) g) (ho : objs ≠ []) :
    g.files ≠ [] := by
  obtain ⟨o, os, rfl⟩ := List.exists_cons_of_ne_nil ho
  have hm : o.msg ∈ (o :: os).flatMap answers := by
    rw [List.flatMap_cons]
    refine List.mem_append_left _ ?_
    unfold answers; split <;> simp
  obtain ⟨x, hx, _⟩ := (h.names _).1 (h.rooted _ hm)
  have hp := addDeps_path (g.objects.map MsgOf.file) [] x.file (List.mem_map_of_mem hx)
  obtain ⟨f, hf, _⟩ := List.mem_map.1 hp
  exact List.ne_nil_of_mem hf

/-- The paths of the document are those of the operations, with the last one registered. -/
theorem build_paths {objs : List ApiObject} {g : Gen} (h : Requires env (objs.flatMap answers) g)
    (hops : g.ops = objs.flatMap apiOps) :
    (∀ e, e ∈ (g.build env).paths ↔ ∃ r, LastOf (objs.flatMap apiOps) r ∧ e = (r.path, r.operation)) ∧
    ∃ l, (g.build env).paths = sortNamed l ∧ (l.map (·.1)).Nodup := by
  by_cases ho : objs = []
  · subst ho
    have hobj : g.objects = [] := by
      rw [List.eq_nil_iff_forall_not_mem]
      intro x hx
      obtain ⟨r, hr, _⟩ := h.reached x hx
      cases hr
    have hfiles : g.files = [] := by unfold Gen.files; rw [hobj, List.map_nil, addDeps]
    have hb : (g.build env).paths = [] := by unfold Gen.build; simp only [hfiles]; rfl
    refine ⟨fun e => ?_, [], hb, List.nodup_nil⟩
    rw [hb]
    constructor
    · intro h; cases h
    · rintro ⟨r, ⟨pre, post, hr, _⟩, _⟩; simp at hr
  · obtain ⟨h1, h2⟩ := passes_spec (ops := g.ops) g.files (l := []) List.nodup_nil (by simp) (files_ne_nil h ho)
    refine ⟨fun e => ?_, _, rfl, h1⟩
    show e ∈ sortNamed _ ↔ _
    rw [mem_sortNamed, h2, hops]

/-- The title is the last service of the only file that has some. -/
theorem build_title (hn : NamesKnown env) (ho : IsOrder ord) {objs : List ApiObject} (hu : NamesUnique env objs)
    (hf : FilesOk env objs) {fuel : Nat} {g : Gen} (e : addApiObjects env ord fuel {} objs = some g) :
    (∃ f, Compiled env objs f ∧ f.services ≠ [] ∧ (g.build env).title = f.services.getLastD []) ∨
    ((∀ f, Compiled env objs f → f.services = []) ∧ (g.build env).title = []) := by
  show (∃ f, Compiled env objs f ∧ f.services ≠ [] ∧ docTitle g.files = f.services.getLastD []) ∨
    ((∀ f, Compiled env objs f → f.services = []) ∧ docTitle g.files = [])
  by_cases hex : ∃ f, Compiled env objs f ∧ f.services ≠ []
  · obtain ⟨f, hfc, hs⟩ := hex
    left
    refine ⟨f, hfc, hs, ?_⟩
    rw [title_spec hs]
    · rw [if_pos ⟨f, (mem_files_lists hn ho hu hf e f).2 (Or.inl hfc), hs⟩]
    · intro f' hf'
      rcases (mem_files_lists hn ho hu hf e f').1 hf' with h' | ⟨o, _, rfl⟩
      · by_cases hs' : f'.services = []
        · exact Or.inl hs'
        · rw [hf.service f' f h' hfc hs' hs]; exact Or.inr rfl
      · exact Or.inl rfl
  · right
    have hno : ∀ f, Compiled env objs f → f.services = [] := by
      intro f hfc
      by_contra hs
      exact hex ⟨f, hfc, hs⟩
    refine ⟨hno, ?_⟩
    unfold docTitle
    have : g.files.flatMap DocFile.services = [] := by
      rw [List.flatMap_eq_nil_iff]
      intro f' hf'
      rcases (mem_files_lists hn ho hu hf e f').1 hf' with h' | ⟨o, _, rfl⟩
      · exact hno f' h'
      · rfl
    rw [this]; rfl

/-- The schemas of the document. -/
theorem build_schemas_lists (hn : NamesKnown env) (ho : IsOrder ord) {objs : List ApiObject}
    (hu : NamesUnique env objs) (hd : DeclaredOnce env objs) (hf : FilesOk env objs) {fuel : Nat} {g : Gen}
    (e : addApiObjects env ord fuel {} objs = some g) (s : Bytes × List (Bytes × FieldSchema)) :
    s ∈ (g.build env).schemas ↔ ∃ x, Answered env objs x ∧
      (∃ f, (Compiled env objs f ∨ ∃ o, FirstOfFile objs o ∧ f = (forgeList o.msg).file) ∧
        ∃ m ∈ f.messages, typeNameIn f m.1 = x.typeName) ∧
      s = (x.desc.fullName, schemaProps env x.desc) := by
  obtain ⟨hr, hops⟩ := build_requires hn ho e
  rw [(build_schemas hn hu hd hr hops).1]
  constructor
  · rintro ⟨x, hx, ⟨f, hfm, h⟩, he⟩
    exact ⟨x, hx, ⟨f, (mem_files_lists hn ho hu hf e f).1 hfm, h⟩, he⟩
  · rintro ⟨x, hx, ⟨f, hfm, h⟩, he⟩
    exact ⟨x, hx, ⟨f, (mem_files_lists hn ho hu hf e f).2 hfm, h⟩, he⟩

theorem build_deterministic {ord' : MapOrder} (hn : NamesKnown env) (ho : IsOrder ord) (ho' : IsOrder ord')
    {objs : List ApiObject} (hu : NamesUnique env objs) (hd : DeclaredOnce env objs) (hf : FilesOk env objs)
    {fuel fuel' : Nat} {g g' : Gen} (e : addApiObjects env ord fuel {} objs = some g)
    (e' : addApiObjects env ord' fuel' {} objs = some g') : g.build env = g'.build env := by
  obtain ⟨hr, hops⟩ := build_requires hn ho e
  obtain ⟨hr', hops'⟩ := build_requires hn ho' e'
  have htitle : (g.build env).title = (g'.build env).title := by
    rcases build_title hn ho hu hf e with ⟨f, hfc, hs, ht⟩ | ⟨hno, ht⟩
    · rcases build_title hn ho' hu hf e' with ⟨f', hfc', hs', ht'⟩ | ⟨hno', _⟩
      · rw [ht, ht', hf.service f f' hfc hfc' hs hs']
      · exact absurd (hno' f hfc) hs
    · rcases build_title hn ho' hu hf e' with ⟨f', hfc', hs', _⟩ | ⟨_, ht'⟩
      · exact absurd (hno f' hfc') hs'
      · rw [ht, ht']
  have hpaths : (g.build env).paths = (g'.build env).paths := by
    obtain ⟨h1, l, h2, h3⟩ := build_paths hr hops
    obtain ⟨k1, l', k2, k3⟩ := build_paths hr' hops'
    have : ∀ e, e ∈ l ↔ e ∈ l' := by
      intro e
      rw [← mem_sortNamed, ← h2, h1, ← k1, k2, mem_sortNamed]
    rw [h2, k2]
    exact sortNamed_ext h3 k3 this
  have hschemas : (g.build env).schemas = (g'.build env).schemas := by
    obtain ⟨l, h2, h3⟩ := (build_schemas hn hu hd hr hops).2
    obtain ⟨l', k2, k3⟩ := (build_schemas hn hu hd hr' hops').2
    have : ∀ e, e ∈ l ↔ e ∈ l' := by
      intro s
      rw [← mem_sortNamed, ← h2, build_schemas_lists hn ho hu hd hf e, ← build_schemas_lists hn ho' hu hd hf e',
        k2, mem_sortNamed]
    rw [h2, k2]
    exact sortNamed_ext h3 k3 this
  calc g.build env = ⟨(g.build env).title, (g.build env).paths, (g.build env).schemas⟩ := rfl
    _ = ⟨(g'.build env).title, (g'.build env).paths, (g'.build env).schemas⟩ := by rw [htitle, hpaths, hschemas]
    _ = g'.build env := rfl

end Verif
