import Verif.Proofs.Codegen
/-!
# The names in generated code
-/

namespace Verif
open Spec

theorem last_of_append_eq {a b s t : Bytes} (hs : s ≠ []) (ht : t ≠ []) (h : a ++ s = b ++ t) :
    s.getLast? = t.getLast? := by
  have := congrArg List.getLast? h
  rw [List.getLast?_append, List.getLast?_append] at this
  cases h1 : s.getLast? with
  | none => exact absurd (List.getLast?_eq_none_iff.1 h1) hs
  | some x =>
    cases h2 : t.getLast? with
    | none => exact absurd (List.getLast?_eq_none_iff.1 h2) ht
    | some y => simpa [h1, h2] using this

theorem append_ne_of_last {a b s t : Bytes} (hs : s ≠ []) (ht : t ≠ []) (h : s.getLast? ≠ t.getLast?) :
    a ++ s ≠ b ++ t := fun e => h (last_of_append_eq hs ht e)

theorem lowerFirst_inj {a b : Bytes} (ha : Exported a) (hb : Exported b) (h : lowerFirst a = lowerFirst b) :
    a = b := by
  obtain ⟨c, r, rfl, h1, h2⟩ := ha
  obtain ⟨c', r', rfl, h3, h4⟩ := hb
  simp only [lowerFirst, h1, h2, h3, h4, and_self, if_true, List.cons.injEq] at h
  obtain ⟨h, rfl⟩ := h
  rw [show c = c' by simpa using h]

theorem lowerFirst_ne {a b : Bytes} (ha : Exported a) (hb : Exported b) : lowerFirst a ≠ b := by
  obtain ⟨c, r, rfl, h1, h2⟩ := ha
  obtain ⟨c', r', rfl, h3, h4⟩ := hb
  intro h
  simp only [lowerFirst, h1, h2, and_self, if_true, List.cons.injEq] at h
  obtain ⟨h, _⟩ := h
  rw [← h] at h4
  simp only [UInt8.le_iff_toNat_le, UInt8.toNat_add] at h1 h2 h4
  have : (32 : UInt8).toNat = 32 := rfl
  have e1 : (65 : UInt8).toNat = 65 := rfl
  have e2 : (90 : UInt8).toNat = 90 := rfl
  omega

/-- The identifiers made from a Go name: the bare name and the ending. -/
def IdentOf (g x : Bytes) : Prop :=
  ∃ base, (base = g ∨ base = lowerFirst g) ∧ (x = base ++ b!"Client" ∨ x = base ++ b!"Iterator")

theorem msg_idents (f : GenFile) (m : GenMsg) :
    (msgDecls f m).filterMap declIdent = match m.object with
      | none => []
      | some d => [m.goName ++ b!"Client", lowerFirst m.goName ++ b!"Client"] ++
        match (parseSaveInfo m d).getD none with
        | none => []
        | some _ => [m.goName ++ b!"Iterator", lowerFirst m.goName ++ b!"Iterator"] := by
  unfold msgDecls
  cases m.object with
  | none => cases m.transition <;> rfl
  | some d => cases hk : (parseSaveInfo m d).getD none <;> simp only [hk] <;> rfl

theorem msg_idents_of {f : GenFile} {m : GenMsg} {x : Bytes} (h : x ∈ (msgDecls f m).filterMap declIdent) :
    IdentOf m.goName x := by
  rw [msg_idents] at h
  cases ho : m.object with
  | none => rw [ho] at h; cases h
  | some d =>
    rw [ho] at h
    cases hk : (parseSaveInfo m d).getD none with
    | none =>
      simp only [hk, List.append_nil, List.mem_cons, List.not_mem_nil, or_false] at h
      rcases h with rfl | rfl
      · exact ⟨_, .inl rfl, .inl rfl⟩
      · exact ⟨_, .inr rfl, .inl rfl⟩
    | some k =>
      simp only [hk, List.cons_append, List.nil_append, List.mem_cons, List.not_mem_nil, or_false] at h
      rcases h with rfl | rfl | rfl | rfl
      · exact ⟨_, .inl rfl, .inl rfl⟩
      · exact ⟨_, .inr rfl, .inl rfl⟩
      · exact ⟨_, .inl rfl, .inr rfl⟩
      · exact ⟨_, .inr rfl, .inr rfl⟩

theorem client_ne_iterator {a b : Bytes} : a ++ b!"Client" ≠ b ++ b!"Iterator" :=
  append_ne_of_last (by decide) (by decide) (by decide)

theorem identOf_disjoint {g g' x : Bytes} (hg : Exported g) (hg' : Exported g') (h : IdentOf g x)
    (h' : IdentOf g' x) : g = g' := by
  obtain ⟨b, hb, hx⟩ := h
  obtain ⟨b', hb', hx'⟩ := h'
  have : b = b' := by
    rcases hx with rfl | rfl <;> rcases hx' with h | h
    · exact List.append_cancel_right h
    · exact absurd h client_ne_iterator
    · exact absurd h.symm client_ne_iterator
    · exact List.append_cancel_right h
  subst this
  rcases hb with rfl | rfl <;> rcases hb' with h | h
  · exact h
  · exact absurd h.symm (lowerFirst_ne hg' hg)
  · exact absurd h (lowerFirst_ne hg hg')
  · exact lowerFirst_inj hg hg' h

theorem msg_idents_nodup (f : GenFile) (m : GenMsg) (hg : Exported m.goName) :
    ((msgDecls f m).filterMap declIdent).Nodup := by
  have h1 := lowerFirst_ne hg hg
  rw [msg_idents]
  cases m.object with
  | none => exact List.nodup_nil
  | some d =>
    cases hk : (parseSaveInfo m d).getD none with
    | none => simp [hk, h1.symm]
    | some k => simp [hk, h1.symm, client_ne_iterator]

theorem append_ne_const {a s t : Bytes} (hs : s ≠ []) (ht : t ≠ []) (h : s.getLast? ≠ t.getLast?) : a ++ s ≠ t := by
  have := append_ne_of_last (a := a) (b := []) hs ht h
  simpa using this

theorem filterMap_flatMap {α β γ : Type} (l : List α) (g : α → List β) (h : β → Option γ) :
    (l.flatMap g).filterMap h = l.flatMap fun a => (g a).filterMap h := by
  induction l with
  | nil => rfl
  | cons a l ih => rw [List.flatMap_cons, List.filterMap_append, ih, List.flatMap_cons]

theorem filterMap_map_some {α β γ : Type} {l : List α} {g : α → β} {h : β → Option γ} {k : α → γ}
    (hk : ∀ a, h (g a) = some (k a)) : (l.map g).filterMap h = l.map k := by
  induction l with
  | nil => rfl
  | cons a l ih => rw [List.map_cons, List.filterMap_cons, hk, List.map_cons, ← ih]

theorem inj_of_names {α β : Type} {l : List α} {g : α → β} (h : (l.map g).Nodup) :
    ∀ a ∈ l, ∀ b ∈ l, g a = g b → a = b := by
  induction l with
  | nil => intro a ha; cases ha
  | cons x l ih =>
    rw [List.map_cons, List.nodup_cons] at h
    intro a ha b hb e
    rcases List.mem_cons.1 ha with h1 | h1 <;> rcases List.mem_cons.1 hb with h2 | h2
    · rw [h1, h2]
    · rw [h1] at e
      exact absurd (e ▸ List.mem_map_of_mem h2) h.1
    · rw [h2] at e
      exact absurd (e ▸ List.mem_map_of_mem h1) h.1
    · exact ih h.2 a h1 b h2 e

theorem nodup_of_inj_names {α β : Type} {l : List α} {g : α → β} (hl : l.Nodup)
    (h : ∀ a ∈ l, ∀ b ∈ l, g a = g b → a = b) : (l.map g).Nodup := by
  rw [List.Nodup, List.pairwise_map]
  exact List.Pairwise.imp_of_mem (fun ha hb hab e => hab (h _ ha _ hb e)) hl

theorem file_idents (f : GenFile) : (fileDecls f).filterMap declIdent =
    f.messages.flatMap (fun m => (msgDecls f m).filterMap declIdent) ++
      (f.objects.map (fun o => o.1.goName ++ b!"Schema") ++ [b!"ClientSet", b!"NewClientSet", b!"clientSet"]) := by
  have h1 : (f.objects.map fun o => Decl.schema o.1.schemaVar o.2).filterMap declIdent =
      f.objects.map (fun o => o.1.goName ++ b!"Schema") :=
    filterMap_map_some fun _ => rfl
  have h2 : (f.objects.map fun o => Decl.accessor (accessorName o.1 o.2) o.1.client o.1.lowerClient).filterMap
      declIdent = [] := by
    simp [List.filterMap_map, List.filterMap_eq_nil_iff, declIdent]
  have h3 : (f.transitions.map fun t => Decl.exec (b!"Exec" ++ t.goName) t.goName).filterMap declIdent = [] := by
    simp [List.filterMap_map, List.filterMap_eq_nil_iff, declIdent]
  rw [fileDecls, List.filterMap_append, List.filterMap_append, filterMap_flatMap, h1]
  congr 2
  rw [genClientSet, List.filterMap_append, List.filterMap_append, h2, h3]
  rfl

theorem objects_goNames_sublist (f : GenFile) :
    (f.objects.map (·.1.goName)).Sublist (f.messages.map (·.goName)) := by
  unfold GenFile.objects
  generalize f.messages = ms
  induction ms with
  | nil => exact .slnil
  | cons m ms ih =>
    cases ho : m.object with
    | none => simp only [List.filterMap_cons, ho, Option.map_none, List.map_cons]; exact ih.cons _
    | some d => simp only [List.filterMap_cons, ho, Option.map_some, List.map_cons]; exact ih.cons_cons _

theorem file_idents_nodup {f : GenFile} (hn : GoNamesOk f) : ((fileDecls f).filterMap declIdent).Nodup := by
  rw [file_idents, List.nodup_append, List.nodup_append]
  refine ⟨?_, ⟨?_, ?_, ?_⟩, ?_⟩
  · rw [List.Nodup, List.pairwise_flatMap]
    refine ⟨fun m hm => msg_idents_nodup f m (hn.1 m hm), ?_⟩
    have := List.pairwise_map.1 hn.2
    refine this.imp_of_mem ?_
    intro a b ha hb hab x hx y hy hxy
    subst hxy
    exact hab (identOf_disjoint (hn.1 a ha) (hn.1 b hb) (msg_idents_of hx) (msg_idents_of hy))
  · have := hn.2.sublist (objects_goNames_sublist f)
    have h2 := List.pairwise_map.1 this
    rw [List.Nodup, List.pairwise_map]
    exact h2.imp fun h e => h (List.append_cancel_right e)
  · decide
  · intro a ha b hb hab
    obtain ⟨o, _, rfl⟩ := List.mem_map.1 ha
    subst hab
    simp only [List.mem_cons, List.not_mem_nil, or_false] at hb
    rcases hb with h | h | h <;> exact absurd h (append_ne_const (by decide) (by decide) (by decide))
  · intro a ha b hb hab
    subst hab
    obtain ⟨m, hm, hx⟩ := List.mem_flatMap.1 ha
    obtain ⟨base, _, hx⟩ := msg_idents_of hx
    rcases List.mem_append.1 hb with hb | hb
    · obtain ⟨o, _, rfl⟩ := List.mem_map.1 hb
      rcases hx with h | h <;> exact absurd h (append_ne_of_last (by decide) (by decide) (by decide))
    · simp only [List.mem_cons, List.not_mem_nil, or_false] at hb
      have hsuf : ∀ t : Bytes, b!"Client" <:+ t ∨ b!"Iterator" <:+ t → t ≠ b!"ClientSet" ∧ t ≠ b!"NewClientSet" ∧ t ≠ b!"clientSet" := by
        intro t ht
        refine ⟨?_, ?_, ?_⟩ <;> rintro rfl <;> revert ht <;> decide
      have := hsuf a (by
        rcases hx with rfl | rfl
        · exact .inl ⟨_, rfl⟩
        · exact .inr ⟨_, rfl⟩)
      rcases hb with h | h | h
      · exact this.1 h
      · exact this.2.1 h
      · exact this.2.2 h

/-! ## Methods -/

theorem msg_methods (f : GenFile) (m : GenMsg) :
    (msgDecls f m).filterMap declMethod = match m.object with
      | none => if m.transition then [b!"APIDefinition", b!"NewStateTransition"].map (fun n => (m.goName, n)) else []
      | some d => [b!"APIDefinition", b!"NewStateObject"].map (fun n => (m.goName, n)) ++
        match (parseSaveInfo m d).getD none with
        | none => [b!"Get", b!"Create", b!"Delete", b!"Update"].map (fun n => (lowerFirst m.goName ++ b!"Client", n))
        | some _ => [b!"Get", b!"List", b!"Create", b!"Delete", b!"Update"].map
            (fun n => (lowerFirst m.goName ++ b!"Client", n)) ++
          [b!"Get", b!"Valid", b!"Next"].map (fun n => (lowerFirst m.goName ++ b!"Iterator", n)) := by
  unfold msgDecls
  cases m.object with
  | none => cases m.transition <;> rfl
  | some d => cases hk : (parseSaveInfo m d).getD none <;> simp only [hk] <;> rfl

/-- The receivers of the methods made for a Go name. -/
def RecvOf (g r : Bytes) : Prop := r = g ∨ r = lowerFirst g ++ b!"Client" ∨ r = lowerFirst g ++ b!"Iterator"

theorem msg_methods_of {f : GenFile} {m : GenMsg} {x : Bytes × Bytes}
    (h : x ∈ (msgDecls f m).filterMap declMethod) : RecvOf m.goName x.1 := by
  rw [msg_methods] at h
  have hmap : ∀ {l : List Bytes} {r : Bytes}, x ∈ l.map (fun n => (r, n)) → x.1 = r := by
    intro l r h
    obtain ⟨n, _, rfl⟩ := List.mem_map.1 h
    rfl
  cases ho : m.object with
  | none =>
    rw [ho] at h
    simp only at h
    split at h
    · exact .inl (hmap h)
    · cases h
  | some d =>
    simp only [ho, List.mem_append] at h
    rcases h with h | h
    · exact .inl (hmap h)
    · cases hk : (parseSaveInfo m d).getD none with
      | none => rw [hk] at h; exact .inr (.inl (hmap h))
      | some k =>
        rw [hk] at h
        rcases List.mem_append.1 h with h | h
        · exact .inr (.inl (hmap h))
        · exact .inr (.inr (hmap h))

theorem exported_ne_lower {g g' s : Bytes} (hg : Exported g) (hg' : Exported g') : g' ≠ lowerFirst g ++ s := by
  intro h
  have hl : lowerFirst g ++ s = lowerFirst (g ++ s) := by
    obtain ⟨c, r, rfl, _, _⟩ := hg
    rfl
  have : Exported (g ++ s) := by
    obtain ⟨c, r, rfl, h1, h2⟩ := hg
    exact ⟨c, r ++ s, rfl, h1, h2⟩
  rw [hl] at h
  exact lowerFirst_ne this hg' h.symm

theorem recvOf_disjoint {g g' x : Bytes} (hg : Exported g) (hg' : Exported g') (h : RecvOf g x)
    (h' : RecvOf g' x) : g = g' := by
  rcases h with rfl | rfl | rfl <;> rcases h' with h | h | h
  · exact h
  · exact absurd h (exported_ne_lower hg' hg)
  · exact absurd h (exported_ne_lower hg' hg)
  · exact absurd h.symm (exported_ne_lower hg hg')
  · exact lowerFirst_inj hg hg' (List.append_cancel_right h)
  · exact absurd h client_ne_iterator
  · exact absurd h.symm (exported_ne_lower hg hg')
  · exact absurd h.symm client_ne_iterator
  · exact lowerFirst_inj hg hg' (List.append_cancel_right h)

theorem nodup_map_pair {l : List Bytes} (r : Bytes) (h : l.Nodup) : (l.map fun n => (r, n)).Nodup := by
  rw [List.Nodup, List.pairwise_map]
  exact h.imp fun h e => h (Prod.mk.inj e).2

theorem disj_map_pair {l l' : List Bytes} {r r' : Bytes} (h : r ≠ r') :
    ∀ a ∈ l.map (fun n => (r, n)), ∀ b ∈ l'.map (fun n => (r', n)), a ≠ b := by
  intro a ha b hb hab
  obtain ⟨_, _, rfl⟩ := List.mem_map.1 ha
  obtain ⟨_, _, rfl⟩ := List.mem_map.1 hb
  exact h (Prod.mk.inj hab).1

theorem msg_methods_nodup (f : GenFile) (m : GenMsg) (hg : Exported m.goName) :
    ((msgDecls f m).filterMap declMethod).Nodup := by
  rw [msg_methods]
  cases m.object with
  | none =>
    simp only
    split
    · exact nodup_map_pair _ (by decide)
    · exact List.nodup_nil
  | some d =>
    cases hk : (parseSaveInfo m d).getD none with
    | none =>
      simp only [hk, List.nodup_append]
      exact ⟨nodup_map_pair _ (by decide), nodup_map_pair _ (by decide), disj_map_pair (exported_ne_lower hg hg)⟩
    | some k =>
      simp only [hk, List.nodup_append]
      refine ⟨nodup_map_pair _ (by decide), ⟨nodup_map_pair _ (by decide), nodup_map_pair _ (by decide),
        disj_map_pair client_ne_iterator⟩, ?_⟩
      intro a ha b hb
      rcases List.mem_append.1 hb with hb | hb
      · exact disj_map_pair (exported_ne_lower hg hg) a ha b hb
      · exact disj_map_pair (exported_ne_lower hg hg) a ha b hb

/-- The methods of the client set. -/
def setMethods (f : GenFile) : List Bytes :=
  f.objects.map (fun o => accessorName o.1 o.2) ++ f.transitions.map (fun t => b!"Exec" ++ t.goName)

theorem file_methods (f : GenFile) : (fileDecls f).filterMap declMethod =
    f.messages.flatMap (fun m => (msgDecls f m).filterMap declMethod) ++
      (setMethods f).map (fun n => (b!"clientSet", n)) := by
  have h1 : (f.objects.map fun o => Decl.schema o.1.schemaVar o.2).filterMap declMethod = [] := by
    simp [List.filterMap_map, List.filterMap_eq_nil_iff, declMethod]
  have h2 : (f.objects.map fun o => Decl.accessor (accessorName o.1 o.2) o.1.client o.1.lowerClient).filterMap
      declMethod = f.objects.map fun o => (b!"clientSet", accessorName o.1 o.2) :=
    filterMap_map_some fun _ => rfl
  have h3 : (f.transitions.map fun t => Decl.exec (b!"Exec" ++ t.goName) t.goName).filterMap declMethod =
      f.transitions.map fun t => (b!"clientSet", b!"Exec" ++ t.goName) :=
    filterMap_map_some fun _ => rfl
  rw [fileDecls, List.filterMap_append, List.filterMap_append, filterMap_flatMap, h1, List.nil_append]
  congr 1
  rw [genClientSet, List.filterMap_append, List.filterMap_append, h2, h3, setMethods, List.map_append,
    List.map_map, List.map_map]
  rfl

theorem file_methods_nodup {f : GenFile} (hn : GoNamesOk f) :
    ((fileDecls f).filterMap declMethod).Nodup ↔ (setMethods f).Nodup := by
  rw [file_methods, List.nodup_append]
  constructor
  · rintro ⟨_, h, _⟩
    have := List.pairwise_map.1 h
    exact this.imp fun h e => h (by rw [e])
  · intro h
    refine ⟨?_, nodup_map_pair _ h, ?_⟩
    · rw [List.Nodup, List.pairwise_flatMap]
      refine ⟨fun m hm => msg_methods_nodup f m (hn.1 m hm), ?_⟩
      have := List.pairwise_map.1 hn.2
      refine this.imp_of_mem ?_
      intro a b ha hb hab x hx y hy hxy
      subst hxy
      exact hab (recvOf_disjoint (hn.1 a ha) (hn.1 b hb) (msg_methods_of hx) (msg_methods_of hy))
    · intro a ha b hb hab
      subst hab
      obtain ⟨m, hm, hx⟩ := List.mem_flatMap.1 ha
      obtain ⟨n, _, rfl⟩ := List.mem_map.1 hb
      have hr := msg_methods_of hx
      rcases hr with h | h | h
      · obtain ⟨c, r, e, h1, h2⟩ := hn.1 m hm
        rw [e] at h
        simp only [List.cons.injEq] at h
        rw [← h.1] at h2
        revert h2
        decide
      · have : b!"Client" <:+ b!"clientSet" := ⟨_, h.symm⟩
        revert this
        decide
      · have : b!"Iterator" <:+ b!"clientSet" := ⟨_, h.symm⟩
        revert this
        decide

theorem transitions_goNames_sublist (f : GenFile) :
    (f.transitions.map (·.goName)).Sublist (f.messages.map (·.goName)) :=
  (List.filter_sublist).map _

theorem setMethods_nodup {f : GenFile} (hn : GoNamesOk f) :
    (setMethods f).Nodup ↔ ¬ PluralClash f ∧ ¬ ExecClash f := by
  have hg := inj_of_names hn.2
  have hos : f.objects.Nodup := by
    have := hn.2.sublist (objects_goNames_sublist f)
    exact (List.pairwise_map.1 this).imp fun h e => h (by rw [e])
  have hobj : ∀ a ∈ f.objects, ∀ b ∈ f.objects, a.1.goName = b.1.goName → a = b := by
    intro a ha b hb h
    obtain ⟨h1, h2⟩ := mem_objects.1 ha
    obtain ⟨h3, h4⟩ := mem_objects.1 hb
    have := hg _ h1 _ h3 h
    have h5 : a.2 = b.2 := by
      rw [this, h4] at h2
      exact (Option.some.inj h2).symm
    exact Prod.ext this h5
  have hts : (f.transitions.map fun t => b!"Exec" ++ t.goName).Nodup := by
    have := hn.2.sublist (transitions_goNames_sublist f)
    rw [List.Nodup, List.pairwise_map]
    exact (List.pairwise_map.1 this).imp fun h e => h (List.append_cancel_left e)
  rw [setMethods, List.nodup_append]
  constructor
  · rintro ⟨h1, _, h3⟩
    constructor
    · rintro ⟨a, ha, b, hb, h4, h5, h6⟩
      have hab : accessorName a.1 a.2 = accessorName b.1 b.2 := by
        have hl : b.1.goName.getLast? = some 115 := by rw [h6, List.getLast?_append]; rfl
        have e1 : accessorName b.1 b.2 = b.1.goName := if_pos (.inl hl)
        have e2 : accessorName a.1 a.2 = a.1.goName ++ b!"s" := by
          refine if_neg ?_
          rintro (h | h)
          · exact h5 h
          · rw [h4] at h; cases h
        rw [e1, e2, h6]
      have := inj_of_names h1 a ha b hb hab
      rw [← this] at h6
      have := congrArg List.length h6
      rw [List.length_append] at this
      have e : (b!"s").length = 1 := rfl
      omega
    · rintro ⟨a, ha, t, ht, e⟩
      exact h3 _ (List.mem_map.2 ⟨a, ha, rfl⟩) _ (List.mem_map.2 ⟨t, ht, rfl⟩) e
  · rintro ⟨h1, h2⟩
    refine ⟨nodup_of_inj_names hos ?_, hts, ?_⟩
    · have key : ∀ a ∈ f.objects, ∀ b ∈ f.objects, b.1.goName ≠ a.1.goName ++ b!"s" ∨
          a.1.goName.getLast? = some 115 ∨ a.2.singleton = true := by
        intro a ha b hb
        by_cases e : b.1.goName = a.1.goName ++ b!"s"
        · by_cases e2 : a.1.goName.getLast? = some 115
          · exact .inr (.inl e2)
          · cases e3 : a.2.singleton with
            | true => exact .inr (.inr rfl)
            | false => exact absurd ⟨a, ha, b, hb, e3, e2, e⟩ h1
        · exact .inl e
      intro a ha b hb e
      apply hobj a ha b hb
      unfold accessorName at e
      split at e <;> split at e
      · exact e
      · rename_i h
        rcases key b hb a ha with h' | h'
        · exact absurd e h'
        · exact absurd h' h
      · rename_i h _
        rcases key a ha b hb with h' | h'
        · exact absurd e.symm h'
        · exact absurd h' h
      · exact List.append_cancel_right e
    · intro x hx y hy e
      obtain ⟨a, ha, rfl⟩ := List.mem_map.1 hx
      obtain ⟨t, ht, rfl⟩ := List.mem_map.1 hy
      exact h2 ⟨a, ha, t, ht, e⟩

end Verif
