import Verif.Spec.Codegen
/-!
# Facts about the code generator
-/

namespace Verif
open Spec

theorem GenStep.andThen_some {a b : GenStep} {l : List Decl} :
    GenStep.andThen a b = .ret (some l) ↔ ∃ x y, a = .ret (some x) ∧ b = .ret (some y) ∧ l = x ++ y := by
  constructor
  · intro h
    rcases a with ((_ | x) | _)
    · rcases b with ((_ | y) | _) <;> cases h
    · rcases b with ((_ | y) | _)
      · cases h
      · simp only [GenStep.andThen, Out.ret.injEq, Option.some.injEq] at h
        exact ⟨x, y, rfl, rfl, h.symm⟩
      · cases h
    · cases h
  · rintro ⟨x, y, rfl, rfl, rfl⟩; rfl

theorem GenStep.andThen_panic {a b : GenStep} : GenStep.andThen a b = .panic ↔ a = .panic ∨ b = .panic := by
  rcases a with ((_ | x) | _) <;> rcases b with ((_ | y) | _) <;> simp [GenStep.andThen]

theorem GenStep.all_some {steps : List GenStep} {l : List Decl} :
    GenStep.all steps = .ret (some l) ↔
      ∃ xs : List (List Decl), steps = xs.map (fun x => .ret (some x)) ∧ l = xs.flatten := by
  induction steps generalizing l with
  | nil =>
    simp only [GenStep.all, Out.ret.injEq, Option.some.injEq]
    constructor
    · rintro rfl; exact ⟨[], rfl, rfl⟩
    · rintro ⟨xs, h, rfl⟩
      cases xs with
      | nil => rfl
      | cons x xs => cases h
  | cons a rest ih =>
    rw [GenStep.all, GenStep.andThen_some]
    constructor
    · rintro ⟨x, y, rfl, h, rfl⟩
      obtain ⟨xs, h1, rfl⟩ := ih.1 h
      exact ⟨x :: xs, by rw [h1, List.map_cons], rfl⟩
    · rintro ⟨xs, h, rfl⟩
      cases xs with
      | nil => cases h
      | cons x xs =>
        rw [List.map_cons] at h
        injection h with h1 h2
        exact ⟨x, xs.flatten, h1, ih.2 ⟨xs, h2, rfl⟩, rfl⟩

theorem GenStep.all_panic {steps : List GenStep} : GenStep.all steps = .panic ↔ .panic ∈ steps := by
  induction steps with
  | nil => simp [GenStep.all]
  | cons a rest ih => rw [GenStep.all, GenStep.andThen_panic, ih, List.mem_cons, eq_comm]

/-- The declarations for a message, if there is no error. -/
def msgDecls (f : GenFile) (m : GenMsg) : List Decl :=
  match m.object with
  | some d => [.apiDefinition m.goName f.package m.name false, .newStateObject m.goName] ++
      objectClient m ((parseSaveInfo m d).getD none)
  | none => if m.transition then [.apiDefinition m.goName f.package m.name true, .newStateTransition m.goName]
      else []

theorem parseSaveInfo_some {m : GenMsg} {d : SchemaDef} :
    (∃ k, parseSaveInfo m d = some k) ↔ (d.singleton = true ∨ d.primaryKey ≠ [] ∧
      ∃ x t, m.fields.find? (fun f => f.json = d.primaryKey) = some x ∧ goTypeOf x.kind = some t) := by
  unfold parseSaveInfo
  by_cases hs : d.singleton = true
  · simp [hs]
  · by_cases hp : d.primaryKey = []
    · simp [hs, hp]
    · simp only [hs, hp, if_false, ne_eq, not_false_eq_true, true_and, false_or, Bool.false_eq_true]
      cases hf : m.fields.find? (fun f => f.json = d.primaryKey) with
      | none => simp
      | some x =>
        cases ht : goTypeOf x.kind with
        | none => simp [ht]
        | some t => simp [ht]

theorem genMessage_some {f : GenFile} {m : GenMsg} {l : List Decl} :
    genMessage f m = .ret (some l) ↔
      ((m.object.isSome = true ∨ m.transition = true) → f.package ≠ []) ∧
      (∀ d, m.object = some d → ObjectOk m d) ∧ l = msgDecls f m := by
  unfold genMessage msgDecls
  rw [GenStep.andThen_some]
  cases ho : m.object with
  | none =>
    cases ht : m.transition with
    | false =>
      simp only [Out.ret.injEq, Option.some.injEq, Bool.false_eq_true, if_false]
      constructor
      · rintro ⟨x, y, rfl, rfl, rfl⟩
        exact ⟨by simp, by simp, rfl⟩
      · rintro ⟨_, _, rfl⟩; exact ⟨_, _, rfl, rfl, rfl⟩
    | true =>
      simp only [if_true, genStateTransition, ho]
      constructor
      · rintro ⟨x, y, h1, h2, rfl⟩
        cases h1
        split at h2
        · cases h2
        · rename_i hp
          simp only [Option.isSome_none, Bool.false_eq_true, if_false, Out.ret.injEq, Option.some.injEq] at h2
          exact ⟨fun _ => hp, by simp, by rw [← h2]; rfl⟩
      · rintro ⟨h1, _, rfl⟩
        refine ⟨[], _, rfl, ?_, rfl⟩
        rw [if_neg (h1 (.inr (by trivial)))]
        simp
  | some d =>
    cases ht : m.transition with
    | false =>
      simp only [Bool.false_eq_true, if_false, genStateObject, ht]
      constructor
      · rintro ⟨x, y, h1, h2, rfl⟩
        cases h2
        split at h1
        · cases h1
        · rename_i hp
          cases hk : parseSaveInfo m d with
          | none => rw [hk] at h1; cases h1
          | some k =>
            rw [hk] at h1
            simp only [Out.ret.injEq, Option.some.injEq] at h1
            refine ⟨fun _ => hp, ?_, by rw [← h1]; simp⟩
            intro d' hd
            cases hd
            exact ⟨ht, parseSaveInfo_some.1 ⟨k, hk⟩⟩
      · rintro ⟨h1, h2, rfl⟩
        obtain ⟨k, hk⟩ := parseSaveInfo_some.2 (h2 d rfl).2
        refine ⟨_, [], ?_, rfl, (List.append_nil _).symm⟩
        rw [if_neg (h1 (.inl rfl)), hk]
        rfl
    | true =>
      constructor
      · rintro ⟨x, y, h1, h2, rfl⟩
        simp only [genStateObject, ht] at h1
        split at h1
        · cases h1
        · simp at h1
      · rintro ⟨_, h2, _⟩
        have := (h2 d rfl).1
        rw [ht] at this
        cases this

theorem genMessage_panic {f : GenFile} {m : GenMsg} :
    genMessage f m = .panic ↔ ∃ d, m.object = some d ∧ m.transition = false ∧ f.package ≠ [] ∧
      ¬ ObjectOk m d := by
  unfold genMessage
  rw [GenStep.andThen_panic]
  have hno : ∀ {b : Bool}, (if b = true then genStateTransition f m else (.ret (some []) : GenStep)) ≠ .panic := by
    intro b h
    split at h
    · unfold genStateTransition at h
      split at h
      · cases h
      · split at h <;> cases h
    · cases h
  cases ho : m.object with
  | none => simp [hno]
  | some d =>
    simp only [hno, or_false, genStateObject, Option.some.injEq, exists_eq_left']
    by_cases hp : f.package = []
    · simp [hp]
    · by_cases ht : m.transition = true
      · simp [hp, ht]
      · have ht' : m.transition = false := by simpa using ht
        simp only [hp, ht', if_false, Bool.false_eq_true, true_and, ne_eq, not_false_eq_true]
        have := @parseSaveInfo_some m d
        cases hk : parseSaveInfo m d with
        | none =>
          simp only [true_iff]
          rintro ⟨_, h⟩
          obtain ⟨k, hk'⟩ := this.2 h
          rw [hk] at hk'
          cases hk'
        | some k =>
          simp only [reduceCtorEq, false_iff]
          exact fun hn => hn ⟨ht', this.1 ⟨k, hk⟩⟩

theorem mem_objects {f : GenFile} {o : GenMsg × SchemaDef} : o ∈ f.objects ↔ o.1 ∈ f.messages ∧ o.1.object = some o.2 := by
  simp only [GenFile.objects, List.mem_filterMap, Option.map_eq_some_iff]
  constructor
  · rintro ⟨m, hm, d, hd, rfl⟩; exact ⟨hm, hd⟩
  · rintro ⟨h1, h2⟩; exact ⟨o.1, h1, o.2, h2, rfl⟩

/-- The declarations for a file, if there is no error. -/
def fileDecls (f : GenFile) : List Decl :=
  f.messages.flatMap (msgDecls f) ++ (f.objects.map (fun o => .schema o.1.schemaVar o.2) ++ genClientSet f)

theorem map_eq_map_ret {α : Type} {xs : List α} {g : α → GenStep} {h : α → List Decl}
    (hg : ∀ x ∈ xs, g x = .ret (some (h x))) : xs.map g = (xs.map h).map (fun x => .ret (some x)) := by
  induction xs with
  | nil => rfl
  | cons x xs ih =>
    simp only [List.map_cons, hg x List.mem_cons_self, ih fun y hy => hg y (List.mem_cons_of_mem _ hy)]

theorem genFile_some {f : GenFile} {l : List Decl} :
    genFile f = .ret (some l) ↔
      (∀ m ∈ f.messages, (m.object.isSome = true ∨ m.transition = true) → f.package ≠ []) ∧
      (∀ m ∈ f.messages, ∀ d, m.object = some d → ObjectOk m d) ∧ l = fileDecls f := by
  unfold genFile
  constructor
  · intro h
    obtain ⟨x, y, h1, h2, rfl⟩ := GenStep.andThen_some.1 h
    obtain ⟨y1, y2, h3, h4, rfl⟩ := GenStep.andThen_some.1 h2
    cases h4
    obtain ⟨xs, e1, rfl⟩ := GenStep.all_some.1 h1
    obtain ⟨ys, e2, rfl⟩ := GenStep.all_some.1 h3
    have hm : ∀ m ∈ f.messages, ∃ l, genMessage f m = .ret (some l) := by
      intro m hm
      have := List.mem_map_of_mem (f := genMessage f) hm
      rw [e1] at this
      obtain ⟨x, _, hx⟩ := List.mem_map.1 this
      exact ⟨x, hx.symm⟩
    have hs : ∀ o ∈ f.objects, genSchema o.1 o.2 = .ret (some [.schema o.1.schemaVar o.2]) := by
      intro o ho
      have := List.mem_map_of_mem (f := fun o : GenMsg × SchemaDef => genSchema o.1 o.2) ho
      rw [e2] at this
      obtain ⟨x, _, hx⟩ := List.mem_map.1 this
      unfold genSchema at hx ⊢
      split at hx
      · cases hx
      · rename_i hc; rw [if_neg hc]
    refine ⟨fun m hmm => ?_, fun m hmm => ?_, ?_⟩
    · obtain ⟨l, hl⟩ := hm m hmm
      exact (genMessage_some.1 hl).1
    · obtain ⟨l, hl⟩ := hm m hmm
      exact (genMessage_some.1 hl).2.1
    · have hx : xs = f.messages.map (msgDecls f) := by
        rw [map_eq_map_ret (h := msgDecls f) (fun m hmm => by
          obtain ⟨l, hl⟩ := hm m hmm
          rw [hl, (genMessage_some.1 hl).2.2])] at e1
        exact ((List.map_inj_right (by intro a b h; simpa using h)).1 e1).symm
      have hy : ys = f.objects.map (fun o => [.schema o.1.schemaVar o.2]) := by
        rw [map_eq_map_ret (h := fun o : GenMsg × SchemaDef => [Decl.schema o.1.schemaVar o.2]) hs] at e2
        exact ((List.map_inj_right (by intro a b h; simpa using h)).1 e2).symm
      rw [hx, hy, fileDecls, List.flatMap]
      congr 2
      generalize f.objects = os
      induction os with
      | nil => rfl
      | cons o os ih => simp [ih]
  · rintro ⟨h1, h2, rfl⟩
    rw [GenStep.andThen_some]
    refine ⟨f.messages.flatMap (msgDecls f), _, ?_, ?_, rfl⟩
    · rw [GenStep.all_some]
      exact ⟨f.messages.map (msgDecls f), map_eq_map_ret fun m hm => genMessage_some.2 ⟨h1 m hm, h2 m hm, rfl⟩, rfl⟩
    · rw [GenStep.andThen_some]
      refine ⟨f.objects.map (fun o => .schema o.1.schemaVar o.2), genClientSet f, ?_, rfl, rfl⟩
      rw [GenStep.all_some]
      refine ⟨f.objects.map (fun o => [.schema o.1.schemaVar o.2]), map_eq_map_ret fun o ho => ?_, ?_⟩
      · obtain ⟨hm, hd⟩ := mem_objects.1 ho
        have := (h2 _ hm _ hd).2
        unfold genSchema
        rw [if_neg]
        rintro ⟨c1, c2⟩
        rcases this with h | ⟨h, _⟩
        · rw [c2] at h; cases h
        · exact h c1
      · generalize f.objects = os
        induction os with
        | nil => rfl
        | cons o os ih => simp [ih]

theorem genFile_panic {f : GenFile} : genFile f = .panic ↔ ∃ m ∈ f.messages, ∃ d, m.object = some d ∧
    m.transition = false ∧ f.package ≠ [] ∧ ¬ ObjectOk m d := by
  unfold genFile
  rw [GenStep.andThen_panic, GenStep.andThen_panic, GenStep.all_panic, GenStep.all_panic]
  have h2 : (.panic : GenStep) ∉ f.objects.map fun o => genSchema o.1 o.2 := by
    intro h
    obtain ⟨o, _, ho⟩ := List.mem_map.1 h
    unfold genSchema at ho
    split at ho <;> cases ho
  simp only [h2, reduceCtorEq, or_false, List.mem_map, genMessage_panic]

end Verif
