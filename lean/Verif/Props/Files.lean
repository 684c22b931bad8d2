import Verif.Spec.Files
/-!
# Dependencies of protobuf files (C56)
-/

namespace Verif.Props
open Spec

theorem import_size {f g : File} (h : g ∈ f.imports) : sizeOf g < sizeOf f := by
  cases f with
  | mk p c is =>
    have h1 : sizeOf g < sizeOf is := List.sizeOf_lt_of_mem h
    simp only [File.mk.sizeOf_spec]
    have : sizeOf is = sizeOf (File.imports (.mk p c is)) := rfl
    omega

theorem imports_size {f g : File} (h : Imports f g) : sizeOf g < sizeOf f := by
  induction h with
  | direct h => exact import_size h
  | step h _ ih => exact Nat.lt_trans ih (import_size h)

/-- No file imports itself (by construction). -/
theorem imports_irrefl (f : File) : ¬ Imports f f := fun h => absurd (imports_size h) (Nat.lt_irrefl _)

theorem imports_trans {f g h : File} (h1 : Imports f g) (h2 : Imports g h) : Imports f h := by
  induction h1 with
  | direct h1 => exact .step h1 h2
  | step h1 _ ih => exact .step h1 (ih h2)

/-- The files collected so far, within a set of files in which paths name files. -/
structure Collected (U : File → Prop) (acc : List File) : Prop where
  within : ∀ g ∈ acc, U g
  nodup : (acc.map File.path).Nodup
  order : ∀ pre g post, acc = pre ++ g :: post → ∀ h ∈ g.imports, h ∈ pre

variable {U : File → Prop}

theorem Collected.append {acc : List File} {f : File} (hc : Collected U acc) (hu : U f)
    (hp : f.path ∉ acc.map File.path) (hi : ∀ h ∈ f.imports, h ∈ acc) : Collected U (acc ++ [f]) where
  within g hg := by
    rcases List.mem_append.1 hg with h | h
    · exact hc.within g h
    · rw [List.mem_singleton.1 h]; exact hu
  nodup := by
    rw [List.map_append, List.nodup_append]
    refine ⟨hc.nodup, by simp, ?_⟩
    intro a ha b hb hab
    simp only [List.map_cons, List.map_nil, List.mem_singleton] at hb
    rw [hab, hb] at ha
    exact hp ha
  order pre g post he h hh := by
    rcases List.eq_nil_or_concat post with rfl | ⟨post', x, rfl⟩
    · have := List.append_inj' he rfl
      obtain ⟨rfl, h2⟩ := this
      simp only [List.cons.injEq, and_true] at h2
      subst h2
      exact hi h hh
    · rw [List.concat_eq_append, ← List.cons_append, ← List.append_assoc] at he
      obtain ⟨h1, _⟩ := List.append_inj' he rfl
      exact hc.order pre g post' h1 h hh

mutual
theorem dependencies_spec (closed : ∀ f g, U f → g ∈ f.imports → U g)
    (named : ∀ g h, U g → U h → g.path = h.path → g = h) (known : List Bytes) (acc : List File) (f : File) (hu : U f) (hc : Collected U acc)
    (hk : ∀ p, p ∈ known ↔ p ∈ acc.map File.path) :
    Collected U (acc ++ (dependencies known f).1) ∧
    (∀ p, p ∈ (dependencies known f).2 ↔ p ∈ (acc ++ (dependencies known f).1).map File.path) ∧
    (∀ g ∈ f.imports, g ∈ acc ++ (dependencies known f).1) ∧
    (∀ g ∈ (dependencies known f).1, Imports f g) := by
  cases f with
  | mk p c is =>
    obtain ⟨h1, h2, h3, h4⟩ := dependenciesLoop_spec closed named known acc is (fun g hg => closed (.mk p c is) g hu hg) hc hk
    refine ⟨h1, h2, h3, fun g hg => ?_⟩
    rcases h4 g hg with h | ⟨d, hd, h⟩
    · exact .direct h
    · exact .step hd h
termination_by sizeOf f
decreasing_by all_goals (subst_vars; simp only [File.mk.sizeOf_spec]; omega)

theorem dependenciesLoop_spec (closed : ∀ f g, U f → g ∈ f.imports → U g)
    (named : ∀ g h, U g → U h → g.path = h.path → g = h) (known : List Bytes) (acc : List File) (is : List File) (hu : ∀ g ∈ is, U g)
    (hc : Collected U acc) (hk : ∀ p, p ∈ known ↔ p ∈ acc.map File.path) :
    Collected U (acc ++ (dependenciesLoop known is).1) ∧
    (∀ p, p ∈ (dependenciesLoop known is).2 ↔ p ∈ (acc ++ (dependenciesLoop known is).1).map File.path) ∧
    (∀ g ∈ is, g ∈ acc ++ (dependenciesLoop known is).1) ∧
    (∀ g ∈ (dependenciesLoop known is).1, g ∈ is ∨ ∃ d ∈ is, Imports d g) := by
  cases is with
  | nil =>
    simp only [dependenciesLoop, List.append_nil]
    exact ⟨hc, hk, by simp, by simp⟩
  | cons dep rest =>
    rw [dependenciesLoop]
    split
    · next hm =>
      obtain ⟨h1, h2, h3, h4⟩ := dependenciesLoop_spec closed named known acc rest (fun g hg => hu g (List.mem_cons_of_mem _ hg)) hc hk
      refine ⟨h1, h2, fun g hg => ?_, fun g hg => ?_⟩
      · rcases List.mem_cons.1 hg with rfl | hg
        · obtain ⟨g', hg', he⟩ := List.mem_map.1 ((hk _).1 hm)
          rw [named g g' (hu _ List.mem_cons_self) (hc.within _ hg') he.symm]
          exact List.mem_append_left _ hg'
        · exact h3 g hg
      · rcases h4 g hg with h | ⟨d, hd, h⟩
        · exact .inl (List.mem_cons_of_mem _ h)
        · exact .inr ⟨d, List.mem_cons_of_mem _ hd, h⟩
    · next hm =>
      obtain ⟨a1, a2, a3, a4⟩ := dependencies_spec closed named known acc dep (hu _ List.mem_cons_self) hc hk
      simp only []
      generalize dependencies known dep = r at *
      have hnew : dep.path ∉ (acc ++ r.1).map File.path := by
        intro h
        obtain ⟨g, hg, he⟩ := List.mem_map.1 h
        have e := named g dep (a1.within g hg) (hu _ List.mem_cons_self) he
        subst e
        rcases List.mem_append.1 hg with hg | hg
        · exact hm ((hk _).2 (List.mem_map_of_mem hg))
        · exact imports_irrefl _ (a4 _ hg)
      have b1 := a1.append (hu dep List.mem_cons_self) hnew a3
      obtain ⟨h1, h2, h3, h4⟩ := dependenciesLoop_spec closed named (dep.path :: r.2) (acc ++ r.1 ++ [dep]) rest
        (fun g hg => hu g (List.mem_cons_of_mem _ hg)) b1 (fun p => by
          rw [List.mem_cons, a2, List.map_append (l₁ := acc ++ r.1), List.mem_append (s := List.map _ (acc ++ r.1)),
            List.map_cons, List.map_nil, List.mem_singleton]
          exact or_comm)
      generalize dependenciesLoop (dep.path :: r.2) rest = r' at *
      have e : acc ++ (r.1 ++ dep :: r'.1) = acc ++ r.1 ++ [dep] ++ r'.1 := by simp
      rw [e]
      refine ⟨h1, h2, fun g hg => ?_, fun g hg => ?_⟩
      · rcases List.mem_cons.1 hg with rfl | hg
        · simp
        · exact h3 g hg
      · rcases List.mem_append.1 hg with hg | hg
        · exact .inr ⟨dep, List.mem_cons_self, a4 g hg⟩
        · rcases List.mem_cons.1 hg with rfl | hg
          · exact .inl List.mem_cons_self
          · rcases h4 g hg with h | ⟨d, hd, h⟩
            · exact .inl (List.mem_cons_of_mem _ h)
            · exact .inr ⟨d, List.mem_cons_of_mem _ hd, h⟩
termination_by sizeOf is
decreasing_by all_goals (subst_vars; simp only [List.cons.sizeOf_spec]; omega)
end

/-- The files of a tree in which paths name files, collected. -/
theorem dependencies_collected {f : File} (hp : PathsName f) :
    Collected (fun g => g = f ∨ Imports f g) f.dependencies ∧ (∀ g ∈ f.imports, g ∈ f.dependencies) ∧
    ∀ g ∈ f.dependencies, Imports f g := by
  obtain ⟨h1, _, h3, h4⟩ := dependencies_spec (U := fun g => g = f ∨ Imports f g)
    (fun a g ha hg => .inr (by
      rcases ha with rfl | ha
      · exact .direct hg
      · exact imports_trans ha (.direct hg)))
    hp [] [] f (.inl rfl) ⟨by simp, by simp, by simp⟩ (by simp)
  exact ⟨h1, h3, h4⟩

/-- **C56**: the dependencies of a file are exactly the files it imports directly or indirectly. -/
theorem C56_exact {f : File} (hp : PathsName f) (g : File) : g ∈ f.dependencies ↔ Imports f g := by
  obtain ⟨h1, h2, h3⟩ := dependencies_collected hp
  refine ⟨h3 g, fun h => ?_⟩
  have key : ∀ {a : File}, a ∈ f.dependencies → ∀ {b}, b ∈ a.imports → b ∈ f.dependencies := by
    intro a ha b hb
    obtain ⟨pre, post, he⟩ := List.append_of_mem ha
    rw [he]
    exact List.mem_append_left _ (h1.order pre a post he b hb)
  cases h with
  | direct h => exact h2 g h
  | step h hg =>
    have h0 := h2 _ h
    clear h
    induction hg with
    | direct hi => exact key h0 hi
    | step hi _ ih => exact ih (key h0 hi)

/-- **C56**: each of them comes exactly once, and no path comes twice. -/
theorem C56_once {f : File} (hp : PathsName f) : f.dependencies.Nodup ∧ (f.dependencies.map File.path).Nodup := by
  have h := (dependencies_collected hp).1.nodup
  exact ⟨List.Pairwise.of_map File.path (fun _ _ hab he => hab (by rw [he])) h, h⟩

/-- **C56**: each of them comes after all of its own imports. -/
theorem C56_order {f : File} (hp : PathsName f) {pre post : List File} {g : File}
    (he : f.dependencies = pre ++ g :: post) : ∀ h, Imports g h → h ∈ pre := by
  have ho := (dependencies_collected hp).1.order
  have key : ∀ {a b : File}, Imports a b → ∀ {pre post}, f.dependencies = pre ++ a :: post → b ∈ pre := by
    intro a b hab
    induction hab with
    | direct h => intro pre post he; exact ho _ _ _ he _ h
    | @step a c b h _ ih =>
      intro pre post he
      obtain ⟨p1, p2, e⟩ := List.append_of_mem (ho _ _ _ he _ h)
      have := ih (pre := p1) (post := p2 ++ a :: post) (by rw [he, e]; simp)
      rw [e]
      exact List.mem_append_left _ this
  exact fun h hg => key hg he

/-- **C56**: the file is not among its dependencies, nor is another one of its path. -/
theorem C56_self {f : File} (hp : PathsName f) : f ∉ f.dependencies ∧ f.path ∉ f.dependencies.map File.path := by
  have h : f ∉ f.dependencies := fun h => imports_irrefl f ((C56_exact hp f).1 h)
  refine ⟨h, fun hm => ?_⟩
  obtain ⟨g, hg, he⟩ := List.mem_map.1 hm
  exact h (hp g f (.inr ((C56_exact hp g).1 hg)) (.inl rfl) he ▸ hg)

/-- **C56**: a module registers the files of a transition in an order in which every import is
known before it is needed, with the file last. -/
theorem C56_registration {f : File} (hp : PathsName f) {pre post : List File} {g : File}
    (he : f.withDependencies = pre ++ g :: post) : ∀ h ∈ g.imports, h ∈ pre := by
  have hc := dependencies_collected hp
  exact (hc.1.append (.inl rfl) (C56_self hp).2 hc.2.1).order pre g post he

/-- Three files, the first importing the others, the second the third. -/
def sampleFile : File := .mk b!"a" ⟨true, [], []⟩ [.mk b!"b" ⟨true, [], []⟩ [.mk b!"c" ⟨true, [], []⟩ []], .mk b!"c" ⟨true, [], []⟩ []]

/-- Non-vacuity: a file shared by two importers. -/
example : sampleFile.dependencies.map File.path = [b!"c", b!"b"] := by decide +kernel

example : PathsName sampleFile := by
  have hb : ∀ g, Imports sampleFile g → g = .mk b!"b" ⟨true, [], []⟩ [.mk b!"c" ⟨true, [], []⟩ []] ∨ g = .mk b!"c" ⟨true, [], []⟩ [] := by
    intro g h
    cases h with
    | direct h => simpa [sampleFile, File.imports] using h
    | step h h2 =>
      simp only [sampleFile, File.imports, List.mem_cons, List.not_mem_nil, or_false] at h
      rcases h with rfl | rfl
      · cases h2 with
        | direct h => right; simpa [File.imports] using h
        | step h h3 =>
          simp only [File.imports, List.mem_cons, List.not_mem_nil, or_false] at h
          subst h
          cases h3 with
          | direct h => simp [File.imports] at h
          | step h _ => simp [File.imports] at h
      · cases h2 with
        | direct h => simp [File.imports] at h
        | step h _ => simp [File.imports] at h
  intro g h hg hh he
  have key : ∀ g, (g = sampleFile ∨ Imports sampleFile g) → g = sampleFile ∨
      g = .mk b!"b" ⟨true, [], []⟩ [.mk b!"c" ⟨true, [], []⟩ []] ∨ g = .mk b!"c" ⟨true, [], []⟩ [] := by
    intro g hg
    rcases hg with h | h
    · exact .inl h
    · exact .inr (hb g h)
  rcases key g hg with rfl | rfl | rfl <;> rcases key h hh with rfl | rfl | rfl <;>
    first | rfl | exact absurd he (by decide)

end Verif.Props
