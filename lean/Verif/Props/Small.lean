import Verif.Model.Users
import Verif.Model.Services
import Mathlib.Data.List.Nodup
/-!
# C30 (sets of users) and C60 (extension services)
-/

namespace Verif.Props
open Verif

/-! ## C30 -/

theorem add_spec (u : Users) (n : Bytes) (h : u.Nodup) :
    (u.add n).Nodup ∧ ∀ x, x ∈ u.add n ↔ x ∈ u ∨ x = n := by
  unfold Users.add
  split
  · rename_i hm
    exact ⟨h, fun x => ⟨.inl, fun hx => hx.elim id fun e => e ▸ hm⟩⟩
  · rename_i hm
    refine ⟨?_, by simp⟩
    rw [List.nodup_append]
    exact ⟨h, by simp, fun a ha b hb => by simp at hb; subst hb; exact fun e => hm (e ▸ ha)⟩

theorem foldl_add (l : List Bytes) : ∀ u : Users, u.Nodup →
    (l.foldl Users.add u).Nodup ∧ ∀ x, x ∈ l.foldl Users.add u ↔ x ∈ u ∨ x ∈ l := by
  induction l with
  | nil => intro u h; exact ⟨h, by simp⟩
  | cons n l ih =>
    intro u h
    obtain ⟨h1, h2⟩ := add_spec u n h
    obtain ⟨h3, h4⟩ := ih _ h1
    refine ⟨h3, fun x => ?_⟩
    simp only [List.foldl_cons, h4, h2, List.mem_cons, or_assoc]

/-- **C30** Users built from names contain exactly these names, each once. -/
theorem C30_ofNames (names : List Bytes) :
    (Users.ofNames names).Nodup ∧ ∀ x, x ∈ Users.ofNames names ↔ x ∈ names := by
  obtain ⟨h1, h2⟩ := foldl_add names [] List.nodup_nil
  exact ⟨h1, fun x => by rw [Users.ofNames, h2]; simp⟩

/-- **C30** The union of groups, nil groups being skipped, contains exactly the members of any
group, each once. -/
theorem C30_union (groups : List (Option Users)) :
    (Users.union groups).Nodup ∧ ∀ x, x ∈ Users.union groups ↔ ∃ g, some g ∈ groups ∧ x ∈ g := by
  have key : ∀ (gs : List (Option Users)) (u : Users), u.Nodup →
      (gs.foldl (fun u g => match g with
        | none => u
        | some l => l.foldl Users.add u) u).Nodup ∧
      ∀ x, x ∈ gs.foldl (fun u g => match g with
        | none => u
        | some l => l.foldl Users.add u) u ↔ x ∈ u ∨ ∃ g, some g ∈ gs ∧ x ∈ g := by
    intro gs
    induction gs with
    | nil => intro u h; exact ⟨h, by simp⟩
    | cons g gs ih =>
      intro u h
      simp only [List.foldl_cons]
      cases g with
      | none =>
        obtain ⟨h1, h2⟩ := ih u h
        exact ⟨h1, fun x => by rw [h2]; simp⟩
      | some l =>
        obtain ⟨h0, h0'⟩ := foldl_add l u h
        obtain ⟨h1, h2⟩ := ih _ h0
        refine ⟨h1, fun x => ?_⟩
        rw [h2, h0']
        simp only [List.mem_cons, Option.some.injEq, or_assoc]
        constructor
        · rintro (hx | hx | ⟨g, hg, hx⟩)
          · exact .inl hx
          · exact .inr ⟨l, .inl rfl, hx⟩
          · exact .inr ⟨g, .inr hg, hx⟩
        · rintro (hx | ⟨g, rfl | hg, hx⟩)
          · exact .inl hx
          · exact .inr (.inl hx)
          · exact .inr (.inr ⟨g, hg, hx⟩)
  obtain ⟨h1, h2⟩ := key groups [] List.nodup_nil
  exact ⟨h1, fun x => (h2 x).trans (by simp)⟩

/-- **C30** `Has` is true exactly when all names are members. -/
theorem C30_has (u : Users) (names : List Bytes) :
    u.has names = true ↔ ∀ n ∈ names, n ∈ u := by
  induction names with
  | nil => simp [Users.has]
  | cons n ns ih =>
    simp only [Users.has, Users.has1, List.contains_eq_mem, List.mem_cons, forall_eq_or_imp]
    by_cases h : n ∈ u <;> simp [h, ih]

example : Users.union [some [b!"a", b!"b"], none, some [b!"b", b!"c"]] = [b!"a", b!"b", b!"c"] ∧
    Users.has [b!"a", b!"b"] [b!"b", b!"c"] = false := by decide

/-! ## C60 -/

/-- **C60** Starting goes through the services in registration order, giving each a client with
its own name, up to and including the first that fails, whose error is the result; if none fails
all are started and the result is success. -/
theorem C60_start (svcs : List Service) :
    ((∀ s ∈ svcs, s.start = .ok ()) ∧
      startServices svcs = (svcs.map fun s => .start s (s.moduleName ++ b!"." ++ s.serviceName), .ok ())) ∨
    ∃ before s after e, svcs = before ++ s :: after ∧ (∀ x ∈ before, x.start = .ok ()) ∧
      s.start = .error e ∧ startServices svcs =
        ((before ++ [s]).map fun s => .start s (s.moduleName ++ b!"." ++ s.serviceName), .error e) := by
  have hname : ∀ s : Service, s.name = s.moduleName ++ b!"." ++ s.serviceName := by
    intro s; simp only [Service.name, List.append_assoc]; rfl
  simp only [← hname]
  induction svcs with
  | nil => left; simp [startServices]
  | cons x l ih =>
    cases hx : x.start with
    | error e =>
      right
      exact ⟨[], x, l, e, rfl, by simp, hx, by simp [startServices, hx]⟩
    | ok u =>
      rcases ih with ⟨h1, h2⟩ | ⟨b, s, a, e, h1, h2, h3, h4⟩
      · left
        refine ⟨fun s hs => ?_, by simp [startServices, hx, h2]⟩
        rcases List.mem_cons.1 hs with rfl | hs
        · exact hx
        · exact h1 s hs
      · right
        refine ⟨x :: b, s, a, e, by rw [h1]; rfl, fun y hy => ?_, h3, by simp [startServices, hx, h4]⟩
        rcases List.mem_cons.1 hy with rfl | hy
        · exact hx
        · exact h2 y hy

/-- **C60** Stopping calls every service once, in order, and reports an error exactly when some
service failed to stop. -/
theorem C60_stop (svcs : List Service) :
    (stopServices svcs).1 = svcs.map .stop ∧
    ((stopServices svcs).2 = [] ↔ ∀ s ∈ svcs, s.stop = .ok ()) := by
  induction svcs with
  | nil => simp [stopServices]
  | cons x l ih =>
    simp only [stopServices, List.mem_cons, forall_eq_or_imp, List.map_cons]
    cases hx : x.stop with
    | error e => simp [ih.1]
    | ok u => simp [ih.1, ih.2]

example : (stopServices [⟨b!"m", b!"a", .ok (), .error .other⟩, ⟨b!"m", b!"b", .ok (), .ok ()⟩]).2
    = [.other] := rfl

end Verif.Props
