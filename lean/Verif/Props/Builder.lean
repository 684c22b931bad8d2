import Verif.Model.Builder
import Verif.Proofs.Sample
import Verif.Spec.Toy
import Mathlib.Data.List.Nodup
/-!
# C23: what a successful build guarantees; C66: module identities
-/

namespace Verif.Props
open Verif Spec
variable {O T R : Type}

/-! ## Loops -/

theorem known_iff_mem {r : Router O T R} {n : Bytes} : r.known n = true ↔ n ∈ r.exec.map Prod.fst := by
  simp only [Router.known, List.find?_isSome, decide_eq_true_eq, List.mem_map]

theorem addExecs_ok {l : List (Bytes × Handler O T)} {r r' : Router O T R} :
    addExecs l r = .ok r' ↔ r' = { r with exec := r.exec ++ l } ∧ (l.map Prod.fst).Nodup ∧
      ∀ n ∈ l.map Prod.fst, n ∉ r.exec.map Prod.fst := by
  induction l generalizing r with
  | nil => simp [addExecs, eq_comm]
  | cons e l ih =>
    simp only [addExecs, Router.addExec]
    by_cases hk : r.known e.1 = true
    · simp only [hk, if_true]
      constructor
      · intro h; cases h
      · rintro ⟨-, -, h⟩
        exact absurd (known_iff_mem.1 hk) (h e.1 (by simp))
    · rw [if_neg hk]
      simp only [ih, List.append_assoc, List.cons_append, List.nil_append, List.map_cons,
        List.nodup_cons, List.map_append, List.map_nil, List.mem_append, List.mem_cons,
        List.not_mem_nil, or_false, not_or, forall_eq_or_imp]
      rw [known_iff_mem] at hk
      constructor
      · rintro ⟨h1, h2, h3⟩
        exact ⟨h1, ⟨fun hm => (h3 _ hm).2 rfl, h2⟩, hk, fun n hn => (h3 n hn).1⟩
      · rintro ⟨h1, ⟨h2, h3⟩, h4, h5⟩
        exact ⟨h1, h3, fun n hn => ⟨h5 n hn, fun e' => h2 (e' ▸ hn)⟩⟩

theorem addPres_ok {l : List (Bytes × Handler O T)} {r r' : Router O T R} :
    addPres l r = .ok r' ↔ r' = { r with pre := r.pre ++ l } ∧
      ∀ n ∈ l.map Prod.fst, n ∈ r.exec.map Prod.fst := by
  induction l generalizing r with
  | nil => simp [addPres, eq_comm]
  | cons e l ih =>
    simp only [addPres, Router.addPre]
    by_cases hk : r.known e.1 = true
    · simp only [hk, Bool.not_true, Bool.false_eq_true, if_false, ih, List.append_assoc,
        List.cons_append, List.nil_append, List.map_cons, List.mem_cons, forall_eq_or_imp,
        known_iff_mem.1 hk, true_and]
    · have : (!r.known e.1) = true := by simpa using hk
      simp only [this, if_true]
      constructor
      · intro h; cases h
      · rintro ⟨-, h⟩
        exact absurd (known_iff_mem.2 (h e.1 (by simp))) hk

theorem addPosts_ok {l : List (Bytes × Handler O T)} {r r' : Router O T R} :
    addPosts l r = .ok r' ↔ r' = { r with post := r.post ++ l } ∧
      ∀ n ∈ l.map Prod.fst, n ∈ r.exec.map Prod.fst := by
  induction l generalizing r with
  | nil => simp [addPosts, eq_comm]
  | cons e l ih =>
    simp only [addPosts, Router.addPost]
    by_cases hk : r.known e.1 = true
    · simp only [hk, Bool.not_true, Bool.false_eq_true, if_false, ih, List.append_assoc,
        List.cons_append, List.nil_append, List.map_cons, List.mem_cons, forall_eq_or_imp,
        known_iff_mem.1 hk, true_and]
    · have : (!r.known e.1) = true := by simpa using hk
      simp only [this, if_true]
      constructor
      · intro h; cases h
      · rintro ⟨-, h⟩
        exact absurd (known_iff_mem.2 (h e.1 (by simp))) hk

theorem addAdmissions_eq {l : List (Bytes × Handler O T)} {r : Router O T R} :
    addAdmissions l r = { r with admission := r.admission ++ l } := by
  induction l generalizing r with
  | nil => simp [addAdmissions]
  | cons e l ih => simp [addAdmissions, ih, Router.addAdmission]

theorem addAuthAdmissions_eq {l : List (TxHandler O T R)} {r : Router O T R} :
    addAuthAdmissions l r = { r with authAdmission := r.authAdmission ++ l } := by
  induction l generalizing r with
  | nil => simp [addAuthAdmissions]
  | cons e l ih => simp [addAuthAdmissions, ih, Router.addAuthAdmission]

theorem addPostAuths_eq {l : List (TxHandler O T R)} {r : Router O T R} :
    addPostAuths l r = { r with postAuth := r.postAuth ++ l } := by
  induction l generalizing r with
  | nil => simp [addPostAuths]
  | cons e l ih => simp [addPostAuths, ih, Router.addPostAuth]

theorem checkNeeds_ok {l : List Bytes} {r : Router O T R} :
    checkNeeds r l = .ok () ↔ ∀ n ∈ l, n ∈ r.exec.map Prod.fst := by
  induction l with
  | nil => simp [checkNeeds]
  | cons n l ih =>
    simp only [checkNeeds, Router.getExec, List.mem_cons, forall_eq_or_imp]
    cases hf : r.exec.find? fun e => e.1 = n with
    | none =>
      simp only [reduceCtorEq, false_iff]
      rintro ⟨h, -⟩
      obtain ⟨e, he, rfl⟩ := List.mem_map.1 h
      have := List.find?_eq_none.1 hf e he
      simp at this
    | some e =>
      simp only [ih]
      have h1 := List.mem_of_find?_eq_some hf
      have h2 := List.find?_some hf
      simp only [decide_eq_true_eq] at h2
      exact ⟨fun h => ⟨List.mem_map.2 ⟨e, h1, h2⟩, h⟩, fun h => h.2⟩

theorem findAuthorizer_ok {l : List (ModuleDesc O T R)} {a b : Option (Authorizer O)} :
    findAuthorizer l a = .ok b ↔ a.toList ++ l.filterMap (·.authorizer) = b.toList := by
  induction l generalizing a with
  | nil =>
    cases a <;> cases b <;> simp [findAuthorizer]
  | cons m l ih =>
    simp only [findAuthorizer]
    cases ha : a with
    | none =>
      cases hm : m.authorizer with
      | none => simp [hm, ih]
      | some x => simp [hm, ih]
    | some y =>
      cases hm : m.authorizer with
      | none => simp [hm, ih]
      | some x => cases b <;> simp [hm]

/-- The schemas of the entries, in order. -/
def Parsed (env : DescEnv) (fuel : Nat) (e : ObjectEntry) (s : Schema) : Prop :=
  parseObjectSchema env fuel e.api e.desc e.schema = some (.ok s)

theorem registryGet_none {r : Registry} {n : Bytes} : r.get n = none ↔ n ∉ r.map Schema.name := by
  simp only [Registry.get, List.find?_eq_none, decide_eq_true_eq, List.mem_map, not_exists, not_and]

theorem registerObjects_ok {env : DescEnv} {fuel : Nat} {l : List ObjectEntry} {r r' : Registry} :
    registerObjects env fuel l r = some (.ok r') ↔ ∃ ss, r' = r ++ ss ∧
      List.Forall₂ (Parsed env fuel) l ss ∧ (ss.map Schema.name).Nodup ∧
      ∀ n ∈ ss.map Schema.name, n ∉ r.map Schema.name := by
  induction l generalizing r with
  | nil =>
    simp only [registerObjects, Option.some.injEq, Except.ok.injEq, List.forall₂_nil_left_iff]
    constructor
    · rintro rfl; exact ⟨[], by simp⟩
    · rintro ⟨ss, rfl, rfl, -⟩; simp
  | cons e l ih =>
    simp only [registerObjects]
    cases hp : parseObjectSchema env fuel e.api e.desc e.schema with
    | none =>
      simp only [reduceCtorEq, false_iff]
      rintro ⟨ss, -, h, -⟩
      cases h with
      | cons h _ => simp [Parsed, hp] at h
    | some x =>
      cases x with
      | error x =>
        simp only [Option.some.injEq, reduceCtorEq, false_iff]
        rintro ⟨ss, -, h, -⟩
        cases h with
        | cons h _ => simp [Parsed, hp] at h
      | ok sch =>
        simp only [Registry.add]
        cases hg : r.get sch.name with
        | some y =>
          simp only [Option.some.injEq, reduceCtorEq, false_iff]
          rintro ⟨ss, -, h, -, hn⟩
          cases h with
          | cons h _ =>
            simp only [Parsed, hp, Option.some.injEq, Except.ok.injEq] at h
            subst h
            have := registryGet_none.2 (hn sch.name (by simp))
            rw [hg] at this; cases this
        | none =>
          simp only [ih]
          have hg' := registryGet_none.1 hg
          constructor
          · rintro ⟨ss, rfl, h1, h2, h3⟩
            refine ⟨sch :: ss, by simp, .cons hp h1, ?_, ?_⟩
            · simp only [List.map_cons, List.nodup_cons]
              exact ⟨fun hm => by simpa using h3 _ hm, h2⟩
            · intro n hn
              simp only [List.map_cons, List.mem_cons] at hn
              rcases hn with rfl | hn
              · exact hg'
              · intro hm; exact h3 n hn (by simp only [List.map_append, List.mem_append]; exact .inl hm)
          · rintro ⟨ss, rfl, h1, h2, h3⟩
            cases h1 with
            | cons h h1 =>
              simp only [Parsed, hp, Option.some.injEq, Except.ok.injEq] at h
              subst h
              rename_i ss
              simp only [List.map_cons, List.nodup_cons] at h2
              refine ⟨ss, by simp, h1, h2.2, ?_⟩
              intro n hn hm
              simp only [List.map_append, List.mem_append, List.map_cons, List.map_nil,
                List.mem_cons, List.not_mem_nil, or_false] at hm
              rcases hm with hm | rfl
              · exact h3 n (by simp only [List.map_cons, List.mem_cons]; exact .inr hn) hm
              · exact h2.1 hn

theorem installExtensions_eq {l : List (ModuleDesc O T R)} {g : List Service} :
    installExtensions l g = g ++ l.flatMap fun m => m.services.map fun x => { x with moduleName := m.name } := by
  induction l generalizing g with
  | nil => simp [installExtensions]
  | cons m l ih => simp [installExtensions, ih, addServices]

/-! ## C23 -/

/-- The names of the transitions with an execution handler. -/
def handled (mods : List (ModuleDesc O T R)) : List Bytes := mods.flatMap fun m => m.exec.map Prod.fst

theorem map_handlers {mods : List (ModuleDesc O T R)}
    {f : ModuleDesc O T R → List (Bytes × (Users → T → Prog O T (Except Err Unit)))} :
    (mods.flatMap fun m => m.handlers (f m)).map Prod.fst = mods.flatMap fun m => (f m).map Prod.fst := by
  rw [List.map_flatMap]
  congr 1
  funext m
  simp only [ModuleDesc.handlers, List.map_map]
  rfl

/-- **C23** A build succeeds exactly when no module name is empty, all object types parse and no
two share a name, no transition is executed by two handlers, all transitions with a pre- or
post-execution handler and all needed transitions have an execution handler, and at most one
module is an authorizer.  The runtime built then has exactly the handlers of the modules, each
acting as its module, in the order of the modules; the object types in that order; and the
authorizer, or one that allows everything if there is none. -/
theorem C23_build {env : DescEnv} {fuel : Nat} {mods : List (ModuleDesc O T R)} {b : Built O T R} :
    build env fuel mods = some (.ok b) ↔
      (∀ m ∈ mods, m.name ≠ []) ∧
      List.Forall₂ (Parsed env fuel) (mods.flatMap (·.objects)) b.reg ∧ (b.reg.map Schema.name).Nodup ∧
      (handled mods).Nodup ∧
      (∀ m ∈ mods, ∀ n, n ∈ m.pre.map Prod.fst ∨ n ∈ m.post.map Prod.fst ∨ n ∈ m.needs → n ∈ handled mods) ∧
      ((mods.filterMap (·.authorizer) = [] ∧ b.authorizer = alwaysAllow) ∨
        mods.filterMap (·.authorizer) = [b.authorizer]) ∧
      b.router = {
        authAdmission := mods.flatMap fun m => m.authAdmission.map fun c => ⟨m.name, c⟩
        postAuth := mods.flatMap fun m => m.postAuth.map fun c => ⟨m.name, c⟩
        admission := mods.flatMap fun m => m.admission.map fun e => (e.1, ⟨m.name, e.2⟩)
        pre := mods.flatMap fun m => m.pre.map fun e => (e.1, ⟨m.name, e.2⟩)
        exec := mods.flatMap fun m => m.exec.map fun e => (e.1, ⟨m.name, e.2⟩)
        post := mods.flatMap fun m => m.post.map fun e => (e.1, ⟨m.name, e.2⟩) } ∧
      b.services = mods.flatMap fun m => m.services.map fun x => { x with moduleName := m.name } := by
  have hexec : (mods.flatMap fun m => m.handlers m.exec).map Prod.fst = handled mods := map_handlers
  have hne : (mods.any fun m => m.name = []) = true ↔ ¬ ∀ m ∈ mods, m.name ≠ [] := by
    simp
  constructor
  · intro h
    simp only [build] at h
    split at h
    · cases h
    rename_i hname
    rw [hne, not_not] at hname
    split at h
    · cases h
    · cases h
    rename_i reg hreg
    obtain ⟨ss, hss, hpar, hnd, -⟩ := registerObjects_ok.1 hreg
    rw [List.nil_append] at hss; subst hss
    split at h
    · cases h
    rename_i r1 h1
    obtain ⟨e1, n1, -⟩ := addExecs_ok.1 h1
    rw [addAdmissions_eq] at h
    split at h
    · cases h
    rename_i r2 h2
    obtain ⟨e2, n2⟩ := addPres_ok.1 h2
    split at h
    · cases h
    rename_i r3 h3
    obtain ⟨e3, n3⟩ := addPosts_ok.1 h3
    rw [addAuthAdmissions_eq, addPostAuths_eq] at h
    split at h
    · cases h
    rename_i h4
    have n4 := checkNeeds_ok.1 h4
    split at h
    · cases h
    rename_i a h5
    have n5 := findAuthorizer_ok.1 h5
    simp only [Option.some.injEq, Except.ok.injEq] at h
    subst h e3 e2 e1
    simp only [Router.new, List.nil_append, hexec] at n1 n2 n3 n4
    refine ⟨hname, hpar, hnd, n1, ?_, ?_, ?_, installExtensions_eq⟩
    · intro m hm n hn
      rcases hn with hn | hn | hn
      · exact n2 n (by rw [map_handlers]; exact List.mem_flatMap.2 ⟨m, hm, hn⟩)
      · exact n3 n (by rw [map_handlers]; exact List.mem_flatMap.2 ⟨m, hm, hn⟩)
      · exact n4 n (List.mem_flatMap.2 ⟨m, hm, hn⟩)
    · simp only [Option.toList_none, List.nil_append] at n5
      cases a with
      | none => exact .inl ⟨by simpa using n5, rfl⟩
      | some a => exact .inr (by simpa using n5)
    · simp only [Router.new, List.nil_append, ModuleDesc.handlers]
  · rintro ⟨hname, hpar, hnd, n1, hn, hau, hr, hsv⟩
    have hname' : ¬ (mods.any fun m => m.name = []) = true := by rw [hne, not_not]; exact hname
    have hreg := (registerObjects_ok (env := env) (fuel := fuel) (r := []) (r' := b.reg)).2
      ⟨b.reg, by simp, hpar, hnd, by simp⟩
    have h1 := (addExecs_ok (O := O) (T := T) (R := R) (l := mods.flatMap fun m => m.handlers m.exec)
      (r := Router.new)).2 ⟨rfl, by rw [hexec]; exact n1, by simp [Router.new]⟩
    obtain ⟨a, ha, hb⟩ : ∃ a, findAuthorizer mods none = .ok a ∧ b.authorizer = (match a with
        | some a => a
        | none => alwaysAllow) := by
      rcases hau with ⟨e, hb⟩ | e
      · exact ⟨none, findAuthorizer_ok.2 (by simp [e]), hb⟩
      · exact ⟨some b.authorizer, findAuthorizer_ok.2 (by simp [e]), rfl⟩
    have hex : (List.map Prod.fst (mods.flatMap fun m => m.handlers m.exec)) = handled mods := map_handlers
    have h2 := (addPres_ok (O := O) (T := T) (R := R) (l := mods.flatMap fun m => m.handlers m.pre)
      (r := { Router.new with
        exec := [] ++ mods.flatMap fun m => m.handlers m.exec
        admission := [] ++ mods.flatMap fun m => m.handlers m.admission })).2 ⟨rfl, by
          intro n hn'
          rw [map_handlers] at hn'
          obtain ⟨m, hm, hn'⟩ := List.mem_flatMap.1 hn'
          simp only [List.nil_append, hex]
          exact hn m hm n (.inl hn')⟩
    have h3 := (addPosts_ok (O := O) (T := T) (R := R) (l := mods.flatMap fun m => m.handlers m.post)
      (r := { Router.new with
        exec := [] ++ mods.flatMap fun m => m.handlers m.exec
        admission := [] ++ mods.flatMap fun m => m.handlers m.admission
        pre := [] ++ mods.flatMap fun m => m.handlers m.pre })).2 ⟨rfl, by
          intro n hn'
          rw [map_handlers] at hn'
          obtain ⟨m, hm, hn'⟩ := List.mem_flatMap.1 hn'
          simp only [List.nil_append, hex]
          exact hn m hm n (.inr (.inl hn'))⟩
    have h4 : ∀ r : Router O T R, r.exec = (mods.flatMap fun m => m.handlers m.exec) →
        checkNeeds r (mods.flatMap (·.needs)) = .ok () := by
      intro r hr
      refine checkNeeds_ok.2 fun n hn' => ?_
      obtain ⟨m, hm, hn'⟩ := List.mem_flatMap.1 hn'
      rw [hr, hex]
      exact hn m hm n (.inr (.inr hn'))
    simp only [Router.new] at h1 h2 h3
    simp only [build, hname', if_false, hreg, Router.new, h1, addAdmissions_eq, h2, h3,
      addAuthAdmissions_eq, addPostAuths_eq, Bool.false_eq_true]
    rw [h4 _ rfl]
    simp only [ha, Option.some.injEq, Except.ok.injEq]
    cases b
    simp only [Built.mk.injEq]
    simp only at hb hr hsv
    refine ⟨trivial, ?_, ?_, hb.symm⟩
    · rw [hr]; simp only [List.nil_append, ModuleDesc.handlers]
    · rw [hsv, installExtensions_eq, List.nil_append]

/-- **C23** In a built runtime every handled transition has exactly one execution handler, the
one of the module that declares it. -/
theorem C23_one_execution_handler {env : DescEnv} {fuel : Nat} {mods : List (ModuleDesc O T R)}
    {b : Built O T R} (h : build env fuel mods = some (.ok b)) {m : ModuleDesc O T R} (hm : m ∈ mods)
    {e : Bytes × (Users → T → Prog O T (Except Err Unit))} (he : e ∈ m.exec) :
    registered b.router.exec e.1 = [⟨m.name, e.2⟩] := by
  obtain ⟨-, -, -, hnd, -, -, hr, -⟩ := C23_build.1 h
  have key : ∀ (l : List (Bytes × Handler O T)), (l.map Prod.fst).Nodup → ∀ x ∈ l,
      registered l x.1 = [x.2] := by
    intro l
    induction l with
    | nil => intro _ x hx; cases hx
    | cons y l ih =>
      intro hnd x hx
      simp only [List.map_cons, List.nodup_cons] at hnd
      simp only [List.mem_cons] at hx
      have hnone : ∀ n, n ∉ l.map Prod.fst → registered l n = [] := by
        intro n hn
        simp only [registered, List.filterMap_eq_nil_iff]
        intro z hz
        rw [if_neg]
        rintro rfl
        exact hn (List.mem_map.2 ⟨z, hz, rfl⟩)
      rcases hx with rfl | hx
      · have := hnone _ hnd.1
        simp only [registered] at this
        simp [registered, this]
      · have hne : y.1 ≠ x.1 := fun e => hnd.1 (e ▸ List.mem_map.2 ⟨x, hx, rfl⟩)
        have := ih hnd.2 x hx
        simp only [registered] at this
        simp [registered, hne, this]
  have hex : b.router.exec = mods.flatMap fun m => m.exec.map fun e => (e.1, ⟨m.name, e.2⟩) := by rw [hr]
  refine key b.router.exec ?_ (e.1, ⟨m.name, e.2⟩) ?_
  · rw [hex]
    have : (mods.flatMap fun m => m.handlers m.exec).map Prod.fst = handled mods := map_handlers
    simp only [ModuleDesc.handlers] at this
    rw [this]; exact hnd
  · rw [hex]
    exact List.mem_flatMap.2 ⟨m, hm, List.mem_map.2 ⟨e, he, rfl⟩⟩

/-- A module with two transitions and an object type. -/
def blogModule : ModuleDesc Msg Toy Unit where
  name := b!"blog"
  admission := [(b!"test.Put", toyAdmit)]
  exec := [(b!"test.Put", toyPut), (b!"test.Sys", toySys)]
  needs := [b!"test.Sys"]
  authorizer := some toyAuth

/-- Another module claiming the same name. -/
def intruder : ModuleDesc Msg Toy Unit where
  name := b!"blog"
  exec := [(b!"test.Unknown", fun _ _ => .create (post b!"p" b!"intruder" 0) fun r => .ret r)]

/-- The blog module builds; it does not together with a module handling the same transition,
needing an unhandled one, or being a second authorizer. -/
example (env : DescEnv) :
    (∃ b, build env 1 [blogModule] = some (.ok b)) ∧
    build env 1 [blogModule, { name := b!"x", exec := [(b!"test.Put", toyPut)] }]
      = some (.error (.router .other)) ∧
    build env 1 [blogModule, { name := b!"x", needs := [b!"test.Unknown"] }]
      = some (.error (.router .transitionNotFound)) ∧
    build env 1 [blogModule, { name := b!"x", authorizer := some alwaysAllow }]
      = some (.error .secondAuthorizer) ∧
    build env 1 [blogModule, { name := [] }] = some (.error .emptyName) := by
  exact ⟨⟨_, rfl⟩, rfl, rfl, rfl, rfl⟩

/-! ## C66 -/

/-- **C66 fails**: two modules with the same name are accepted, and the second acts with the
permissions of the first: here it creates a post, which the authorizer allows only to "blog". -/
theorem C66_fails (env : DescEnv) : ∃ b : Built Msg Toy Unit,
    build env 1 [blogModule, intruder] = some (.ok b) ∧
    ∃ s', deliver ⟨ormOps Msg, b.authorizer, true⟩ b.router 1 false [b!"system:abci"] .unknown
        (fresh sampleReg) = .done (.ok ()) s' ∧
      s'.get postApi.name b!"p" = .ok (post b!"p" b!"intruder" 0) :=
  ⟨_, rfl, _, rfl, rfl⟩

/-- **C66, what holds**: every handler of a module acts under the name of that module, so modules
with different names have different identities.  Missing: nothing keeps names different, nor
different from the names of accounts. -/
theorem C66_handlers_act_as_their_module_partial {env : DescEnv} {fuel : Nat}
    {mods : List (ModuleDesc O T R)} {b : Built O T R} (h : build env fuel mods = some (.ok b)) :
    ∀ o ∈ owners b.router, ∃ m ∈ mods, m.name = o := by
  obtain ⟨-, -, -, -, -, -, hr, -⟩ := C23_build.1 h
  intro o ho
  rw [hr] at ho
  simp only [owners, List.mem_append, List.mem_map, List.mem_flatMap] at ho
  rcases ho with ((((⟨_, ⟨m, hm, _, _, rfl⟩, rfl⟩ | ⟨_, ⟨m, hm, _, _, rfl⟩, rfl⟩) |
    ⟨_, ⟨m, hm, _, _, rfl⟩, rfl⟩) | ⟨_, ⟨m, hm, _, _, rfl⟩, rfl⟩) | ⟨_, ⟨m, hm, _, _, rfl⟩, rfl⟩) |
    ⟨_, ⟨m, hm, _, _, rfl⟩, rfl⟩ <;> exact ⟨m, hm, rfl⟩

end Verif.Props
