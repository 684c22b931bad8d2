import Verif.Spec.Rbac
import Verif.Proofs.AppFacts
/-! # The authorizer and the roles of modules -/

set_option linter.unusedSectionVars false
set_option linter.unusedSimpArgs false

namespace Verif
open Spec

variable {lib : Libs} {m : World}

/-! ## Reading roles -/

/-- Reading as the clients of the runtime do. -/
def readWorld (m : World) (id : Bytes) (ty : Bytes) : Out (Except Err Obj) :=
  if id = [] then .panic else match m ty id with
    | none => .ret (.error .notFound)
    | some o => .ret (.ok o)

/-- Roles and bindings are stored under their names. -/
structure RolesTyped (m : World) : Prop where
  bindings : ∀ k o, m tyRoleBinding k = some o → ∃ s r, o = .roleBinding s r ∧ encKey s = k ∧ k ≠ []
  roles : ∀ k o, m tyRole k = some o → ∃ r, o = .role r ∧ encKey r.id = k ∧ k ≠ []

theorem obj_binding {o : Obj} (h : o.api.name = tyRoleBinding) : ∃ s r, o = .roleBinding s r := by
  cases o <;> first | exact ⟨_, _, rfl⟩ | exact absurd (show _ = tyRoleBinding from h) (of_decide_eq_false (by rfl))

theorem obj_role {o : Obj} (h : o.api.name = tyRole) : ∃ r, o = .role r := by
  cases o <;> first | exact ⟨_, rfl⟩ | exact absurd (show _ = tyRole from h) (of_decide_eq_false (by rfl))

theorem rolesTyped_view {s : Store Obj} (hi : Inv s) (hr : s.reg = appReg) : RolesTyped (view s) := by
  constructor
  · intro k o h
    obtain ⟨sch, hs⟩ := reg_binding
    have hs' := hs
    rw [← hr] at hs
    rw [view_eq hs] at h
    split at h
    · cases h
    · rename_i hk
      have hn := (Registry.get_mem hs).2
      rw [← hn] at h
      obtain ⟨hl, _, ho, _⟩ := hi.live_of_get hs h
      obtain ⟨a, b, rfl⟩ := obj_binding (show o.api.name = tyRoleBinding by rw [← hn]; exact ho)
      have he := hl.enc
      have : sch = ⟨Obj.api (.roleBinding [] []), some (b!"subject", .string), [⟨b!"roleRef", .string⟩]⟩ :=
        Option.some.inj (hs'.symm.trans rfl)
      subst this
      refine ⟨a, b, rfl, ?_, hk⟩
      exact Out.ret.inj he
  · intro k o h
    obtain ⟨sch, hs⟩ := reg_role
    have hs' := hs
    rw [← hr] at hs
    rw [view_eq hs] at h
    split at h
    · cases h
    · rename_i hk
      have hn := (Registry.get_mem hs).2
      rw [← hn] at h
      obtain ⟨hl, _, ho, _⟩ := hi.live_of_get hs h
      obtain ⟨a, rfl⟩ := obj_role (show o.api.name = tyRole by rw [← hn]; exact ho)
      have he := hl.enc
      have : sch = ⟨Obj.api (.role { id := [] }), some (b!"id", .string), []⟩ :=
        Option.some.inj (hs'.symm.trans rfl)
      subst this
      refine ⟨a, rfl, ?_, hk⟩
      exact Out.ret.inj he

/-- The role found for a user. -/
def roleFor (m : World) (u : Bytes) : Option Role := match m tyRoleBinding u with
  | some (.roleBinding _ ref) => match m tyRole ref with
    | some (.role r) => some r
    | _ => none
  | _ => none

theorem encKey_plain {s : Bytes} (h : PlainName s) : encKey s = s := encKey_short h.2

theorem hasRole_iff (ht : RolesTyped m) {u : Bytes} (hu : PlainName u)
    (hp : ∀ k ref, m tyRoleBinding k = some (.roleBinding u ref) → PlainName ref) (r : Role) :
    HasRole m u r ↔ roleFor m u = some r := by
  constructor
  · rintro ⟨⟨k, hk⟩, k', hk'⟩
    obtain ⟨s, ref, he, hs, _⟩ := ht.bindings _ _ hk
    cases he
    obtain ⟨r', he', hr', _⟩ := ht.roles _ _ hk'
    cases he'
    rw [encKey_plain hu] at hs
    subst hs
    rw [encKey_plain (hp _ _ hk)] at hr'
    subst hr'
    simp only [roleFor, hk, hk']
  · intro h
    simp only [roleFor] at h
    cases hb : m tyRoleBinding u with
    | none => simp [hb] at h
    | some o =>
      obtain ⟨s, ref, rfl, hs, _⟩ := ht.bindings _ _ hb
      rw [hb] at h
      dsimp only at h
      have hsu : s = u := encKey_inj (hs.trans (encKey_plain hu).symm)
      subst hsu
      cases hr : m tyRole ref with
      | none => simp [hr] at h
      | some o =>
        obtain ⟨r', rfl, hr', _⟩ := ht.roles _ _ hr
        rw [hr] at h
        cases h
        have hid : r.id = ref := encKey_inj (hr'.trans (encKey_plain (hp _ _ hb)).symm)
        exact ⟨⟨_, hid ▸ hb⟩, _, hr⟩

theorem no_role (ht : RolesTyped m) {u : Bytes} (h : m tyRoleBinding (encKey u) = none) (r : Role) :
    ¬ HasRole m u r := by
  rintro ⟨⟨k, hk⟩, _⟩
  obtain ⟨a, b, e, he, _⟩ := ht.bindings _ _ hk
  cases e
  rw [← he, h] at hk
  cases hk

theorem listed_eq (r : Role) (v : Verb) : listed r v = r.resources v := by
  cases v <;> rfl

/-- What `fetchRoles` finds, whatever the names. -/
theorem fetch_cons (ht : RolesTyped m) {read : Bytes → Bytes → Out (Except Err Obj)}
    (hb : ∀ id, read tyRoleBinding id = readWorld m id tyRoleBinding)
    (hr : ∀ id, read tyRole id = readWorld m id tyRole) {u : Bytes} {us : List Bytes}
    (hu : u ≠ []) (href : ∀ s, m tyRoleBinding u ≠ some (.roleBinding s [])) :
    fetchRoles read (u :: us) = match roleFor m u with
      | none => .ret (.error .notFound)
      | some r => match fetchRoles read us with
        | .panic => .panic
        | .ret (.error e) => .ret (.error e)
        | .ret (.ok roles) => .ret (.ok (r :: roles)) := by
  simp only [fetchRoles, hb, hr, readWorld, if_neg hu, roleFor]
  cases h1 : m tyRoleBinding u with
  | none => rfl
  | some o =>
    obtain ⟨s, ref, rfl, _, _⟩ := ht.bindings _ _ h1
    have hne : ref ≠ [] := fun e => href s (e ▸ h1)
    simp only [if_neg hne]
    cases h2 : m tyRole ref with
    | none => rfl
    | some o =>
      obtain ⟨r, rfl, _, _⟩ := ht.roles _ _ h2
      rfl

theorem fetch_all (ht : RolesTyped m) {read : Bytes → Bytes → Out (Except Err Obj)}
    (hb : ∀ id, read tyRoleBinding id = readWorld m id tyRoleBinding)
    (hr : ∀ id, read tyRole id = readWorld m id tyRole) : ∀ {us : List Bytes},
    (∀ u ∈ us, u ≠ [] ∧ ∀ s, m tyRoleBinding u ≠ some (.roleBinding s [])) →
    fetchRoles read us = if us.all (fun u => (roleFor m u).isSome) then .ret (.ok (us.filterMap (roleFor m)))
      else .ret (.error .notFound)
  | [], _ => rfl
  | u :: us, h => by
    rw [fetch_cons ht hb hr (h u (by simp)).1 (h u (by simp)).2,
      fetch_all ht hb hr fun v hv => h v (List.mem_cons_of_mem _ hv)]
    cases hf : roleFor m u with
    | none => simp [hf]
    | some r =>
      by_cases ha : (us.all fun u => (roleFor m u).isSome) = true
      · simp only [ha, if_true, List.all_cons, hf, Option.isSome_some, Bool.true_and, List.filterMap_cons]
      · simp only [ha, List.all_cons, hf, Option.isSome_some, Bool.true_and]
        simp

/-- The decision, for non-empty names. -/
def decision (m : World) (v : Verb) (resource : Bytes) (us : List Bytes) : Except Err Bool :=
  if us.all (fun u => (roleFor m u).isSome) then
    if us.any (fun u => match roleFor m u with | some r => (r.resources v).contains resource | none => false)
    then .ok true else .error .other
  else .error .notFound

theorem authorizer_eq (ht : RolesTyped m) {read : Bytes → Bytes → Out (Except Err Obj)}
    (hb : ∀ id, read tyRoleBinding id = readWorld m id tyRoleBinding)
    (hr : ∀ id, read tyRole id = readWorld m id tyRole) {us : List Bytes}
    (h : ∀ u ∈ us, u ≠ [] ∧ ∀ s, m tyRoleBinding u ≠ some (.roleBinding s [])) (v : Verb) (resource : Bytes) :
    rbacAuthorizer read v resource us = .ret (decision m v resource us) := by
  simp only [rbacAuthorizer, fetch_all ht hb hr h, decision]
  by_cases ha : (us.all fun u => (roleFor m u).isSome) = true
  · simp only [ha, if_true]
    have : ((us.filterMap (roleFor m)).flatMap fun r => r.resources v).contains resource =
        us.any (fun u => match roleFor m u with | some r => (r.resources v).contains resource | none => false) := by
      clear ha h
      induction us with
      | nil => rfl
      | cons u us ih =>
        rw [List.any_cons, ← ih]
        cases hf : roleFor m u with
        | none => simp [hf]
        | some r =>
          rw [List.filterMap_cons_some hf, List.flatMap_cons]
          rw [Bool.eq_iff_iff]
          simp only [hf, List.contains_iff_mem, List.mem_append, Bool.or_eq_true]
    rw [this]
    split <;> rfl
  · simp [ha]

theorem decision_perm {v : Verb} {resource : Bytes} {us us' : List Bytes} (h : us.Perm us') :
    decision m v resource us = decision m v resource us' := by
  simp only [decision, h.all_eq, h.any_eq]

theorem decision_allow {v : Verb} {resource : Bytes} {us : List Bytes} :
    decision m v resource us = .ok true ↔ (∀ u ∈ us, ∃ r, roleFor m u = some r) ∧
      ∃ u ∈ us, ∃ r, roleFor m u = some r ∧ resource ∈ r.resources v := by
  simp only [decision]
  have h1 : us.all (fun u => (roleFor m u).isSome) = true ↔ ∀ u ∈ us, ∃ r, roleFor m u = some r := by
    simp [List.all_eq_true, Option.isSome_iff_exists]
  have h2 : us.any (fun u => match roleFor m u with | some r => (r.resources v).contains resource | none => false) = true ↔
      ∃ u ∈ us, ∃ r, roleFor m u = some r ∧ resource ∈ r.resources v := by
    rw [List.any_eq_true]
    constructor
    · rintro ⟨u, hu, h⟩
      cases hf : roleFor m u with
      | none => simp [hf] at h
      | some r => exact ⟨u, hu, r, hf, by simpa [hf] using h⟩
    · rintro ⟨u, hu, r, hf, h⟩
      exact ⟨u, hu, by simpa [hf] using h⟩
  rw [← h1, ← h2]
  by_cases ha : us.all (fun u => (roleFor m u).isSome) = true
  · simp only [ha, if_true, true_and]
    split
    · rename_i h; exact ⟨fun _ => h, fun _ => rfl⟩
    · rename_i h
      exact ⟨fun e => (by cases e), fun e => absurd e h⟩
  · simp [ha]

theorem decision_not {v : Verb} {resource : Bytes} {us : List Bytes} (h : decision m v resource us ≠ .ok true) :
    ∃ e, decision m v resource us = .error e := by
  simp only [decision] at *
  split
  · rename_i h1
    split
    · rename_i h2
      rw [if_pos h1, if_pos h2] at h
      exact absurd rfl h
    · exact ⟨_, rfl⟩
  · exact ⟨_, rfl⟩

/-- The reads of the runtime on the object store. -/
theorem store_read {s : Store Obj} (hr : s.reg = appReg) {sys : Sys (Store Obj) Obj} (ho : sys.ops = ormOps Obj)
    {ty : Bytes} {sch : Schema} (hs : appReg.get ty = some sch) (id : Bytes) :
    sys.get s ty id = readWorld (view s) id ty := by
  simp only [Sys.get, ho, readWorld, ormOps, mapGet_view, hr, mapGet, hs]
  split
  · rfl
  · cases view s ty id <;> rfl

/-! ## Creating and binding roles while access is not checked -/

/-- The object requests of the application while access is not checked. -/
noncomputable abbrev zsys (lib : Libs) : Sys World Obj := (mapApp lib).sys false

theorem zsys_get {ty : Bytes} {sch : Schema} (h : appReg.get ty = some sch) (id : Bytes) :
    (zsys lib).get m ty id = readWorld m id ty := by
  simp only [zsys, Config.sys, Sys.get, mapApp, appConfig, mapOps, mapGet, h, readWorld]
  split
  · rfl
  · cases m ty id <;> rfl

theorem zsys_auth (v : Verb) (r : Bytes) (us : Users) : (zsys lib).authorized m v r us = .ret (.ok ()) := rfl

section
variable {dlv : Users → Tr → World → Res World (Except Err Unit)} {me : Users}

theorem zrun_create {o : Obj} {k : Bytes} (hk : keyOf appReg o = some (o.api.name, k))
    (c : Except Err Unit → Code) :
    (Prog.create o c).run (zsys lib) dlv me m =
      if k = [] ∨ (m o.api.name k).isSome ∨ appStorable o = false then .panic
      else (c (.ok ())).run (zsys lib) dlv me (m.put o.api.name k (some o)) := by
  have hs : (zsys lib).create me o m =
      if k = [] ∨ (m o.api.name k).isSome ∨ appStorable o = false then .panic
      else .ret (.ok (), m.put o.api.name k (some o)) := by
    have : (zsys lib).ops.create m o = mapExec appReg m (.create o) := rfl
    have h2 : (StateObject.api o).name = o.api.name := rfl
    simp only [Sys.create, Sys.write, h2, zsys_auth, this, mapExec_create (m := m) hk]
    by_cases h1 : k = []
    · simp [h1, convertStoreError]
    · by_cases h3 : (m o.api.name k).isSome
      · simp [h1, h3, convertStoreError]
      · by_cases h4 : appStorable o = false
        · simp [h1, h3, h4, convertStoreError]
        · simp [h1, h3, h4, convertStoreError]
  simp only [Prog.run, hs]
  by_cases h : k = [] ∨ (m o.api.name k).isSome ∨ appStorable o = false
  · simp only [h, if_true]
  · simp only [h, if_false]

theorem zrun_getRole (ht : RolesTyped m) (id : Bytes) (k : Except Err Role → Code) :
    (getRole id k).run (zsys lib) dlv me m = if id = [] then .panic else match m tyRole id with
      | some (.role r) => (k (.ok r)).run (zsys lib) dlv me m
      | _ => (k (.error .notFound)).run (zsys lib) dlv me m := by
  obtain ⟨s, hs⟩ := reg_role
  simp only [getRole, Prog.run, zsys_get hs, readWorld]
  by_cases ha : id = []
  · simp only [ha, if_true]
  · simp only [ha, if_false]
    cases h : m tyRole id with
    | none => rfl
    | some o => obtain ⟨r, rfl, _⟩ := ht.roles _ _ h; rfl

theorem zrun_getModules {mods : List RawModule}
    (hm : m tyModuleDescriptors singletonID = some (.moduleDescriptors mods))
    (k : Except Err (List RawModule) → Code) :
    (getModuleDescriptors k).run (zsys lib) dlv me m = (k (.ok mods)).run (zsys lib) dlv me m := by
  obtain ⟨s, hs⟩ : ∃ s, appReg.get tyModuleDescriptors = some s := ⟨_, rfl⟩
  simp only [getModuleDescriptors, Prog.run, zsys_get hs, readWorld, singleton_ne, if_false, hm]

end

/-- Creating a role while the modules are `mods`. -/
def makeRole (mods : List RawModule) (r : Role) (m : World) : Outcome :=
  if r.id = [] ∨ (m tyRole r.id).isSome ∨ roleKnown mods r = false then .done (.error .badRequest) m
  else if (m tyRole (encKey r.id)).isSome ∨ appStorable (.role r) = false then .panic
  else .done (.ok ()) (m.put tyRole (encKey r.id) (some (.role r)))

/-- Binding a role. -/
def makeBinding (id subject : Bytes) (m : World) : Outcome :=
  if id = [] then .panic
  else if (m tyRole id).isSome = false then .done (.error .badRequest) m
  else if subject = [] ∨ (m tyRoleBinding (encKey subject)).isSome ∨
    appStorable (.roleBinding subject id) = false then .panic
  else .done (.ok ()) (m.put tyRoleBinding (encKey subject) (some (.roleBinding subject id)))

/-- Making the roles of the modules `ms`, given the transitions `ur` collected so far. -/
def makeRoles (mods : List RawModule) : List RawModule → Role → World → Outcome
  | [], ur, m => makeRole mods ur m
  | x :: xs, ur, m => match moduleRole x with
    | .panic => .panic
    | .ret (.error e) => .done (.error e) m
    | .ret (.ok (role, ext)) => match makeRole mods role m with
      | .panic => .panic
      | .diverge => .diverge
      | .done (.error e) m => .done (.error e) m
      | .done (.ok ()) m => match makeBinding role.id x.name m with
        | .panic => .panic
        | .diverge => .diverge
        | .done _ m => match extendExternal ext ur with
          | .error e => .done (.error e) m
          | .ok ur => makeRoles mods xs ur m

/-- Installing modules. -/
def install (mods : List RawModule) : Outcome :=
  makeRoles mods mods { id := externalRoleID }
    ((Contents.empty : World).put tyModuleDescriptors singletonID (some (.moduleDescriptors mods)))

/-- What creating and binding roles relies on. -/
structure RolesAt (mods : List RawModule) (m : World) : Prop where
  typed : RolesTyped m
  mods : m tyModuleDescriptors singletonID = some (.moduleDescriptors mods)

theorem RolesAt.putRole {mods : List RawModule} (h : RolesAt mods m) {r : Role} (hr : r.id ≠ []) :
    RolesAt mods (m.put tyRole (encKey r.id) (some (.role r))) := by
  refine ⟨⟨fun k o ho => ?_, fun k o ho => ?_⟩, ?_⟩
  · rw [Contents.put, if_neg (fun e => absurd e.1 (by decide))] at ho
    exact h.typed.bindings k o ho
  · rw [Contents.put] at ho
    split at ho
    · rename_i e
      cases ho
      exact ⟨r, rfl, e.2.symm, fun h => hr (encKey_nil.1 (e.2.symm.trans h))⟩
    · exact h.typed.roles k o ho
  · rw [Contents.put, if_neg (fun e => absurd e.1 (by decide))]
    exact h.mods

theorem RolesAt.putBinding {mods : List RawModule} (h : RolesAt mods m) {s id : Bytes} (hs : s ≠ []) :
    RolesAt mods (m.put tyRoleBinding (encKey s) (some (.roleBinding s id))) := by
  refine ⟨⟨fun k o ho => ?_, fun k o ho => ?_⟩, ?_⟩
  · rw [Contents.put] at ho
    split at ho
    · rename_i e
      cases ho
      exact ⟨s, id, rfl, e.2.symm, fun h => hs (encKey_nil.1 (e.2.symm.trans h))⟩
    · exact h.typed.bindings k o ho
  · rw [Contents.put, if_neg (fun e => absurd e.1 (by decide))] at ho
    exact h.typed.roles k o ho
  · rw [Contents.put, if_neg (fun e => absurd e.1 (by decide))]
    exact h.mods

theorem deliver_makeRole {mods : List RawModule} (h : RolesAt mods m) (n : Nat) (us : Users) (r : Role) :
    (mapApp lib).deliver (n + 1) false false us (.createRole (some r)) m = makeRole mods r m := by
  have hadm : ∀ dlv, (createRoleAdmission us (.createRole (some r))).run (zsys lib) dlv [b!"rbac"] m =
      .done (if r.id = [] ∨ (m tyRole r.id).isSome ∨ roleKnown mods r = false then .error .other else .ok ()) m := by
    intro dlv
    simp only [createRoleAdmission]
    by_cases h1 : r.id = []
    · simp only [h1, if_true, true_or]; rfl
    · simp only [h1, if_false, false_or]
      refine (zrun_getRole h.typed r.id _).trans ?_
      rw [if_neg h1]
      cases hx : m tyRole r.id with
      | none =>
        dsimp only
        refine (zrun_getModules h.mods _).trans ?_
        simp only [verifyRole_ok, Prog.run]
        by_cases hk : roleKnown mods r = true
        · simp [hk]
        · simp [hk]
      | some o => obtain ⟨r', rfl, _⟩ := h.typed.roles _ _ hx; simp; rfl
  by_cases hc : r.id = [] ∨ (m tyRole r.id).isSome ∨ roleKnown mods r = false
  · simp only [makeRole, if_pos hc]
    have : ∀ dlv, _ := fun dlv => (hadm dlv).trans (by rw [if_pos hc])
    have hg : (appRouter lib).getAdmission (tname (.createRole (some r) : Tr)) =
      .ok [⟨b!"rbac", createRoleAdmission⟩] := rfl
    change deliver (zsys lib) (appRouter lib) (n + 1) false us _ m = _
    simp only [deliver, admissionChain, hg, runAll, Bool.false_eq_true, if_false, Users.ofNames_single, this]
  · refine (deliver_exec1 (router := appRouter lib) (t := .createRole (some r))
      (h := ⟨b!"rbac", createRoleExec⟩) (a := ⟨b!"rbac", createRoleAdmission⟩) rfl
      ((hadm _).trans (by rw [if_neg hc])) rfl rfl rfl rfl).trans ?_
    refine (zrun_create (lib := lib) (o := .role r) (k := encKey r.id) rfl .ret).trans ?_
    simp only [makeRole, if_neg hc]
    have h1 : ¬ encKey r.id = [] := fun e => hc (.inl (encKey_nil.1 e))
    simp only [h1, false_or]
    rfl

theorem deliver_makeBinding {mods : List RawModule} (h : RolesAt mods m) (n : Nat) (us : Users) (id s : Bytes) :
    (mapApp lib).deliver (n + 1) false false us (.bindRole id s) m = makeBinding id s m := by
  have hadm : ∀ dlv, (bindRoleAdmission us (.bindRole id s)).run (zsys lib) dlv [b!"rbac"] m =
      if id = [] then .panic else .done (if (m tyRole id).isSome = false then .error .notFound else .ok ()) m := by
    intro dlv
    simp only [bindRoleAdmission]
    refine (zrun_getRole h.typed id _).trans ?_
    by_cases h1 : id = []
    · simp only [h1, if_true]
    · rw [if_neg h1, if_neg h1]
      cases hx : m tyRole id with
      | none => rfl
      | some o => obtain ⟨r', rfl, _⟩ := h.typed.roles _ _ hx; rfl
  have hg : (appRouter lib).getAdmission (tname (.bindRole id s : Tr)) = .ok [⟨b!"rbac", bindRoleAdmission⟩] := rfl
  by_cases h1 : id = []
  · simp only [makeBinding, if_pos h1]
    have : ∀ dlv, _ := fun dlv => (hadm dlv).trans (if_pos h1)
    change deliver (zsys lib) (appRouter lib) (n + 1) false us _ m = _
    simp only [deliver, admissionChain, hg, runAll, Bool.false_eq_true, if_false, Users.ofNames_single, this]
  · by_cases h2 : (m tyRole id).isSome = false
    · simp only [makeBinding, if_neg h1, if_pos h2]
      have : ∀ dlv, _ := fun dlv => (hadm dlv).trans (by rw [if_neg h1, if_pos h2])
      change deliver (zsys lib) (appRouter lib) (n + 1) false us _ m = _
      simp only [deliver, admissionChain, hg, runAll, Bool.false_eq_true, if_false, Users.ofNames_single, this]
    · refine (deliver_exec1 (router := appRouter lib) (t := .bindRole id s)
        (h := ⟨b!"rbac", bindRoleExec⟩) (a := ⟨b!"rbac", bindRoleAdmission⟩) rfl
        ((hadm _).trans (by rw [if_neg h1, if_neg h2])) rfl rfl rfl rfl).trans ?_
      refine (zrun_create (lib := lib) (o := .roleBinding s id) (k := encKey s) rfl .ret).trans ?_
      simp only [makeBinding, if_neg h1, if_neg h2, encKey_nil]
      rfl

theorem run_makeRoles {mods : List RawModule} (n : Nat) (me : Users) : ∀ (ms : List RawModule) (ur : Role)
    (m : World), RolesAt mods m →
    (handleModules ms ur).run (zsys lib) ((mapApp lib).deliver (n + 1) false false) me m = makeRoles mods ms ur m
  | [], ur, m, h => by
    simp only [handleModules, Prog.run, makeRoles, deliver_makeRole h]
    cases makeRole mods ur m <;> rfl
  | x :: xs, ur, m, h => by
    simp only [handleModules, handleModule, makeRoles]
    cases hx : moduleRole x with
    | panic => rfl
    | ret q =>
      rcases q with e | ⟨role, ext⟩
      · rfl
      · dsimp only
        simp only [Prog.run, deliver_makeRole h]
        cases hr : makeRole mods role m with
        | panic => rfl
        | diverge => rfl
        | done q m₁ =>
          rcases q with e | ⟨⟩
          · rfl
          · have h1 : RolesAt mods m₁ := by
              simp only [makeRole] at hr
              split at hr
              · cases hr
              · rename_i hc
                split at hr
                · cases hr
                · cases hr
                  exact h.putRole fun e => hc (.inl e)
            have hb' := fun us => deliver_makeBinding (lib := lib) h1 n us role.id x.name
            simp only [Prog.run, hb']
            cases hb : makeBinding role.id x.name m₁ with
            | panic => rfl
            | diverge => rfl
            | done q m₂ =>
              have h2 : RolesAt mods m₂ := by
                simp only [makeBinding] at hb
                split at hb
                · cases hb
                · split at hb
                  · cases hb; exact h1
                  · split at hb
                    · cases hb
                    · rename_i hc
                      cases hb
                      exact h1.putBinding fun e => hc (.inl e)
              dsimp only
              cases extendExternal ext ur with
              | error e => rfl
              | ok ur => exact run_makeRoles n me xs ur m₂ h2

theorem deliver_install (n : Nat) (mods : List RawModule) :
    (mapApp lib).deliver (n + 2) false false [userRuntime] (.createModules mods) Contents.empty = install mods := by
  have h0 : RolesAt mods ((Contents.empty : World).put tyModuleDescriptors singletonID
      (some (.moduleDescriptors mods))) := by
    refine ⟨⟨fun k o ho => ?_, fun k o ho => ?_⟩, ?_⟩
    · rw [Contents.put, if_neg (fun e => absurd e.1 (by decide))] at ho; cases ho
    · rw [Contents.put, if_neg (fun e => absurd e.1 (by decide))] at ho; cases ho
    · rw [Contents.put, if_pos ⟨rfl, rfl⟩]
  have hg : (appRouter lib).getAdmission (tname (.createModules mods : Tr)) = .ok [] := rfl
  have hp : (appRouter lib).getPre (tname (.createModules mods : Tr)) = .ok [] := rfl
  have he : (appRouter lib).getExec (tname (.createModules mods : Tr)) = .ok ⟨userRuntime, createModulesExec⟩ := rfl
  have hq : (appRouter lib).getPost (tname (.createModules mods : Tr)) = .ok [⟨b!"rbac", roleCreator⟩] := rfl
  have hx : ∀ dlv, (createModulesExec [userRuntime] (.createModules mods)).run (zsys lib) dlv [userRuntime]
      Contents.empty = .done (.ok ()) ((Contents.empty : World).put tyModuleDescriptors singletonID
        (some (.moduleDescriptors mods))) := by
    intro dlv
    refine (zrun_create (lib := lib) (o := .moduleDescriptors mods) (k := singletonID) rfl .ret).trans ?_
    rfl
  change deliver (zsys lib) (appRouter lib) (n + 2) false [userRuntime] _ _ = _
  simp only [deliver, admissionChain, hg, runAll, Bool.false_eq_true, if_false, deliverAdmitted, zsys_auth, hp, he, hq,
    Users.ofNames_single, hx, roleCreator]
  refine Eq.trans ?_ (run_makeRoles (lib := lib) n [b!"rbac"] mods { id := externalRoleID } _ h0)
  exact Res.ok_eta _

/-! ## What successful installation leaves -/

theorem extend_ok {r r' : Role} {v : Verb} {api : APIDef} (h : r.extend v api = .ok r') :
    r.append api.name v = .ok r' := by
  simp only [Role.extend] at h
  split at h
  · cases h
  · exact h

def isExternal (t : RawTransition) : Bool := match getACL t with
  | .ret (.ok b) => b
  | _ => false

theorem extendTransitions_ok : ∀ {ts : List RawTransition} {r r' : Role} {ext ext' : List APIDef},
    extendTransitions ts r ext = .ret (.ok (r', ext')) →
    r' = { r with delivers := r.delivers ++ ts.map fun t => t.api.name } ∧
      ext' = ext ++ (ts.filter isExternal).map (·.api) ∧ ∀ t ∈ ts, ∃ b, getACL t = .ret (.ok b)
  | [], r, r', ext, ext', h => by
    simp only [extendTransitions] at h
    cases h
    simp
  | t :: ts, r, r', ext, ext', h => by
    simp only [extendTransitions] at h
    split at h
    · cases h
    · cases h
    · rename_i b hb
      split at h
      · cases h
      · rename_i r₁ h1
        obtain ⟨rfl, rfl, h3⟩ := extendTransitions_ok h
        have := extend_ok h1
        simp only [Role.append] at this
        cases this
        refine ⟨by simp, ?_, ?_⟩
        · have hx : isExternal t = b := by simp only [isExternal, hb]
          cases b <;> simp [List.filter_cons, hx]
        · intro t' ht'
          rcases List.mem_cons.1 ht' with rfl | ht'
          · exact ⟨b, hb⟩
          · exact h3 t' ht'

theorem extendObjects_ok : ∀ {os : List APIDef} {r r' : Role}, extendObjects os r = .ok r' →
    r' = { r with
      creates := r.creates ++ os.map APIDef.name
      deletes := r.deletes ++ os.map APIDef.name
      updates := r.updates ++ os.map APIDef.name
      gets := r.gets ++ os.map APIDef.name
      lists := r.lists ++ os.map APIDef.name }
  | [], r, r', h => by
    simp only [extendObjects] at h
    cases h
    simp
  | o :: os, r, r', h => by
    simp only [extendObjects] at h
    split at h
    · cases h
    · rename_i r₁ h1
      have := extendObjects_ok h
      subst this
      simp only [extendObject] at h1
      split at h1
      · cases h1
      · rename_i r2 e2
        split at h1
        · cases h1
        · rename_i r3 e3
          split at h1
          · cases h1
          · rename_i r4 e4
            split at h1
            · cases h1
            · rename_i r5 e5
              have e2 := extend_ok e2
              have e3 := extend_ok e3
              have e4 := extend_ok e4
              have e5 := extend_ok e5
              have e6 := extend_ok h1
              simp only [Role.append] at e2 e3 e4 e5 e6
              cases e2; cases e3; cases e4; cases e5; cases e6
              simp

theorem extendNeeds_ok : ∀ {ns : List (APIDef × ApiType)} {r r' : Role}, extendNeeds ns r = .ok r' →
    r' = { r with delivers := r.delivers ++ (ns.filter fun n => n.2 = .stateTransition).map fun n => n.1.name }
  | [], r, r', h => by
    simp only [extendNeeds] at h
    cases h
    simp
  | (_, .stateObject) :: _, r, r', h => by simp only [extendNeeds] at h; cases h
  | (_, .unrecognized) :: ns, r, r', h => by
    simp only [extendNeeds] at h
    have := extendNeeds_ok h
    subst this
    simp
  | (api, .stateTransition) :: ns, r, r', h => by
    simp only [extendNeeds] at h
    split at h
    · cases h
    · rename_i r₁ h1
      have := extendNeeds_ok h
      subst this
      have := extend_ok h1
      simp only [Role.append] at this
      cases this
      simp

theorem extendExternal_ok : ∀ {ts : List APIDef} {r r' : Role}, extendExternal ts r = .ok r' →
    r' = { r with delivers := r.delivers ++ ts.map APIDef.name }
  | [], r, r', h => by
    simp only [extendExternal] at h
    cases h
    simp
  | t :: ts, r, r', h => by
    simp only [extendExternal] at h
    split at h
    · cases h
    · rename_i r₁ h1
      have := extendExternal_ok h
      subst this
      have := extend_ok h1
      simp only [Role.append] at this
      cases this
      simp

/-- The role a module should get. -/
def rightsOf (x : RawModule) : Role where
  id := roleNameForModule x.name
  creates := ownObjects x
  deletes := ownObjects x
  updates := ownObjects x
  gets := ownObjects x
  lists := ownObjects x
  delivers := ownTransitions x ++ neededTransitions x

theorem moduleRole_ok {x : RawModule} {r : Role} {ext : List APIDef} (h : moduleRole x = .ret (.ok (r, ext))) :
    r = rightsOf x ∧ ext = (x.transitions.filter isExternal).map (·.api) ∧
      ∀ t ∈ x.transitions, ∃ b, getACL t = .ret (.ok b) := by
  simp only [moduleRole] at h
  split at h
  · cases h
  · cases h
  · rename_i r1 e1 h1
    split at h
    · cases h
    · rename_i r2 h2
      split at h
      · cases h
      · rename_i r3 h3
        cases h
        obtain ⟨a, b, c⟩ := extendTransitions_ok h1
        have h2 := extendObjects_ok h2
        have h3 := extendNeeds_ok h3
        refine ⟨?_, by simpa using b, c⟩
        subst a h2 h3
        simp [rightsOf, ownObjects, ownTransitions, neededTransitions]

theorem makeRole_ok {mods : List RawModule} {r : Role} {m' : World} (h : makeRole mods r m = .done (.ok ()) m') :
    r.id ≠ [] ∧ m tyRole (encKey r.id) = none ∧ m' = m.put tyRole (encKey r.id) (some (.role r)) := by
  simp only [makeRole] at h
  split at h
  · cases h
  · rename_i h1
    split at h
    · cases h
    · rename_i h2
      cases h
      refine ⟨fun e => h1 (.inl e), ?_, rfl⟩
      cases hx : m tyRole (encKey r.id) with
      | none => rfl
      | some o => exact absurd (.inl (by rw [hx]; rfl)) h2

theorem makeBinding_done {id s : Bytes} {q : Except Err Unit} {m' : World} (h : makeBinding id s m = .done q m') :
    m' = m ∧ m tyRole id = none ∨
    s ≠ [] ∧ m tyRoleBinding (encKey s) = none ∧ m' = m.put tyRoleBinding (encKey s) (some (.roleBinding s id)) := by
  simp only [makeBinding] at h
  split at h
  · cases h
  · split at h
    · rename_i h1
      cases h
      refine .inl ⟨rfl, ?_⟩
      cases hx : m tyRole id with
      | none => rfl
      | some o => rw [hx] at h1; cases h1
    · split at h
      · cases h
      · rename_i h2
        cases h
        refine .inr ⟨fun e => h2 (.inl e), ?_, rfl⟩
        cases hx : m tyRoleBinding (encKey s) with
        | none => rfl
        | some o => exact absurd (.inr (.inl (by rw [hx]; rfl))) h2

theorem put_kept {ty k : Bytes} {x : Obj} (hn : m ty k = none) {ty' k' : Bytes} {o : Obj}
    (h : m ty' k' = some o) : m.put ty k (some x) ty' k' = some o := by
  rw [Contents.put, if_neg]
  · exact h
  · rintro ⟨rfl, rfl⟩
    rw [hn] at h; cases h

/-- The transitions collected for external accounts. -/
def externalNames (ms : List RawModule) : List Bytes :=
  ms.flatMap fun x => (x.transitions.filter isExternal).map fun t => t.api.name

/-- What making roles leaves. -/
structure Made (ms : List RawModule) (ur : Role) (m m' : World) : Prop where
  kept : ∀ ty k o, m ty k = some o → m' ty k = some o
  external : m' tyRole (encKey ur.id) = some (.role { ur with delivers := ur.delivers ++ externalNames ms })
  role : ∀ x ∈ ms, m' tyRole (encKey (roleNameForModule x.name)) = some (.role (rightsOf x))
  bound : ∀ x ∈ ms, (roleNameForModule x.name).length < 128 →
    x.name ≠ [] ∧ m' tyRoleBinding (encKey x.name) = some (.roleBinding x.name (roleNameForModule x.name))
  onlyRoles : ∀ k o, m' tyRole k = some o → m tyRole k = some o ∨ k = encKey ur.id ∨
    ∃ x ∈ ms, k = encKey (roleNameForModule x.name)
  onlyBindings : ∀ k o, m' tyRoleBinding k = some o → m tyRoleBinding k = some o ∨
    ∃ x ∈ ms, o = .roleBinding x.name (roleNameForModule x.name)
  acl : ∀ x ∈ ms, ∀ t ∈ x.transitions, ∃ b, getACL t = .ret (.ok b)

theorem makeRoles_ok {mods : List RawModule} : ∀ {ms : List RawModule} {ur : Role} {m m' : World},
    makeRoles mods ms ur m = .done (.ok ()) m' → Made ms ur m m'
  | [], ur, m, m', h => by
    obtain ⟨h1, h2, rfl⟩ := makeRole_ok h
    refine ⟨fun ty k o ho => put_kept h2 ho, ?_, by simp, by simp, ?_, ?_, by simp⟩
    · rw [Contents.put, if_pos ⟨rfl, rfl⟩]; simp [externalNames]
    · intro k o ho
      rw [Contents.put] at ho
      split at ho
      · rename_i e; exact .inr (.inl e.2)
      · exact .inl ho
    · intro k o ho
      rw [Contents.put, if_neg (fun e => absurd e.1 (by decide))] at ho
      exact .inl ho
  | x :: xs, ur, m, m', h => by
    simp only [makeRoles] at h
    split at h
    · cases h
    · cases h
    · rename_i role ext hx
      obtain ⟨rfl, rfl, hacl⟩ := moduleRole_ok hx
      split at h
      · cases h
      · cases h
      · cases h
      · rename_i m₁ h1
        obtain ⟨hid, hnone, rfl⟩ := makeRole_ok h1
        split at h
        · cases h
        · cases h
        · rename_i q m₂ hb
          split at h
          · cases h
          · rename_i ur' hu
            have hu := extendExternal_ok hu
            subst hu
            have ih := makeRoles_ok h
            have hb := makeBinding_done hb
            have hr1 : ∀ {ty k o}, m ty k = some o → m.put tyRole (encKey (rightsOf x).id)
                (some (.role (rightsOf x))) ty k = some o := fun ho => put_kept hnone ho
            have hk2 : ∀ ty k o, m.put tyRole (encKey (rightsOf x).id) (some (.role (rightsOf x))) ty k = some o →
                m₂ ty k = some o := by
              intro ty k o ho
              rcases hb with ⟨rfl, _⟩ | ⟨_, hn, rfl⟩
              · exact ho
              · exact put_kept hn ho
            have hrole : m.put tyRole (encKey (rightsOf x).id) (some (.role (rightsOf x))) tyRole
                (encKey (rightsOf x).id) = some (.role (rightsOf x)) := by
              rw [Contents.put, if_pos ⟨rfl, rfl⟩]
            refine ⟨fun ty k o ho => ih.kept _ _ _ (hk2 _ _ _ (hr1 ho)), ?_, ?_, ?_, ?_, ?_, ?_⟩
            · rw [ih.external]
              simp [externalNames]
            · intro y hy
              rcases List.mem_cons.1 hy with rfl | hy
              · exact ih.kept _ _ _ (hk2 _ _ _ hrole)
              · exact ih.role y hy
            · intro y hy hl
              rcases List.mem_cons.1 hy with rfl | hy
              · rcases hb with ⟨_, hn⟩ | ⟨hs, _, rfl⟩
                · have : encKey (rightsOf y).id = (rightsOf y).id := encKey_short hl
                  rw [this] at hrole
                  rw [this] at hn
                  rw [hrole] at hn
                  cases hn
                · exact ⟨hs, ih.kept _ _ _ (by rw [Contents.put, if_pos ⟨rfl, rfl⟩]; rfl)⟩
              · exact ih.bound y hy hl
            · intro k o ho
              rcases ih.onlyRoles k o ho with h' | h' | ⟨y, hy, h'⟩
              · have : m.put tyRole (encKey (rightsOf x).id) (some (.role (rightsOf x))) tyRole k = some o := by
                  rcases hb with ⟨rfl, _⟩ | ⟨_, _, rfl⟩
                  · exact h'
                  · rw [Contents.put, if_neg (fun e => absurd e.1 (by decide))] at h'
                    exact h'
                rw [Contents.put] at this
                split at this
                · rename_i e
                  exact .inr (.inr ⟨x, by simp, e.2⟩)
                · exact .inl this
              · exact .inr (.inl h')
              · exact .inr (.inr ⟨y, by simp [hy], h'⟩)
            · intro k o ho
              rcases ih.onlyBindings k o ho with h' | ⟨y, hy, h'⟩
              · rcases hb with ⟨rfl, _⟩ | ⟨_, _, rfl⟩
                · rw [Contents.put, if_neg (fun e => absurd e.1 (by decide))] at h'
                  exact .inl h'
                · rw [Contents.put] at h'
                  split at h'
                  · cases h'
                    exact .inr ⟨x, by simp, rfl⟩
                  · rw [Contents.put, if_neg (fun e => absurd e.1 (by decide))] at h'
                    exact .inl h'
              · exact .inr ⟨y, by simp [hy], h'⟩
            · intro y hy
              rcases List.mem_cons.1 hy with rfl | hy
              · exact hacl
              · exact ih.acl y hy

theorem installed_made {mods : List RawModule} (h : Installed lib mods m) :
    Made mods { id := externalRoleID } ((Contents.empty : World).put tyModuleDescriptors singletonID
      (some (.moduleDescriptors mods))) m ∧ RolesTyped m := by
  obtain ⟨n, s, h, rfl⟩ := h
  have hle := Config.deliver_le' (c := ormApp lib) (n := n) (m := n + 2) (by omega) false false [userRuntime]
    (.createModules mods) (fresh appReg)
  have h2 : (ormApp lib).deliver (n + 2) false false [userRuntime] (.createModules mods) (fresh appReg) =
      .done (.ok ()) s := by
    rcases hle with e | e
    · rw [h] at e; cases e
    · rw [← e, h]
  rcases (Config.deliver_same (c := ormApp lib) (storeSim_orm appReg) (n := n + 2) (en := false) (skip := false)
    (users := [userRuntime]) (t := .createModules mods) (s := fresh appReg) (m := Contents.empty)
    ⟨Inv.init app_regOk, rfl, view_init _⟩).cases with ⟨r', s₁, m₁, h1, h3, hv⟩ | ⟨h1, _⟩ | ⟨h1, _⟩
  · rw [h2] at h1
    cases h1
    rw [onStore_ormApp, deliver_install] at h3
    refine ⟨?_, rolesTyped_view hv.inv hv.reg⟩
    rw [hv.view]
    exact makeRoles_ok h3
  · rw [h2] at h1; cases h1
  · rw [h2] at h1; cases h1

/-- Installations that succeed on the map succeed on the store. -/
theorem installed_of {mods : List RawModule} (h : install mods = .done (.ok ()) m) : Installed lib mods m := by
  rcases (Config.deliver_same (c := ormApp lib) (storeSim_orm appReg) (n := 2) (en := false) (skip := false)
    (users := [userRuntime]) (t := .createModules mods) (s := fresh appReg) (m := Contents.empty)
    ⟨Inv.init app_regOk, rfl, view_init _⟩).cases with ⟨r', s₁, m₁, h1, h3, hv⟩ | ⟨_, h1⟩ | ⟨_, h1⟩
  · rw [onStore_ormApp, deliver_install, h] at h3
    cases h3
    exact ⟨2, s₁, h1, hv.view⟩
  · rw [onStore_ormApp, deliver_install, h] at h1; cases h1
  · rw [onStore_ormApp, deliver_install, h] at h1; cases h1

/-- Whether an installation succeeds, and what it leaves. -/
def installs (mods : List RawModule) (p : World → Bool) : Bool := match install mods with
  | .done (.ok ()) m => p m
  | _ => false

theorem installed_if {mods : List RawModule} {p : World → Bool} (h : installs mods p = true) :
    ∃ m, Installed lib mods m ∧ p m = true := by
  simp only [installs] at h
  split at h
  · rename_i m hm; exact ⟨m, installed_of hm, h⟩
  · cases h

/-! ## Short names -/

theorem takeWhile_of_not_mem {l r : Bytes} (h : (46 : UInt8) ∉ l) :
    (l ++ 46 :: r).takeWhile (· ≠ 46) = l := by
  induction l with
  | nil => simp
  | cons a l ih =>
    have ha : a ≠ 46 := fun e => h (by simp [e])
    rw [List.cons_append, List.takeWhile_cons, if_pos (by simpa using ha), ih fun hm => h (by simp [hm])]

theorem takeWhile_all {l : Bytes} (h : (46 : UInt8) ∉ l) : l.takeWhile (· ≠ 46) = l := by
  induction l with
  | nil => simp
  | cons a l ih =>
    have ha : a ≠ 46 := fun e => h (by simp [e])
    rw [List.takeWhile_cons, if_pos (by simpa using ha), ih fun hm => h (by simp [hm])]

theorem lastPart_iff {s f : Bytes} : LastPart s f ↔ s = shortName f := by
  constructor
  · rintro ⟨h1, rfl | ⟨p, rfl⟩⟩
    · rw [shortName, takeWhile_all (by simpa using h1), List.reverse_reverse]
    · rw [shortName, List.reverse_append, List.reverse_cons, List.append_assoc,
        List.singleton_append, takeWhile_of_not_mem (by simpa using h1), List.reverse_reverse]
  · rintro rfl
    refine ⟨?_, ?_⟩
    · simp only [shortName, List.mem_reverse]
      intro hm
      have := List.all_eq_true.1 (List.all_takeWhile (p := fun x : UInt8 => decide (x ≠ 46)) (l := f.reverse)) _ hm
      simp at this
    · have hs := List.takeWhile_append_dropWhile (p := fun x : UInt8 => decide (x ≠ 46)) (l := f.reverse)
      cases hd : f.reverse.dropWhile (fun x => decide (x ≠ 46)) with
      | nil =>
        rw [hd, List.append_nil] at hs
        left
        rw [shortName, hs, List.reverse_reverse]
      | cons a l =>
        have ha : a = 46 := by
          have := List.head?_dropWhile_not (fun x : UInt8 => decide (x ≠ 46)) f.reverse
          rw [hd] at this
          simpa using this
        right
        refine ⟨l.reverse, ?_⟩
        rw [hd, ha] at hs
        have := congrArg List.reverse hs
        rw [List.reverse_reverse, List.reverse_append, List.reverse_cons, List.append_assoc,
          List.singleton_append] at this
        exact this.symm

theorem findMessage_some {short : Bytes} : ∀ {fs : List ProtoFile} {x : Option Bool},
    findMessage short fs = some x → ∃ f ∈ fs, ∃ e ∈ f.messages, e.1 = short ∧ e.2 = x
  | [], x, h => by cases h
  | f :: fs, x, h => by
    simp only [findMessage] at h
    split at h
    · rename_i e he
      cases h
      exact ⟨f, by simp, e, List.mem_of_find?_eq_some he, by simpa using List.find?_some he, rfl⟩
    · obtain ⟨f', hf, r⟩ := findMessage_some h
      exact ⟨f', by simp [hf], r⟩

theorem getACL_marked {t : RawTransition} (hu : Unambiguous t) {b : Bool} (h : getACL t = .ret (.ok b)) (c : Bool) :
    Marked t c ↔ c = b := by
  simp only [getACL] at h
  split at h
  · cases h
  · split at h
    · cases h
    · cases h
    · rename_i b' hf
      cases h
      obtain ⟨f, hm, e, he, h1, h2⟩ := findMessage_some hf
      clear hf
      have hf := hm
      have ho := hu.own f hf e he (lastPart_iff.2 h1)
      constructor
      · rintro ⟨f', hf', e', he', h3, h4⟩
        have := hu.once f hf e he f' hf' e' he' ho h3
        rw [h2, h4] at this
        exact (Option.some.inj this).symm
      · rintro rfl
        exact ⟨f, hf, e, he, ho, h2⟩

/-- A check for `Unambiguous`. -/
def unambiguous (t : RawTransition) : Bool :=
  let own := t.files.flatMap fun f => f.messages.map fun e => (ProtoFile.fullName f e.1, e.1, e.2)
  own.all fun x => (x.2.1 ≠ shortName t.fullName || x.1 = t.fullName) &&
    (x.1 ≠ t.fullName || own.all fun y => y.1 ≠ t.fullName || x.2.2 = y.2.2)

theorem unambiguous_of {t : RawTransition} (h : unambiguous t = true) : Unambiguous t := by
  simp only [unambiguous, List.all_eq_true, Bool.and_eq_true, Bool.or_eq_true, decide_eq_true_eq] at h
  have key : ∀ f ∈ t.files, ∀ e ∈ f.messages, _ := fun f hf e he =>
    h (ProtoFile.fullName f e.1, e.1, e.2) (List.mem_flatMap.2 ⟨f, hf, List.mem_map.2 ⟨e, he, rfl⟩⟩)
  refine ⟨fun f hf e he hl => ?_, fun f hf e he f' hf' e' he' h1 h2 => ?_⟩
  · exact ((key f hf e he).1).resolve_left (not_not.2 (lastPart_iff.1 hl))
  · exact (((key f hf e he).2).resolve_left (not_not.2 h1) (ProtoFile.fullName f' e'.1, e'.1, e'.2)
      (List.mem_flatMap.2 ⟨f', hf', List.mem_map.2 ⟨e', he', rfl⟩⟩)).resolve_left (not_not.2 h2)

end Verif
