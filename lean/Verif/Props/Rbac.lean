import Verif.Proofs.Rbac
import Verif.Props.ORM
import Verif.Proofs.SampleApp
/-!
# Roles (C31, C32, C34, C35)
-/

set_option linter.unusedSectionVars false

namespace Verif.Props
open Verif Verif.Spec

variable {lib : Libs}

/-! ## C31 -/

/-- What the authorizer should answer in the state `s`. -/
def Answers (sys : Sys (Store Obj) Obj) (s : Store Obj) (v : Verb) (resource : Bytes) (users : List Bytes) : Prop :=
  (rbacAuthorizer (sys.get s) v resource users = .ret (.ok true) ↔ Allowed (view s) v resource users) ∧
  (¬ Allowed (view s) v resource users → ∃ e, rbacAuthorizer (sys.get s) v resource users = .ret (.error e))

/-- **C31 (partial)** The authorizer allows a request exactly if every acting user is bound to an
existing role and one of these roles lists the resource for the verb; otherwise it denies with an
error.  Missing: users (or roles they are bound to) with an empty name or one of 128 bytes or more,
see the `_fails` theorems below. -/
theorem C31_decision_partial {ops : List (Op Obj)} {rs : List (Except OrmErr Unit)} {s : Store Obj}
    (h : Reached appReg ops rs s) {sys : Sys (Store Obj) Obj} (ho : sys.ops = ormOps Obj) (v : Verb)
    (resource : Bytes) {users : List Bytes} (hu : PlainUsers (view s) users) : Answers sys s v resource users := by
  obtain ⟨hi, hr, _⟩ := Reached.inv h
  have ht := rolesTyped_view hi hr
  obtain ⟨_, h1⟩ := reg_binding
  obtain ⟨_, h2⟩ := reg_role
  have hb := store_read hr ho h1
  have hro := store_read hr ho h2
  have he := authorizer_eq ht hb hro (us := users) (fun u hm => ⟨(hu u hm).1.1, fun x hx => by
    obtain ⟨a, b, e, ha, _⟩ := ht.bindings _ _ hx
    cases e
    have : x = u := encKey_inj (ha.trans (encKey_plain (hu u hm).1).symm)
    subst this
    exact ((hu x hm).2 _ _ hx).1 rfl⟩) v resource
  have hiff : decision (view s) v resource users = .ok true ↔ Allowed (view s) v resource users := by
    rw [decision_allow]
    constructor
    · rintro ⟨a, u, hm, r, h3, h4⟩
      refine ⟨fun w hw => ?_, u, hm, r, (hasRole_iff ht (hu u hm).1 (hu u hm).2 r).2 h3, by rw [listed_eq]; exact h4⟩
      obtain ⟨r', h5⟩ := a w hw
      exact ⟨r', (hasRole_iff ht (hu w hw).1 (hu w hw).2 r').2 h5⟩
    · rintro ⟨a, u, hm, r, h3, h4⟩
      refine ⟨fun w hw => ?_, u, hm, r, (hasRole_iff ht (hu u hm).1 (hu u hm).2 r).1 h3, by rw [← listed_eq]; exact h4⟩
      obtain ⟨r', h5⟩ := a w hw
      exact ⟨r', (hasRole_iff ht (hu w hw).1 (hu w hw).2 r').1 h5⟩
  rw [Answers, he]
  refine ⟨⟨fun h => hiff.1 (Out.ret.inj h), fun h => by rw [hiff.2 h]⟩, fun hn => ?_⟩
  obtain ⟨e, he⟩ := decision_not fun h => hn (hiff.1 h)
  exact ⟨e, by rw [he]⟩

/-- **C31 (partial)** The answer does not depend on the order in which the users are examined.
Missing: users with an empty name, or bound to a role with an empty name, see
`C31_order_fails`. -/
theorem C31_order_partial {ops : List (Op Obj)} {rs : List (Except OrmErr Unit)} {s : Store Obj}
    (h : Reached appReg ops rs s) {sys : Sys (Store Obj) Obj} (ho : sys.ops = ormOps Obj) (v : Verb)
    (resource : Bytes) {users users' : List Bytes} (hp : users.Perm users')
    (hu : ∀ u ∈ users, u ≠ [] ∧ ∀ x, view s tyRoleBinding u ≠ some (.roleBinding x [])) :
    rbacAuthorizer (sys.get s) v resource users = rbacAuthorizer (sys.get s) v resource users' := by
  obtain ⟨hi, hr, _⟩ := Reached.inv h
  have ht := rolesTyped_view hi hr
  obtain ⟨_, h1⟩ := reg_binding
  obtain ⟨_, h2⟩ := reg_role
  have hb := store_read hr ho h1
  have hro := store_read hr ho h2
  rw [authorizer_eq ht hb hro hu, authorizer_eq ht hb hro (fun u hm => hu u (hp.mem_iff.2 hm)), decision_perm hp]

/-- Two roles and two bindings. -/
def rolesSample : List (Op Obj) := [
  .create (.role { id := b!"reader", gets := [b!"x"] }),
  .create (.role { id := b!"writer", updates := [b!"x"] }),
  .create (.roleBinding b!"ann" b!"reader"),
  .create (.roleBinding b!"bob" b!"writer")]

/-- The object requests of the application on the store. -/
def storeSys : Sys (Store Obj) Obj := ⟨ormOps Obj, rbacAuthorizer, true⟩

/-- Run the operations and look at the result. -/
def afterOps (ops : List (Op Obj)) (p : Store Obj → Bool) : Bool := match runStore (fresh appReg) ops with
  | .ret (_, s) => p s
  | .panic => false

theorem reached_of {ops : List (Op Obj)} {p : Store Obj → Bool} (h : afterOps ops p = true) :
    ∃ rs s, Reached appReg ops rs s ∧ p s = true := by
  simp only [afterOps] at h
  split at h
  · rename_i rs s hs; exact ⟨rs, s, ⟨app_regOk, hs⟩, h⟩
  · cases h

/-- The theorem applies to the sample, in which together ann and bob may update, ann alone may not,
and nobody may with carl. -/
example : ∃ rs s, Reached appReg rolesSample rs s ∧
    rbacAuthorizer (storeSys.get s) .update b!"x" [b!"ann", b!"bob"] = .ret (.ok true) ∧
    rbacAuthorizer (storeSys.get s) .update b!"x" [b!"ann"] = .ret (.error .other) ∧
    rbacAuthorizer (storeSys.get s) .update b!"x" [b!"bob", b!"carl"] = .ret (.error .notFound) := by
  have h : afterOps rolesSample (fun s =>
    decide (rbacAuthorizer (storeSys.get s) .update b!"x" [b!"ann", b!"bob"] = .ret (.ok true)) &&
    decide (rbacAuthorizer (storeSys.get s) .update b!"x" [b!"ann"] = .ret (.error .other)) &&
    decide (rbacAuthorizer (storeSys.get s) .update b!"x" [b!"bob", b!"carl"] = .ret (.error .notFound))) = true := by
    decide +kernel
  obtain ⟨rs, s, hr, h⟩ := reached_of h
  simp only [Bool.and_eq_true, decide_eq_true_eq] at h
  exact ⟨rs, s, hr, h.1.1, h.1.2, h.2⟩

/-- **C31 fails** for users with an empty name: the authorizer crashes instead of denying. -/
theorem C31_empty_name_fails : ∃ rs s, Reached appReg rolesSample rs s ∧ ¬ Answers storeSys s .update b!"x" [[]] := by
  have h : afterOps rolesSample (fun s =>
    decide (rbacAuthorizer (storeSys.get s) .update b!"x" [[]] = .panic) &&
    decide (view s tyRoleBinding (encKey []) = none)) = true := by decide +kernel
  obtain ⟨rs, s, hr, h⟩ := reached_of h
  simp only [Bool.and_eq_true, decide_eq_true_eq] at h
  refine ⟨rs, s, hr, fun ha => ?_⟩
  have hn : ¬ Allowed (view s) .update b!"x" [[]] := by
    rintro ⟨_, u, hm, r, ⟨⟨k, hk⟩, _⟩, _⟩
    rw [List.mem_singleton] at hm
    subst hm
    obtain ⟨a, b, e, he, _⟩ := (rolesTyped_view (Reached.inv hr).1 (Reached.inv hr).2.1).bindings _ _ hk
    cases e
    rw [← he, h.2] at hk
    cases hk
  obtain ⟨e, he⟩ := ha.2 hn
  rw [h.1] at he
  cases he

/-- **C31 fails**: with a user with an empty name, the answer depends on the order. -/
theorem C31_order_fails : ∃ rs s, Reached appReg rolesSample rs s ∧
    rbacAuthorizer (storeSys.get s) .update b!"x" [b!"carl", []] = .ret (.error .notFound) ∧
    rbacAuthorizer (storeSys.get s) .update b!"x" [[], b!"carl"] = .panic := by
  have h : afterOps rolesSample (fun s =>
    decide (rbacAuthorizer (storeSys.get s) .update b!"x" [b!"carl", []] = .ret (.error .notFound)) &&
    decide (rbacAuthorizer (storeSys.get s) .update b!"x" [[], b!"carl"] = .panic)) = true := by decide +kernel
  obtain ⟨rs, s, hr, h⟩ := reached_of h
  simp only [Bool.and_eq_true, decide_eq_true_eq] at h
  exact ⟨rs, s, hr, h.1, h.2⟩

/-- A name of 128 bytes. -/
def longName : Bytes := List.replicate 128 97

/-- A role for a user with a long name. -/
def longSample : List (Op Obj) := [
  .create (.role { id := b!"writer", updates := [b!"x"] }),
  .create (.roleBinding longName b!"writer")]

/-- **C31 fails** for users with long names: the user is bound to a role that lists the resource,
and is denied. -/
theorem C31_long_name_fails : ∃ rs s, Reached appReg longSample rs s ∧
    Allowed (view s) .update b!"x" [longName] ∧
    rbacAuthorizer (storeSys.get s) .update b!"x" [longName] = .ret (.error .notFound) := by
  have h : afterOps longSample (fun s =>
    decide (rbacAuthorizer (storeSys.get s) .update b!"x" [longName] = .ret (.error .notFound)) &&
    decide (view s tyRoleBinding (encKey longName) = some (.roleBinding longName b!"writer")) &&
    decide (view s tyRole b!"writer" = some (.role { id := b!"writer", updates := [b!"x"] }))) = true := by
    decide +kernel
  obtain ⟨rs, s, hr, h⟩ := reached_of h
  simp only [Bool.and_eq_true, decide_eq_true_eq] at h
  have hh : HasRole (view s) longName { id := b!"writer", updates := [b!"x"] } := ⟨⟨_, h.1.2⟩, _, h.2⟩
  refine ⟨rs, s, hr, ⟨fun u hm => ?_, longName, by simp, _, hh, by decide⟩, h.1.1⟩
  rw [List.mem_singleton] at hm
  subst hm
  exact ⟨_, hh⟩

/-- **C31 fails**: another user, without any binding, is allowed what the user with the long name
was given. -/
theorem C31_confusion_fails : ∃ rs s, Reached appReg longSample rs s ∧
    (∀ r, ¬ HasRole (view s) (encKey longName) r) ∧
    rbacAuthorizer (storeSys.get s) .update b!"x" [encKey longName] = .ret (.ok true) := by
  have h : afterOps longSample (fun s =>
    decide (rbacAuthorizer (storeSys.get s) .update b!"x" [encKey longName] = .ret (.ok true)) &&
    decide (view s tyRoleBinding (encKey (encKey longName)) = none)) = true := by decide +kernel
  obtain ⟨rs, s, hr, h⟩ := reached_of h
  rw [Bool.and_eq_true, decide_eq_true_eq, decide_eq_true_eq] at h
  exact ⟨rs, s, hr, no_role (rolesTyped_view (Reached.inv hr).1 (Reached.inv hr).2.1) h.2, h.1⟩

/-! ## C32 -/

/-- The resources listed in the role are known. -/
structure KnownRole (mods : List RawModule) (r : Role) : Prop where
  objects : ∀ v, v ≠ .deliver → ∀ n ∈ listed r v, ∃ mod ∈ mods, n ∈ ownObjects mod
  transitions : ∀ n ∈ listed r .deliver, ∃ mod ∈ mods, n ∈ ownTransitions mod

/-- **C32 (partial)** A request to create a role is admitted only if the id is not empty and not
used, and every listed resource is an object or a transition of the modules of the runtime.
Missing: ids of 128 bytes or more can be in use already, see `C32_long_id_fails`. -/
theorem C32_admitted_roles_partial {ops : List (Op Obj)} {rs : List (Except OrmErr Unit)} {s : Store Obj}
    (h : Reached appReg ops rs s) {sys : Sys (Store Obj) Obj} (ho : sys.ops = ormOps Obj)
    {dlv : Users → Tr → Store Obj → Res (Store Obj) (Except Err Unit)} {me us : Users} {r : Option Role} {s' : Store Obj}
    (hx : (createRoleAdmission us (.createRole r)).run sys dlv me s = .done (.ok ()) s') :
    ∃ r', r = some r' ∧ r'.id ≠ [] ∧
      (r'.id.length < 128 → ∀ k old, view s tyRole k = some (.role old) → old.id ≠ r'.id) ∧
      ∃ mods, view s tyModuleDescriptors singletonID = some (.moduleDescriptors mods) ∧ KnownRole mods r' := by
  obtain ⟨hi, hr, _⟩ := Reached.inv h
  have ht := rolesTyped_view hi hr
  cases r with
  | none => cases hx
  | some r =>
    refine ⟨r, rfl, ?_⟩
    simp only [createRoleAdmission] at hx
    by_cases h1 : r.id = []
    · rw [if_pos h1] at hx; cases hx
    · rw [if_neg h1] at hx
      refine ⟨h1, ?_⟩
      obtain ⟨_, h2⟩ := reg_role
      obtain ⟨_, h3⟩ : ∃ s, appReg.get tyModuleDescriptors = some s := ⟨_, rfl⟩
      simp only [getRole, Prog.run, store_read hr ho h2, readWorld, if_neg h1] at hx
      cases hq : view s tyRole r.id with
      | some o =>
        obtain ⟨r', rfl, _⟩ := ht.roles _ _ hq
        rw [hq] at hx
        cases hx
      | none =>
        rw [hq] at hx
        dsimp only at hx
        simp only [getModuleDescriptors, Prog.run, store_read hr ho h3, readWorld, if_neg singleton_ne] at hx
        refine ⟨fun hl k old hk he => ?_, ?_⟩
        · obtain ⟨r', e, hk', _⟩ := ht.roles _ _ hk
          cases e
          rw [he, encKey_short hl] at hk'
          rw [← hk', hq] at hk
          cases hk
        · cases hd : view s tyModuleDescriptors singletonID with
          | none => rw [hd] at hx; cases hx
          | some o =>
            rw [hd] at hx
            cases o with
            | moduleDescriptors mods =>
              refine ⟨mods, rfl, ?_⟩
              dsimp only at hx
              simp only [verifyRole_ok, Prog.run] at hx
              have hk : roleKnown mods r = true := by
                by_cases hk : roleKnown mods r = true
                · exact hk
                · rw [if_neg hk] at hx; cases hx
              simp only [roleKnown, Bool.and_eq_true, List.all_eq_true, List.contains_iff_mem, List.mem_flatMap,
                List.mem_append] at hk
              refine ⟨fun v hv n hn => ?_, fun n hn => ?_⟩
              · have : (((n ∈ r.gets ∨ n ∈ r.lists) ∨ n ∈ r.creates) ∨ n ∈ r.updates) ∨ n ∈ r.deletes := by
                  rw [listed_eq] at hn
                  cases v <;> simp only [Role.resources] at hn <;> simp_all
                exact hk.1 n this
              · exact hk.2 n hn
            | _ => cases hx

/-- A store with a module that owns `x` and handles `y`. -/
def knownSample : List (Op Obj) := [
  .create (.moduleDescriptors [⟨b!"m", [⟨b!"g", b!"x"⟩], [⟨⟨b!"g", b!"y"⟩, b!"g.y", []⟩], []⟩]),
  .create (.role { id := longName })]

def exampleRole : Role := { id := b!"r", gets := [APIDef.name ⟨b!"g", b!"x"⟩], delivers := [APIDef.name ⟨b!"g", b!"y"⟩] }

/-- Whether admission of the role succeeds. -/
def accepts (r : Role) (s : Store Obj) : Bool :=
  match (createRoleAdmission [] (.createRole (some r))).run storeSys (fun _ _ _ => .panic) [] s with
  | .done (.ok ()) _ => true
  | _ => false

theorem accepts_iff {r : Role} {s : Store Obj} (h : accepts r s = true) : ∃ s',
    (createRoleAdmission [] (.createRole (some r))).run storeSys (fun _ _ _ => .panic) [] s = .done (.ok ()) s' := by
  simp only [accepts] at h
  split at h
  · rename_i s' hs; exact ⟨s', hs⟩
  · cases h

/-- Such roles exist, and others are refused. -/
example : ∃ rs s s', Reached appReg knownSample rs s ∧
    (createRoleAdmission [] (.createRole (some exampleRole))).run storeSys (fun _ _ _ => .panic) [] s
      = .done (.ok ()) s' ∧ accepts { exampleRole with gets := [b!"z"] } s = false := by
  have h : afterOps knownSample (fun s => accepts exampleRole s && !accepts { exampleRole with gets := [b!"z"] } s) = true := by
    decide +kernel
  obtain ⟨rs, s, hr, h⟩ := reached_of h
  simp only [Bool.and_eq_true, Bool.not_eq_true'] at h
  obtain ⟨s', hs⟩ := accepts_iff h.1
  exact ⟨rs, s, s', hr, hs, h.2⟩

/-- **C32 fails** for long ids: a role whose id is in use is admitted. -/
theorem C32_long_id_fails : ∃ rs s s', Reached appReg knownSample rs s ∧
    (∃ k, view s tyRole k = some (.role { id := longName })) ∧
    (createRoleAdmission [] (.createRole (some { id := longName }))).run storeSys (fun _ _ _ => .panic) [] s
      = .done (.ok ()) s' := by
  have h : afterOps knownSample (fun s => accepts { id := longName } s &&
    decide (view s tyRole (encKey longName) = some (.role { id := longName }))) = true := by decide +kernel
  obtain ⟨rs, s, hr, h⟩ := reached_of h
  simp only [Bool.and_eq_true, decide_eq_true_eq] at h
  obtain ⟨s', hs⟩ := accepts_iff h.1
  exact ⟨rs, s, s', hr, ⟨_, h.2⟩, hs⟩

/-- **C32** Delivering a request to create a role, by whomever and in whatever state, whether it
succeeds or not, leaves every existing role as it is; in fact it leaves every object as it is. -/
theorem C32_roles_kept {ops : List (Op Obj)} {rs : List (Except OrmErr Unit)} {s s' : Store Obj}
    (h : Reached appReg ops rs s) {n : Nat} {en skip : Bool} {us : Users} {r : Option Role} {q : Except Err Unit}
    (hx : (ormApp lib).deliver n en skip us (.createRole r) s = .done q s') :
    ∀ ty k o, view s ty k = some o → view s' ty k = some o := by
  obtain ⟨hi, hr, _⟩ := Reached.inv h
  rcases (Config.deliver_same (c := ormApp lib) (storeSim_orm appReg) (n := n) (en := en) (skip := skip)
    (users := us) (t := .createRole r) (s := s) (m := view s) ⟨hi, hr, rfl⟩).cases with
    ⟨r', s₁, m₁, h1, h3, hv⟩ | ⟨h1, _⟩ | ⟨h1, _⟩
  · rw [hx] at h1
    cases h1
    rw [onStore_ormApp] at h3
    rw [hv.view]
    clear hx hv h hi hr
    generalize view s = m at h3
    cases n with
    | zero => cases h3
    | succ n =>
      have hrun : ∀ {sys : Sys World Obj} {dlv me q m'}, sys.ops = mapOps appReg →
          (createRoleExec us (.createRole r)).run sys dlv me m = .done q m' →
          ∀ ty k o, m ty k = some o → m' ty k = some o := by
        intro sys dlv me q m' ho hrun
        have hc : ∃ r', createRoleExec us (.createRole r) = .create (.role r') .ret := by
          cases r <;> exact ⟨_, rfl⟩
        obtain ⟨r', hc⟩ := hc
        rw [hc] at hrun
        have h2 : (StateObject.api (Obj.role r')).name = (Obj.role r').api.name := rfl
        have h4 : sys.ops.create m (.role r') = mapExec appReg m (.create (.role r')) := by rw [ho]; rfl
        simp only [Prog.run, Sys.create, Sys.write, h2, h4,
          mapExec_create (m := m) (o := .role r') (k := encKey r'.id) rfl] at hrun
        split at hrun
        · cases hrun
        · rename_i x heq
          cases hrun
          split at heq
          · cases heq
          · cases heq; exact fun _ _ _ h => h
          · by_cases h5 : encKey r'.id = []
            · rw [if_pos h5] at heq; simp [convertStoreError] at heq
            · rw [if_neg h5] at heq
              by_cases h6 : (m (Obj.role r').api.name (encKey r'.id)).isSome
              · rw [if_pos h6] at heq; simp [convertStoreError] at heq
              · rw [if_neg h6] at heq
                by_cases h7 : appStorable (.role r') = false
                · rw [if_pos h7] at heq; cases heq
                · rw [if_neg h7] at heq
                  simp only [convertStoreError] at heq
                  cases heq
                  intro ty k o hm
                  refine put_kept ?_ hm
                  cases hy : m (Obj.role r').api.name (encKey r'.id) with
                  | none => rfl
                  | some o => rw [hy] at h6; exact absurd rfl h6
      have hg : (appRouter lib).getAdmission (tname (.createRole r : Tr)) =
        .ok [⟨b!"rbac", createRoleAdmission⟩] := rfl
      have hp : (appRouter lib).getPre (tname (.createRole r : Tr)) = .ok [] := rfl
      have he : (appRouter lib).getExec (tname (.createRole r : Tr)) = .ok ⟨b!"rbac", createRoleExec⟩ := rfl
      have hq : (appRouter lib).getPost (tname (.createRole r : Tr)) = .ok [] := rfl
      have hdel : ∀ {q m'}, deliverAdmitted ((mapApp lib).sys en) (appRouter lib)
          (fun h s => (h.code us (.createRole r)).run ((mapApp lib).sys en)
            (deliver ((mapApp lib).sys en) (appRouter lib) n false) (Users.ofNames [h.owner]) s) us
          (.createRole r) m = .done q m' → ∀ ty k o, m ty k = some o → m' ty k = some o := by
        intro q m' hd
        simp only [deliverAdmitted, hp, he, hq, runAll] at hd
        split at hd
        · cases hd
        · cases hd; exact fun _ _ _ h => h
        · split at hd
          · cases hd
          · cases hd
          · rename_i hz; cases hd; exact hrun rfl hz
          · rename_i hz; cases hd; exact hrun rfl hz
      change deliver ((mapApp lib).sys en) (appRouter lib) (n + 1) skip us _ m = _ at h3
      simp only [deliver] at h3
      split at h3
      · exact hdel h3
      · have hadm : ∀ {q m'}, admissionChain (appRouter lib) (fun h s => (h.code us (.createRole r)).run
            ((mapApp lib).sys en) (deliver ((mapApp lib).sys en) (appRouter lib) n false)
            (Users.ofNames [h.owner]) s) (.createRole r) m = .done q m' → m' = m := by
          intro q m' ha
          simp only [admissionChain, hg, runAll] at ha
          have hro : ReadOnly (createRoleAdmission us (.createRole r)) :=
            app_admission_readOnly (lib := lib) (_, ⟨b!"rbac", createRoleAdmission⟩)
              (by simp only [appRouter]; exact .tail _ (.head _)) us _
          split at ha
          · cases ha
          · cases ha
          · rename_i hz; cases ha; exact ReadOnly.run_eq hro hz
          · rename_i hz; cases ha; exact ReadOnly.run_eq hro hz
        split at h3
        · cases h3
        · cases h3
        · rename_i hz
          cases h3
          cases hadm hz
          exact fun _ _ _ h => h
        · rename_i hz
          cases hadm hz
          exact hdel h3
  · rw [hx] at h1; cases h1
  · rw [hx] at h1; cases h1

/-- Such deliveries exist. -/
example : ∃ s', (ormApp lib).deliver 2 false true [] (.createRole (some exampleRole)) (fresh appReg) =
    .done (.ok ()) s' := ⟨_, rfl⟩

/-! ## C34 -/

/-- **C34 (partial)** After the installation of modules, the role of external accounts allows
delivering a transition exactly if it is declared external, and allows no access to objects.
Missing: transitions whose files declare several messages of the same short name, see
`C34_short_name_fails`. -/
theorem C34_external_role_partial {mods : List RawModule} {m : World} (h : Installed lib mods m)
    (hu : ∀ mod ∈ mods, ∀ t ∈ mod.transitions, Unambiguous t) :
    ∃ r, m tyRole externalRoleID = some (.role r) ∧ r.id = externalRoleID ∧
      (∀ n, n ∈ listed r .deliver ↔ ∃ mod ∈ mods, ∃ t ∈ mod.transitions, t.api.name = n ∧ Marked t true) ∧
      ∀ v, v ≠ .deliver → listed r v = [] := by
  obtain ⟨hm, _⟩ := installed_made h
  refine ⟨_, hm.external, rfl, fun n => ?_, ?_⟩
  · change n ∈ externalNames mods ↔ _
    simp only [externalNames, List.mem_flatMap, List.mem_map, List.mem_filter]
    constructor
    · rintro ⟨x, hx, t, ⟨ht, he⟩, rfl⟩
      obtain ⟨b, hb⟩ := hm.acl x hx t ht
      have : isExternal t = b := by simp only [isExternal, hb]
      exact ⟨x, hx, t, ht, rfl, (getACL_marked (hu x hx t ht) hb true).2 (he.symm.trans this)⟩
    · rintro ⟨x, hx, t, ht, rfl, hk⟩
      obtain ⟨b, hb⟩ := hm.acl x hx t ht
      have : isExternal t = b := by simp only [isExternal, hb]
      exact ⟨x, hx, t, ⟨ht, this.trans ((getACL_marked (hu x hx t ht) hb true).1 hk).symm⟩, rfl⟩
  · intro v hv
    cases v <;> first | rfl | exact absurd rfl hv

theorem raw_lib : (appModules lib).map AppModule.raw = (appModules (sampleLib [])).map AppModule.raw := rfl

theorem app_installed : ∃ m, Installed lib ((appModules lib).map AppModule.raw) m := by
  have h : installs ((appModules (sampleLib [])).map AppModule.raw) (fun _ => true) = true := by decide +kernel
  rw [raw_lib]
  obtain ⟨m, hm, _⟩ := installed_if (lib := lib) h
  exact ⟨m, hm⟩

/-- The application's own modules can be installed, and their transitions are unambiguous. -/
example : ∃ m, Installed lib ((appModules lib).map AppModule.raw) m ∧
    ∀ mod ∈ (appModules lib).map AppModule.raw, ∀ t ∈ mod.transitions, Unambiguous t := by
  obtain ⟨m, hm⟩ := app_installed (lib := lib)
  refine ⟨m, hm, ?_⟩
  rw [raw_lib]
  have : ((appModules (sampleLib [])).map AppModule.raw).all (fun mod => mod.transitions.all unambiguous) = true := by
    decide +kernel
  simp only [List.all_eq_true] at this
  exact fun mod hm t ht => unambiguous_of (this mod hm t ht)

/-- A module whose internal transition `b.T` depends on a file that declares `a.T`, which is
external. -/
def confused : RawModule where
  name := b!"m"
  transitions := [⟨⟨b!"b", b!"T"⟩, b!"b.T",
    [⟨true, b!"a", [(b!"T", some true)]⟩, ⟨true, b!"b", [(b!"T", some false)]⟩]⟩]

/-- **C34 fails** if a file on which a transition depends declares a message with the same short
name: a transition that is declared internal may be delivered by external accounts. -/
theorem C34_short_name_fails : ∃ m r, Installed lib [confused] m ∧ m tyRole externalRoleID = some (.role r) ∧
    (∀ t ∈ confused.transitions, Marked t false ∧ ¬ Marked t true) ∧
    ∀ t ∈ confused.transitions, t.api.name ∈ listed r .deliver := by
  refine ⟨_, _, installed_of rfl, rfl, ?_, ?_⟩
  · intro t ht
    simp only [confused, List.mem_singleton] at ht
    subst ht
    refine ⟨⟨_, .tail _ (.head _), _, .head _, rfl, rfl⟩, ?_⟩
    rintro ⟨f, hf, e, he, h1, h2⟩
    simp only [List.mem_cons, List.not_mem_nil, or_false] at hf
    rcases hf with rfl | rfl
    · simp only [List.mem_singleton] at he
      subst he
      exact absurd h1 (by decide)
    · simp only [List.mem_singleton] at he
      subst he
      cases h2
  · intro t ht
    simp only [confused, List.mem_singleton] at ht
    subst ht
    exact .head _

/-! ## C35 -/

/-- What a module may do to a resource. -/
def Rights (mod : RawModule) (v : Verb) (n : Bytes) : Prop :=
  if v = .deliver then n ∈ ownTransitions mod ∨ n ∈ neededTransitions mod
  else if v = .unknown then False else n ∈ ownObjects mod

/-- **C35** After the installation of modules, there is a role for each of them that allows
creating, reading, listing, updating and deleting exactly its own objects and delivering exactly its
own and its needed transitions. -/
theorem C35_module_roles {mods : List RawModule} {m : World} (h : Installed lib mods m) (mod : RawModule)
    (hm : mod ∈ mods) : ∃ k r, m tyRole k = some (.role r) ∧ r.id = mod.name ++ b!"-role" ∧
      ∀ v n, n ∈ listed r v ↔ Rights mod v n := by
  obtain ⟨hm', _⟩ := installed_made h
  refine ⟨_, _, hm'.role mod hm, rfl, fun v n => ?_⟩
  cases v <;> simp [listed, rightsOf, Rights]

/-- **C35 (partial)** And the module has these rights and no others: the store allows to a request
made by the module exactly these.  Missing: names of 123 bytes or more, see
`C35_long_name_fails`. -/
theorem C35_module_rights_partial {mods : List RawModule} {m : World} (h : Installed lib mods m) (mod : RawModule)
    (hm : mod ∈ mods) (hl : mod.name.length < 123) (v : Verb) (n : Bytes) :
    Allowed m v n [mod.name] ↔ Rights mod v n := by
  obtain ⟨hm', ht⟩ := installed_made h
  have hlen : (roleNameForModule mod.name).length < 128 := by
    simp only [roleNameForModule, List.length_append]
    have : (b!"-role" : Bytes).length = 5 := by decide
    omega
  obtain ⟨hne, hb⟩ := hm'.bound mod hm hlen
  have hr := hm'.role mod hm
  have hh : ∀ r, HasRole m mod.name r ↔ r = rightsOf mod := by
    intro r
    constructor
    · rintro ⟨⟨k, hk⟩, k', hk'⟩
      obtain ⟨a, b, e, he, _⟩ := ht.bindings _ _ hk
      cases e
      rw [← he, hb] at hk
      obtain ⟨r', e', he', _⟩ := ht.roles _ _ hk'
      cases e'
      have : r.id = roleNameForModule mod.name := by
        injection hk with hk
        injection hk with _ hk
        exact hk.symm
      rw [← he', this, hr] at hk'
      injection hk' with hk'
      injection hk' with hk'
      exact hk'.symm
    · rintro rfl
      exact ⟨⟨_, hb⟩, _, hr⟩
  simp only [Allowed, List.mem_singleton, forall_eq, exists_eq_left, hh, exists_eq, true_and]
  cases v <;> simp [listed, rightsOf, Rights]

/-- **C35** Nobody but the modules has any rights after the installation. -/
theorem C35_nobody_else {mods : List RawModule} {m : World} (h : Installed lib mods m) (u : Bytes)
    (hn : ∀ mod ∈ mods, mod.name ≠ u) (v : Verb) (n : Bytes) : ¬ Allowed m v n [u] := by
  obtain ⟨hm', ht⟩ := installed_made h
  rintro ⟨_, w, hw, r, ⟨⟨k, hk⟩, _⟩, _⟩
  rw [List.mem_singleton] at hw
  subst hw
  rcases hm'.onlyBindings _ _ hk with h' | ⟨x, hx, h'⟩
  · rw [Contents.put, if_neg (fun e => absurd e.1 (by decide))] at h'
    cases h'
  · injection h' with h' _
    exact hn x hx h'.symm

example : ∃ m, Installed lib ((appModules lib).map AppModule.raw) m ∧
    Allowed m .deliver (tname (.sendCoins [] [] [] : Tr)) [b!"bank"] := by
  obtain ⟨m, h⟩ := app_installed (lib := lib)
  refine ⟨m, h, ?_⟩
  have hb : ∃ mod ∈ (appModules lib).map AppModule.raw, mod.name = b!"bank" ∧
      tname (.sendCoins [] [] [] : Tr) ∈ ownTransitions mod := ⟨_, List.mem_map.2 ⟨bankModule lib.coins, by
        simp [appModules], rfl⟩, rfl, of_decide_eq_true (by rfl)⟩
  obtain ⟨mod, hm, hn, ho⟩ := hb
  rw [← hn]
  exact (C35_module_rights_partial h mod hm (by rw [hn]; decide) _ _).2 (.inl ho)

/-- A module with a name of 123 bytes that owns an object. -/
def longModule : RawModule where
  name := List.replicate 123 97
  objects := [⟨b!"g", b!"x"⟩]

/-- **C35 fails** for modules with long names: the installation succeeds, but the module may do
nothing, not even with its own objects. -/
theorem C35_long_name_fails : ∃ m, Installed lib [longModule] m ∧
    ∀ v n, ¬ Allowed m v n [longModule.name] := by
  have h : installs [longModule] (fun m => decide (m tyRoleBinding (encKey longModule.name) = none)) = true := by
    decide +kernel
  obtain ⟨m, h, hx⟩ := installed_if (lib := lib) h
  rw [decide_eq_true_eq] at hx
  refine ⟨m, h, ?_⟩
  rintro v n ⟨_, w, hw, r, ⟨⟨k, hk⟩, _⟩, _⟩
  rw [List.mem_singleton] at hw
  subst hw
  obtain ⟨a, b, e, he, _⟩ := (installed_made h).2.bindings _ _ hk
  cases e
  rw [← he, hx] at hk
  cases hk

end Verif.Props
