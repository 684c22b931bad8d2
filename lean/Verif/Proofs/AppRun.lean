import Verif.Spec.Machine
import Verif.Proofs.Runtime
import Verif.Proofs.Kind
/-! # Transitions of the application compute the functions of `Spec.Machine` -/

set_option linter.unusedSectionVars false
set_option linter.unusedSimpArgs false

namespace Verif
open Spec

variable {lib : Libs} {m : World}

/-- The object requests of the application after the chain was started. -/
noncomputable abbrev asys (lib : Libs) : Sys World Obj := (mapApp lib).sys true

/-! ## Reads -/

theorem asys_get {ty : Bytes} {sch : Schema} (h : appReg.get ty = some sch) (id : Bytes) :
    (asys lib).get m ty id = if id = [] then .panic else match m ty id with
      | none => .ret (.error .notFound)
      | some o => .ret (.ok o) := by
  simp only [asys, Config.sys, Sys.get, mapApp, appConfig, mapOps, mapGet, h]
  split
  · rfl
  · cases m ty id <;> rfl

theorem reg_role : ∃ s, appReg.get tyRole = some s := ⟨_, rfl⟩
theorem reg_binding : ∃ s, appReg.get tyRoleBinding = some s := ⟨_, rfl⟩
theorem reg_account : ∃ s, appReg.get tyAccount = some s := ⟨_, rfl⟩
theorem reg_number : ∃ s, appReg.get tyAccountNumber = some s := ⟨_, rfl⟩
theorem reg_params : ∃ s, appReg.get tyAuthnParams = some s := ⟨_, rfl⟩
theorem reg_balance : ∃ s, appReg.get tyBalance = some s := ⟨_, rfl⟩
theorem reg_block : ∃ s, appReg.get tyCurrentBlock = some s := ⟨_, rfl⟩
theorem reg_stage : ∃ s, appReg.get tyStage = some s := ⟨_, rfl⟩
theorem reg_chain : ∃ s, appReg.get tyInitChainInfo = some s := ⟨_, rfl⟩
theorem reg_updates : ∃ s, appReg.get tyValidatorUpdates = some s := ⟨_, rfl⟩

theorem singleton_ne : singletonID ≠ [] := by simp [singletonID]

section
variable {dlv : Users → Tr → World → Res World (Except Err Unit)} {me : Users}

theorem run_getBalance (hi : AppInv m) (a : Bytes) (k : Except Err (List Coin) → Code) :
    (getBalance a k).run (asys lib) dlv me m = if a = [] then .panic else match balanceAt m a with
      | none => (k (.error .notFound)).run (asys lib) dlv me m
      | some cs => (k (.ok cs)).run (asys lib) dlv me m := by
  obtain ⟨s, hs⟩ := reg_balance
  simp only [getBalance, Prog.run, asys_get hs]
  by_cases ha : a = []
  · simp only [ha, if_true]
  · simp only [balanceAt, ha, if_false]
    cases hm : m tyBalance a with
    | none => rfl
    | some o => obtain ⟨a, cs, rfl, _⟩ := hi.balances _ _ hm; rfl

theorem run_getAccount (hi : AppInv m) (a : Bytes) (k : Except Err Account → Code) :
    (getAccount a k).run (asys lib) dlv me m = if a = [] then .panic else match accountAt m a with
      | none => (k (.error .notFound)).run (asys lib) dlv me m
      | some x => (k (.ok x)).run (asys lib) dlv me m := by
  obtain ⟨s, hs⟩ := reg_account
  simp only [getAccount, Prog.run, asys_get hs]
  by_cases ha : a = []
  · simp only [ha, if_true]
  · simp only [accountAt, ha, if_false]
    cases hm : m tyAccount a with
    | none => rfl
    | some o => obtain ⟨x, rfl, _⟩ := hi.accounts _ _ hm; rfl

theorem run_getAccountNumber (hi : AppInv m) (k : Except Err (BitVec 64) → Code) :
    (getAccountNumber k).run (asys lib) dlv me m = (k (.ok (nextNumber m))).run (asys lib) dlv me m := by
  obtain ⟨s, hs⟩ := reg_number
  obtain ⟨n, hn⟩ := hi.number
  simp only [getAccountNumber, Prog.run, asys_get hs, singleton_ne, if_false, hn, nextNumber]

theorem run_getAuthnParams (hi : AppInv m) (k : Except Err AuthnParams → Code) :
    (getAuthnParams k).run (asys lib) dlv me m = (k (.ok (params m))).run (asys lib) dlv me m := by
  obtain ⟨s, hs⟩ := reg_params
  obtain ⟨n, hn⟩ := hi.params
  simp only [getAuthnParams, Prog.run, asys_get hs, singleton_ne, if_false, hn, params]

theorem run_getCurrentBlock (hi : AppInv m) (k : Except Err (BitVec 64) → Code) :
    (getCurrentBlock k).run (asys lib) dlv me m = (k (.ok (height m))).run (asys lib) dlv me m := by
  obtain ⟨s, hs⟩ := reg_block
  obtain ⟨n, hn⟩ := hi.height
  simp only [getCurrentBlock, Prog.run, asys_get hs, singleton_ne, if_false, hn, height]

theorem run_getStage (hi : AppInv m) (k : Except Err Stage → Code) :
    (getStage k).run (asys lib) dlv me m = (k (.ok (stage m))).run (asys lib) dlv me m := by
  obtain ⟨s, hs⟩ := reg_stage
  obtain ⟨n, hn⟩ := hi.stage
  simp only [getStage, Prog.run, asys_get hs, singleton_ne, if_false, hn, stage]

theorem run_getInitChainInfo (hi : AppInv m) (k : Except Err Bytes → Code) :
    (getInitChainInfo k).run (asys lib) dlv me m = (k (.ok (chainId m))).run (asys lib) dlv me m := by
  obtain ⟨s, hs⟩ := reg_chain
  obtain ⟨n, hn⟩ := hi.chainId
  simp only [getInitChainInfo, Prog.run, asys_get hs, singleton_ne, if_false, hn, chainId]

end

/-! ## Authorization -/

theorem moduleRoles_facts : ∀ e ∈ moduleRoles, e.1 ≠ [] ∧ e.2.id ≠ [] ∧
    (externalRole :: moduleRoles.map (·.2)).find? (·.id = e.2.id) = some e.2 := by decide

theorem read_moduleRole (hi : RolesInv m) {e : Bytes × Role} (he : e ∈ moduleRoles) :
    (asys lib).get m tyRoleBinding e.1 = .ret (.ok (.roleBinding e.1 e.2.id)) ∧
      (asys lib).get m tyRole e.2.id = .ret (.ok (.role e.2)) := by
  obtain ⟨s, hs⟩ := reg_binding
  obtain ⟨s', hs'⟩ := reg_role
  obtain ⟨h1, h2, h3⟩ := moduleRoles_facts e he
  rw [asys_get hs, asys_get hs', if_neg h1, if_neg h2, hi.modules e he, hi.roles, roleTable, h3]
  exact ⟨rfl, rfl⟩

theorem auth_module (hi : RolesInv m) {e : Bytes × Role} (he : e ∈ moduleRoles) (v : Verb) (res : Bytes) :
    (asys lib).authorized m v res [e.1] =
      if res ∈ e.2.resources v then .ret (.ok ()) else .ret (.error .unauthorized) := by
  obtain ⟨h1, h2⟩ := read_moduleRole (lib := lib) hi he
  have : (asys lib).authorizer = rbacAuthorizer := rfl
  simp only [Sys.authorized, this, rbacAuthorizer, fetchRoles, h1, h2]
  by_cases hr : res ∈ e.2.resources v
  · simp [hr, asys, Config.sys]
  · simp [hr, asys, Config.sys]

theorem read_external (hi : AppInv m) {u : Bytes} (hu : u ≠ []) (ha : (accountAt m u).isSome) :
    ∃ s, (asys lib).get m tyRoleBinding u = .ret (.ok (.roleBinding s externalRoleID)) := by
  obtain ⟨s, hs⟩ := reg_binding
  simp only [accountAt] at ha
  cases hm : m tyAccount u with
  | none => simp [hm] at ha
  | some o =>
    obtain ⟨a, rfl, _, hb⟩ := hi.accounts _ _ hm
    rw [asys_get hs, if_neg hu, hb]
    exact ⟨_, rfl⟩

theorem read_externalRole (hi : RolesInv m) :
    (asys lib).get m tyRole externalRoleID = .ret (.ok (.role externalRole)) := by
  obtain ⟨s', hs'⟩ := reg_role
  rw [asys_get hs', hi.roles]
  rfl

theorem fetch_external (hi : AppInv m) : ∀ {us : Users},
    (∀ u ∈ us, u ≠ [] ∧ (accountAt m u).isSome) →
    fetchRoles ((asys lib).get m) us = .ret (.ok (us.map fun _ => externalRole))
  | [], _ => rfl
  | u :: us, h => by
    obtain ⟨s, hs⟩ := read_external (lib := lib) hi (h u (by simp)).1 (h u (by simp)).2
    have ih := fetch_external hi (us := us) fun v hv => h v (by simp [hv])
    simp only [fetchRoles, hs, read_externalRole hi.toRolesInv, ih, List.map_cons]

theorem auth_external (hi : AppInv m) {us : Users} (hne : us ≠ [])
    (h : ∀ u ∈ us, u ≠ [] ∧ (accountAt m u).isSome) (v : Verb) (res : Bytes) :
    (asys lib).authorized m v res us =
      if res ∈ externalRole.resources v then .ret (.ok ()) else .ret (.error .unauthorized) := by
  have : (asys lib).authorizer = rbacAuthorizer := rfl
  simp only [Sys.authorized, this, rbacAuthorizer, fetch_external hi h]
  have key : (us.map fun _ => externalRole).flatMap (fun r => r.resources v) =
      us.flatMap fun _ => externalRole.resources v := by rw [List.flatMap_map]
  rw [key]
  have hc : (us.flatMap fun _ => externalRole.resources v).contains res =
      decide (res ∈ externalRole.resources v) := by
    obtain ⟨u, us, rfl⟩ := List.exists_cons_of_ne_nil hne
    by_cases hr : res ∈ externalRole.resources v
    · simp [hr]
    · simp [hr]
  rw [hc]
  by_cases hr : res ∈ externalRole.resources v
  · simp [hr, asys, Config.sys]
  · simp [hr, asys, Config.sys]

/-! ## Writes of modules -/

section
variable {dlv : Users → Tr → World → Res World (Except Err Unit)}

theorem mapExec_create {o : Obj} {k : Bytes} (hk : keyOf appReg o = some (o.api.name, k)) :
    mapExec appReg m (.create o) = if k = [] then .ret (.error .emptyKey, m)
      else if (m o.api.name k).isSome then .ret (.error .alreadyExists, m)
      else if appStorable o = false then .panic else .ret (.ok (), m.put o.api.name k (some o)) := by
  have h2 : (StateObject.api o).name = o.api.name := rfl
  simp only [keyOf, h2] at hk
  simp only [mapExec, Op.obj, h2]
  generalize appReg.get o.api.name = x at hk
  cases x with
  | none => cases hk
  | some sch =>
    dsimp only at hk ⊢
    generalize sch.encodePrimaryKey o = y at hk
    cases y with
    | panic => cases hk
    | ret pk =>
      cases hk
      simp only [apply, Op.writes, appStorable]
      by_cases h1 : k = []
      · simp only [h1, if_true]
      · by_cases h3 : (m o.api.name k).isSome
        · simp only [h1, h3, if_false, if_true]
        · by_cases h4 : Spec.storable appReg o = false
          · simp [h1, h3, h4]
          · simp only [Bool.not_eq_false] at h4; simp [h1, h3, h4]

theorem mapExec_update {o : Obj} {k : Bytes} (hk : keyOf appReg o = some (o.api.name, k)) :
    mapExec appReg m (.update o) = if k = [] then .ret (.error .emptyKey, m)
      else if (m o.api.name k).isSome then
        if appStorable o = false then .panic else .ret (.ok (), m.put o.api.name k (some o))
      else .ret (.error .notFound, m) := by
  have h2 : (StateObject.api o).name = o.api.name := rfl
  simp only [keyOf, h2] at hk
  simp only [mapExec, Op.obj, h2]
  generalize appReg.get o.api.name = x at hk
  cases x with
  | none => cases hk
  | some sch =>
    dsimp only at hk ⊢
    generalize sch.encodePrimaryKey o = y at hk
    cases y with
    | panic => cases hk
    | ret pk =>
      cases hk
      simp only [apply, Op.writes, appStorable]
      by_cases h1 : k = []
      · simp only [h1, if_true]
      · by_cases h3 : (m o.api.name k).isSome
        · by_cases h4 : Spec.storable appReg o = false
          · simp [h1, h3, h4]
          · simp only [Bool.not_eq_false] at h4; simp [h1, h3, h4]
        · simp [h1, h3]

theorem run_create (hi : RolesInv m) {e : Bytes × Role} (he : e ∈ moduleRoles) {o : Obj} {k : Bytes}
    (hr : o.api.name ∈ e.2.creates) (hk : keyOf appReg o = some (o.api.name, k))
    (c : Except Err Unit → Code) :
    (Prog.create o c).run (asys lib) dlv [e.1] m =
      if k = [] ∨ (m o.api.name k).isSome ∨ appStorable o = false then .panic
      else (c (.ok ())).run (asys lib) dlv [e.1] (m.put o.api.name k (some o)) := by
  have ha : (asys lib).authorized m .create o.api.name [e.1] = .ret (.ok ()) := by
    rw [auth_module hi he]; exact if_pos hr
  have hs : (asys lib).create [e.1] o m =
      if k = [] ∨ (m o.api.name k).isSome ∨ appStorable o = false then .panic
      else .ret (.ok (), m.put o.api.name k (some o)) := by
    have : (asys lib).ops.create m o = mapExec appReg m (.create o) := rfl
    have h2 : (StateObject.api o).name = o.api.name := rfl
    simp only [Sys.create, Sys.write, h2, ha, this, mapExec_create (m := m) hk]
    by_cases h1 : k = []
    · simp [h1, convertStoreError]
    · by_cases h3 : (m o.api.name k).isSome
      · simp [h1, h3, convertStoreError]
      · by_cases h4 : appStorable o = false
        · simp [h1, h3, h4, convertStoreError]
        · simp [h1, h3, h4, convertStoreError]
  simp only [Prog.run, hs]
  by_cases h : k = [] ∨ (m o.api.name k).isSome ∨ appStorable o = false
  · simp only [h, if_true]
  · simp only [h, if_false]

theorem run_update_as {sys : Sys World Obj} {me : Users} (ho : sys.ops = mapOps appReg) {o : Obj} {k : Bytes}
    (ha : sys.authorized m .update o.api.name me = .ret (.ok ()))
    (hk : keyOf appReg o = some (o.api.name, k)) (c : Except Err Unit → Code) :
    (Prog.update o c).run sys dlv me m =
      if k = [] then .panic
      else if (m o.api.name k).isSome then
        if appStorable o = false then .panic
        else (c (.ok ())).run sys dlv me (m.put o.api.name k (some o))
      else (c (.error .notFound)).run sys dlv me m := by
  have hs : sys.update me o m =
      if k = [] then .panic
      else if (m o.api.name k).isSome then
        if appStorable o = false then .panic else .ret (.ok (), m.put o.api.name k (some o))
      else .ret (.error .notFound, m) := by
    have : sys.ops.update m o = mapExec appReg m (.update o) := by rw [ho]; rfl
    have h2 : (StateObject.api o).name = o.api.name := rfl
    simp only [Sys.update, Sys.write, h2, ha, this, mapExec_update (m := m) hk]
    by_cases h1 : k = []
    · simp [h1, convertStoreError]
    · by_cases h3 : (m o.api.name k).isSome
      · by_cases h4 : appStorable o = false
        · simp [h1, h3, h4, convertStoreError]
        · simp [h1, h3, h4, convertStoreError]
      · simp [h1, h3, convertStoreError]
  simp only [Prog.run, hs]
  by_cases h : k = []
  · simp only [h, if_true]
  · by_cases h3 : (m o.api.name k).isSome
    · by_cases h4 : appStorable o = false <;> simp only [h, h3, h4, if_false, if_true, reduceCtorEq]
    · simp only [h, h3, if_false]
      rfl

theorem run_update (hi : RolesInv m) {e : Bytes × Role} (he : e ∈ moduleRoles) {o : Obj} {k : Bytes}
    (hr : o.api.name ∈ e.2.updates) (hk : keyOf appReg o = some (o.api.name, k))
    (c : Except Err Unit → Code) :
    (Prog.update o c).run (asys lib) dlv [e.1] m =
      if k = [] then .panic
      else if (m o.api.name k).isSome then
        if appStorable o = false then .panic
        else (c (.ok ())).run (asys lib) dlv [e.1] (m.put o.api.name k (some o))
      else (c (.error .notFound)).run (asys lib) dlv [e.1] m :=
  run_update_as rfl (by rw [auth_module hi he]; exact if_pos hr) hk c

end

/-! ## Deliveries -/

theorem Res.ok_eta {S : Type} (r : Res S (Except Err Unit)) : (match r with
    | .panic => Res.panic
    | .diverge => .diverge
    | .done (.error e) s => .done (.error e) s
    | .done (.ok ()) s => .done (.ok ()) s) = r := by
  rcases r with ⟨_ | _, _⟩ | _ | _ <;> rfl

/-- A delivery of a transition without pre- and post-handlers, after admission. -/
theorem deliverAdmitted_exec {S O T R : Type} [StateObject O] [StateTransition T] {sys : Sys S O}
    {router : Router O T R} {run : Handler O T → S → Res S (Except Err Unit)} {users : Users} {t : T}
    {s : S} {h : Handler O T} (hp : router.getPre (tname t) = .ok [])
    (he : router.getExec (tname t) = .ok h) (hq : router.getPost (tname t) = .ok [])
    (ha : sys.authorized s .deliver (tname t) users = .ret (.ok ())) :
    deliverAdmitted sys router run users t s = run h s := by
  simp only [deliverAdmitted, hp, he, hq, ha, runAll]
  exact Res.ok_eta _

theorem deliverAdmitted_denied {S O T R : Type} [StateObject O] [StateTransition T] {sys : Sys S O}
    {router : Router O T R} {run : Handler O T → S → Res S (Except Err Unit)} {users : Users} {t : T}
    {s : S} {e : Err} (ha : sys.authorized s .deliver (tname t) users = .ret (.error e)) :
    deliverAdmitted sys router run users t s = .done (.error e) s := by
  simp only [deliverAdmitted, ha]

theorem deliver_exec {S O T R : Type} [StateObject O] [StateTransition T] {sys : Sys S O}
    {router : Router O T R} {n : Nat} {users : Users} {t : T} {s : S} {h : Handler O T} {skip : Bool}
    (h0 : router.getAdmission (tname t) = .ok [])
    (hp : router.getPre (tname t) = .ok [])
    (he : router.getExec (tname t) = .ok h) (hq : router.getPost (tname t) = .ok [])
    (ha : sys.authorized s .deliver (tname t) users = .ret (.ok ())) :
    deliver sys router (n + 1) skip users t s =
      (h.code users t).run sys (deliver sys router n false) [h.owner] s := by
  cases skip
  · simp only [deliver, admissionChain, h0, runAll, Bool.false_eq_true, if_false]
    exact deliverAdmitted_exec hp he hq ha
  · simp only [deliver, if_true]
    exact deliverAdmitted_exec hp he hq ha

theorem deliver_denied {S O T R : Type} [StateObject O] [StateTransition T] {sys : Sys S O}
    {router : Router O T R} {n : Nat} {users : Users} {t : T} {s : S} {e : Err}
    (ha : sys.authorized s .deliver (tname t) users = .ret (.error e)) :
    deliver sys router (n + 1) true users t s = .done (.error e) s := by
  simp only [deliver, if_true]
  exact deliverAdmitted_denied ha

theorem deliver_skip {S O T R : Type} [StateObject O] [StateTransition T] {sys : Sys S O}
    {router : Router O T R} {n : Nat} {users : Users} {t : T} {s : S} {h : Handler O T}
    (hp : router.getPre (tname t) = .ok [])
    (he : router.getExec (tname t) = .ok h) (hq : router.getPost (tname t) = .ok [])
    (ha : sys.authorized s .deliver (tname t) users = .ret (.ok ())) :
    deliver sys router (n + 1) true users t s =
      (h.code users t).run sys (deliver sys router n false) [h.owner] s := by
  simp only [deliver, if_true]
  exact deliverAdmitted_exec hp he hq ha

/-- With one admission handler, which succeeds without effect. -/
theorem deliver_exec1 {S O T R : Type} [StateObject O] [StateTransition T] {sys : Sys S O}
    {router : Router O T R} {n : Nat} {users : Users} {t : T} {s : S} {h a : Handler O T}
    (h0 : router.getAdmission (tname t) = .ok [a])
    (h1 : (a.code users t).run sys (deliver sys router n false) [a.owner] s = .done (.ok ()) s)
    (hp : router.getPre (tname t) = .ok [])
    (he : router.getExec (tname t) = .ok h) (hq : router.getPost (tname t) = .ok [])
    (ha : sys.authorized s .deliver (tname t) users = .ret (.ok ())) :
    deliver sys router (n + 1) false users t s =
      (h.code users t).run sys (deliver sys router n false) [h.owner] s := by
  simp only [deliver, admissionChain, h0, runAll, Bool.false_eq_true, if_false,
    Users.ofNames_single, h1]
  exact deliverAdmitted_exec hp he hq ha

/-- The roles of the modules that deliver or write. -/
theorem mem_authn : (b!"authn", roleOf b!"authn-role"
    [.account ⟨[], none, 0, 0⟩, .authnParams ⟨0, 0⟩, .accountNumber 0]
    [.createAccount none, .bindRole [] []]) ∈ moduleRoles := by decide
theorem mem_rbac : (b!"rbac", roleOf b!"rbac-role" [.role { id := [] }, .roleBinding [] [], .rbacParams]
    [.createRole none, .bindRole [] []]) ∈ moduleRoles := by decide
theorem mem_bank : (b!"bank", roleOf b!"bank-role" [.balance [] []]
    [.sendCoins [] [] [], .setBalance [] [], .createAccount none]) ∈ moduleRoles := by decide
theorem mem_distribution : (b!"distribution",
    roleOf b!"distribution-role" [] [.sendCoins [] [] []]) ∈ moduleRoles := by decide
theorem mem_abci : (userABCI, roleOf b!"system:abci-role"
    [.stage .unknown, .beginBlockState none, .deliverTxState none, .checkTxState none,
     .initChainInfo [], .endBlockState none, .currentBlock 0, .validatorUpdates []]
    [.setInitChain none, .setCheckTx none, .setBeginBlock none, .setDeliverTx none,
     .setEndBlock none, .setValidatorUpdates []]) ∈ moduleRoles := by decide

/-- The router of the application. -/
abbrev arouter (lib : Libs) : Router Obj Tr TxData := appRouter lib

/-- Deliveries inside the application. -/
noncomputable abbrev adeliver (lib : Libs) (n : Nat) (skip : Bool) (users : Users) (t : Tr) (m : World) :
    Outcome := deliver (asys lib) (appRouter lib) n skip users t m

theorem deliver_bind (hi : RolesInv m) (n : Nat) (a : Bytes) :
    adeliver lib (n + 1) false [b!"authn"] (.bindRole externalRoleID a) m =
      if encKey a = [] ∨ (m tyRoleBinding (encKey a)).isSome ∨
        appStorable (.roleBinding a externalRoleID) = false then .panic
      else .done (.ok ()) (m.put tyRoleBinding (encKey a) (some (.roleBinding a externalRoleID))) := by
  refine (deliver_exec1 (h := ⟨b!"rbac", bindRoleExec⟩) (a := ⟨b!"rbac", bindRoleAdmission⟩)
    rfl ?_ rfl rfl rfl ?_).trans ?_
  · simp only [bindRoleAdmission, getRole, Prog.run, read_externalRole hi]
  · exact (auth_module hi mem_authn _ _).trans (if_pos (of_decide_eq_true rfl))
  · exact run_create (lib := lib) hi mem_rbac (o := .roleBinding a externalRoleID) (k := encKey a)
      (of_decide_eq_true rfl) rfl .ret

theorem encKey_nil {a : Bytes} : encKey a = [] ↔ a = [] := by
  constructor
  · intro h
    have : (appendBytes a).length ≤ 1 := by
      have := congrArg List.length h
      simp [encKey] at this; omega
    simp only [appendBytes, List.length_append] at this
    have h2 := appendVarint_length_pos a.length
    exact List.length_eq_zero_iff.1 (by omega)
  · rintro rfl; rfl

theorem encKey_inj {a b : Bytes} (h : encKey a = encKey b) : a = b := appendBytes_drop_inj h

theorem encKey_short {a : Bytes} (h : a.length < 128) : encKey a = a := appendBytes_drop_short h

theorem balanceAt_isSome (hi : AppInv m) (k : Bytes) : (m tyBalance k).isSome = (balanceAt m k).isSome := by
  simp only [balanceAt]
  cases hm : m tyBalance k with
  | none => rfl
  | some o => obtain ⟨a, cs, rfl, _⟩ := hi.balances _ _ hm; rfl

theorem accountAt_isSome (hi : AppInv m) (k : Bytes) : (m tyAccount k).isSome = (accountAt m k).isSome := by
  simp only [accountAt]
  cases hm : m tyAccount k with
  | none => rfl
  | some o => obtain ⟨a, rfl, _⟩ := hi.accounts _ _ hm; rfl

theorem deliver_setBalance (hi : AppInv m) (n : Nat) (a : Bytes) (cs : List Coin) :
    adeliver lib (n + 1) false [b!"bank"] (.setBalance a cs) m = doSetBalance a cs m := by
  refine (deliver_exec (h := ⟨b!"bank", setBalanceExec⟩) rfl rfl rfl rfl
    ((auth_module hi.toRolesInv mem_bank _ _).trans (if_pos (of_decide_eq_true rfl)))).trans ?_
  simp only [setBalanceExec, run_getBalance hi, doSetBalance, encKey_nil]
  by_cases ha : a = []
  · simp only [ha, if_true]
  · simp only [ha, if_false]
    have hk : ¬ encKey a = [] := fun h => ha (encKey_nil.1 h)
    have hs := balanceAt_isSome hi (encKey a)
    cases h1 : balanceAt m a with
    | none =>
      refine (run_create (lib := lib) hi.toRolesInv mem_bank (o := .balance a cs) (k := encKey a)
        (of_decide_eq_true rfl) rfl .ret).trans ?_
      change ite (encKey a = [] ∨ (m tyBalance (encKey a)).isSome ∨ _) _ _ = _
      cases h2 : balanceAt m (encKey a) with
      | none =>
        rw [h2] at hs
        cases h4 : appStorable (.balance a cs)
        · simp [hk]
        · simp only [hs, hk]; rfl
      | some c => rw [h2] at hs; simp [hs, hk]
    | some c =>
      refine (run_update (lib := lib) hi.toRolesInv mem_bank (o := .balance a cs) (k := encKey a)
        (of_decide_eq_true rfl) rfl .ret).trans ?_
      rw [if_neg hk]
      change ite ((m tyBalance (encKey a)).isSome = true) _ _ = _
      cases h2 : balanceAt m (encKey a) with
      | none => rw [h2] at hs; simp only [hs]; rfl
      | some c =>
        rw [h2] at hs
        cases h4 : appStorable (.balance a cs)
        · simp only [hs]; rfl
        · simp only [hs]; rfl

/-! ## Changing one entry -/

theorem put_ne {ty t : Bytes} (h : t ≠ ty) (m : World) (pk : Bytes) (v : Option Obj) :
    m.put ty pk v t = m t := by
  funext k; simp [Contents.put, h]

theorem put_same (m : World) (ty pk : Bytes) (v : Option Obj) (k : Bytes) :
    m.put ty pk v ty k = if k = pk then v else m ty k := by
  simp [Contents.put]

theorem Spec.RolesInv.put {ty pk : Bytes} {v : Option Obj} (hi : RolesInv m) (h1 : tyRole ≠ ty)
    (h2 : tyRoleBinding ≠ ty) : RolesInv (m.put ty pk v) :=
  ⟨by rw [put_ne h1]; exact hi.roles, by rw [put_ne h2]; exact hi.modules⟩

section
variable {dlv : Users → Tr → World → Res World (Except Err Unit)} {me : Users} {t : Tr}

theorem run_deliver_ret {sys : Sys World Obj} : (Prog.deliver t none .ret : Code).run sys dlv me m =
    dlv (Users.union [some me, none]) t m := by
  simp only [Prog.run]
  cases dlv (Users.union [some me, none]) t m <;> rfl

theorem run_deliver_orReturn {sys : Sys World Obj} {k : Code} :
    (Prog.deliver t none (Prog.orReturn k) : Code).run sys dlv me m =
      andThen (dlv (Users.union [some me, none]) t m) fun m => k.run sys dlv me m := by
  simp only [Prog.run]
  rcases dlv (Users.union [some me, none]) t m with ⟨_ | _, _⟩ | _ | _ <;> rfl

end

theorem run_createAccount (hi : AppInv m) (n : Nat) (users : Users) (acc : Account) :
    (createAccountExec users (.createAccount (some acc))).run (asys lib)
      (adeliver lib (n + 1) false) [b!"authn"] m = doCreateAccount acc.address acc.pubKey m := by
  simp only [createAccountExec, run_getAccountNumber hi, doCreateAccount]
  refine (run_create (lib := lib) hi.toRolesInv mem_authn
    (o := .account { address := acc.address, pubKey := acc.pubKey, number := nextNumber m, sequence := 0 })
    (k := encKey acc.address) (of_decide_eq_true rfl) rfl _).trans ?_
  have hacc : (m (Obj.api (.account ⟨acc.address, acc.pubKey, nextNumber m, 0⟩)).name
      (encKey acc.address)).isSome = (accountAt m (encKey acc.address)).isSome :=
    accountAt_isSome hi (encKey acc.address)
  by_cases h1 : encKey acc.address = [] ∨ (m (Obj.api (.account ⟨acc.address, acc.pubKey, nextNumber m, 0⟩)).name
      (encKey acc.address)).isSome ∨
      appStorable (.account ⟨acc.address, acc.pubKey, nextNumber m, 0⟩) = false
  · rw [if_pos h1, if_pos]
    rcases h1 with h | h | h
    · exact .inl h
    · exact .inr (.inl (hacc ▸ h))
    · exact .inr (.inr (.inr (Bool.and_eq_false_iff.2 (.inl h))))
  rw [if_neg h1]
  have hr1 : RolesInv (m.put tyAccount (encKey acc.address) (some (.account ⟨acc.address, acc.pubKey,
      nextNumber m, 0⟩))) := hi.toRolesInv.put (by decide) (by decide)
  refine (run_update (lib := lib) hr1 mem_authn (o := .accountNumber (nextNumber m + 1))
    (k := singletonID) (of_decide_eq_true rfl) rfl _).trans ?_
  rw [if_neg singleton_ne]
  obtain ⟨x, hx⟩ := hi.number
  have h2 : ((m.put tyAccount (encKey acc.address) (some (.account ⟨acc.address, acc.pubKey,
      nextNumber m, 0⟩))) tyAccountNumber singletonID).isSome = true := by
    rw [put_ne (by decide), hx]; rfl
  refine (if_pos h2).trans ?_
  refine (if_neg (by rw [show appStorable (.accountNumber (nextNumber m + 1)) = true from rfl]; simp)).trans ?_
  have hr2 := hr1.put (ty := tyAccountNumber) (pk := singletonID)
    (v := some (.accountNumber (nextNumber m + 1))) (by decide) (by decide)
  refine (run_deliver_ret).trans ?_
  have := deliver_bind (lib := lib) hr2 n acc.address
  rw [put_ne (by decide), put_ne (by decide)] at this
  refine this.trans ?_
  by_cases h3 : encKey acc.address = [] ∨ (m tyRoleBinding (encKey acc.address)).isSome ∨
      appStorable (.roleBinding acc.address externalRoleID) = false
  · rw [if_pos h3, if_pos]
    rcases h3 with h | h | h
    · exact .inl h
    · exact .inr (.inr (.inl h))
    · exact .inr (.inr (.inr (by simp [accountFits, h])))
  · rw [if_neg h3, if_neg]
    rintro (h | h | h | h)
    · exact h3 (.inl h)
    · exact h1 (.inr (.inl (hacc.trans h)))
    · exact h3 (.inr (.inl h))
    · simp only [accountFits, Bool.and_eq_false_iff] at h
      exact h.elim (fun h => h1 (.inr (.inr h))) fun h => h3 (.inr (.inr h))

theorem deliver_createAccount (hi : AppInv m) (n : Nat) {users : Users} (acc : Account)
    (ha : (asys lib).authorized m .deliver (tname (.createAccount none : Tr)) users = .ret (.ok ())) :
    adeliver lib (n + 2) true users (.createAccount (some acc)) m =
      doCreateAccount acc.address acc.pubKey m := by
  refine (deliver_skip (router := appRouter lib) (t := .createAccount (some acc)) (h := ⟨b!"authn", createAccountExec⟩)
    rfl rfl rfl ha).trans ?_
  exact run_createAccount hi n users acc

theorem deliver_createAccount' (hi : AppInv m) (n : Nat) {users : Users} (acc : Account)
    (hne : acc.address ≠ [])
    (ha : (asys lib).authorized m .deliver (tname (.createAccount none : Tr)) users = .ret (.ok ())) :
    adeliver lib (n + 2) false users (.createAccount (some acc)) m =
      doCreateAccount acc.address acc.pubKey m := by
  refine (deliver_exec1 (router := appRouter lib) (t := .createAccount (some acc)) (h := ⟨b!"authn", createAccountExec⟩)
    (a := ⟨b!"authn", createAccountAdmission⟩) rfl ?_ rfl rfl rfl ha).trans ?_
  · simp only [createAccountAdmission, hne, if_false, Prog.run]
  · exact run_createAccount hi n users acc

end Verif
