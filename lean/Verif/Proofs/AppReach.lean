import Verif.Proofs.AppCalls
import Verif.Proofs.Genesis
import Verif.Proofs.Fuel
import Verif.Spec.Chain
import Verif.Props.Runtime
import Verif.Props.Small
/-! # Reachable states of the application -/

set_option linter.unusedSectionVars false
set_option linter.unusedSimpArgs false

namespace Verif
open Spec

variable {lib : Libs} {m m' : World}

/-! ## The state after genesis -/

theorem fill_append (m : World) (l₁ l₂ : List (Bytes × Bytes × Obj)) :
    fill m (l₁ ++ l₂) = fill (fill m l₁) l₂ := by
  simp [fill, List.foldl_append]

/-- Only writes of the type matter, and of these the last one under the key. -/
theorem fill_eq (t k : Bytes) : ∀ (l : List (Bytes × Bytes × Obj)) (m : World),
    fill m l t k = match (l.filter fun e => e.1 = t).reverse.find? (fun e => e.2.1 = k) with
      | some e => some e.2.2
      | none => m t k
  | [], m => rfl
  | e :: l, m => by
    rw [show fill m (e :: l) = fill (m.put e.1 e.2.1 (some e.2.2)) l from rfl, fill_eq t k l]
    by_cases h1 : e.1 = t
    · simp only [List.filter_cons, h1, decide_true, if_true, List.reverse_cons, List.find?_append]
      cases (l.filter fun e => e.1 = t).reverse.find? (fun e => e.2.1 = k) with
      | some x => rfl
      | none =>
        simp only [Option.none_or, List.find?_cons, List.find?_nil, Contents.put]
        by_cases h2 : e.2.1 = k
        · simp [h1, h2]
        · simp [h2, Ne.symm h2]
    · simp only [List.filter_cons, h1, decide_false, Contents.put]
      simp [Ne.symm h1]

theorem fill_some {t k : Bytes} {l : List (Bytes × Bytes × Obj)} {o : Obj} {L : List (Bytes × Bytes × Obj)}
    (hL : (l.filter fun e => e.1 = t) = L) (h : fill Contents.empty l t k = some o) :
    ∃ e ∈ L, e.2.1 = k ∧ o = e.2.2 := by
  rw [fill_eq, hL] at h
  generalize hf : L.reverse.find? (fun e => e.2.1 = k) = x at h
  cases x with
  | none => simp [Contents.empty] at h
  | some e =>
    have h1 := List.mem_of_find?_eq_some hf
    have h2 := List.find?_some hf
    simp only [List.mem_reverse] at h1
    simp only [decide_eq_true_eq] at h2
    exact ⟨e, h1, h2, by simpa using h.symm⟩

def roleWrites : List (Bytes × Bytes × Obj) :=
  moduleRoles.map (fun e => (tyRole, e.2.id, .role e.2)) ++ [(tyRole, externalRoleID, .role externalRole)]

def bindingWrites : List (Bytes × Bytes × Obj) :=
  moduleRoles.map (fun e => (tyRoleBinding, e.1, .roleBinding e.1 e.2.id)) ++
    [(tyRoleBinding, genesisAddress, .roleBinding genesisAddress externalRoleID)]

theorem writes_role : ((genesisBase lib).filter fun e => e.1 = tyRole) = roleWrites := rfl
theorem writes_binding :
    ((genesisBase lib).filter fun e => e.1 = tyRoleBinding) = bindingWrites := rfl
theorem writes_account : ((genesisBase lib).filter fun e => e.1 = tyAccount) =
    [(tyAccount, genesisAddress, .account genesisAccount)] := rfl
theorem writes_balance : ((genesisBase lib).filter fun e => e.1 = tyBalance) =
    [(tyBalance, genesisAddress, .balance genesisAddress genesisCoins)] := rfl

/-- The state of genesis before the chain identifier is stored. -/
def baseWorld (lib : Libs) : World := fill Contents.empty (genesisBase lib)

theorem genesisWorld_eq (lib : Libs) (c : Bytes) : genesisWorld lib c =
    ((baseWorld lib).put tyInitChainInfo singletonID (some (.initChainInfo c))).put
      tyStage singletonID (some (.stage .initChain)) := by
  rw [genesisWorld, genesisWrites, fill_append]; rfl

theorem base_storable : ∀ e ∈ genesisBase lib, appStorable e.2.2 = true := by
  rw [← List.all_eq_true]; rfl

theorem genesis_roles (k : Bytes) : baseWorld lib tyRole k = roleTable k := by
  rw [baseWorld, fill_eq, writes_role]
  by_cases h : k ∈ (externalRole :: moduleRoles.map (·.2)).map Role.id
  · simp only [List.map_cons, List.map_map, moduleRoles, List.map_nil, List.mem_cons, List.not_mem_nil,
      or_false, Function.comp] at h
    rcases h with rfl | rfl | rfl | rfl | rfl | rfl | rfl | rfl | rfl <;> rfl
  · have h1 : roleWrites.reverse.find? (fun e => e.2.1 = k) = none := by
      rw [List.find?_eq_none]
      intro e he
      simp only [decide_eq_true_eq]
      rintro rfl
      apply h
      simp only [roleWrites, List.mem_reverse, List.mem_append, List.mem_map, List.mem_singleton] at he
      rcases he with ⟨x, hx, rfl⟩ | rfl
      · exact List.mem_map.2 ⟨x.2, List.mem_cons_of_mem _ (List.mem_map.2 ⟨x, hx, rfl⟩), rfl⟩
      · exact List.mem_cons_self
    have h2 : (externalRole :: moduleRoles.map (·.2)).find? (·.id = k) = none := by
      rw [List.find?_eq_none]
      intro e he
      simp only [decide_eq_true_eq]
      rintro rfl
      exact h (List.mem_map.2 ⟨e, he, rfl⟩)
    rw [h1, roleTable, h2]
    rfl

theorem base_inv : AppInv (baseWorld lib) where
  roles := genesis_roles
  modules := by
    intro e he
    simp only [moduleRoles, List.mem_cons, List.not_mem_nil, or_false] at he
    rcases he with rfl | rfl | rfl | rfl | rfl | rfl | rfl | rfl <;> rfl
  others := by
    intro k o h hn
    obtain ⟨e, he, rfl, rfl⟩ := fill_some writes_binding h
    simp only [bindingWrites, List.mem_append, List.mem_map, List.mem_singleton] at he
    rcases he with ⟨x, hx, rfl⟩ | rfl
    · exact absurd rfl (hn x hx)
    · exact ⟨genesisAddress, rfl, rfl⟩
  accounts := by
    intro k o h
    obtain ⟨e, he, rfl, rfl⟩ := fill_some writes_account h
    simp only [List.mem_singleton] at he
    subst he
    exact ⟨_, rfl, rfl, rfl⟩
  balances := by
    intro k o h
    obtain ⟨e, he, rfl, rfl⟩ := fill_some writes_balance h
    simp only [List.mem_singleton] at he
    subst he
    exact ⟨_, _, rfl, rfl⟩
  number := ⟨1, rfl⟩
  params := ⟨⟨1000000, 1000000⟩, rfl⟩
  height := ⟨0, rfl⟩
  stage := ⟨.initChain, rfl⟩
  chainId := ⟨[], rfl⟩
  updates := ⟨[], rfl⟩
  beginState := rfl
  endState := rfl
  mods := ⟨_, rfl⟩
  storable := by
    intro ty k o h
    obtain ⟨e, he, _, rfl⟩ := fill_some rfl h
    exact base_storable e (List.mem_filter.1 he).1

theorem genesis_inv {c : Bytes} (hc : validUtf8 c = true) : AppInv (genesisWorld lib c) := by
  rw [genesisWorld_eq]
  exact (base_inv.putChainId c hc).putStage .initChain

/-! ## Reading handlers -/

section
variable {S O T : Type} [StateObject O]

theorem ReadOnly.run_ne {α : Type} {sys : Sys S O} {me : Users}
    {dlv : Users → T → S → Res S (Except Err Unit)} {p : Prog O T α} (hp : ReadOnly p) :
    ∀ s : S, p.run sys dlv me s ≠ .diverge := by
  induction hp with
  | ret a => intro s h; cases h
  | crash => intro s h; cases h
  | get ty id k _ ih =>
    intro s h; simp only [Prog.run] at h; split at h
    · cases h
    · exact ih _ _ h
  | list ty opt k _ ih =>
    intro s h; simp only [Prog.run] at h; split at h
    · cases h
    · exact ih _ _ h

end

theorem readOnly_read {ty id : Bytes} {k : Except Err Obj → Code} (h : ∀ r, ReadOnly (k r)) :
    ReadOnly (Prog.get ty id k : Code) := .get _ _ _ h

theorem readOnly_forEach {α : Type} {body : α → (Except Err Unit → Code) → Code}
    (h : ∀ a k, (∀ r, ReadOnly (k r)) → ReadOnly (body a k)) : ∀ l, ReadOnly (forEach body l)
  | [] => .ret _
  | a :: as => h a _ fun r => by
    cases r with
    | error e => exact .ret _
    | ok _ => exact readOnly_forEach h as

theorem readOnly_getAccount {id : Bytes} {k : Except Err Account → Code} (h : ∀ r, ReadOnly (k r)) :
    ReadOnly (getAccount id k) := by
  refine readOnly_read fun r => ?_
  split <;> first | exact h _ | exact .crash

theorem readOnly_getRole {id : Bytes} {k : Except Err Role → Code} (h : ∀ r, ReadOnly (k r)) :
    ReadOnly (getRole id k) := by
  refine readOnly_read fun r => ?_
  split <;> first | exact h _ | exact .crash

theorem readOnly_getBalance {id : Bytes} {k : Except Err (List Coin) → Code} (h : ∀ r, ReadOnly (k r)) :
    ReadOnly (getBalance id k) := by
  refine readOnly_read fun r => ?_
  split <;> first | exact h _ | exact .crash

theorem readOnly_getAuthnParams {k : Except Err AuthnParams → Code} (h : ∀ r, ReadOnly (k r)) :
    ReadOnly (getAuthnParams k) := by
  refine readOnly_read fun r => ?_
  split <;> first | exact h _ | exact .crash

theorem readOnly_getModuleDescriptors {k : Except Err (List RawModule) → Code} (h : ∀ r, ReadOnly (k r)) :
    ReadOnly (getModuleDescriptors k) := by
  refine readOnly_read fun r => ?_
  split <;> first | exact h _ | exact .crash

theorem readOnly_getCurrentBlock {k : Except Err (BitVec 64) → Code} (h : ∀ r, ReadOnly (k r)) :
    ReadOnly (getCurrentBlock k) := by
  refine readOnly_read fun r => ?_
  split <;> first | exact h _ | exact .crash

theorem readOnly_getInitChainInfo {k : Except Err Bytes → Code} (h : ∀ r, ReadOnly (k r)) :
    ReadOnly (getInitChainInfo k) := by
  refine readOnly_read fun r => ?_
  split <;> first | exact h _ | exact .crash

theorem readOnly_withCoins {r : Out (Except Err (List Coin))} {k : Except Err (List Coin) → Code}
    (h : ∀ r, ReadOnly (k r)) : ReadOnly (withCoins r k) := by
  cases r
  · exact h _
  · exact .crash

theorem app_auth_readOnly : ∀ h ∈ (appRouter lib).authAdmission, ∀ tx, ReadOnly (h.code tx) := by
  intro h hh tx
  simp only [appRouter, List.mem_cons, List.not_mem_nil, or_false] at hh
  rcases hh with rfl | rfl | rfl | rfl | rfl | rfl | rfl
  all_goals dsimp only [mempoolFee, accountExists, timeoutBlock, validateMemo, sigCount, sigVerifier, feeChecker]
  · exact .ret _
  · refine readOnly_forEach (fun a k hk => readOnly_getAccount fun r => ?_) _
    cases r <;> exact hk _
  · refine readOnly_getCurrentBlock fun r => ?_
    cases r with
    | error e => exact .ret _
    | ok n => dsimp only; split <;> exact .ret _
  · refine readOnly_getAuthnParams fun r => ?_
    cases r with
    | error e => exact .ret _
    | ok n => dsimp only; split <;> exact .ret _
  · refine readOnly_getAuthnParams fun r => ?_
    cases r with
    | error e => exact .ret _
    | ok n => dsimp only; split <;> exact .ret _
  · refine readOnly_getInitChainInfo fun r => ?_
    cases r with
    | error e => exact .ret _
    | ok n =>
      refine readOnly_forEach (fun a k hk => readOnly_getAccount fun r => ?_) _
      cases r with
      | error e => exact hk _
      | ok acc =>
        dsimp only
        split
        · exact hk _
        · split
          · exact hk _
          · split
            · exact hk _
            · split <;> exact hk _
  · refine readOnly_getBalance fun r => ?_
    cases r with
    | error e => exact .ret _
    | ok n =>
      refine readOnly_withCoins fun r => ?_
      cases r <;> exact .ret _

theorem app_admission_readOnly :
    ∀ h ∈ (appRouter lib).admission, ∀ users t, ReadOnly (h.2.code users t) := by
  intro h hh us t
  simp only [appRouter, List.mem_cons, List.not_mem_nil, or_false] at hh
  rcases hh with rfl | rfl | rfl
  · dsimp only [createAccountAdmission]
    split
    · exact .ret _
    · split <;> exact .ret _
    · exact .crash
  · dsimp only [createRoleAdmission]
    split
    · exact .ret _
    · split
      · exact .ret _
      · refine readOnly_getRole fun r => ?_
        split
        · exact .ret _
        · refine readOnly_getModuleDescriptors fun r => ?_
          cases r <;> exact .ret _
        · exact .ret _
    · exact .crash
  · dsimp only [bindRoleAdmission]
    split
    · refine readOnly_getRole fun r => ?_
      cases r <;> exact .ret _
    · exact .crash

theorem runAll_ne {S H : Type} {run : H → S → Res S (Except Err Unit)} {wrap : Err → Err} :
    ∀ {hs : List H} {s : S}, (∀ h ∈ hs, ∀ s, run h s ≠ .diverge) → runAll run wrap hs s ≠ .diverge
  | [], _, _ => by simp [runAll]
  | h :: hs, s, hh => by
    simp only [runAll]
    split
    · simp
    · rename_i hx; exact absurd hx (hh h (by simp) s)
    · simp
    · exact runAll_ne fun h' hm => hh h' (by simp [hm])

/-! ## Validation of transitions -/

theorem run_getRole (hi : RolesInv m) {dlv : Users → Tr → World → Res World (Except Err Unit)} {me : Users}
    (id : Bytes) (k : Except Err Role → Code) :
    (getRole id k).run (asys lib) dlv me m = if id = [] then .panic else match roleTable id with
      | some (.role r) => (k (.ok r)).run (asys lib) dlv me m
      | _ => (k (.error .notFound)).run (asys lib) dlv me m := by
  obtain ⟨s, hs⟩ := reg_role
  simp only [getRole, Prog.run, asys_get hs]
  by_cases ha : id = []
  · simp only [ha, if_true]
  · simp only [ha, if_false, hi.roles, roleTable]
    cases (externalRole :: moduleRoles.map (·.2)).find? (·.id = id) <;> rfl

theorem role_isSome (hi : RolesInv m) (id : Bytes) : (m tyRole id).isSome =
    ((externalRole :: moduleRoles.map (·.2)).find? (·.id = id)).isSome := by
  rw [hi.roles, roleTable, Option.isSome_map]

theorem run_getModules (hi : AppInv m) {dlv : Users → Tr → World → Res World (Except Err Unit)} {me : Users}
    (k : Except Err (List RawModule) → Code) :
    (getModuleDescriptors k).run (asys lib) dlv me m = (k (.ok (modules m))).run (asys lib) dlv me m := by
  obtain ⟨s, hs⟩ : ∃ s, appReg.get tyModuleDescriptors = some s := ⟨_, rfl⟩
  obtain ⟨n, hn⟩ := hi.mods
  simp only [getModuleDescriptors, Prog.run, asys_get hs, singleton_ne, if_false, hn, modules]

theorem verifyRole_ok (mods : List RawModule) (r : Role) :
    verifyRole mods r = if roleKnown mods r then .ok () else .error .other := by
  simp only [verifyRole, roleKnown, knownResources, List.all_append]
  generalize (mods.flatMap fun m => m.objects.map APIDef.name) = objs
  generalize (mods.flatMap fun m => m.transitions.map fun t => t.api.name) = trs
  by_cases h1 : r.gets.all objs.contains = true
  · by_cases h2 : r.lists.all objs.contains = true
    · by_cases h3 : r.creates.all objs.contains = true
      · by_cases h4 : r.updates.all objs.contains = true
        · by_cases h5 : r.deletes.all objs.contains = true
          · by_cases h6 : r.delivers.all trs.contains = true <;> simp only [h1, h2, h3, h4, h5, h6] <;> rfl
          · rw [Bool.not_eq_true] at h5; simp only [h1, h2, h3, h4, h5]; rfl
        · rw [Bool.not_eq_true] at h4; simp only [h1, h2, h3, h4]; rfl
      · rw [Bool.not_eq_true] at h3; simp only [h1, h2, h3]; rfl
    · rw [Bool.not_eq_true] at h2; simp only [h1, h2]; rfl
  · rw [Bool.not_eq_true] at h1; simp only [h1]; rfl

/-- The result of one admission handler, as the chain reports it. -/
theorem admission_one {n : Nat} {users : Users} {t : Tr} {h : Handler Obj Tr} {o : Out (Except Err Unit)}
    (hg : (appRouter lib).getAdmission (tname t) = .ok [h])
    (hr : (h.code users t).run (asys lib) ((mapApp lib).deliver n true false) [h.owner] m = readOutcome o m) :
    admissionChain (appRouter lib) (fun h s => (mapApp lib).runAs n true h.owner (h.code users t) s) t m =
      authResult o m := by
  have : (mapApp lib).runAs n true h.owner (h.code users t) m = readOutcome o m := by
    rw [← hr, Config.runAs, Users.ofNames_single]
  simp only [admissionChain, hg, runAll, this]
  rcases o with ⟨e | ⟨⟩⟩ | _ <;> rfl

theorem app_admission (hi : AppInv m) (n : Nat) (users : Users) (t : Tr) :
    admissionChain (appRouter lib) (fun h s => (mapApp lib).runAs n true h.owner (h.code users t) s) t m =
      readOutcome (checkTransition m t) m := by
  cases t with
  | createAccount a =>
    refine (admission_one (t := .createAccount a) (h := ⟨b!"authn", createAccountAdmission⟩)
      (o := match a with
        | none => .ret (.error .other)
        | some a => if a.address = [] then .ret (.error .other) else .ret (.ok ())) rfl ?_).trans ?_
    · cases a with
      | none => rfl
      | some a =>
        simp only [createAccountAdmission]
        by_cases h : a.address = [] <;> simp only [h, if_true, if_false] <;> rfl
    · cases a with
      | none => rfl
      | some a =>
        simp only [checkTransition]
        by_cases h : a.address = [] <;> simp only [h, if_true, if_false] <;> rfl
  | createRole r =>
    cases r with
    | none => rfl
    | some r =>
      refine (admission_one (t := .createRole (some r)) (h := ⟨b!"rbac", createRoleAdmission⟩)
        (o := .ret (if r.id ≠ [] ∧ m tyRole r.id = none ∧ roleKnown (modules m) r then .ok () else .error .other))
          rfl ?_).trans ?_
      · simp only [createRoleAdmission]
        by_cases h : r.id = []
        · simp only [h, if_true]; rfl
        · simp only [h, if_false]
          refine (run_getRole (lib := lib) hi.toRolesInv r.id _).trans ?_
          rw [if_neg h]
          rcases hx : (externalRole :: moduleRoles.map (·.2)).find? (·.id = r.id) with _ | x
          · have hr : roleTable r.id = none := by rw [roleTable, hx]; rfl
            have hm : m tyRole r.id = none := by rw [hi.roles]; exact hr
            simp only [hr]
            refine (run_getModules (lib := lib) hi _).trans ?_
            simp only [verifyRole_ok, Prog.run, readOutcome]
            by_cases hk : roleKnown (modules m) r <;> simp [h, hk, hm]
          · have hr : roleTable r.id = some (.role x) := by rw [roleTable, hx]; rfl
            have hm : ¬ m tyRole r.id = none := by rw [hi.roles]; rw [hr]; nofun
            simp only [hr, hm, false_and, and_false, if_false]
            rfl
      · simp only [checkTransition]
        by_cases hc : r.id ≠ [] ∧ m tyRole r.id = none ∧ roleKnown (modules m) r = true
        · rw [if_pos hc, if_pos hc]; rfl
        · rw [if_neg hc, if_neg hc]; rfl
  | bindRole id subject =>
    refine (admission_one (t := .bindRole id subject) (h := ⟨b!"rbac", bindRoleAdmission⟩)
      (o := if id = [] then .panic else .ret (if (m tyRole id).isSome then .ok () else .error .notFound)) rfl ?_).trans ?_
    · simp only [bindRoleAdmission]
      refine (run_getRole (lib := lib) hi.toRolesInv id _).trans ?_
      by_cases h : id = []
      · simp only [h, if_true]; rfl
      · rw [if_neg h, if_neg h, role_isSome hi.toRolesInv]
        simp only [roleTable]
        cases (externalRole :: moduleRoles.map (·.2)).find? (·.id = id) <;> rfl
    · simp only [checkTransition]
      by_cases h : id = []
      · rw [if_pos h, if_pos h]; rfl
      · rw [if_neg h, if_neg h]
        cases (m tyRole id).isSome <;> rfl
  | other api =>
    simp only [checkTransition]
    have ht : tname (Tr.other api) = api.name := rfl
    by_cases h : api.name ∈ validatedNames
    · rw [if_pos h]
      simp only [admissionChain]
      simp only [validatedNames, List.map_cons, List.map_nil, List.mem_cons, List.not_mem_nil, or_false] at h
      rcases h with h | h | h <;> rw [ht, h] <;> rfl
    · rw [if_neg h]
      simp only [admissionChain, Router.getAdmission, ht]
      have hk : (appRouter lib).known api.name = decide (api.name ∈ handledNames) := by
        simp only [Router.known, List.isSome_find?]
        rw [show handledNames = (appRouter lib).exec.map (·.1) from rfl, Bool.eq_iff_iff]
        simp [List.any_eq_true]
      have ha : (appRouter lib).admission.at api.name = [] := by
        rw [show validatedNames = (appRouter lib).admission.map (·.1) from rfl] at h
        simp only [HandlerMap.at, List.map_eq_nil_iff, List.filter_eq_nil_iff, decide_eq_true_eq]
        exact fun e he hn => h (hn ▸ List.mem_map_of_mem he)
      rw [hk, ha]
      by_cases h2 : api.name ∈ handledNames
      · simp only [h2, decide_true, if_true, runAll]; rfl
      · simp only [h2, decide_false, if_false]; rfl
  | createModules _ => rfl
  | sendCoins _ _ _ => rfl
  | setBalance _ _ => rfl
  | setInitChain _ => rfl
  | setCheckTx _ => rfl
  | setBeginBlock _ => rfl
  | setDeliverTx _ => rfl
  | setEndBlock _ => rfl
  | setValidatorUpdates _ => rfl

theorem runAll_admission (hi : AppInv m) (n : Nat) (users : Users) : ∀ ts : List Tr,
    runAll (fun t s => admissionChain (appRouter lib) (fun h s =>
      (mapApp lib).runAs n true h.owner (h.code users t) s) t s) id ts m =
      readOutcome (checkTransitions m ts) m
  | [] => rfl
  | t :: ts => by
    simp only [runAll, app_admission hi, checkTransitions]
    rcases checkTransition m t with ⟨e | ⟨⟩⟩ | _
    · rfl
    · exact runAll_admission hi n users ts
    · rfl

/-- What the application answers to the check of a transaction. -/
def checkOutcome (lib : Libs) (m : World) (tx : AppTx) : Outcome := match authOutcome lib m tx with
  | .panic => .panic
  | .ret (.error _) => .done (.error .badRequest) m
  | .ret (.ok ()) => readOutcome (checkTransitions m tx.transitions) m

theorem app_checkTx (hi : AppInv m) (n : Nat) (bytes : Bytes) {i : Bool} :
    (mapApp lib).checkTx n bytes ⟨m, true, i⟩ = match lib.decode bytes with
      | .panic => .panic
      | .ret (.error e) => .done (errCode e) ⟨m, true, i⟩
      | .ret (.ok tx) => respond ⟨m, true, i⟩ (checkOutcome lib m tx) := by
  have hd : (mapApp lib).decode = some lib.decode := rfl
  simp only [Config.checkTx, hd]
  cases hdec : lib.decode bytes with
  | panic => rfl
  | ret r =>
    cases r with
    | error e => rfl
    | ok tx =>
      have h1 : txChain ((mapApp lib).sys true) (mapApp lib).router n
          (mapApp lib).router.authAdmission tx m = authResult (authOutcome lib m tx) m := auth_chain hi _ tx
      simp only [h1, checkOutcome]
      rcases ho : authOutcome lib m tx with ⟨e | ⟨⟩⟩ | _
      · simp only [authResult, respond, errCode_eq]
      · have h3 : runAll (fun t s => admissionChain (mapApp lib).router (fun h s =>
            (mapApp lib).runAs n true h.owner (h.code tx.users t) s) t s) id tx.transitions m =
            readOutcome (checkTransitions m tx.transitions) m := runAll_admission hi n _ _
        simp only [authResult, h3]
        rcases checkTransitions m tx.transitions with ⟨e | ⟨⟩⟩ | _
        · simp only [readOutcome, respond, errCode_eq]
        · rfl
        · rfl
      · rfl

/-! ## One request -/

theorem initChain_import (n : Nat) (c st : Bytes) (hst : st ≠ []) (a : App World) :
    (mapApp lib).initChain n c st a = .panic := by
  have h0 : ¬ st.length = 0 := by simpa using hst
  simp only [Config.initChain, if_neg h0, Config.importState]
  cases (mapApp lib).parseGenesis st with
  | error e => rfl
  | ok d => rfl

theorem initChain_again (n : Nat) (c : Bytes) (m : World) (e : Bool) :
    (mapApp lib).initChain n c [] ⟨m, e, true⟩ = .panic := rfl

/-- Before the chain is started. -/
def idle : App World := ⟨Contents.empty, false, false⟩

theorem app_initChain (c : Bytes) : (mapApp lib).initChain 10 c [] idle =
    if validUtf8 c = false then .panic else .done () ⟨genesisWorld lib c, true, true⟩ := by
  have h1 := app_initGenesis lib
  have h2 : (mapApp lib).deliver 10 false false (Users.ofNames [userABCI]) ((mapApp lib).setInitChain c)
      (fill Contents.empty (genesisBase lib)) = _ := deliver_setInitChain (lib := lib) base_inv 9 c
  simp only [Config.initChain, List.length_nil, if_true, idle, h1, h2, genesisWorld_eq]
  by_cases hc : validUtf8 c = false
  · simp only [hc, if_true]
  · simp only [hc, if_false]; rfl

theorem initChain_first {n : Nat} (hn : 10 ≤ n) (c : Bytes) :
    (mapApp lib).initChain n c [] idle =
      if validUtf8 c = false then .panic else .done () ⟨genesisWorld lib c, true, true⟩ := by
  rcases Config.initChain_le (c := mapApp lib) hn c [] idle with h | h
  · rw [app_initChain] at h; split at h <;> cases h
  · rw [← h]; exact app_initChain c

theorem idle_beginBlock (n : Nat) (b : BlockReq) : (mapApp lib).beginBlock (n + 1) b idle = .panic := by
  simp only [Config.beginBlock]
  by_cases hb : validUtf8 b.chainId = true
  · have h0 : (mapApp lib).setBeginBlock b =
        .ret (.setBeginBlock (some ⟨some b.height, b.chainId, b.rest⟩)) := by
      show (match b.convert with | .panic => Out.panic | .ret b => Out.ret (Tr.setBeginBlock (some b))) = _
      rw [BlockReq.convert, if_pos hb]
    rw [h0]
    rfl
  · have h0 : (mapApp lib).setBeginBlock b = .panic := by
      show (match b.convert with | .panic => Out.panic | .ret b => Out.ret (Tr.setBeginBlock (some b))) = _
      rw [BlockReq.convert, if_neg hb]
    rw [h0]

theorem idle_endBlock (n : Nat) (h : Int) : (mapApp lib).endBlock (n + 1) h idle = .panic := rfl

theorem Users.ofNames_ne {l : List Bytes} (h : l ≠ []) : Users.ofNames l ≠ [] := by
  obtain ⟨x, l', rfl⟩ := List.exists_cons_of_ne_nil h
  intro he
  have := (Props.C30_ofNames (x :: l')).2 x
  rw [he] at this
  simp at this

theorem Spec.Decoded.users_ne {tx : AppTx} (h : Decoded tx) : tx.users ≠ [] := by
  intro he
  have := h.users
  rw [he] at this
  exact Users.ofNames_ne (by simpa using h.signed) this.nil_eq.symm

section
variable {S H : Type} {run : H → S → Res S (Except Err Unit)} {wrap : Err → Err} {h : H} {hs : List H} {s s' : S}

theorem runAll_ok (hr : run h s = .done (.ok ()) s') : runAll run wrap (h :: hs) s = runAll run wrap hs s' := by
  simp only [runAll, hr]

theorem runAll_panic (hr : run h s = .panic) : runAll run wrap (h :: hs) s = .panic := by
  simp only [runAll, hr]

theorem runAll_error {e : Err} (hr : run h s = .done (.error e) s') :
    runAll run wrap (h :: hs) s = .done (.error (wrap e)) s' := by
  simp only [runAll, hr]

end

theorem Spec.Decoded.user_ne {tx : AppTx} (h : Decoded tx) {u : Bytes} (hu : u ∈ tx.users) : u ≠ [] := by
  rw [h.users.mem_iff, (Props.C30_ofNames _).2] at hu
  obtain ⟨s, hs, rfl⟩ := List.mem_map.1 hu
  exact h.addresses s hs

/-- No transaction is authentic before the chain is started: there are no accounts. -/
theorem idle_chain (n : Nat) {tx : AppTx} (hd : Decoded tx) :
    txChain ((mapApp lib).sys false) (mapApp lib).router n (mapApp lib).router.authAdmission tx
      Contents.empty = .done (.error .badRequest) Contents.empty := by
  obtain ⟨u, us, hu⟩ := List.exists_cons_of_ne_nil hd.users_ne
  have h : ¬ u = [] := hd.user_ne (hu ▸ List.mem_cons_self)
  have h1 : (accountExists tx).run ((mapApp lib).sys false) (deliver ((mapApp lib).sys false)
      (mapApp lib).router n false) [b!"authn"] Contents.empty = .done (.error .notFound) Contents.empty := by
    simp only [accountExists, hu, forEach, getAccount, Prog.run, Sys.get, Config.sys, mapApp, appConfig,
      mapOps, mapGet]
    rw [show appReg.get tyAccount = some ⟨Obj.api (.account ⟨[], none, 0, 0⟩),
      some (b!"address", .string), [⟨b!"accountNumber", .uint64⟩]⟩ from rfl]
    simp only [h, if_false]; rfl
  refine (runAll_ok (h := (⟨b!"authn", mempoolFee⟩ : TxHandler Obj Tr TxData)) rfl).trans ?_
  exact runAll_error (h := (⟨b!"authn", accountExists⟩ : TxHandler Obj Tr TxData)) h1

/-- The answer to a transaction before the chain is started. -/
def idleOutcome (lib : Libs) (bytes : Bytes) : Res (App World) Nat := match lib.decode bytes with
  | .panic => .panic
  | .ret (.error e) => .done (codeOf e) idle
  | .ret (.ok _) => .done 400 idle

theorem idle_deliverTx (hw : DecodesWell lib) (n : Nat) (bytes : Bytes) :
    (mapApp lib).deliverTx n bytes idle = idleOutcome lib bytes := by
  have hd : (mapApp lib).decode = some lib.decode := rfl
  simp only [Config.deliverTx, hd, idleOutcome]
  cases hdec : lib.decode bytes with
  | panic => rfl
  | ret r =>
    cases r with
    | error e => simp only [errCode_eq]
    | ok tx => simp only [idle, idle_chain n (hw hdec)]; rfl

theorem idle_checkTx (hw : DecodesWell lib) (n : Nat) (bytes : Bytes) :
    (mapApp lib).checkTx n bytes idle = idleOutcome lib bytes := by
  have hd : (mapApp lib).decode = some lib.decode := rfl
  simp only [Config.checkTx, hd, idleOutcome]
  cases hdec : lib.decode bytes with
  | panic => rfl
  | ret r =>
    cases r with
    | error e => simp only [errCode_eq]
    | ok tx => simp only [idle, idle_chain n (hw hdec)]; rfl

theorem mapRes_done {α β : Type} {f : α → β} {x : Res (App World) α} {r : β} {a : App World}
    (h : Config.mapRes f x = .done r a) : ∃ y, x = .done y a ∧ r = f y := by
  cases x with
  | done y s => simp only [Config.mapRes, Res.done.injEq] at h; exact ⟨y, by rw [h.2], h.1.symm⟩
  | panic => cases h
  | diverge => cases h

theorem mapRes_of_done {α β : Type} {f : α → β} {x : Res (App World) α} {y : α} {a : App World}
    (h : x = .done y a) : Config.mapRes f x = .done (f y) a := by rw [h]; rfl

theorem step_query {a : App World} {path : Bytes} {n k : Nat} {o : Option Obj}
    (hq : handleQuery appReg lib.jsonFails (mapGet appReg a.store) path = .ret (k, o)) :
    (mapApp lib).step n a (.query path) = .done (.answer k o) a := by
  have hq' : (mapApp lib).query ((mapApp lib).ops.get a.store) path = .ret (k, o) := hq
  simp only [Config.step, hq']

/-- A request before the chain is started. -/
theorem step_idle (hw : DecodesWell lib) {n : Nat} (hn : 10 ≤ n) {call : Call BlockReq} {r : Resp Obj}
    {a : App World} : (mapApp lib).step n idle call = .done r a ↔
    (a = idle ∧ ServeIdle lib call r) ∨
      ∃ c, call = .initChain c [] ∧ validUtf8 c = true ∧ r = .none ∧ a = ⟨genesisWorld lib c, true, true⟩ := by
  obtain ⟨n, rfl⟩ : ∃ k, n = k + 1 := ⟨n - 1, by omega⟩
  constructor
  · intro h
    cases call with
    | info => cases h; exact .inl ⟨rfl, .info⟩
    | commit => cases h; exact .inl ⟨rfl, .commit⟩
    | query path =>
      simp only [Config.step] at h
      split at h
      · cases h
      · rename_i k o hq
        cases h; exact .inl ⟨rfl, .query path k o hq⟩
    | checkTx tx =>
      obtain ⟨y, hy, rfl⟩ := mapRes_done h
      rw [idle_checkTx hw, idleOutcome] at hy
      split at hy
      · cases hy
      · rename_i e he; cases hy; exact .inl ⟨rfl, .checkUndecodable tx e he⟩
      · rename_i t ht; cases hy; exact .inl ⟨rfl, .checkRejected tx t ht⟩
    | initChain c st =>
      obtain ⟨y, hy, rfl⟩ := mapRes_done h
      by_cases hst : st = []
      · subst hst
        rw [initChain_first hn] at hy
        split at hy
        · cases hy
        · rename_i hc
          cases hy
          exact .inr ⟨c, rfl, by simpa using hc, rfl, rfl⟩
      · rw [initChain_import _ _ _ hst] at hy; cases hy
    | beginBlock b =>
      simp only [Config.step, idle_beginBlock] at h; cases h
    | endBlock b =>
      simp only [Config.step, idle_endBlock] at h; cases h
    | deliverTx tx =>
      obtain ⟨y, hy, rfl⟩ := mapRes_done h
      rw [idle_deliverTx hw, idleOutcome] at hy
      split at hy
      · cases hy
      · rename_i e he; cases hy; exact .inl ⟨rfl, .undecodable tx e he⟩
      · rename_i t ht; cases hy; exact .inl ⟨rfl, .rejected tx t ht⟩
  · rintro (⟨rfl, h⟩ | ⟨c, rfl, hc, rfl, rfl⟩)
    · cases h with
      | info => rfl
      | commit => rfl
      | query path k o hq =>
        exact step_query hq
      | checkUndecodable tx e he =>
        exact mapRes_of_done (by rw [idle_checkTx hw, idleOutcome, he])
      | checkRejected tx t ht =>
        exact mapRes_of_done (by rw [idle_checkTx hw, idleOutcome, ht])
      | undecodable tx e he =>
        exact mapRes_of_done (by rw [idle_deliverTx hw, idleOutcome, he])
      | rejected tx t ht =>
        exact mapRes_of_done (by rw [idle_deliverTx hw, idleOutcome, ht])
    · exact mapRes_of_done (f := fun _ => Resp.none) (y := ())
        (by rw [initChain_first hn, if_neg (by simp [hc])])

theorem Spec.Decoded.panic_iff {tx : AppTx} (h : Decoded tx) :
    authOutcome lib m tx = .panic ↔ Signed lib m tx ∧ FeeCrashes lib m tx :=
  authOutcome_panic (fun _ hu => h.user_ne hu) h.addresses h.payer

theorem Spec.Decoded.error_iff {tx : AppTx} (h : Decoded tx) : (∃ e, authOutcome lib m tx = .ret (.error e)) ↔
    ¬ Authenticated lib m tx ∧ ¬ (Signed lib m tx ∧ FeeCrashes lib m tx) := by
  rw [← h.panic_iff, ← authOutcome_ok]
  rcases authOutcome lib m tx with ⟨e | ⟨⟩⟩ | _ <;> simp

theorem txOutcome_done {tx : AppTx} (hd : Decoded tx) {r : Except Err Unit} : txOutcome lib m tx = .done r m' ↔
    ((¬ Authenticated lib m tx ∧ ¬ (Signed lib m tx ∧ FeeCrashes lib m tx)) ∧ m' = m ∧ r = .error .badRequest) ∨
      (Authenticated lib m tx ∧ doTx lib.coins tx m = .done r m') := by
  rw [← hd.error_iff, ← authOutcome_ok]
  simp only [txOutcome]
  rcases authOutcome lib m tx with ⟨e | ⟨⟩⟩ | _
  · simp only [Res.done.injEq, Out.ret.injEq, Except.error.injEq, exists_eq', true_and, reduceCtorEq, false_and,
      or_false]
    constructor
    · rintro ⟨rfl, rfl⟩; exact ⟨rfl, rfl⟩
    · rintro ⟨rfl, rfl⟩; exact ⟨rfl, rfl⟩
  · simp
  · simp

theorem checkOutcome_done {tx : AppTx} (hd : Decoded tx) {r : Except Err Unit} :
    checkOutcome lib m tx = .done r m' ↔ m' = m ∧
    (((¬ Authenticated lib m tx ∧ ¬ (Signed lib m tx ∧ FeeCrashes lib m tx)) ∧ r = .error .badRequest) ∨
      (Authenticated lib m tx ∧ checkTransitions m tx.transitions = .ret r)) := by
  rw [← hd.error_iff, ← authOutcome_ok]
  simp only [checkOutcome]
  rcases authOutcome lib m tx with ⟨e | ⟨⟩⟩ | _
  · simp only [Res.done.injEq, Out.ret.injEq, Except.error.injEq, exists_eq', true_and, reduceCtorEq, false_and,
      or_false]
    constructor
    · rintro ⟨rfl, rfl⟩; exact ⟨rfl, rfl⟩
    · rintro ⟨rfl, rfl⟩; exact ⟨rfl, rfl⟩
  · rcases checkTransitions m tx.transitions with q | _
    · simp only [readOutcome, Res.done.injEq, Out.ret.injEq, Except.ok.injEq, reduceCtorEq, exists_false,
        false_and, true_and, false_or]
      constructor
      · rintro ⟨rfl, rfl⟩; exact ⟨rfl, rfl⟩
      · rintro ⟨rfl, rfl⟩; exact ⟨rfl, rfl⟩
    · simp [readOutcome]
  · simp

theorem respond_of_done {a : App World} {x : Outcome} {r : Except Err Unit} {s : World} (h : x = .done r s) :
    respond a x = .done (resultCode r) { a with store := s } := by
  subst h
  rcases r with e | ⟨⟩ <;> rfl

theorem respond_done {a a' : App World} {x : Outcome} {n : Nat} (h : respond a x = .done n a') :
    ∃ r s, x = .done r s ∧ n = resultCode r ∧ a' = { a with store := s } := by
  rcases x with ⟨e | ⟨⟩, s⟩ | _ | _
  · cases h; exact ⟨_, _, rfl, rfl, rfl⟩
  · cases h; exact ⟨_, _, rfl, rfl, rfl⟩
  · cases h
  · cases h

/-- A request after the chain is started. -/
theorem step_started (hw : DecodesWell lib) (hi : AppInv m) {n : Nat} (hn : 10 ≤ n) {call : Call BlockReq}
    {r : Resp Obj} {a : App World} : (mapApp lib).step n ⟨m, true, true⟩ call = .done r a ↔
    ∃ m', a = ⟨m', true, true⟩ ∧ Serve lib m call r m' := by
  obtain ⟨n, rfl⟩ : ∃ k, n = k + 3 := ⟨n - 3, by omega⟩
  constructor
  · intro h
    cases call with
    | info => cases h; exact ⟨m, rfl, .info m⟩
    | commit => cases h; exact ⟨m, rfl, .commit m⟩
    | query path =>
      simp only [Config.step] at h
      split at h
      · cases h
      · rename_i k o hq
        cases h
        exact ⟨m, rfl, .query m path k o hq⟩
    | checkTx tx =>
      obtain ⟨y, hy, rfl⟩ := mapRes_done h
      rw [app_checkTx hi] at hy
      cases hd : lib.decode tx with
      | panic => rw [hd] at hy; cases hy
      | ret q =>
        rw [hd] at hy
        cases q with
        | error e =>
          cases hy
          exact ⟨m, rfl, errCode_eq e ▸ .checkUndecodable m tx e hd⟩
        | ok t =>
          obtain ⟨r, s, h1, rfl, rfl⟩ := respond_done hy
          rcases (checkOutcome_done (hw hd)).1 h1 with ⟨rfl, ⟨⟨ha, hf⟩, rfl⟩ | ⟨ha, h2⟩⟩
          · exact ⟨s, rfl, .checkUnauthenticated _ tx t hd ha hf⟩
          · exact ⟨s, rfl, .checked s tx t r hd ha h2⟩
    | initChain c st =>
      obtain ⟨y, hy, rfl⟩ := mapRes_done h
      by_cases hst : st = []
      · subst hst; rw [initChain_again] at hy; cases hy
      · rw [initChain_import _ _ _ hst] at hy; cases hy
    | beginBlock b =>
      obtain ⟨y, hy, rfl⟩ := mapRes_done h
      rw [app_beginBlock hi] at hy
      split at hy
      · rename_i hb
        cases hy
        exact ⟨_, rfl, .beginBlock m b hb⟩
      · cases hy
    | endBlock b =>
      obtain ⟨y, hy, rfl⟩ := mapRes_done h
      rw [app_endBlock hi] at hy
      split at hy
      · rename_i us hu
        cases hy
        exact ⟨_, rfl, .endBlock m b _ hu⟩
      · cases hy
    | deliverTx tx =>
      obtain ⟨y, hy, rfl⟩ := mapRes_done h
      rw [app_deliverTx hi n tx (fun t ht => (hw ht).users_ne)] at hy
      cases hd : lib.decode tx with
      | panic => rw [hd] at hy; cases hy
      | ret q =>
        rw [hd] at hy
        cases q with
        | error e =>
          cases hy
          exact ⟨m, rfl, errCode_eq e ▸ .undecodable m tx e hd⟩
        | ok t =>
          obtain ⟨r, s, h1, rfl, rfl⟩ := respond_done hy
          refine ⟨s, rfl, ?_⟩
          rcases (txOutcome_done (hw hd)).1 h1 with ⟨⟨ha, hf⟩, rfl, rfl⟩ | ⟨ha, h2⟩
          · exact .unauthenticated _ tx t hd ha hf
          · exact .executed m s tx t r hd ha h2
  · rintro ⟨m', rfl, h⟩
    cases h with
    | info => rfl
    | commit => rfl
    | query path k o hq => exact step_query hq
    | checkUndecodable tx e hd =>
      exact mapRes_of_done (by rw [app_checkTx hi, hd]; simp only [errCode_eq])
    | checkUnauthenticated tx t hd ha hf =>
      refine mapRes_of_done ?_
      rw [app_checkTx hi, hd]
      exact respond_of_done ((checkOutcome_done (hw hd)).2 ⟨rfl, .inl ⟨⟨ha, hf⟩, rfl⟩⟩)
    | checked tx t r hd ha h2 =>
      refine mapRes_of_done ?_
      rw [app_checkTx hi, hd]
      exact respond_of_done ((checkOutcome_done (hw hd)).2 ⟨rfl, .inr ⟨ha, h2⟩⟩)
    | undecodable tx e hd =>
      refine mapRes_of_done ?_
      rw [app_deliverTx hi n tx (fun t ht => (hw ht).users_ne), hd]
      simp only [errCode_eq]
    | unauthenticated tx t hd ha hf =>
      refine mapRes_of_done ?_
      rw [app_deliverTx hi n tx (fun t ht => (hw ht).users_ne), hd]
      exact respond_of_done ((txOutcome_done (hw hd)).2 (.inl ⟨⟨ha, hf⟩, rfl, rfl⟩))
    | executed _ tx t r hd ha h2 =>
      refine mapRes_of_done ?_
      rw [app_deliverTx hi n tx (fun t ht => (hw ht).users_ne), hd]
      exact respond_of_done ((txOutcome_done (hw hd)).2 (.inr ⟨ha, h2⟩))
    | beginBlock b hb =>
      exact mapRes_of_done (f := fun _ => Resp.none) (y := ()) ((app_beginBlock hi _ _).trans (if_pos hb))
    | endBlock b us hu =>
      exact mapRes_of_done ((app_endBlock hi _ _).trans (by rw [hu]))

theorem serve_inv {call : Call BlockReq} {r : Resp Obj} (hi : AppInv m) (h : Serve lib m call r m') :
    AppInv m' := by
  cases h with
  | executed _ _ _ _ _ _ h => exact keeps_tx _ _ hi h
  | beginBlock b hb => exact inv_beginBlock hi hb
  | endBlock b => exact inv_endBlock hi b
  | _ => exact hi

theorem run_inv {calls : List (Call BlockReq)} {rs : List (Resp Obj)} (hi : AppInv m)
    (h : Spec.Run lib m calls rs m') : AppInv m' := by
  induction h with
  | nil => exact hi
  | cons h1 _ ih => exact ih (serve_inv hi h1)

/-! ## Every request is answered or crashes -/

theorem andThen_ne {r : Outcome} {f : World → Outcome} (hr : r ≠ .diverge) (hf : ∀ m, f m ≠ .diverge) :
    andThen r f ≠ .diverge := by
  rcases r with ⟨e | ⟨⟩, s⟩ | _ | _
  · simp [andThen]
  · exact hf s
  · simp [andThen]
  · exact absurd rfl hr

theorem doCreateAccount_ne {a : Bytes} {p : Option AnyMsg} : doCreateAccount a p m ≠ .diverge := by
  unfold doCreateAccount; dsimp only; split <;> simp

theorem doSetBalance_ne {a : Bytes} {c : List Coin} : doSetBalance a c m ≠ .diverge := by
  unfold doSetBalance; dsimp only
  split
  · simp
  · split
    · simp
    · simp
    · split <;> simp

theorem doCredit_ne {c : CoinLib} {t : Bytes} {a : List Coin} : doCredit c t a m ≠ .diverge := by
  unfold doCredit
  split
  · simp
  · split
    · refine andThen_ne doSetBalance_ne fun m => ?_
      unfold doEnsureAccount
      split
      · simp
      · exact doCreateAccount_ne
    · split
      · simp
      · simp
      · exact doSetBalance_ne

theorem doSend_ne {c : CoinLib} {p t : Bytes} {a : List Coin} : doSend c p t a m ≠ .diverge := by
  unfold doSend
  split
  · simp
  · split
    · simp
    · split
      · simp
      · simp
      · exact andThen_ne doSetBalance_ne fun m => doCredit_ne

theorem doTransitions_ne {c : CoinLib} : ∀ {ts : List Tr} {m : World}, doTransitions c ts m ≠ .diverge
  | [], m => by simp [doTransitions]
  | t :: ts, m => by
    refine andThen_ne ?_ fun m => doTransitions_ne
    unfold doTransition
    split
    · simp
    · exact doCreateAccount_ne
    · exact doSend_ne
    · split <;> simp
    · simp

theorem doTx_ne {c : CoinLib} {tx : AppTx} : doTx c tx m ≠ .diverge := by
  refine andThen_ne ?_ fun m => doTransitions_ne
  have := doSend_ne (c := c) (p := tx.raw.payer) (t := feeCollector) (a := tx.raw.fee) (m := bump m tx.users)
  revert this
  generalize doSend c tx.raw.payer feeCollector tx.raw.fee (bump m tx.users) = r
  intro h
  rcases r with ⟨e | ⟨⟩, s⟩ | _ | _
  · simp [asBadRequest]
  · simp [asBadRequest]
  · simp [asBadRequest]
  · exact absurd rfl h

theorem mapRes_ne {α β : Type} {f : α → β} {x : Res (App World) α} (h : x ≠ .diverge) :
    Config.mapRes f x ≠ .diverge := by
  cases x with
  | done => simp [Config.mapRes]
  | panic => simp [Config.mapRes]
  | diverge => exact absurd rfl h

theorem respond_ne {a : App World} {x : Outcome} (h : x ≠ .diverge) : respond a x ≠ .diverge := by
  rcases x with ⟨e | ⟨⟩, s⟩ | _ | _
  · simp [respond]
  · simp [respond]
  · simp [respond]
  · exact absurd rfl h

theorem query_ne {n : Nat} {a : App World} {path : Bytes} : (mapApp lib).step n a (.query path) ≠ .diverge := by
  simp only [Config.step]
  split <;> simp

theorem idle_ne (hw : DecodesWell lib) {n : Nat} (hn : 10 ≤ n) (call : Call BlockReq) :
    (mapApp lib).step n idle call ≠ .diverge := by
  obtain ⟨n, rfl⟩ : ∃ k, n = k + 1 := ⟨n - 1, by omega⟩
  have hidle : ∀ bytes, idleOutcome lib bytes ≠ .diverge := fun bytes => by
    unfold idleOutcome; split <;> simp
  cases call with
  | info => simp [Config.step]
  | commit => simp [Config.step]
  | query path => exact query_ne
  | checkTx tx => exact mapRes_ne (by rw [idle_checkTx hw]; exact hidle _)
  | deliverTx tx => exact mapRes_ne (by rw [idle_deliverTx hw]; exact hidle _)
  | initChain c st =>
    refine mapRes_ne ?_
    by_cases hst : st = []
    · subst hst
      rw [initChain_first hn]
      split <;> simp
    · rw [initChain_import _ _ _ hst]; simp
  | beginBlock b => simp only [Config.step, idle_beginBlock]; exact mapRes_ne (by simp)
  | endBlock b => simp only [Config.step, idle_endBlock]; exact mapRes_ne (by simp)

theorem started_ne (hw : DecodesWell lib) (hi : AppInv m) {n : Nat} (hn : 10 ≤ n) (call : Call BlockReq) :
    (mapApp lib).step n ⟨m, true, true⟩ call ≠ .diverge := by
  obtain ⟨n, rfl⟩ : ∃ k, n = k + 3 := ⟨n - 3, by omega⟩
  cases call with
  | info => simp [Config.step]
  | commit => simp [Config.step]
  | query path => exact query_ne
  | checkTx tx =>
    refine mapRes_ne ?_
    rw [app_checkTx hi]
    split
    · simp
    · simp
    · refine respond_ne ?_
      unfold checkOutcome
      split
      · simp
      · simp
      · generalize checkTransitions m _ = q
        rcases q with q | _ <;> simp [readOutcome]
  | deliverTx tx =>
    refine mapRes_ne ?_
    rw [app_deliverTx hi n tx (fun t ht => (hw ht).users_ne)]
    split
    · simp
    · simp
    · refine respond_ne ?_
      unfold txOutcome
      split
      · simp
      · simp
      · exact doTx_ne
  | initChain c st =>
    refine mapRes_ne ?_
    by_cases hst : st = []
    · subst hst; rw [initChain_again]; simp
    · rw [initChain_import _ _ _ hst]; simp
  | beginBlock b => refine mapRes_ne ?_; rw [app_beginBlock hi]; split <;> simp
  | endBlock b => refine mapRes_ne ?_; rw [app_endBlock hi]; split <;> simp

theorem steps_started_ne (hw : DecodesWell lib) {n : Nat} (hn : 10 ≤ n) : ∀ (calls : List (Call BlockReq))
    {m : World}, AppInv m → (mapApp lib).steps n ⟨m, true, true⟩ calls ≠ .diverge
  | [], m, hi => by simp [Config.steps]
  | call :: calls, m, hi => by
    simp only [Config.steps]
    split
    · simp
    · rename_i h; exact absurd h (started_ne hw hi hn call)
    · rename_i r a h
      obtain ⟨m', rfl, hs⟩ := (step_started hw hi hn).1 h
      split
      · simp
      · rename_i h2; exact absurd h2 (steps_started_ne hw hn calls (serve_inv hi hs))
      · simp

theorem steps_idle_ne (hw : DecodesWell lib) {n : Nat} (hn : 10 ≤ n) : ∀ (calls : List (Call BlockReq)),
    (mapApp lib).steps n idle calls ≠ .diverge
  | [] => by simp [Config.steps]
  | call :: calls => by
    simp only [Config.steps]
    split
    · simp
    · rename_i h; exact absurd h (idle_ne hw hn call)
    · rename_i r a h
      have : (mapApp lib).steps n a calls ≠ .diverge := by
        rcases (step_idle hw hn).1 h with ⟨rfl, _⟩ | ⟨c, _, hc, _, rfl⟩
        · exact steps_idle_ne hw hn calls
        · exact steps_started_ne hw hn calls (genesis_inv hc)
      split
      · simp
      · rename_i h2; exact absurd h2 this
      · simp

/-! ## Histories -/

theorem steps_started (hw : DecodesWell lib) {n : Nat} (hn : 10 ≤ n) : ∀ {calls : List (Call BlockReq)}
    {m : World} {rs : List (Resp Obj)} {a : App World}, AppInv m →
    ((mapApp lib).steps n ⟨m, true, true⟩ calls = .done rs a ↔
      ∃ m', a = ⟨m', true, true⟩ ∧ Spec.Run lib m calls rs m')
  | [], m, rs, a, hi => by
    constructor
    · intro h; cases h; exact ⟨m, rfl, .nil m⟩
    · rintro ⟨m', rfl, h⟩; cases h; rfl
  | call :: calls, m, rs, a, hi => by
    constructor
    · intro h
      simp only [Config.steps] at h
      split at h
      · cases h
      · cases h
      · rename_i r a₁ h1
        obtain ⟨m₁, rfl, hs⟩ := (step_started hw hi hn).1 h1
        split at h
        · cases h
        · cases h
        · rename_i rs' a' h2
          cases h
          obtain ⟨m', rfl, hr⟩ := (steps_started hw hn (serve_inv hi hs)).1 h2
          exact ⟨m', rfl, .cons hs hr⟩
    · rintro ⟨m', rfl, h⟩
      cases h with
      | cons h1 h2 =>
        simp only [Config.steps, (step_started hw hi hn).2 ⟨_, rfl, h1⟩,
          (steps_started hw hn (serve_inv hi h1)).2 ⟨_, rfl, h2⟩]

theorem steps_idle (hw : DecodesWell lib) {n : Nat} (hn : 10 ≤ n) : ∀ {calls : List (Call BlockReq)}
    {rs : List (Resp Obj)} {a : App World}, (mapApp lib).steps n idle calls = .done rs a ↔
    (a = idle ∧ RunIdle lib calls rs) ∨
    ∃ pre rs₀ c post rs' m, calls = pre ++ .initChain c [] :: post ∧ rs = rs₀ ++ .none :: rs' ∧
      RunIdle lib pre rs₀ ∧ validUtf8 c = true ∧ a = ⟨m, true, true⟩ ∧
      Spec.Run lib (genesisWorld lib c) post rs' m
  | [], rs, a => by
    constructor
    · intro h; cases h; exact .inl ⟨rfl, .nil⟩
    · rintro (⟨rfl, h⟩ | ⟨pre, rs₀, c, post, rs', m, h, _⟩)
      · cases h; rfl
      · simp at h
  | call :: calls, rs, a => by
    constructor
    · intro h
      simp only [Config.steps] at h
      split at h
      · cases h
      · cases h
      · rename_i r a₁ h1
        split at h
        · cases h
        · cases h
        · rename_i rs' a' h2
          cases h
          rcases (step_idle hw hn).1 h1 with ⟨rfl, hs⟩ | ⟨c, rfl, hc, rfl, rfl⟩
          · rcases (steps_idle hw hn).1 h2 with ⟨rfl, hr⟩ | ⟨pre, rs₀, c, post, rs', m, rfl, rfl, hp, hu, rfl, hr⟩
            · exact .inl ⟨rfl, .cons hs hr⟩
            · exact .inr ⟨call :: pre, r :: rs₀, c, post, rs', m, rfl, rfl, .cons hs hp, hu, rfl, hr⟩
          · obtain ⟨m', rfl, hr⟩ := (steps_started hw hn (genesis_inv hc)).1 h2
            exact .inr ⟨[], [], c, calls, rs', m', rfl, rfl, .nil, hc, rfl, hr⟩
    · rintro (⟨rfl, h⟩ | ⟨pre, rs₀, c, post, rs', m, h, rfl, hp, hu, rfl, hr⟩)
      · cases h with
        | cons h1 h2 =>
          simp only [Config.steps, (step_idle hw hn).2 (.inl ⟨rfl, h1⟩), (steps_idle hw hn).2 (.inl ⟨rfl, h2⟩)]
      · cases hp with
        | nil =>
          simp only [List.nil_append, List.cons.injEq] at h
          obtain ⟨rfl, rfl⟩ := h
          simp only [Config.steps, (step_idle hw hn).2 (.inr ⟨c, rfl, hu, rfl, rfl⟩),
            (steps_started hw hn (genesis_inv hu)).2 ⟨_, rfl, hr⟩, List.nil_append]
        | cons h1 h2 =>
          simp only [List.cons_append, List.cons.injEq] at h
          obtain ⟨rfl, rfl⟩ := h
          simp only [Config.steps, (step_idle hw hn).2 (.inl ⟨rfl, h1⟩),
            (steps_idle hw hn).2 (.inr ⟨_, _, c, post, rs', m, rfl, rfl, h2, hu, rfl, hr⟩), List.cons_append]

end Verif
