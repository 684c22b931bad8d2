import Verif.Proofs.Deliver
import Verif.Props.Accounts
/-!
# Bindings, validator updates, start of the chain and queries: C33, C51 to C54

About every history the application on the object store has served.
-/

namespace Verif.Props
open Verif Spec

variable {lib : Libs} {m m' m₁ m₂ : World}

/-! ## C33 -/

/-- **C33** In every state reached, what is stored as a binding is a binding of the subject under
whose name it is stored, and refers to a role that is stored. -/
theorem C33_refers (hw : DecodesWell lib) {calls : List (Call BlockReq)} {rs : List (Resp Obj)}
    (h : Served lib calls rs m) {k : Bytes} {o : Obj} (hk : m tyRoleBinding k = some o) :
    ∃ subject ref role, o = .roleBinding subject ref ∧ encKey subject = k ∧
      m tyRole ref = some (.role role) ∧ role.id = ref := by
  rcases served_run hw h with ⟨rfl, _⟩ | ⟨pre, rs₀, c, post, rs', _, _, _, _, hc, hr⟩
  · cases hk
  · have hi := run_inv (genesis_inv hc) hr
    obtain ⟨subject, ref, role, h1, h2, h3⟩ := inv_binding hi hk
    refine ⟨subject, ref, role, h1, h2, h3, ?_⟩
    rw [hi.roles, roleTable] at h3
    cases hf : (externalRole :: moduleRoles.map (·.2)).find? (·.id = ref) with
    | none => rw [hf] at h3; cases h3
    | some x =>
      rw [hf] at h3
      cases h3
      simpa using List.find?_some hf

/-- **C33** Once a subject is bound its binding stays the same. -/
theorem C33_never_redirected (hw : DecodesWell lib) {calls more : List (Call BlockReq)} {rs rs' : List (Resp Obj)}
    (h : Served lib calls rs m) (h' : Served lib (calls ++ more) (rs ++ rs') m') {k : Bytes} {o : Obj}
    (hk : m tyRoleBinding k = some o) : m' tyRoleBinding k = some o := by
  by_cases hs : Starts calls
  · obtain ⟨hi, hr⟩ := served_between hw hs h h'
    exact run_binding hr hi hk
  · rcases served_run hw h with ⟨rfl, _⟩ | ⟨pre, rs₀, c, post, _, rfl, _⟩
    · cases hk
    · exact absurd ⟨c, [], by simp⟩ hs

/-- Something is bound: the account created by a payment. -/
example : ∃ m, Served payLib payCalls [.none, .none, .code 0] m ∧
    m tyRoleBinding b!"bob" = some (.roleBinding b!"bob" externalRoleID) := by
  obtain ⟨m, h, hb⟩ := leadsTo_served (calls := [.beginBlock ⟨7, b!"main", []⟩, .deliverTx b!"1"]) (rs := [.none, .code 0])
    (P := fun m => m tyRoleBinding b!"bob" = some (.roleBinding b!"bob" externalRoleID)) payLib_well
    (by decide +kernel)
  exact ⟨m, h, by simpa using hb⟩

/-! ## C51 -/

/-- **C51** Whatever happened before, a request to set the validator updates, on behalf of any users,
succeeds only if the last one of InitChain, BeginBlock and EndBlock was InitChain or EndBlock. -/
theorem C51_when (hw : DecodesWell lib) {hs : List Happening} {a : App (Store Obj)}
    (h : Happens lib unstarted hs a) {n : Nat} {skip : Bool} {users : Users} {l : List StoredUpdate} {s : Store Obj}
    (hd : (ormApp lib).deliver n a.enabled skip users (.setValidatorUpdates l) a.store = .done (.ok ()) s) :
    lastStage .unknown hs = .initChain ∨ lastStage .unknown hs = .endBlock := by
  obtain ⟨m, ht⟩ := happens_tracks hw h tracks_unstarted
  obtain ⟨_, _, hx⟩ := tracks_set ht hd
  exact hx rfl

/-- **C51** The recorded stage is that of the last one of these requests. -/
theorem C51_recorded (hw : DecodesWell lib) {hs : List Happening} {a : App (Store Obj)}
    (h : Happens lib unstarted hs a) : stage (view a.store) = lastStage .unknown hs := by
  obtain ⟨m, ht⟩ := happens_tracks hw h tracks_unstarted
  rw [ht.view.view]
  rcases ht.state with ⟨_, _, rfl, hx, _⟩ | ⟨_, _, _, hx, _⟩
  · rw [hx]; rfl
  · exact hx

/-- **C51** EndBlock returns the updates of the last successful request, or none if there was
none. -/
theorem C51_returned (hw : DecodesWell lib) {hs : List Happening} {a a' : App (Store Obj)}
    (h : Happens lib unstarted hs a) {n : Nat} {k : Int} {r : Resp Obj}
    (he : (ormApp lib).step n a (.endBlock k) = .done r a') :
    ∃ us, withKeys (lastSet [] hs) = some us ∧ r = .updates us := by
  obtain ⟨m, ht⟩ := happens_tracks hw h tracks_unstarted
  obtain ⟨_, _, hx⟩ := tracks_call hw ht he
  exact hx k rfl

/-- **C51** At these stages the request of the abci module does succeed. -/
theorem C51_possible (hw : DecodesWell lib) {hs : List Happening} {a : App (Store Obj)}
    (h : Happens lib unstarted hs a)
    (hst : lastStage .unknown hs = .initChain ∨ lastStage .unknown hs = .endBlock) (l : List StoredUpdate) (skip : Bool) :
    ∃ s, (ormApp lib).deliver 1 a.enabled skip [userABCI] (.setValidatorUpdates l) a.store = .done (.ok ()) s := by
  obtain ⟨m, ht⟩ := happens_tracks hw h tracks_unstarted
  rcases ht.state with ⟨_, _, _, hx, _⟩ | ⟨e1, e2, hi, hx, _⟩
  · rw [hx] at hst; simp at hst
  · have hm : (mapApp lib).deliver 1 true skip [userABCI] (.setValidatorUpdates l) m = .done (.ok ())
        (m.put tyValidatorUpdates singletonID (some (.validatorUpdates l))) := by
      refine (deliver_updates (lib := lib) hi 0 skip [userABCI] l).trans ?_
      rw [auth_abci hi (of_decide_eq_true rfl)]
      dsimp only
      rw [if_neg]
      rw [hx]
      rintro ⟨h1, h2⟩
      rcases hst with h | h
      · exact h1 h
      · exact h2 h
    rw [e1]
    rcases (Config.deliver_same (c := ormApp lib) (storeSim_orm appReg) (n := 1) (en := true) (skip := skip)
      (users := [userABCI]) (t := .setValidatorUpdates l) ht.view).cases with
      ⟨r', s₁, m₁, h1, h2, _⟩ | ⟨_, h2⟩ | ⟨_, h2⟩
    · rw [onStore_ormApp, hm] at h2
      cases h2
      exact ⟨s₁, h1⟩
    · rw [onStore_ormApp, hm] at h2; cases h2
    · rw [onStore_ormApp, hm] at h2; cases h2

theorem withKeys_none : ∀ (l : List StoredUpdate), withKeys l = none ↔ ∃ u ∈ l, u.pubKey.join = none
  | [] => by simp [withKeys]
  | u :: l => by
    have ih := withKeys_none l
    simp only [withKeys] at ih ⊢
    rw [List.mapM_cons]
    cases hu : u.pubKey.join with
    | none => simp [hu]
    | some k =>
      cases hl : List.mapM (fun u : StoredUpdate => u.pubKey.join.map fun k => (⟨k, u.power⟩ : ValUpdate)) l with
      | none => rw [hl] at ih; simpa [hu] using ih
      | some us => rw [hl] at ih; simpa [hu] using ih

/-- **C51** On a started chain EndBlock crashes the node exactly if one of the updates of the last
successful request has no public key, or one of a kind the conversion does not know. -/
theorem C51_end_block_crashes_iff (hw : DecodesWell lib) {hs : List Happening} {a : App (Store Obj)}
    (h : Happens lib unstarted hs a) (hst : lastStage .unknown hs ≠ .unknown) {n : Nat} (hn : 1 ≤ n) (k : Int) :
    (ormApp lib).step n a (.endBlock k) = .panic ↔ ∃ u ∈ lastSet [] hs, u.pubKey.join = none := by
  obtain ⟨m, ht⟩ := happens_tracks hw h tracks_unstarted
  obtain ⟨n, rfl⟩ : ∃ j, n = j + 1 := ⟨n - 1, by omega⟩
  rcases ht.state with ⟨_, _, _, hx, _⟩ | ⟨e1, e2, hi, _, hl⟩
  · exact absurd hx hst
  · have hsim : AppSim (ViewRel appReg) a ⟨m, true, true⟩ := ⟨ht.view, e1, e2⟩
    have hsame := Config.step_same (c := ormApp lib) (storeSim_orm appReg) (n := n + 1) (x := .endBlock k) hsim
    rw [onStore_ormApp] at hsame
    have hm : (mapApp lib).step (n + 1) ⟨m, true, true⟩ (.endBlock k) = .panic ↔
        withKeys (lastSet [] hs) = none := by
      simp only [Config.step, app_endBlock hi, storedUpdates, hl]
      cases withKeys (lastSet [] hs) <;> simp [Config.mapRes]
    rw [← withKeys_none, ← hm]
    rcases hsame.cases with ⟨r', s₁, m₁, h1, h2, _⟩ | ⟨h1, h2⟩ | ⟨h1, h2⟩ <;> rw [h1, h2] <;> simp

/-- Histories as the ones above: requests answered without any module asking for updates. -/
theorem happens_steps {n : Nat} : ∀ {calls : List (Call BlockReq)} {a a' : App (Store Obj)} {rs : List (Resp Obj)},
    (ormApp lib).steps n a calls = .done rs a' → Happens lib a ((calls.zip rs).map fun e => .call e.1 e.2) a'
  | [], a, a', rs, h => by cases h; exact .nil _
  | c :: calls, a, a', rs, h => by
    simp only [Config.steps] at h
    split at h
    · cases h
    · cases h
    · split at h
      · cases h
      · cases h
      · rename_i h1 _ _ _ h2
        cases h
        exact .call h1 (happens_steps h2)

/-- The chain is started, and then the abci module sets updates. -/
theorem sample_sets (l : List StoredUpdate) : ∃ a, Happens payLib unstarted
    [.call (.initChain sampleChain []) .none, .setUpdates [userABCI] l (.ok ())] a := by
  obtain ⟨n, a, h, _⟩ := served_exec (lib := payLib) (c := sampleChain) (calls := []) payLib_well (by rfl) rfl
  have h0 := happens_steps h
  obtain ⟨s, hs⟩ := C51_possible payLib_well h0 (.inl rfl) l false
  simp only [Config.steps] at h
  split at h
  · cases h
  · cases h
  · rename_i h1
    cases h
    exact ⟨_, .call h1 (.setUpdates hs (.nil _))⟩

/-- EndBlock after an update with a key, and after one without. -/
example : (∃ a, Happens payLib unstarted [.call (.initChain sampleChain []) .none,
      .setUpdates [userABCI] [⟨some (some (.ed25519 b!"key")), 5⟩] (.ok ())] a ∧
      (ormApp payLib).step 1 a (.endBlock 3) ≠ .panic) ∧
    ∃ a, Happens payLib unstarted [.call (.initChain sampleChain []) .none,
      .setUpdates [userABCI] [⟨none, 5⟩] (.ok ())] a ∧ (ormApp payLib).step 1 a (.endBlock 3) = .panic := by
  obtain ⟨a, ha⟩ := sample_sets [⟨some (some (.ed25519 b!"key")), 5⟩]
  obtain ⟨a', ha'⟩ := sample_sets [⟨none, 5⟩]
  refine ⟨⟨a, ha, ?_⟩, a', ha', ?_⟩
  · rw [Ne, C51_end_block_crashes_iff payLib_well ha (by simp [lastStage]) (Nat.le_refl 1)]
    simp [lastSet]
  · rw [C51_end_block_crashes_iff payLib_well ha' (by simp [lastStage]) (Nat.le_refl 1)]
    simp [lastSet]

/-! ## C52 -/

/-- **C52 fails** for every non-empty state: InitChain crashes. -/
theorem C52_fails (c st : Bytes) (hst : st ≠ []) (n : Nat) :
    (ormApp lib).steps n unstarted [.initChain c st] = .panic := by
  refine (Props.C61_crashes_agree (c := ormApp lib) rfl app_regOk).2 ?_
  rw [onStore_ormApp]
  have : (mapApp lib).step n ⟨Contents.empty, false, false⟩ (.initChain c st) = .panic := by
    simp only [Config.step, initChain_import n c st hst, Config.mapRes]
  simp only [Config.steps, this]

example : (b!"{}" : Bytes) ≠ [] := by decide

/-- **C52 partial**: InitChain with an empty state returns exactly if the chain id is valid UTF-8,
and leads to the state of genesis.  Missing: any other state. -/
theorem C52_partial (hw : DecodesWell lib) (c : Bytes) (rs : List (Resp Obj)) :
    Served lib [.initChain c []] rs m ↔ validUtf8 c = true ∧ rs = [.none] ∧ m = genesisWorld lib c := by
  constructor
  · intro h
    rcases served_run hw h with ⟨_, hn⟩ | ⟨pre, rs₀, c', post, rs', h1, h2, h3, h4, hc, hr⟩
    · exact absurd ⟨c, [], by simp⟩ hn
    · cases pre with
      | nil =>
        cases rs₀ with
        | nil =>
          simp only [List.nil_append, List.cons.injEq, Call.initChain.injEq, and_true] at h1
          obtain ⟨rfl, rfl⟩ := h1
          cases hr
          exact ⟨hc, h2, rfl⟩
        | cons => simp at h3
      | cons x xs => simp at h1
  · rintro ⟨hc, rfl, rfl⟩
    exact served_exec hw hc rfl

/-! ## C53 and C54 -/

theorem splitOn_cons {sep : UInt8} {a : Bytes} (h : sep ∉ a) (r : Bytes) :
    Bytes.splitOn sep (a ++ sep :: r) = a :: Bytes.splitOn sep r := by
  induction a with
  | nil => simp [Bytes.splitOn]
  | cons x a ih =>
    rw [List.mem_cons, not_or] at h
    simp only [List.cons_append, Bytes.splitOn, if_neg (Ne.symm h.1), ih h.2]

theorem splitOn_last {sep : UInt8} {a : Bytes} (h : sep ∉ a) : Bytes.splitOn sep a = [a] := by
  induction a with
  | nil => rfl
  | cons x a ih =>
    rw [List.mem_cons, not_or] at h
    simp only [Bytes.splitOn, if_neg (Ne.symm h.1), ih h.2]

/-- The path naming an object: "get/group/kind/id". -/
def objectPath (group kind id : Bytes) : Bytes := b!"get" ++ 47 :: (group ++ 47 :: (kind ++ 47 :: id))

theorem objectPath_split {group kind id : Bytes} (hg : 47 ∉ group) (hk : 47 ∉ kind) :
    Bytes.splitOn 47 (objectPath group kind id) = b!"get" :: group :: kind :: Bytes.splitOn 47 id := by
  rw [objectPath, splitOn_cons (by decide), splitOn_cons hg, splitOn_cons hk]

/-- **C53 partial**: for every registry, every way to read the store and every identifier without a
slash, the query finds what reading finds.  (Group and kind are names without slashes.)  Missing:
identifiers with a slash. -/
theorem C53_partial {O : Type} (reg : Registry) (jsonFails : O → Bool) (read : Bytes → Bytes → Except OrmErr O)
    {sch : Schema} {group kind id : Bytes} (hg : 47 ∉ group) (hk : 47 ∉ kind) (hid : 47 ∉ id)
    (hs : reg.getByAPI group kind = some sch) :
    handleQuery reg jsonFails read (objectPath group kind id) = match read sch.name id with
      | .error _ => .ret (1, none)
      | .ok o => if jsonFails o then .panic else .ret (0, some o) := by
  have hsp := objectPath_split (id := id) hg hk
  rw [splitOn_last hid] at hsp
  simp only [handleQuery, queryGet, hsp, hs, if_neg (show b!"get" ≠ b!"api_resources" by decide)]
  cases read sch.name id <;> rfl

theorem served_query {calls : List (Call BlockReq)} {rs : List (Resp Obj)}
    (h : Served lib calls rs m) {path : Bytes} {k : Nat} {o : Option Obj}
    (hq : handleQuery appReg lib.jsonFails (mapGet appReg m) path = .ret (k, o)) :
    Served lib (calls ++ [.query path]) (rs ++ [.answer k o]) m := by
  obtain ⟨n, e, i, _, h1⟩ := served_map h
  have : (mapApp lib).steps n idle (calls ++ [.query path]) = .done (rs ++ [.answer k o]) ⟨m, e, i⟩ := by
    clear h
    revert h1
    generalize idle = a
    induction calls generalizing a rs with
    | nil =>
      intro h1
      cases h1
      have := step_query (n := n) (a := ⟨m, e, i⟩) hq
      simp only [List.nil_append, Config.steps, this]
    | cons c cs ih =>
      intro h1
      simp only [List.cons_append, Config.steps] at h1 ⊢
      cases hc : (mapApp lib).step n a c with
      | panic => rw [hc] at h1; cases h1
      | diverge => rw [hc] at h1; cases h1
      | done r a₁ =>
        rw [hc] at h1
        simp only at h1 ⊢
        cases hr : (mapApp lib).steps n a₁ cs with
        | panic => rw [hr] at h1; cases h1
        | diverge => rw [hr] at h1; cases h1
        | done rs' a₂ =>
          rw [hr] at h1
          cases h1
          rw [ih (rs := rs') _ hr]
          rfl
  obtain ⟨s, h2, h3⟩ := Props.C61_map_application_on_store (c := ormApp lib) rfl app_regOk this
  exact ⟨n, _, h2, h3⟩

theorem appReg_paths : ∀ sch ∈ appReg, 47 ∉ sch.api.group ∧ 47 ∉ sch.api.kind ∧
    appReg.getByAPI sch.api.group sch.api.kind = some sch ∧ appReg.get sch.name = some sch := by decide

/-- **C53 partial**: in every history of the application, for every object type and every identifier
without a slash, the query returns what is stored under the identifier, and code 1 if nothing is.
Missing: identifiers with a slash (and, as for every read, objects whose identifier is 128 bytes or
longer, which are not stored under it, C12). -/
theorem C53_application_partial {calls : List (Call BlockReq)} {rs : List (Resp Obj)} (h : Served lib calls rs m)
    {sch : Schema} (hs : sch ∈ appReg) {id : Bytes} (hid : 47 ∉ id) (hne : id ≠ [])
    (hj : ∀ o, m sch.name id = some o → lib.jsonFails o = false) :
    Served lib (calls ++ [.query (objectPath sch.api.group sch.api.kind id)])
      (rs ++ [match m sch.name id with
        | some o => .answer 0 (some o)
        | none => .answer 1 none]) m := by
  obtain ⟨h1, h2, h3, h4⟩ := appReg_paths sch hs
  have hq := C53_partial appReg lib.jsonFails (mapGet appReg m) h1 h2 hid h3
  simp only [mapGet, h4, if_neg hne] at hq
  cases hm : m sch.name id with
  | none =>
    rw [hm] at hq
    exact served_query h hq
  | some o =>
    rw [hm] at hq
    simp only [hj o hm, Bool.false_eq_true, if_false] at hq
    exact served_query h hq

/-- A payment to an address with a slash. -/
def slashTx : AppTx := genesisTx b!"pay" 0 [.sendCoins genesisAddress b!"a/b" [⟨b!"test", b!"5"⟩]]

def slashLib : Libs := sampleLib [(b!"1", slashTx)]

theorem slashLib_well : DecodesWell slashLib := sample_well rfl

/-- **C53 fails**: after a payment to the address "a/b" there is an account stored under this
identifier, but the query for it answers that there is none. -/
theorem C53_fails : ∃ (lib : Libs) (_ : DecodesWell lib) (calls : List (Call BlockReq)) (rs : List (Resp Obj))
    (m : World) (id : Bytes) (o : Obj), Served lib calls rs m ∧ m tyAccount id = some o ∧ lib.jsonFails o = false ∧
    Served lib (calls ++ [.query (objectPath b!"tmos.x.authn.v1alpha1" b!"Account" id)])
      (rs ++ [.answer 1 none]) m := by
  obtain ⟨m, h, hp⟩ := leadsTo_served (lib := slashLib) (calls := [.deliverTx b!"1"]) (rs := [.code 0])
    (P := fun m => (m tyAccount b!"a/b").isSome && (m tyAccount b!"a").isNone) slashLib_well (by decide +kernel)
  simp only [Bool.and_eq_true, Option.isNone_iff_eq_none] at hp
  obtain ⟨o, ho⟩ := Option.isSome_iff_exists.1 hp.1
  refine ⟨slashLib, slashLib_well, _, _, m, b!"a/b", o, h, ho, rfl, served_query h ?_⟩
  obtain ⟨sch, hsch⟩ : ∃ s, appReg.getByAPI b!"tmos.x.authn.v1alpha1" b!"Account" = some s := ⟨_, rfl⟩
  obtain ⟨sch', hsch'⟩ : ∃ s, appReg.get tyAccount = some s := ⟨_, rfl⟩
  have hn : sch.name = tyAccount := by cases hsch; rfl
  have hsp := objectPath_split (group := b!"tmos.x.authn.v1alpha1") (kind := b!"Account") (id := b!"a/b")
    (by decide) (by decide)
  rw [show Bytes.splitOn 47 b!"a/b" = [b!"a", b!"b"] from rfl] at hsp
  simp only [handleQuery, queryGet, hsp, hsch, if_neg (show b!"get" ≠ b!"api_resources" by decide), hn, mapGet,
    hsch', if_neg (show b!"a" ≠ [] by decide), hp.2, if_true]

/-- **C54** A query leaves the application as it is, for every path, whatever the application. -/
theorem C54_unchanged {S O T R B : Type} [StateObject O] [StateTransition T] (c : Config S O T R B) {n : Nat}
    {a a' : App S} {path : Bytes} {r : Resp O} (h : c.step n a (.query path) = .done r a') : a' = a := by
  simp only [Config.step] at h
  split at h
  · cases h
  · cases h; rfl

/-- **C54** A path whose first component is not one of the verbs is answered with code 1. -/
theorem C54_unknown_verb (n : Nat) (a : App (Store Obj)) {verb rest path : Bytes} (hv : 47 ∉ verb)
    (hp : path = verb ∨ path = verb ++ 47 :: rest)
    (hn : verb ∉ [b!"api_resources", b!"get", b!"list"]) :
    (ormApp lib).step n a (.query path) = .done (.answer 1 none) a := by
  have hsp : ∃ tail, Bytes.splitOn 47 path = verb :: tail := by
    rcases hp with rfl | rfl
    · exact ⟨_, splitOn_last hv⟩
    · exact ⟨_, splitOn_cons hv rest⟩
  obtain ⟨tail, hsp⟩ := hsp
  simp only [List.mem_cons, List.not_mem_nil, or_false, not_or] at hn
  have hq : (ormApp lib).query ((ormApp lib).ops.get a.store) path = .ret (1, none) := by
    change handleQuery (appBuilt lib).reg lib.jsonFails _ path = _
    simp only [handleQuery, hsp, if_neg hn.1, if_neg hn.2.1, if_neg hn.2.2]
  simp only [Config.step, hq]

example : (47 : UInt8) ∉ b!"put" ∧ b!"put" ∉ [b!"api_resources", b!"get", b!"list"] := by decide

/-- **C54** A query can crash only for an object that cannot be printed as JSON. -/
theorem C54_crash {calls : List (Call BlockReq)} {rs : List (Resp Obj)} (h : Served lib calls rs m)
    (hj : ∀ ty k o, m ty k = some o → lib.jsonFails o = false) (path : Bytes) :
    ∃ r, Served lib (calls ++ [.query path]) (rs ++ [r]) m := by
  suffices hq : ∃ k o, handleQuery appReg lib.jsonFails (mapGet appReg m) path = .ret (k, o) by
    obtain ⟨k, o, hq⟩ := hq
    exact ⟨_, served_query h hq⟩
  simp only [handleQuery]
  split
  · exact ⟨_, _, rfl⟩
  · split
    · exact ⟨_, _, rfl⟩
    split
    · split
      · exact ⟨_, _, rfl⟩
      · rename_i o ho
        have : lib.jsonFails o = false := by
          simp only [queryGet] at ho
          split at ho
          · split at ho
            · cases ho
            · split at ho
              · cases ho
              · rename_i hr
                cases ho
                simp only [mapGet] at hr
                split at hr
                · cases hr
                · split at hr
                  · cases hr
                  · split at hr
                    · cases hr
                    · rename_i hm
                      cases hr
                      exact hj _ _ _ hm
          · cases ho
        rw [this]
        exact ⟨_, _, rfl⟩
    · split <;> exact ⟨_, _, rfl⟩

end Verif.Props
