import Verif.Proofs.AppTx
/-! # Requests to the application -/

set_option linter.unusedSectionVars false
set_option linter.unusedSimpArgs false

namespace Verif
open Spec

variable {lib : Libs} {m m' : World}

/-! ## After authentication -/

theorem run_setPubKeys {dlv : Users → Tr → World → Res World (Except Err Unit)} {me : Users}
    (hi : AppInv m) : ∀ (l : List Signer),
    (∀ s ∈ l, s.address ≠ [] ∧ ∃ a, accountAt m s.address = some a ∧ a.pubKey ≠ none) →
    (forEach (fun signer k => getAccount signer.address fun
      | .error e => k (.error e)
      | .ok acc =>
        if acc.pubKey ≠ none then k (.ok ()) else updatePublicKey signer.address signer.pubKey k)
      l).run (asys lib) dlv me m = .done (.ok ()) m
  | [], _ => rfl
  | s :: l, h => by
    obtain ⟨hne, a, ha, hk⟩ := h s (by simp)
    simp only [forEach, run_getAccount hi, hne, if_false, ha, hk, ne_eq, not_false_eq_true, if_true]
    exact run_setPubKeys hi l fun s' hs' => h s' (by simp [hs'])

theorem accountAt_put {k k' : Bytes} {a : Account} :
    accountAt (m.put tyAccount k (some (.account a))) k' = if k' = k then some a else accountAt m k' := by
  simp only [accountAt, put_same]
  by_cases h : k' = k <;> simp [h]

theorem run_increaseSequence {dlv : Users → Tr → World → Res World (Except Err Unit)} :
    ∀ (l : List Bytes) {m : World}, AppInv m → (∀ u ∈ l, u ≠ [] ∧ (accountAt m u).isSome) →
    (forEach (fun u k => getAccount u fun
      | .error e => k (.error e)
      | .ok acc => .update (.account { acc with sequence := acc.sequence + 1 }) k) l).run
      (asys lib) dlv [b!"authn"] m = .done (.ok ()) (bump m l)
  | [], _, _, _ => rfl
  | u :: l, m, hi, h => by
    obtain ⟨hne, ha⟩ := h u (by simp)
    obtain ⟨a, ha⟩ := Option.isSome_iff_exists.1 ha
    have hm : m tyAccount u = some (.account a) := by
      simp only [accountAt] at ha
      split at ha
      · cases ha; assumption
      · cases ha
    have hk : encKey a.address = u := by
      obtain ⟨a', h1, h2, _⟩ := hi.accounts _ _ hm
      cases h1; exact h2
    simp only [forEach, run_getAccount hi, hne, if_false, ha, bump]
    refine (run_update (lib := lib) hi.toRolesInv mem_authn
      (o := .account { a with sequence := a.sequence + 1 }) (k := encKey a.address)
      (of_decide_eq_true rfl) rfl _).trans ?_
    have hst : appStorable (.account { a with sequence := a.sequence + 1 }) = true := hi.storable _ _ (.account a) hm
    rw [hk, if_neg hne]
    refine (if_pos (?_ : (m tyAccount u).isSome = true)).trans ?_
    · rw [hm]; rfl
    · rw [if_neg (by rw [hst]; simp)]
      refine run_increaseSequence l (hi.putAccount ha rfl hst) fun v hv => ⟨(h v (by simp [hv])).1, ?_⟩
      change (accountAt (m.put tyAccount u _) v).isSome = true
      rw [accountAt_put]
      split
      · rfl
      · exact (h v (by simp [hv])).2

theorem Users_authn : Users.ofNames [b!"authn"] = [b!"authn"] := rfl
theorem Users_distribution : Users.ofNames [b!"distribution"] = [b!"distribution"] := rfl

theorem auth_distribution (hi : AppInv m) :
    (asys lib).authorized m .deliver (tname (.sendCoins [] [] [] : Tr)) [b!"distribution"] =
      .ret (.ok ()) :=
  (auth_module hi.toRolesInv mem_distribution .deliver _).trans (if_pos (of_decide_eq_true rfl))

theorem postAuth_chain (hi : AppInv m) (n : Nat) (tx : AppTx)
    (hs : ∀ s ∈ tx.raw.signers, s.address ≠ [] ∧ ∃ a, accountAt m s.address = some a ∧ a.pubKey ≠ none)
    (hu : ∀ u ∈ tx.users, u ≠ [] ∧ (accountAt m u).isSome) :
    txChain (asys lib) (appRouter lib) (n + 3) (appRouter lib).postAuth tx m =
      asBadRequest (doSend lib.coins tx.raw.payer feeCollector tx.raw.fee (bump m tx.users)) := by
  have h2 : (setPubKeys tx).run (asys lib) (adeliver lib (n + 3) false) [b!"authn"] m =
    .done (.ok ()) m := run_setPubKeys hi _ hs
  have h3 : (increaseSequence tx).run (asys lib) (adeliver lib (n + 3) false) [b!"authn"] m =
    .done (.ok ()) (bump m tx.users) := run_increaseSequence _ hi hu
  have hb := inv_bump tx.users hi
  have h4 : (feeDeduction tx).run (asys lib) (adeliver lib (n + 3) false) [b!"distribution"]
      (bump m tx.users) = doSend lib.coins tx.raw.payer feeCollector tx.raw.fee (bump m tx.users) :=
    run_deliver_ret.trans (deliver_send hb n _ _ _ (auth_distribution hb))
  have : txChain (asys lib) (appRouter lib) (n + 3) (appRouter lib).postAuth tx m =
      runAll (fun h s => (h.code tx).run (asys lib) (adeliver lib (n + 3) false)
        (Users.ofNames [h.owner]) s) (fun _ => .badRequest)
        [⟨b!"authn", consumeGas⟩, ⟨b!"authn", setPubKeys⟩, ⟨b!"authn", increaseSequence⟩,
          (⟨b!"distribution", feeDeduction⟩ : TxHandler Obj Tr TxData)] m := rfl
  rw [this]
  simp only [runAll]
  rw [show (consumeGas tx).run (asys lib) (adeliver lib (n + 3) false) (Users.ofNames [b!"authn"]) m =
    .done (.ok ()) m from rfl]
  simp only [Users_authn, h2, h3, Users_distribution, h4]
  generalize doSend lib.coins tx.raw.payer feeCollector tx.raw.fee (bump m tx.users) = r
  rcases r with ⟨e | ⟨⟩, s⟩ | _ | _ <;> rfl

theorem bump_accounts : ∀ (us : List Bytes) {m : World} (k : Bytes) (o : Obj), m tyAccount k = some o →
    bump m us tyAccount k ≠ none
  | [], m, k, o, h => by simp [bump, h]
  | u :: us, m, k, o, h => by
    simp only [bump]
    cases accountAt m u with
    | none => exact bump_accounts us k o h
    | some a =>
      by_cases hk : k = u
      · subst hk
        exact bump_accounts us k (.account { a with sequence := a.sequence + 1 }) (by rw [put_same]; simp)
      · exact bump_accounts us k o (by rw [put_same]; simpa [hk] using h)

theorem errCode_eq (e : Err) : errCode e = codeOf e := by cases e <;> rfl

/-- What the application answers to a transaction. -/
def txOutcome (lib : Libs) (m : World) (tx : AppTx) : Outcome := match authOutcome lib m tx with
  | .panic => .panic
  | .ret (.error _) => .done (.error .badRequest) m
  | .ret (.ok ()) => doTx lib.coins tx m

theorem app_deliverTx (hi : AppInv m) (n : Nat) (bytes : Bytes) {i : Bool}
    (hw : ∀ tx, lib.decode bytes = .ret (.ok tx) → tx.users ≠ []) :
    (mapApp lib).deliverTx (n + 3) bytes ⟨m, true, i⟩ = match lib.decode bytes with
      | .panic => .panic
      | .ret (.error e) => .done (errCode e) ⟨m, true, i⟩
      | .ret (.ok tx) => respond ⟨m, true, i⟩ (txOutcome lib m tx) := by
  have hd : (mapApp lib).decode = some lib.decode := rfl
  simp only [Config.deliverTx, hd]
  cases hdec : lib.decode bytes with
  | panic => rfl
  | ret r =>
    cases r with
    | error e => rfl
    | ok tx =>
      have h1 : txChain ((mapApp lib).sys true) (mapApp lib).router (n + 3)
          (mapApp lib).router.authAdmission tx m = authResult (authOutcome lib m tx) m := auth_chain hi _ tx
      simp only [h1, txOutcome]
      rcases ho : authOutcome lib m tx with ⟨e | ⟨⟩⟩ | _
      · simp only [authResult, respond, errCode_eq]
      · have ha := authOutcome_ok.1 ho
        have h2 : txChain ((mapApp lib).sys true) (mapApp lib).router (n + 3)
            (mapApp lib).router.postAuth tx m = asBadRequest (doSend lib.coins tx.raw.payer feeCollector
              tx.raw.fee (bump m tx.users)) := postAuth_chain hi n tx
          (fun s hs => ⟨(ha.signers s hs).1, by
            obtain ⟨a, h⟩ := (ha.signers s hs).2
            exact ⟨a, h.account, h.hasKey⟩⟩) ha.users
        simp only [authResult, h2, doTx]
        have hb := inv_bump tx.users hi
        have hu : External m tx.users := ⟨hw tx hdec, ha.users⟩
        have hub : External (bump m tx.users) tx.users := hu.frame hb hi (bump_accounts _)
        generalize hr : doSend lib.coins tx.raw.payer feeCollector tx.raw.fee (bump m tx.users) = r
        rcases r with ⟨e | ⟨⟩, s⟩ | _ | _
        · simp only [asBadRequest, andThen, respond, errCode_eq]
        · have hi' := keeps_send _ _ _ _ hb hr
          have h3 : runAll (fun t s => (mapApp lib).deliver (n + 3) true true tx.users t s) id
              tx.transitions s = doTransitions lib.coins tx.transitions s :=
            runAll_transitions n _ hi' (hub.frame hi' hb fun k o h => by
              rw [(framed_send _ _ _ _ hb hr).accounts k o h]; simp)
          simp only [asBadRequest, andThen, h3]
          rcases doTransitions lib.coins tx.transitions s with ⟨e | ⟨⟩, s⟩ | _ | _
          · simp only [respond, errCode_eq]
          · rfl
          · rfl
          · rfl
        · rfl
        · rfl
      · rfl

/-! ## Blocks -/

theorem storable_chainId (c : Bytes) : appStorable (.initChainInfo c) = validUtf8 c := by
  have : appStorable (.initChainInfo c) = (!(!validUtf8 c || false || false) && true) := rfl
  rw [this]; simp

theorem Spec.AppInv.putStage (hi : AppInv m) (s : Stage) :
    AppInv (m.put tyStage singletonID (some (.stage s))) where
  toRolesInv := hi.toRolesInv.put (by decide) (by decide)
  others := by rw [put_ne (by decide)]; exact hi.others
  accounts := by rw [put_ne (by decide), put_ne (by decide)]; exact hi.accounts
  balances := by rw [put_ne (by decide)]; exact hi.balances
  number := by rw [put_ne (by decide)]; exact hi.number
  params := by rw [put_ne (by decide)]; exact hi.params
  height := by rw [put_ne (by decide)]; exact hi.height
  stage := ⟨s, by rw [put_same]; simp⟩
  chainId := by rw [put_ne (by decide)]; exact hi.chainId
  updates := by rw [put_ne (by decide)]; exact hi.updates
  beginState := by rw [put_ne (by decide)]; exact hi.beginState
  endState := by rw [put_ne (by decide)]; exact hi.endState
  mods := by rw [put_ne (by decide)]; exact hi.mods
  storable := storable_put hi.storable rfl

theorem Spec.AppInv.putHeight (hi : AppInv m) (n : BitVec 64) :
    AppInv (m.put tyCurrentBlock singletonID (some (.currentBlock n))) where
  toRolesInv := hi.toRolesInv.put (by decide) (by decide)
  others := by rw [put_ne (by decide)]; exact hi.others
  accounts := by rw [put_ne (by decide), put_ne (by decide)]; exact hi.accounts
  balances := by rw [put_ne (by decide)]; exact hi.balances
  number := by rw [put_ne (by decide)]; exact hi.number
  params := by rw [put_ne (by decide)]; exact hi.params
  height := ⟨n, by rw [put_same]; simp⟩
  stage := by rw [put_ne (by decide)]; exact hi.stage
  chainId := by rw [put_ne (by decide)]; exact hi.chainId
  updates := by rw [put_ne (by decide)]; exact hi.updates
  beginState := by rw [put_ne (by decide)]; exact hi.beginState
  endState := by rw [put_ne (by decide)]; exact hi.endState
  mods := by rw [put_ne (by decide)]; exact hi.mods
  storable := storable_put hi.storable rfl

theorem Spec.AppInv.putChainId (hi : AppInv m) (c : Bytes) (hc : validUtf8 c = true) :
    AppInv (m.put tyInitChainInfo singletonID (some (.initChainInfo c))) where
  toRolesInv := hi.toRolesInv.put (by decide) (by decide)
  others := by rw [put_ne (by decide)]; exact hi.others
  accounts := by rw [put_ne (by decide), put_ne (by decide)]; exact hi.accounts
  balances := by rw [put_ne (by decide)]; exact hi.balances
  number := by rw [put_ne (by decide)]; exact hi.number
  params := by rw [put_ne (by decide)]; exact hi.params
  height := by rw [put_ne (by decide)]; exact hi.height
  stage := by rw [put_ne (by decide)]; exact hi.stage
  chainId := ⟨c, by rw [put_same]; simp⟩
  updates := by rw [put_ne (by decide)]; exact hi.updates
  beginState := by rw [put_ne (by decide)]; exact hi.beginState
  endState := by rw [put_ne (by decide)]; exact hi.endState
  mods := by rw [put_ne (by decide)]; exact hi.mods
  storable := storable_put hi.storable ((storable_chainId c).trans hc)

theorem Spec.AppInv.putBegin (hi : AppInv m) (o : Obj) (ho : appStorable o = true) :
    AppInv (m.put (Obj.api (.beginBlockState none)).name singletonID (some o)) where
  toRolesInv := hi.toRolesInv.put (by decide) (by decide)
  others := by rw [put_ne (by decide)]; exact hi.others
  accounts := by rw [put_ne (by decide), put_ne (by decide)]; exact hi.accounts
  balances := by rw [put_ne (by decide)]; exact hi.balances
  number := by rw [put_ne (by decide)]; exact hi.number
  params := by rw [put_ne (by decide)]; exact hi.params
  height := by rw [put_ne (by decide)]; exact hi.height
  stage := by rw [put_ne (by decide)]; exact hi.stage
  chainId := by rw [put_ne (by decide)]; exact hi.chainId
  updates := by rw [put_ne (by decide)]; exact hi.updates
  beginState := by rw [put_same]; simp
  endState := by rw [put_ne (by decide)]; exact hi.endState
  mods := by rw [put_ne (by decide)]; exact hi.mods
  storable := storable_put hi.storable ho

theorem Spec.AppInv.putEnd (hi : AppInv m) (o : Obj) (ho : appStorable o = true) :
    AppInv (m.put (Obj.api (.endBlockState none)).name singletonID (some o)) where
  toRolesInv := hi.toRolesInv.put (by decide) (by decide)
  others := by rw [put_ne (by decide)]; exact hi.others
  accounts := by rw [put_ne (by decide), put_ne (by decide)]; exact hi.accounts
  balances := by rw [put_ne (by decide)]; exact hi.balances
  number := by rw [put_ne (by decide)]; exact hi.number
  params := by rw [put_ne (by decide)]; exact hi.params
  height := by rw [put_ne (by decide)]; exact hi.height
  stage := by rw [put_ne (by decide)]; exact hi.stage
  chainId := by rw [put_ne (by decide)]; exact hi.chainId
  updates := by rw [put_ne (by decide)]; exact hi.updates
  beginState := by rw [put_ne (by decide)]; exact hi.beginState
  endState := by rw [put_same]; simp
  mods := by rw [put_ne (by decide)]; exact hi.mods
  storable := storable_put hi.storable ho

theorem storable_begin {b : BeginReq} (h : validUtf8 b.chainId = true) :
    appStorable (.beginBlockState (some b)) = true := by
  have : appStorable (.beginBlockState (some b)) = (!(!validUtf8 b.chainId || false || false) && true) := rfl
  rw [this, h]; rfl

theorem inv_beginBlock (hi : AppInv m) {b : BlockReq} (hb : validUtf8 b.chainId = true) :
    AppInv (doBeginBlock b m) :=
  ((hi.putStage _).putBegin _ (storable_begin hb)).putHeight _

theorem inv_endBlock (hi : AppInv m) (h : Int) : AppInv (doEndBlock h m) :=
  (hi.putStage _).putEnd _ rfl

theorem auth_abci (hi : AppInv m) {res : Bytes} (h : res ∈ [.setInitChain none, .setCheckTx none,
    .setBeginBlock none, .setDeliverTx none, .setEndBlock none, .setValidatorUpdates []].map
      (tname (T := Tr))) :
    (asys lib).authorized m .deliver res [userABCI] = .ret (.ok ()) :=
  (auth_module hi.toRolesInv mem_abci .deliver res).trans (if_pos h)

/-- Updates of singletons by the abci module. -/
theorem run_updateABCI {dlv : Users → Tr → World → Res World (Except Err Unit)} (hi : AppInv m) {o : Obj}
    (hr : o.api.name ∈ (roleOf b!"system:abci-role"
    [.stage .unknown, .beginBlockState none, .deliverTxState none, .checkTxState none,
     .initChainInfo [], .endBlockState none, .currentBlock 0, .validatorUpdates []]
    [.setInitChain none, .setCheckTx none, .setBeginBlock none, .setDeliverTx none,
     .setEndBlock none, .setValidatorUpdates []]).updates)
    (hk : keyOf appReg o = some (o.api.name, singletonID)) (hs : (m o.api.name singletonID).isSome = true)
    (ho : appStorable o = true) (c : Except Err Unit → Code) :
    (Prog.update o c).run (asys lib) dlv [userABCI] m =
      (c (.ok ())).run (asys lib) dlv [userABCI] (m.put o.api.name singletonID (some o)) := by
  refine (run_update (lib := lib) hi.toRolesInv mem_abci hr hk c).trans ?_
  rw [if_neg singleton_ne, if_pos hs, if_neg (by rw [ho]; simp)]

theorem isSome_of {α : Type} {x : Option α} (h : ∃ a, x = some a) : x.isSome = true := by
  obtain ⟨a, rfl⟩ := h; rfl

theorem deliver_beginBlock (hi : AppInv m) (n : Nat) {b : BlockReq} (hb : validUtf8 b.chainId = true) :
    adeliver lib (n + 1) false [userABCI] (.setBeginBlock (some ⟨some b.height, b.chainId, b.rest⟩)) m =
      .done (.ok ()) (doBeginBlock b m) := by
  refine (deliver_exec (router := appRouter lib) (t := .setBeginBlock (some ⟨some b.height, b.chainId, b.rest⟩))
    (h := ⟨userABCI, setBeginBlockExec⟩) rfl rfl rfl rfl (auth_abci hi (of_decide_eq_true rfl))).trans ?_
  obtain ⟨s, hs⟩ := hi.stage
  refine (run_updateABCI (lib := lib) hi (o := .stage .beginBlock) (of_decide_eq_true rfl) rfl
    (isSome_of ⟨_, hs⟩) rfl _).trans ?_
  have h1 := hi.putStage .beginBlock
  refine (run_updateABCI (lib := lib) h1 (o := .beginBlockState (some ⟨some b.height, b.chainId, b.rest⟩))
    (of_decide_eq_true rfl) rfl h1.beginState (storable_begin hb) _).trans ?_
  have h2 := h1.putBegin (.beginBlockState (some ⟨some b.height, b.chainId, b.rest⟩)) (storable_begin hb)
  obtain ⟨x, hx⟩ := h2.height
  exact (run_updateABCI (lib := lib) h2 (o := .currentBlock b.height)
    (of_decide_eq_true rfl) rfl (isSome_of ⟨_, hx⟩) rfl _)

theorem deliver_endBlock (hi : AppInv m) (n : Nat) (h : BitVec 64) :
    adeliver lib (n + 1) false [userABCI] (.setEndBlock (some h)) m =
      .done (.ok ()) ((m.put tyStage singletonID (some (.stage .endBlock))).put
        (Obj.api (.endBlockState none)).name singletonID (some (.endBlockState (some h)))) := by
  refine (deliver_exec (router := appRouter lib) (t := .setEndBlock (some h))
    (h := ⟨userABCI, setEndBlockExec⟩) rfl rfl rfl rfl (auth_abci hi (of_decide_eq_true rfl))).trans ?_
  obtain ⟨s, hs⟩ := hi.stage
  refine (run_updateABCI (lib := lib) hi (o := .stage .endBlock) (of_decide_eq_true rfl) rfl
    (isSome_of ⟨_, hs⟩) rfl _).trans ?_
  have h1 := hi.putStage .endBlock
  exact (run_updateABCI (lib := lib) h1 (o := .endBlockState (some h))
    (of_decide_eq_true rfl) rfl h1.endState rfl _)

theorem deliver_setInitChain (hi : AppInv m) (n : Nat) (c : Bytes) :
    (mapApp lib).deliver (n + 1) false false [userABCI] (.setInitChain (some c)) m =
      if validUtf8 c = false then .panic else
      .done (.ok ()) ((m.put tyInitChainInfo singletonID (some (.initChainInfo c))).put
        tyStage singletonID (some (.stage .initChain))) := by
  have hau : ∀ (m : World) v res, ((mapApp lib).sys false).authorized m v res [userABCI] = .ret (.ok ()) := by
    intro m v res; rfl
  refine (deliver_exec (router := appRouter lib) (t := .setInitChain (some c))
    (h := ⟨userABCI, setInitChainExec⟩) rfl rfl rfl rfl (hau _ _ _)).trans ?_
  obtain ⟨s, hs⟩ := hi.chainId
  refine (run_update_as rfl (o := .initChainInfo c) (k := singletonID) (hau _ _ _) rfl _).trans ?_
  rw [if_neg singleton_ne]
  refine (if_pos (isSome_of ⟨_, hs⟩)).trans ?_
  by_cases hc : validUtf8 c = false
  · rw [if_pos hc]
    exact if_pos ((storable_chainId c).trans hc)
  · rw [if_neg hc]
    refine (if_neg (by rw [storable_chainId c]; exact hc)).trans ?_
    rw [Bool.not_eq_false] at hc
    obtain ⟨x, hx⟩ := (hi.putChainId c hc).stage
    refine (run_update_as rfl (o := .stage .initChain) (k := singletonID) (hau _ _ _) rfl _).trans ?_
    rw [if_neg singleton_ne]
    exact (if_pos (isSome_of ⟨_, hx⟩)).trans (if_neg (by decide))

theorem app_beginBlock (hi : AppInv m) (n : Nat) (b : BlockReq) {i : Bool} :
    (mapApp lib).beginBlock (n + 1) b ⟨m, true, i⟩ =
      if validUtf8 b.chainId then .done () ⟨doBeginBlock b m, true, i⟩ else .panic := by
  by_cases hb : validUtf8 b.chainId = true
  · have h0 : (mapApp lib).setBeginBlock b =
        .ret (.setBeginBlock (some ⟨some b.height, b.chainId, b.rest⟩)) := by
      show (match b.convert with | .panic => Out.panic | .ret b => Out.ret (Tr.setBeginBlock (some b))) = _
      rw [BlockReq.convert, if_pos hb]
    have : (mapApp lib).deliver (n + 1) true false (Users.ofNames [userABCI])
        (.setBeginBlock (some ⟨some b.height, b.chainId, b.rest⟩)) m = .done (.ok ()) (doBeginBlock b m) :=
      deliver_beginBlock hi n hb
    simp only [Config.beginBlock, h0, this, hb, if_true]
  · have h0 : (mapApp lib).setBeginBlock b = .panic := by
      show (match b.convert with | .panic => Out.panic | .ret b => Out.ret (Tr.setBeginBlock (some b))) = _
      rw [BlockReq.convert, if_neg hb]
    simp only [Config.beginBlock, h0, hb]
    rfl

theorem toLegacyAll_eq (l : List StoredUpdate) : toLegacyAll l = match withKeys l with
    | some us => .ret us
    | none => .panic := by
  induction l with
  | nil => rfl
  | cons u l ih =>
    rcases u with ⟨_ | _ | _ | _, p⟩
    · simp [toLegacyAll, StoredUpdate.toLegacy, withKeys, Option.join]
    · simp [toLegacyAll, StoredUpdate.toLegacy, withKeys, Option.join]
    all_goals
      simp only [toLegacyAll, StoredUpdate.toLegacy, ih, withKeys, List.mapM_cons, Option.join]
      cases List.mapM (m := Option) _ l <;> simp

theorem app_endBlock (hi : AppInv m) (n : Nat) (h : Int) {i : Bool} :
    (mapApp lib).endBlock (n + 1) h ⟨m, true, i⟩ =
      match withKeys (storedUpdates m) with
      | some us => .done us ⟨doEndBlock h m, true, i⟩
      | none => .panic := by
  have : (mapApp lib).deliver (n + 1) true false (Users.ofNames [userABCI])
      ((mapApp lib).setEndBlock h) m = .done (.ok ()) (doEndBlock h m) := deliver_endBlock hi n _
  simp only [Config.endBlock, this]
  have hu := (inv_endBlock hi h).updates
  obtain ⟨l, hl⟩ := hi.updates
  have h2 : (doEndBlock h m) tyValidatorUpdates singletonID = some (.validatorUpdates l) := by
    rw [doEndBlock, put_ne (by decide), put_ne (by decide), hl]
  have h3 : ((mapApp lib).sys true).get (doEndBlock h m) (mapApp lib).valUpdatesType
      (mapApp lib).singletonId = .ret (.ok (.validatorUpdates l)) := by
    refine (asys_get (lib := lib) (m := doEndBlock h m) (ty := tyValidatorUpdates) (id := singletonID) rfl).trans ?_
    rw [if_neg singleton_ne, h2]
  rw [h3]
  have h4 : (mapApp lib).toLegacy (.validatorUpdates l) = toLegacyAll l := rfl
  simp only [h4, toLegacyAll_eq, storedUpdates, hl]
  cases withKeys l <;> rfl

end Verif
