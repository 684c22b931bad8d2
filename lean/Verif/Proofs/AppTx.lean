import Verif.Proofs.AppInv
/-! # Transactions of the application -/

set_option linter.unusedSectionVars false
set_option linter.unusedSimpArgs false

namespace Verif
open Spec

variable {lib : Libs} {m m' : World}

theorem andThen_congr {r : Outcome} {f g : World → Outcome}
    (h : ∀ m₁, r = .done (.ok ()) m₁ → f m₁ = g m₁) : andThen r f = andThen r g := by
  rcases r with ⟨e | ⟨⟩, s⟩ | _ | _
  · rfl
  · exact h s rfl
  · rfl
  · rfl

section
variable {dlv : Users → Tr → World → Res World (Except Err Unit)} {me : Users}

theorem run_withCoins {sys : Sys World Obj} (r : Out (Except Err (List Coin)))
    (k : Except Err (List Coin) → Code) :
    (withCoins r k).run sys dlv me m = match r with
      | .panic => .panic
      | .ret r => (k r).run sys dlv me m := by
  cases r <;> rfl

end

theorem auth_bank (hi : AppInv m) {res : Bytes} (h : res ∈ [tname (.sendCoins [] [] [] : Tr),
    tname (.setBalance [] [] : Tr), tname (.createAccount none : Tr)]) :
    (asys lib).authorized m .deliver res [b!"bank"] = .ret (.ok ()) :=
  (auth_module hi.toRolesInv mem_bank .deliver res).trans (if_pos h)

theorem run_ensureAccount (hi : AppInv m) (n : Nat) (a : Bytes) (hne : a ≠ []) :
    (createAccountIfNotExist a).run (asys lib) (adeliver lib (n + 2) false) [b!"bank"] m =
      doEnsureAccount a m := by
  simp only [createAccountIfNotExist, run_getAccount hi, hne, if_false, doEnsureAccount]
  cases h : accountAt m a with
  | some x => simp [Prog.run]
  | none =>
    simp only [Option.isSome_none, Bool.false_eq_true, if_false]
    exact run_deliver_ret.trans (deliver_createAccount' hi n { address := a } hne
      (auth_bank hi (by simp)))

theorem run_credit (hi : AppInv m) (n : Nat) (a : Bytes) (cs : List Coin) :
    (creditReceiver lib.coins a cs).run (asys lib) (adeliver lib (n + 2) false) [b!"bank"] m =
      doCredit lib.coins a cs m := by
  simp only [creditReceiver, run_getBalance hi, doCredit]
  by_cases hne : a = []
  · simp only [hne, if_true]
  simp only [hne, if_false]
  cases h : balanceAt m a with
  | some x =>
    simp only [run_withCoins]
    cases lib.coins.safeAddCoins x cs with
    | panic => rfl
    | ret r =>
      cases r with
      | error e => rfl
      | ok new => exact run_deliver_ret.trans (deliver_setBalance hi (n + 1) a new)
  | none =>
    refine run_deliver_orReturn.trans ?_
    rw [show adeliver lib (n + 2) false (Users.union [some [b!"bank"], none]) (.setBalance a cs) m =
      doSetBalance a cs m from deliver_setBalance hi (n + 1) a cs]
    exact andThen_congr fun m₁ h1 => run_ensureAccount (keeps_setBalance a cs hi h1) n a hne

theorem run_send (hi : AppInv m) (n : Nat) (users : Users) (a b : Bytes) (cs : List Coin) :
    (sendCoinsExec lib.coins users (.sendCoins a b cs)).run (asys lib) (adeliver lib (n + 2) false)
      [b!"bank"] m = doSend lib.coins a b cs m := by
  simp only [sendCoinsExec, run_getBalance hi, doSend]
  by_cases hne : a = []
  · simp only [hne, if_true]
  simp only [hne, if_false]
  cases h : balanceAt m a with
  | none => rfl
  | some x =>
    simp only [run_withCoins]
    cases lib.coins.safeSubCoins x cs with
    | panic => rfl
    | ret r =>
      cases r with
      | error e => rfl
      | ok new =>
        refine run_deliver_orReturn.trans ?_
        rw [show adeliver lib (n + 2) false (Users.union [some [b!"bank"], none]) (.setBalance a new) m =
          doSetBalance a new m from deliver_setBalance hi (n + 1) a new]
        exact andThen_congr fun m₁ h1 => run_credit (keeps_setBalance a new hi h1) n b cs

theorem deliver_send (hi : AppInv m) (n : Nat) {skip : Bool} {users : Users} (a b : Bytes) (cs : List Coin)
    (ha : (asys lib).authorized m .deliver (tname (.sendCoins [] [] [] : Tr)) users = .ret (.ok ())) :
    adeliver lib (n + 3) skip users (.sendCoins a b cs) m = doSend lib.coins a b cs m := by
  refine (deliver_exec (router := appRouter lib) (t := .sendCoins a b cs)
    (h := ⟨b!"bank", sendCoinsExec lib.coins⟩) rfl rfl rfl rfl ha).trans ?_
  exact run_send hi n users a b cs

/-! ## Transitions in a transaction -/

/-- The users are external accounts. -/
def External (m : World) (us : Users) : Prop :=
  us ≠ [] ∧ ∀ u ∈ us, u ≠ [] ∧ (accountAt m u).isSome

theorem external_delivers : externalRole.resources .deliver =
    [tname (.createAccount none : Tr), tname (.sendCoins [] [] [] : Tr)] := rfl

theorem deliver_user (hi : AppInv m) {us : Users} (hu : External m us) (n : Nat) (t : Tr) :
    adeliver lib (n + 3) true us t m = doTransition lib.coins t m := by
  have ha : ∀ res, (asys lib).authorized m .deliver res us = if res ∈ [tname (.createAccount none : Tr),
      tname (.sendCoins [] [] [] : Tr)] then .ret (.ok ()) else .ret (.error .unauthorized) :=
    fun res => auth_external hi hu.1 hu.2 .deliver res
  have hd : tname t ∉ [tname (.createAccount none : Tr), tname (.sendCoins [] [] [] : Tr)] →
      adeliver lib (n + 3) true us t m = .done (.error .unauthorized) m := fun h =>
    deliver_denied ((ha _).trans (if_neg h))
  cases t with
  | createAccount a =>
    have hok := (ha (tname (.createAccount none : Tr))).trans (if_pos (by simp))
    cases a with
    | some a => exact deliver_createAccount hi (n + 1) a hok
    | none =>
      refine (deliver_skip (router := appRouter lib) (t := .createAccount none)
        (h := ⟨b!"authn", createAccountExec⟩) rfl rfl rfl hok).trans ?_
      simp only [createAccountExec, run_getAccountNumber hi]
      rfl
  | sendCoins a b cs => exact deliver_send hi n a b cs ((ha _).trans (if_pos (by simp)))
  | other api =>
    simp only [doTransition]
    by_cases h : tname (Tr.other api) ∈ [tname (.createAccount none : Tr), tname (.sendCoins [] [] [] : Tr)]
    · have hok := (ha (tname (Tr.other api))).trans (if_pos h)
      have h' : api.name = tname (.createAccount none : Tr) ∨ api.name = tname (.sendCoins [] [] [] : Tr) := by
        simpa [tname, StateTransition.api, Tr.api] using h
      rw [if_pos h']
      rcases h' with h1 | h1
      · have h2 : tname (Tr.other api) = tname (.createAccount none : Tr) := h1
        exact deliver_skip (router := appRouter lib) (t := Tr.other api)
          (h := ⟨b!"authn", createAccountExec⟩) (by rw [h2]; rfl) (by rw [h2]; rfl) (by rw [h2]; rfl) hok
      · have h2 : tname (Tr.other api) = tname (.sendCoins [] [] [] : Tr) := h1
        exact deliver_skip (router := appRouter lib) (t := Tr.other api)
          (h := ⟨b!"bank", sendCoinsExec lib.coins⟩) (by rw [h2]; rfl) (by rw [h2]; rfl) (by rw [h2]; rfl) hok
    · rw [hd h, if_neg]
      simpa [tname, StateTransition.api, Tr.api] using h
  | createModules _ => exact hd (of_decide_eq_true rfl)
  | createRole _ => exact hd (of_decide_eq_true rfl)
  | bindRole _ _ => exact hd (of_decide_eq_true rfl)
  | setBalance _ _ => exact hd (of_decide_eq_true rfl)
  | setInitChain _ => exact hd (of_decide_eq_true rfl)
  | setCheckTx _ => exact hd (of_decide_eq_true rfl)
  | setBeginBlock _ => exact hd (of_decide_eq_true rfl)
  | setDeliverTx _ => exact hd (of_decide_eq_true rfl)
  | setEndBlock _ => exact hd (of_decide_eq_true rfl)
  | setValidatorUpdates _ => exact hd (of_decide_eq_true rfl)

theorem External.frame {us : Users} (hi' : AppInv m') (h : External m us) (hi : AppInv m)
    (hf : ∀ k o, m tyAccount k = some o → m' tyAccount k ≠ none) : External m' us := by
  refine ⟨h.1, fun u hu => ⟨(h.2 u hu).1, ?_⟩⟩
  have h1 := (h.2 u hu).2
  rw [← accountAt_isSome hi] at h1
  rw [← accountAt_isSome hi']
  obtain ⟨o, ho⟩ := Option.isSome_iff_exists.1 h1
  have := hf _ _ ho
  cases hm : m' tyAccount u with
  | none => exact absurd hm this
  | some _ => rfl

theorem runAll_transitions {us : Users} (n : Nat) : ∀ (ts : List Tr) {m : World}, AppInv m → External m us →
    runAll (fun t s => adeliver lib (n + 3) true us t s) id ts m = doTransitions lib.coins ts m
  | [], _, _, _ => rfl
  | t :: ts, m, hi, hu => by
    simp only [runAll, deliver_user hi hu, doTransitions]
    generalize hr : doTransition lib.coins t m = r
    rcases r with ⟨e | ⟨⟩, s⟩ | _ | _
    · rfl
    · have hi' := keeps_transition _ _ hi hr
      exact runAll_transitions n ts hi' (hu.frame hi' hi fun k o h => by
        rw [(framed_transition _ _ hi hr).accounts k o h]; simp)
    · rfl
    · rfl

/-! ## Authentication -/

/-- The outcome of code that reads only. -/
def readOutcome (o : Out (Except Err Unit)) (m : World) : Outcome := match o with
  | .panic => .panic
  | .ret r => .done r m

/-- Checks in order, up to the first failure. -/
def checkAll {α : Type} (c : α → Out (Except Err Unit)) : List α → Out (Except Err Unit)
  | [] => .ret (.ok ())
  | a :: as => match c a with
    | .ret (.ok ()) => checkAll c as
    | r => r

theorem checkAll_ok {α : Type} {c : α → Out (Except Err Unit)} : ∀ {l : List α},
    checkAll c l = .ret (.ok ()) ↔ ∀ a ∈ l, c a = .ret (.ok ())
  | [] => by simp [checkAll]
  | a :: as => by
    simp only [checkAll, List.mem_cons, forall_eq_or_imp]
    rcases c a with ⟨e | ⟨⟩⟩ | _
    · simp
    · simp [checkAll_ok]
    · simp

section
variable {dlv : Users → Tr → World → Res World (Except Err Unit)} {me : Users}

theorem run_forEach {α : Type} {body : α → (Except Err Unit → Code) → Code}
    {c : α → Out (Except Err Unit)} {sys : Sys World Obj}
    (h : ∀ a k, (body a k).run sys dlv me m = match c a with
      | .panic => .panic
      | .ret r => (k r).run sys dlv me m) :
    ∀ l : List α, (forEach body l).run sys dlv me m = readOutcome (checkAll c l) m
  | [] => rfl
  | a :: as => by
    simp only [forEach, checkAll, h]
    rcases hc : c a with ⟨e | ⟨⟩⟩ | _
    · rfl
    · exact run_forEach h as
    · rfl

/-- There is an account at the address. -/
def checkAccount (m : World) (u : Bytes) : Out (Except Err Unit) :=
  if u = [] then .panic else match accountAt m u with
    | none => .ret (.error .notFound)
    | some _ => .ret (.ok ())

theorem checkAccount_ok {u : Bytes} :
    checkAccount m u = .ret (.ok ()) ↔ u ≠ [] ∧ (accountAt m u).isSome := by
  simp only [checkAccount]
  by_cases h : u = []
  · simp [h]
  · cases accountAt m u <;> simp [h]

theorem run_accountExists (hi : AppInv m) (tx : AppTx) :
    (accountExists tx).run (asys lib) dlv me m = readOutcome (checkAll (checkAccount m) tx.users) m := by
  refine run_forEach ?_ _
  intro u k
  simp only [run_getAccount hi, checkAccount]
  by_cases h : u = []
  · simp only [h, if_true]
  · simp only [h, if_false]
    cases accountAt m u <;> rfl

/-- The check of `timeoutBlock`. -/
def checkTimeout (m : World) (tx : AppTx) : Out (Except Err Unit) :=
  .ret (if tx.raw.timeout ≠ 0 ∧ height m > tx.raw.timeout then .error .other else .ok ())

theorem run_timeoutBlock (hi : AppInv m) (tx : AppTx) :
    (timeoutBlock tx).run (asys lib) dlv me m = readOutcome (checkTimeout m tx) m := by
  simp only [timeoutBlock, run_getCurrentBlock hi, checkTimeout, readOutcome]
  split <;> rfl

/-- The check of `validateMemo`. -/
def checkMemo (m : World) (tx : AppTx) : Out (Except Err Unit) :=
  .ret (if (params m).maxMemo.toNat < tx.raw.memo.length then .error .other else .ok ())

theorem run_validateMemo (hi : AppInv m) (tx : AppTx) :
    (validateMemo tx).run (asys lib) dlv me m = readOutcome (checkMemo m tx) m := by
  simp only [validateMemo, run_getAuthnParams hi, checkMemo, readOutcome]
  split <;> rfl

/-- The check of `sigCount`. -/
def checkCount (m : World) (tx : AppTx) : Out (Except Err Unit) :=
  .ret (if (params m).sigLimit.toNat < tx.raw.signers.length then .error .other else .ok ())

theorem run_sigCount (hi : AppInv m) (tx : AppTx) :
    (sigCount tx).run (asys lib) dlv me m = readOutcome (checkCount m tx) m := by
  simp only [sigCount, run_getAuthnParams hi, checkCount, readOutcome]
  split <;> rfl

/-- The check of one signer. -/
def checkSigner (verify : Verify) (m : World) (raw : TxData) (s : Signer) : Out (Except Err Unit) :=
  if s.address = [] then .panic else match accountAt m s.address with
    | none => .ret (.error .notFound)
    | some acc =>
      if acc.pubKey = none then .ret (.error .other)
      else if acc.sequence ≠ s.sequence then .ret (.error .other)
      else match directSignBytes raw.bodyBytes raw.authInfoBytes (chainId m) acc.number with
        | .error e => .ret (.error e)
        | .ok expected =>
          if !verify s.pubKey.key expected s.signature then .ret (.error .other) else .ret (.ok ())

theorem checkSigner_ok {verify : Verify} {raw : TxData} {s : Signer} :
    checkSigner verify m raw s = .ret (.ok ()) ↔ s.address ≠ [] ∧ ∃ a, SignerOk verify m raw s a := by
  simp only [checkSigner]
  by_cases h : s.address = []
  · simp [h]
  simp only [h, if_false, ne_eq, not_false_eq_true, true_and]
  cases ha : accountAt m s.address with
  | none =>
    simp only [Out.ret.injEq, reduceCtorEq, false_iff]
    rintro ⟨a, h⟩
    have := h.account
    rw [ha] at this; cases this
  | some acc =>
    constructor
    · intro hc
      dsimp only at hc
      split at hc
      · cases hc
      · rename_i h1
        split at hc
        · cases hc
        · rename_i h2
          simp only [directSignBytes] at hc
          by_cases hu : validUtf8 (chainId m) = true
          · simp only [hu, if_true] at hc
            split at hc
            · cases hc
            · rename_i h3
              exact ⟨acc, ha, h1, Decidable.not_not.1 h2, hu, by simpa using h3⟩
          · simp only [hu] at hc
            cases hc
    · rintro ⟨a, h1⟩
      have := h1.account
      rw [ha] at this; cases this
      simp [h1.hasKey, h1.sequence, directSignBytes, h1.utf8, h1.verified]

theorem run_sigVerifier (hi : AppInv m) (tx : AppTx) :
    (sigVerifier lib.verify tx).run (asys lib) dlv me m =
      readOutcome (checkAll (checkSigner lib.verify m tx.raw) tx.raw.signers) m := by
  simp only [sigVerifier, run_getInitChainInfo hi]
  refine run_forEach ?_ _
  intro s k
  simp only [verifySigner, run_getAccount hi, checkSigner]
  by_cases h : s.address = []
  · simp only [h, if_true]
  · simp only [h, if_false]
    cases accountAt m s.address with
    | none => rfl
    | some acc =>
      dsimp only
      by_cases h1 : acc.pubKey = none
      · simp only [h1, if_true]
      · by_cases h2 : acc.sequence ≠ s.sequence
        · simp only [h1, if_false]; rw [if_pos h2, if_pos h2]
        · simp only [h1, h2, if_false]
          cases directSignBytes tx.raw.bodyBytes tx.raw.authInfoBytes (chainId m) acc.number with
          | error e => rfl
          | ok expected =>
            dsimp only
            cases lib.verify s.pubKey.key expected s.signature <;> rfl

/-- The check of `feeChecker`. -/
def checkFee (lib : CoinLib) (m : World) (tx : AppTx) : Out (Except Err Unit) :=
  if tx.raw.payer = [] then .panic else match balanceAt m tx.raw.payer with
    | none => .ret (.error .notFound)
    | some b => match lib.safeSubCoins b tx.raw.fee with
      | .panic => .panic
      | .ret (.error e) => .ret (.error e)
      | .ret (.ok _) => .ret (.ok ())

theorem run_feeChecker (hi : AppInv m) (tx : AppTx) :
    (feeChecker lib.coins tx).run (asys lib) dlv me m = readOutcome (checkFee lib.coins m tx) m := by
  simp only [feeChecker, run_getBalance hi, checkFee]
  by_cases h : tx.raw.payer = []
  · simp only [h, if_true]; rfl
  · simp only [h, if_false]
    cases balanceAt m tx.raw.payer with
    | none => rfl
    | some b =>
      simp only [run_withCoins]
      rcases lib.coins.safeSubCoins b tx.raw.fee with ⟨e | x⟩ | _ <;> rfl

theorem checkFee_ok {lib : CoinLib} {tx : AppTx} : checkFee lib m tx = .ret (.ok ()) ↔
    tx.raw.payer ≠ [] ∧ ∃ balance rest, balanceAt m tx.raw.payer = some balance ∧
      lib.safeSubCoins balance tx.raw.fee = .ret (.ok rest) := by
  simp only [checkFee]
  by_cases h : tx.raw.payer = []
  · simp [h]
  · simp only [h, if_false, ne_eq, not_false_eq_true, true_and]
    cases balanceAt m tx.raw.payer with
    | none => simp
    | some b =>
      simp only [Option.some.injEq]
      rcases hs : lib.safeSubCoins b tx.raw.fee with ⟨e | x⟩ | _
      · simp only [Out.ret.injEq, reduceCtorEq, false_iff]; rintro ⟨b', r, rfl, h⟩; rw [hs] at h; cases h
      · simp only [true_iff]; exact ⟨b, x, rfl, hs⟩
      · simp only [reduceCtorEq, false_iff]; rintro ⟨b', r, rfl, h⟩; rw [hs] at h; cases h

end

/-- The checks of authentication, in order. -/
def authChecks (lib : Libs) (m : World) (tx : AppTx) : List (Out (Except Err Unit)) :=
  [.ret (.ok ()), checkAll (checkAccount m) tx.users, checkTimeout m tx, checkMemo m tx,
    checkCount m tx, checkAll (checkSigner lib.verify m tx.raw) tx.raw.signers,
    checkFee lib.coins m tx]

/-- The outcome of authentication. -/
def authOutcome (lib : Libs) (m : World) (tx : AppTx) : Out (Except Err Unit) :=
  checkAll id (authChecks lib m tx)

theorem signed_iff {tx : AppTx} (hp : tx.raw.payer ≠ []) : Signed lib m tx ↔
    checkAll (checkAccount m) tx.users = .ret (.ok ()) ∧ checkTimeout m tx = .ret (.ok ()) ∧
    checkMemo m tx = .ret (.ok ()) ∧ checkCount m tx = .ret (.ok ()) ∧
    checkAll (checkSigner lib.verify m tx.raw) tx.raw.signers = .ret (.ok ()) := by
  simp only [checkAll_ok]
  constructor
  · intro h
    refine ⟨fun u hu => checkAccount_ok.2 (h.users u hu), ?_, ?_, ?_,
      fun s hs => checkSigner_ok.2 (h.signers s hs)⟩
    · simp only [checkTimeout]
      rw [if_neg]
      rintro ⟨h0, h1⟩
      rcases h.timeout with h2 | h2
      · exact h0 h2
      · exact absurd h1 (by simpa using h2)
    · simp only [checkMemo]; rw [if_neg (by have := h.memo; omega)]
    · simp only [checkCount]; rw [if_neg (by have := h.count; omega)]
  · rintro ⟨h1, h2, h3, h4, h5⟩
    refine ⟨fun u hu => checkAccount_ok.1 (h1 u hu), ?_, ?_, ?_,
      fun s hs => checkSigner_ok.1 (h5 s hs), hp⟩
    · simp only [checkTimeout] at h2
      split at h2
      · cases h2
      · rename_i hn
        by_cases h0 : tx.raw.timeout = 0
        · exact .inl h0
        · exact .inr (Decidable.not_not.1 fun h => hn ⟨h0, by simpa using h⟩)
    · simp only [checkMemo] at h3
      split at h3
      · cases h3
      · omega
    · simp only [checkCount] at h4
      split at h4
      · cases h4
      · omega

theorem authOutcome_ok {tx : AppTx} :
    authOutcome lib m tx = .ret (.ok ()) ↔ Authenticated lib m tx := by
  simp only [authOutcome, checkAll_ok (c := id), authChecks, List.forall_mem_cons, id]
  constructor
  · rintro ⟨_, h1, h2, h3, h4, h5, h6, _⟩
    exact ⟨(signed_iff (checkFee_ok.1 h6).1).2 ⟨h1, h2, h3, h4, h5⟩, (checkFee_ok.1 h6).2⟩
  · intro h
    obtain ⟨h1, h2, h3, h4, h5⟩ := (signed_iff h.payer).1 h.toSigned
    exact ⟨trivial, h1, h2, h3, h4, h5, checkFee_ok.2 ⟨h.payer, h.fee⟩, by simp⟩

theorem checkAll_ne {α : Type} {c : α → Out (Except Err Unit)} : ∀ {l : List α},
    (∀ a ∈ l, c a ≠ .panic) → checkAll c l ≠ .panic
  | [], _ => by simp [checkAll]
  | a :: as, h => by
    simp only [checkAll]
    rcases hc : c a with ⟨e | ⟨⟩⟩ | _
    · simp
    · exact checkAll_ne fun b hb => h b (by simp [hb])
    · exact absurd hc (h a (by simp))

theorem checkAll_last {x : Out (Except Err Unit)} : ∀ {l : List (Out (Except Err Unit))},
    (∀ a ∈ l, a ≠ .panic) → (checkAll id (l ++ [x]) = .panic ↔ (∀ a ∈ l, a = .ret (.ok ())) ∧ x = .panic)
  | [], _ => by rcases x with ⟨e | ⟨⟩⟩ | _ <;> simp [checkAll]
  | a :: as, h => by
    simp only [List.cons_append, checkAll, id, List.forall_mem_cons]
    rcases hc : a with ⟨e | ⟨⟩⟩ | _
    · simp
    · simp only [true_and]
      exact checkAll_last fun b hb => h b (List.mem_cons_of_mem _ hb)
    · exact absurd hc (h a (by simp))

theorem authOutcome_panic {tx : AppTx} (hu : ∀ u ∈ tx.users, u ≠ [])
    (hs : ∀ s ∈ tx.raw.signers, s.address ≠ []) (hp : tx.raw.payer ≠ []) :
    authOutcome lib m tx = .panic ↔ Signed lib m tx ∧ FeeCrashes lib m tx := by
  have hfee : checkFee lib.coins m tx = .panic ↔ FeeCrashes lib m tx := by
    simp only [checkFee, hp, if_false, FeeCrashes]
    cases balanceAt m tx.raw.payer with
    | none => simp
    | some b =>
      simp only [Option.some.injEq, exists_eq_left']
      rcases lib.coins.safeSubCoins b tx.raw.fee with ⟨e | x⟩ | _ <;> simp
  have h1 : checkAll (checkAccount m) tx.users ≠ .panic := checkAll_ne fun u hm h => by
    simp only [checkAccount, hu u hm, if_false] at h
    split at h <;> cases h
  have h5 : checkAll (checkSigner lib.verify m tx.raw) tx.raw.signers ≠ .panic := checkAll_ne fun s hm h => by
    simp only [checkSigner, hs s hm, if_false] at h
    split at h
    · cases h
    · split at h
      · cases h
      · split at h
        · cases h
        · split at h
          · cases h
          · split at h <;> cases h
  rw [signed_iff hp, ← hfee]
  refine (checkAll_last (l := [.ret (.ok ()), checkAll (checkAccount m) tx.users, checkTimeout m tx, checkMemo m tx,
    checkCount m tx, checkAll (checkSigner lib.verify m tx.raw) tx.raw.signers]) ?_).trans ?_
  · simp only [List.forall_mem_cons]
    exact ⟨nofun, h1, nofun, nofun, nofun, h5, nofun⟩
  · simp only [List.forall_mem_cons, List.not_mem_nil, false_imp_iff, implies_true, and_true, true_and]

/-- The outcome of authentication, as the chain reports it. -/
def authResult (o : Out (Except Err Unit)) (m : World) : Outcome := match o with
  | .panic => .panic
  | .ret (.ok ()) => .done (.ok ()) m
  | .ret (.error _) => .done (.error .badRequest) m

/-- Handlers that read only, and what they answer. -/
inductive Reads {H : Type} (run : H → World → Outcome) (m : World) :
    List H → List (Out (Except Err Unit)) → Prop
  | nil : Reads run m [] []
  | cons {h : H} {o : Out (Except Err Unit)} {hs : List H} {os : List (Out (Except Err Unit))} :
    run h m = readOutcome o m → Reads run m hs os → Reads run m (h :: hs) (o :: os)

theorem runAll_read {H : Type} {run : H → World → Outcome} {hs : List H}
    {os : List (Out (Except Err Unit))} (h : Reads run m hs os) :
    runAll run (fun _ => .badRequest) hs m = authResult (checkAll id os) m := by
  induction h with
  | nil => rfl
  | cons h1 _ ih =>
    simp only [runAll, checkAll, h1, id]
    rename_i o _ _ _
    rcases o with ⟨e | ⟨⟩⟩ | _
    · rfl
    · exact ih
    · rfl

theorem auth_chain (hi : AppInv m) (n : Nat) (tx : AppTx) :
    txChain (asys lib) (appRouter lib) n (appRouter lib).authAdmission tx m =
      authResult (authOutcome lib m tx) m :=
  runAll_read (.cons rfl (.cons (run_accountExists hi tx) (.cons (run_timeoutBlock hi tx)
    (.cons (run_validateMemo hi tx) (.cons (run_sigCount hi tx) (.cons (run_sigVerifier hi tx)
      (.cons (run_feeChecker hi tx) .nil)))))))

end Verif
