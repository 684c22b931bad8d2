import Verif.Proofs.Safe
/-!
# Holders of coins and their accounts: lemmas
-/

namespace Verif
open Spec

variable {lib : CoinLib} {m m' : World}

/-! ## Holders have accounts -/

/-- Whoever has coins has an account. -/
def OwnersExist (m : World) : Prop := ∀ k, (balanceAt m k).isSome → (accountAt m k).isSome

theorem ensure_some {b : Bytes} (hb : b.length < 128) {r : Except Err Unit} (h : doEnsureAccount b m = .done r m') :
    (accountAt m' b).isSome := by
  simp only [doEnsureAccount] at h
  split at h
  · rename_i h1; cases h; exact h1
  · simp only [doCreateAccount, encKey_short hb] at h
    split at h
    · cases h
    · cases h
      rw [accountAt, put_ne (by decide), put_ne (by decide), ← accountAt, accountAt_put, if_pos rfl]
      rfl

theorem setBalance_ok {a : Bytes} {cs : List Coin} (ha : a.length < 128) {r : Except Err Unit}
    (h : doSetBalance a cs m = .done r m') : r = .ok () ∧ m' = m.put tyBalance a (some (.balance a cs)) := by
  rw [setBalance_short ha] at h
  split at h
  · cases h
  · split at h
    · cases h; exact ⟨rfl, rfl⟩
    · cases h

theorem credit_owner {b : Bytes} {cs : List Coin} (hb : b.length < 128) {r : Except Err Unit}
    (h : doCredit lib b cs m = .done r m') : (balanceAt m b).isSome ∨ (accountAt m' b).isSome := by
  cases hbal : balanceAt m b with
  | some old => exact .inl rfl
  | none =>
    simp only [doCredit, hbal] at h
    split at h
    · cases h
    · rcases andThen_done h with ⟨e, h1, _⟩ | ⟨m₁, _, h2⟩
      · cases (setBalance_ok hb h1).1
      · exact .inr (ensure_some hb h2)

theorem balanceAt_put_ne {a k : Bytes} {cs : List Coin} (h : k ≠ a) :
    balanceAt (m.put tyBalance a (some (.balance a cs))) k = balanceAt m k := by
  simp [balanceAt, put_same, h]

theorem send_owner {a b : Bytes} {cs : List Coin} (ha : a.length < 128) (hb : b.length < 128) {r : Except Err Unit}
    (h : doSend lib a b cs m = .done r m') {k : Bytes} (hk : (balanceAt m' k).isSome) :
    (balanceAt m k).isSome ∨ (accountAt m' k).isSome := by
  by_cases hka : k = a ∨ k = b
  · simp only [doSend] at h
    split at h
    · cases h
    · split at h
      · cases h; exact .inl hk
      · rename_i old hold
        by_cases hna : k = a
        · rw [hna, hold]; exact .inl rfl
        · have hkb : k = b := by tauto
          subst hkb
          split at h
          · cases h
          · cases h; exact .inl hk
          · rcases andThen_done h with ⟨e, h1, _⟩ | ⟨m₁, h1, h2⟩
            · cases (setBalance_ok ha h1).1
            · rw [(setBalance_ok ha h1).2] at h2
              have := credit_owner hb h2
              rwa [balanceAt_put_ne hna] at this
  · have := send_touches h k (by
      rw [encKey_short ha, encKey_short hb]
      simpa using hka)
    rw [this] at hk
    exact .inl hk

theorem frame_some (h : Frame m m') {k : Bytes} (hk : (accountAt m k).isSome) : (accountAt m' k).isSome := by
  cases ha : accountAt m k with
  | none => rw [ha] at hk; cases hk
  | some a => rw [accountAt_eq] at ha; rw [accountAt_eq.2 (h.accounts k _ ha)]; rfl

theorem send_owners (hi : AppInv m) (ho : OwnersExist m) {a b : Bytes} {cs : List Coin} (ha : a.length < 128)
    (hb : b.length < 128) {r : Except Err Unit} (h : doSend lib a b cs m = .done r m') : OwnersExist m' :=
  fun k hk => (send_owner ha hb h hk).elim (fun h1 => frame_some (framed_send _ _ _ _ hi h) (ho k h1)) id

theorem transition_owners (hi : AppInv m) (ho : OwnersExist m) {t : Tr} (ht : ShortTransition t)
    {r : Except Err Unit} (h : doTransition lib t m = .done r m') : OwnersExist m' := by
  cases t with
  | sendCoins a b cs => exact send_owners hi ho ht.1 ht.2 h
  | _ =>
    intro k hk
    refine frame_some (framed_transition _ _ hi h) (ho k ?_)
    rw [← transition_touches h k (by simp [transfersOf])]
    exact hk

theorem transitions_owners : ∀ {ts : List Tr} {m : World} (_ : AppInv m) (_ : OwnersExist m)
    (_ : ∀ t ∈ ts, ShortTransition t) {r : Except Err Unit}, doTransitions lib ts m = .done r m' → OwnersExist m'
  | [], _, _, ho, _, _, h => by cases h; exact ho
  | t :: ts, m, hi, ho, ht, r, h => by
    rcases andThen_done h with ⟨e, h1, _⟩ | ⟨m₁, h1, h2⟩
    · exact transition_owners hi ho (ht t (by simp)) h1
    · exact transitions_owners (keeps_transition _ _ hi h1) (transition_owners hi ho (ht t (by simp)) h1)
        (fun t h => ht t (by simp [h])) h2

theorem bump_owners (ho : OwnersExist m) (us : List Bytes) : OwnersExist (bump m us) := by
  intro k hk
  rw [bump_isSome]
  rw [bump_balances] at hk
  exact ho k hk

theorem tx_owners (hi : AppInv m) (ho : OwnersExist m) {tx : AppTx} (ht : ShortTx tx) {r : Except Err Unit}
    (h : doTx lib tx m = .done r m') : OwnersExist m' := by
  have hib := inv_bump tx.users hi
  have hob := bump_owners ho tx.users
  have hfc : feeCollector.length < 128 := by decide
  rcases andThen_done h with ⟨e, h1, _⟩ | ⟨m₁, h1, h2⟩
  · obtain ⟨r', h1⟩ := asBadRequest_done h1
    exact send_owners hib hob ht.1 hfc h1
  · obtain ⟨r', h1⟩ := asBadRequest_done h1
    exact transitions_owners (keeps_send _ _ _ _ hib h1) (send_owners hib hob ht.1 hfc h1) ht.2 h2

theorem serve_owners {lib : Libs} (hi : AppInv m) (ho : OwnersExist m) {call : Call BlockReq} {r : Resp Obj}
    (hs : ∀ bytes, call = .deliverTx bytes → ∀ tx, lib.decode bytes = .ret (.ok tx) → ShortTx tx)
    (h : Serve lib m call r m') : OwnersExist m' := by
  cases h with
  | executed _ bytes tx r h1 h2 h3 => exact tx_owners hi ho (hs _ rfl _ h1) h3
  | beginBlock b => intro k hk; rw [block_account]; exact ho k (by rwa [begin_balances] at hk)
  | endBlock b => intro k hk; rw [end_account]; exact ho k (by rwa [end_balances] at hk)
  | _ => exact ho

theorem run_owners {lib : Libs} {calls : List (Call BlockReq)} {rs : List (Resp Obj)} (hr : Spec.Run lib m calls rs m')
    (hi : AppInv m) (ho : OwnersExist m) (hs : ShortCalls lib calls) : OwnersExist m' := by
  induction hr with
  | nil => exact ho
  | cons h1 _ ih =>
    exact ih (serve_inv hi h1) (serve_owners hi ho (fun b hb => hs b (by simp [hb])) h1)
      fun b hb => hs b (by simp [hb])

theorem genesis_owners (lib : Libs) (c : Bytes) : OwnersExist (genesisWorld lib c) := by
  intro k hk
  rw [genesis_balance] at hk
  split at hk
  · rename_i h; rw [h]; rfl
  · cases hk

theorem served_owners {lib : Libs} (hw : DecodesWell lib) {calls : List (Call BlockReq)} {rs : List (Resp Obj)}
    (h : Served lib calls rs m) (hs : ShortCalls lib calls) : OwnersExist m := by
  rcases served_run hw h with ⟨rfl, _⟩ | ⟨pre, rs₀, c, post, rs', rfl, _, _, _, hu, hr⟩
  · intro k hk; cases hk
  · exact run_owners hr (genesis_inv hu) (genesis_owners lib c) fun b hb => hs b (by simp [hb])

/-! ## Accounts without a key -/

/-- There is no account under the key that has a public key. -/
def Keyless (m : World) (k : Bytes) : Prop := ∀ a, accountAt m k = some a → a.pubKey = none

theorem Keyless.congr {k : Bytes} (h : Keyless m k) (he : m' tyAccount = m tyAccount) : Keyless m' k := by
  intro a ha
  refine h a ?_
  simpa only [accountAt, he] using ha

theorem keyless_create {k a : Bytes} {p : Option AnyMsg} (hk : Keyless m k) (h0 : encKey a = k → p = none)
    {r : Except Err Unit} (h : doCreateAccount a p m = .done r m') : Keyless m' k := by
  simp only [doCreateAccount] at h
  split at h
  · cases h
  · cases h
    intro x hx
    rw [accountAt, put_ne (by decide), put_ne (by decide), ← accountAt, accountAt_put] at hx
    split at hx
    · rename_i he; cases hx; exact h0 he.symm
    · exact hk x hx

theorem keyless_setBalance {k a : Bytes} {cs : List Coin} (hk : Keyless m k) {r : Except Err Unit}
    (h : doSetBalance a cs m = .done r m') : Keyless m' k := by
  simp only [doSetBalance] at h
  split at h
  · cases h
  · split at h
    · cases h; exact hk
    · cases h
    · split at h
      · cases h; exact hk.congr (put_ne (by decide) _ _ _)
      · cases h

theorem keyless_credit {k b : Bytes} {cs : List Coin} (hk : Keyless m k) {r : Except Err Unit}
    (h : doCredit lib b cs m = .done r m') : Keyless m' k := by
  simp only [doCredit] at h
  split at h
  · cases h
  · split at h
    · rcases andThen_done h with ⟨e, h1, _⟩ | ⟨m₁, h1, h2⟩
      · exact keyless_setBalance hk h1
      · simp only [doEnsureAccount] at h2
        split at h2
        · cases h2; exact keyless_setBalance hk h1
        · exact keyless_create (keyless_setBalance hk h1) (fun _ => rfl) h2
    · split at h
      · cases h
      · cases h; exact hk
      · exact keyless_setBalance hk h

theorem keyless_send {k a b : Bytes} {cs : List Coin} (hk : Keyless m k) {r : Except Err Unit}
    (h : doSend lib a b cs m = .done r m') : Keyless m' k := by
  simp only [doSend] at h
  split at h
  · cases h
  · split at h
    · cases h; exact hk
    · split at h
      · cases h
      · cases h; exact hk
      · rcases andThen_done h with ⟨e, h1, _⟩ | ⟨m₁, h1, h2⟩
        · exact keyless_setBalance hk h1
        · exact keyless_credit (keyless_setBalance hk h1) h2

/-- The transition does not create an account with a public key under the given key. -/
def GivesNoKey (k : Bytes) (t : Tr) : Prop := ∀ a, t = .createAccount (some a) → encKey a.address = k → a.pubKey = none

theorem keyless_transition {k : Bytes} {t : Tr} (hk : Keyless m k) (ht : GivesNoKey k t) {r : Except Err Unit}
    (h : doTransition lib t m = .done r m') : Keyless m' k := by
  unfold doTransition at h
  split at h
  · cases h
  · exact keyless_create hk (ht _ rfl) h
  · exact keyless_send hk h
  · split at h
    · cases h
    · cases h; exact hk
  · cases h; exact hk

theorem keyless_transitions {k : Bytes} : ∀ {ts : List Tr} {m : World} (_ : Keyless m k)
    (_ : ∀ t ∈ ts, GivesNoKey k t) {r : Except Err Unit}, doTransitions lib ts m = .done r m' → Keyless m' k
  | [], _, hk, _, _, h => by cases h; exact hk
  | t :: ts, m, hk, ht, r, h => by
    rcases andThen_done h with ⟨e, h1, _⟩ | ⟨m₁, h1, h2⟩
    · exact keyless_transition hk (ht t (by simp)) h1
    · exact keyless_transitions (keyless_transition hk (ht t (by simp)) h1) (fun t h => ht t (by simp [h])) h2

theorem keyless_bump {k : Bytes} : ∀ (us : List Bytes) {m : World} (_ : Keyless m k), Keyless (bump m us) k
  | [], _, hk => hk
  | u :: us, m, hk => by
    simp only [bump]
    cases ha : accountAt m u with
    | none => exact keyless_bump us hk
    | some a =>
      refine keyless_bump us fun x hx => ?_
      rw [accountAt_put] at hx
      split at hx
      · rename_i he; cases hx; exact hk a (by rw [he, ha])
      · exact hk x hx

theorem keyless_tx {k : Bytes} {tx : AppTx} (hk : Keyless m k) (ht : ∀ t ∈ tx.transitions, GivesNoKey k t)
    {r : Except Err Unit} (h : doTx lib tx m = .done r m') : Keyless m' k := by
  have hkb := keyless_bump tx.users hk
  rcases andThen_done h with ⟨e, h1, _⟩ | ⟨m₁, h1, h2⟩
  · obtain ⟨r', h1⟩ := asBadRequest_done h1
    exact keyless_send hkb h1
  · obtain ⟨r', h1⟩ := asBadRequest_done h1
    exact keyless_transitions (keyless_send hkb h1) ht h2

theorem keyless_serve {lib : Libs} {k : Bytes} (hk : Keyless m k) {call : Call BlockReq} {r : Resp Obj}
    (hs : ∀ bytes, call = .deliverTx bytes → ∀ tx, lib.decode bytes = .ret (.ok tx) → ∀ t ∈ tx.transitions, GivesNoKey k t)
    (h : Serve lib m call r m') : Keyless m' k := by
  cases h with
  | executed _ bytes tx r h1 h2 h3 => exact keyless_tx hk (hs _ rfl _ h1) h3
  | beginBlock b => intro a ha; rw [block_account] at ha; exact hk a ha
  | endBlock b => intro a ha; rw [end_account] at ha; exact hk a ha
  | _ => exact hk

end Verif
