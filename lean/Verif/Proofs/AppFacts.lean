import Verif.Proofs.AppServed
/-! # What requests do to accounts, bindings and blocks -/

set_option linter.unusedSectionVars false
set_option linter.unusedSimpArgs false

namespace Verif
open Spec

variable {lib : Libs} {m m' : World}

/-! ## Sequences -/

theorem bump_other : ∀ (us : List Bytes) {m : World} {ty : Bytes}, ty ≠ tyAccount → bump m us ty = m ty
  | [], _, _, _ => rfl
  | u :: us, m, ty, h => by
    simp only [bump]
    cases accountAt m u with
    | none => exact bump_other us h
    | some a => exact (bump_other us h).trans (put_ne h _ _ _)

theorem bump_not_mem : ∀ (us : List Bytes) {m : World} {k : Bytes}, k ∉ us →
    accountAt (bump m us) k = accountAt m k
  | [], _, _, _ => rfl
  | u :: us, m, k, h => by
    simp only [List.mem_cons, not_or] at h
    simp only [bump]
    cases accountAt m u with
    | none => exact bump_not_mem us h.2
    | some a => exact (bump_not_mem us h.2).trans (by rw [accountAt_put, if_neg h.1])

theorem bump_mem : ∀ (us : List Bytes) {m : World} {k : Bytes} {a : Account}, us.Nodup → k ∈ us →
    accountAt m k = some a → accountAt (bump m us) k = some { a with sequence := a.sequence + 1 }
  | [], _, _, _, _, h, _ => by cases h
  | u :: us, m, k, a, hn, h, ha => by
    simp only [List.nodup_cons] at hn
    simp only [bump]
    rcases List.mem_cons.1 h with rfl | h
    · rw [ha]
      exact (bump_not_mem us hn.1).trans (by rw [accountAt_put, if_pos rfl])
    · have hne : k ≠ u := fun e => hn.1 (e ▸ h)
      cases accountAt m u with
      | none => exact bump_mem us hn.2 h ha
      | some b => exact bump_mem us hn.2 h (by rw [accountAt_put, if_neg hne, ha])

theorem tx_frame {lib : CoinLib} {tx : AppTx} {r : Except Err Unit} (hi : AppInv m)
    (h : doTx lib tx m = .done r m') : Frame (bump m tx.users) m' := by
  simp only [doTx] at h
  have hb := inv_bump tx.users hi
  generalize hs : doSend lib tx.raw.payer feeCollector tx.raw.fee (bump m tx.users) = y at h
  rcases y with ⟨e | ⟨⟩, s⟩ | _ | _
  · cases h; exact framed_send _ _ _ _ hb hs
  · exact (framed_send _ _ _ _ hb hs).trans (framed_transitions _ _ (keeps_send _ _ _ _ hb hs) h)
  · cases h
  · cases h

theorem Spec.Decoded.nodup {tx : AppTx} (h : Decoded tx) : tx.users.Nodup := by
  exact h.users.nodup_iff.2 (Props.C30_ofNames _).1

theorem Spec.Decoded.mem_users {tx : AppTx} (h : Decoded tx) {u : Bytes} :
    u ∈ tx.users ↔ ∃ s ∈ tx.raw.signers, s.address = u := by
  rw [h.users.mem_iff, (Props.C30_ofNames _).2, List.mem_map]

/-- An executed transaction increments the sequences of its users, and leaves other accounts as
they are. -/
theorem tx_account {tx : AppTx} {r : Except Err Unit} (hi : AppInv m) (hd : Decoded tx)
    (h : doTx lib.coins tx m = .done r m') {k : Bytes} {a : Account} (ha : accountAt m k = some a) :
    accountAt m' k = some (if k ∈ tx.users then { a with sequence := a.sequence + 1 } else a) := by
  have hf := tx_frame hi h
  rw [accountAt_eq]
  apply hf.accounts
  rw [← accountAt_eq]
  split
  · rename_i hk; exact bump_mem _ hd.nodup hk ha
  · rename_i hk; rw [bump_not_mem _ hk, ha]

theorem block_account {b : BlockReq} {k : Bytes} : accountAt (doBeginBlock b m) k = accountAt m k := by
  rw [accountAt, accountAt, doBeginBlock, put_ne (by decide), put_ne (by decide), put_ne (by decide)]

theorem end_account {h : Int} {k : Bytes} : accountAt (doEndBlock h m) k = accountAt m k := by
  rw [accountAt, accountAt, doEndBlock, put_ne (by decide), put_ne (by decide)]

theorem seq_zero (a : Account) : { a with sequence := a.sequence + BitVec.ofNat 64 0 } = a := by
  cases a; simp

theorem serve_account (hw : DecodesWell lib) (hi : AppInv m) {call : Call BlockReq} {r : Resp Obj}
    (h : Serve lib m call r m') {k : Bytes} {a : Account} (ha : accountAt m k = some a) :
    ∃ n, n ≤ 1 ∧ accountAt m' k = some { a with sequence := a.sequence + BitVec.ofNat 64 n } := by
  cases h with
  | executed bytes tx r h1 h2 _ h =>
    rename_i h3
    rw [tx_account hi (hw h2) h ha]
    split
    · exact ⟨1, by omega, rfl⟩
    · exact ⟨0, by omega, by rw [seq_zero]⟩
  | beginBlock b => exact ⟨0, by omega, by rw [seq_zero, block_account, ha]⟩
  | endBlock b => exact ⟨0, by omega, by rw [seq_zero, end_account, ha]⟩
  | _ => exact ⟨0, by omega, by rw [seq_zero, ha]⟩

theorem run_account (hw : DecodesWell lib) {calls : List (Call BlockReq)} {rs : List (Resp Obj)}
    (hr : Spec.Run lib m calls rs m') : AppInv m → ∀ {k : Bytes} {a : Account}, accountAt m k = some a →
    ∃ n, n ≤ calls.length ∧ accountAt m' k = some { a with sequence := a.sequence + BitVec.ofNat 64 n } := by
  induction hr with
  | nil => intro _ k a ha; exact ⟨0, by simp, by rw [seq_zero, ha]⟩
  | @cons m m₁ m' c r cs rs h1 _ ih =>
    intro hi k a ha
    obtain ⟨n₁, l1, h2⟩ := serve_account hw hi h1 ha
    obtain ⟨n₂, l2, h3⟩ := ih (serve_inv hi h1) h2
    refine ⟨n₁ + n₂, by simp; omega, ?_⟩
    rw [h3]
    simp only [Option.some.injEq, Account.mk.injEq, true_and]
    rw [BitVec.ofNat_add, BitVec.add_assoc]

/-! ## Bindings -/

theorem serve_binding (hi : AppInv m) {call : Call BlockReq} {r : Resp Obj} (h : Serve lib m call r m')
    {k : Bytes} {o : Obj} (hk : m tyRoleBinding k = some o) : m' tyRoleBinding k = some o := by
  cases h with
  | executed bytes tx r h1 h2 _ h =>
    exact (tx_frame hi h).bindings k o (by rw [bump_other _ (by decide), hk])
  | beginBlock b => rw [doBeginBlock, put_ne (by decide), put_ne (by decide), put_ne (by decide), hk]
  | endBlock b => rw [doEndBlock, put_ne (by decide), put_ne (by decide), hk]
  | _ => exact hk

theorem run_binding {calls : List (Call BlockReq)} {rs : List (Resp Obj)}
    (hr : Spec.Run lib m calls rs m') : AppInv m → ∀ {k : Bytes} {o : Obj}, m tyRoleBinding k = some o →
    m' tyRoleBinding k = some o := by
  induction hr with
  | nil => intro _ k o h; exact h
  | cons h1 _ ih => intro hi k o h; exact ih (serve_inv hi h1) (serve_binding hi h1 h)

theorem inv_binding (hi : AppInv m) {k : Bytes} {o : Obj} (h : m tyRoleBinding k = some o) :
    ∃ subject ref role, o = .roleBinding subject ref ∧ encKey subject = k ∧ m tyRole ref = some (.role role) := by
  by_cases hk : ∃ e ∈ moduleRoles, e.1 = k
  · obtain ⟨e, he, rfl⟩ := hk
    rw [hi.modules e he] at h
    cases h
    refine ⟨e.1, e.2.id, ?_⟩
    simp only [moduleRoles, List.mem_cons, List.not_mem_nil, or_false] at he
    rw [hi.roles]
    rcases he with rfl | rfl | rfl | rfl | rfl | rfl | rfl | rfl <;> exact ⟨_, rfl, rfl, rfl⟩
  · obtain ⟨a, h1, rfl⟩ := hi.others k o h fun e he hek => hk ⟨e, he, hek⟩
    exact ⟨a, externalRoleID, externalRole, rfl, h1, by rw [hi.roles]; rfl⟩

/-! ## Blocks -/

theorem height_congr (h : m' tyCurrentBlock = m tyCurrentBlock) : height m' = height m := by
  simp only [height, h]

theorem tx_rest {lib : CoinLib} {tx : AppTx} {r : Except Err Unit} (hi : AppInv m)
    (h : doTx lib tx m = .done r m') {ty : Bytes} (ht : ty ∉ userTypes) : m' ty = m ty := by
  rw [(tx_frame hi h).rest ty ht, bump_other]
  rintro rfl
  exact ht (by decide)

theorem serve_height (hi : AppInv m) {call : Call BlockReq} {r : Resp Obj} (h : Serve lib m call r m') :
    height m' = match call with
      | .beginBlock b => b.height
      | _ => height m := by
  cases h with
  | executed bytes tx r h1 h2 _ h => exact height_congr (tx_rest hi h (by decide))
  | beginBlock b =>
    simp only [height, doBeginBlock, put_same, if_true]
  | endBlock b => exact height_congr (by rw [doEndBlock, put_ne (by decide), put_ne (by decide)])
  | _ => rfl

theorem serve_updates (hi : AppInv m) {call : Call BlockReq} {r : Resp Obj} (h : Serve lib m call r m') :
    m' tyValidatorUpdates = m tyValidatorUpdates := by
  cases h with
  | executed bytes tx r h1 h2 _ h => exact tx_rest hi h (by decide)
  | beginBlock b => rw [doBeginBlock, put_ne (by decide), put_ne (by decide), put_ne (by decide)]
  | endBlock b => rw [doEndBlock, put_ne (by decide), put_ne (by decide)]
  | _ => rfl

theorem serve_chainId (hi : AppInv m) {call : Call BlockReq} {r : Resp Obj} (h : Serve lib m call r m') :
    chainId m' = chainId m := by
  have : m' tyInitChainInfo = m tyInitChainInfo := by
    cases h with
    | executed bytes tx r h1 h2 _ h => exact tx_rest hi h (by decide)
    | beginBlock b => rw [doBeginBlock, put_ne (by decide), put_ne (by decide), put_ne (by decide)]
    | endBlock b => rw [doEndBlock, put_ne (by decide), put_ne (by decide)]
    | _ => rfl
  simp only [chainId, this]

/-! ## Account numbers -/

/-- Accounts are only added, with the next numbers. -/
def Numbers (f : World → Outcome) : Prop := ∀ ⦃m r m'⦄, AppInv m → f m = .done r m' →
  ∀ ⦃ks⦄, Numbered m ks → ∃ more, Numbered m' (ks ++ more)

theorem Numbers.andThen {f g : World → Outcome} (hk : Keeps f) (hf : Numbers f) (hg : Numbers g) :
    Numbers fun m => Spec.andThen (f m) g := by
  intro m r m' hi h ks hn
  rcases andThen_done h with ⟨e, h1, _⟩ | ⟨m₁, h1, h2⟩
  · exact hf hi h1 hn
  · obtain ⟨x, hx⟩ := hf hi h1 hn
    obtain ⟨y, hy⟩ := hg (hk hi h1) h2 hx
    exact ⟨x ++ y, by rw [← List.append_assoc]; exact hy⟩

theorem Spec.Numbered.congr {ks : List Bytes} (hn : Numbered m ks) (h1 : m' tyAccount = m tyAccount)
    (h2 : m' tyAccountNumber = m tyAccountNumber) : Numbered m' ks := by
  have : ∀ k, accountAt m' k = accountAt m k := fun k => by simp only [accountAt, h1]
  refine ⟨hn.nodup, fun k => by rw [this]; exact hn.accounts k, fun i k h => by rw [this]; exact hn.numbers i k h, ?_⟩
  have : nextNumber m' = nextNumber m := by simp only [nextNumber, h2]
  rw [this, hn.next]

theorem Spec.Numbered.same {ks : List Bytes} (hn : Numbered m ks) : ∃ more, Numbered m (ks ++ more) :=
  ⟨[], by simpa using hn⟩

theorem numbers_setBalance (a : Bytes) (cs : List Coin) : Numbers (doSetBalance a cs) := by
  intro m r m' hi h ks hn
  have hp : ∀ k v, Numbered (m.put tyBalance k v) ks := fun k v =>
    hn.congr (put_ne (by decide) _ _ _) (put_ne (by decide) _ _ _)
  simp only [doSetBalance] at h
  split at h
  · cases h
  split at h
  · cases h; exact hn.same
  · cases h
  · split at h
    · cases h; exact (hp _ _).same
    · cases h

theorem numbers_createAccount (a : Bytes) (pk : Option AnyMsg) : Numbers (doCreateAccount a pk) := by
  intro m r m' hi h ks hn
  simp only [doCreateAccount] at h
  split at h
  · cases h
  rename_i hc
  simp only [not_or] at hc
  cases h
  have hacc : ∀ k, accountAt (((m.put tyAccount (encKey a) (some (.account ⟨a, pk, nextNumber m, 0⟩))).put
      tyAccountNumber singletonID (some (.accountNumber (nextNumber m + 1)))).put tyRoleBinding (encKey a)
      (some (.roleBinding a externalRoleID))) k =
      if k = encKey a then some ⟨a, pk, nextNumber m, 0⟩ else accountAt m k := by
    intro k
    rw [← accountAt_put, accountAt, put_ne (by decide), put_ne (by decide)]
    rfl
  have hnew : encKey a ∉ ks := fun hm => hc.2.1 ((hn.accounts _).2 hm)
  refine ⟨[encKey a], ?_, ?_, ?_, ?_⟩
  · rw [List.nodup_append]
    refine ⟨hn.nodup, by simp, ?_⟩
    intro x hx y hy
    rw [List.mem_singleton] at hy
    rintro rfl
    exact hnew (hy ▸ hx)
  · intro k
    rw [hacc, List.mem_append, List.mem_singleton, ← hn.accounts]
    by_cases h : k = encKey a
    · simp [h]
    · simp [h]
  · intro i k hk
    rw [hacc]
    by_cases hl : i < ks.length
    · rw [List.getElem?_append_left hl] at hk
      have : k ≠ encKey a := by
        rintro rfl
        exact hnew (List.mem_of_getElem? hk)
      rw [if_neg this]
      exact hn.numbers i k hk
    · rw [List.getElem?_append_right (by omega)] at hk
      have hi' : i - ks.length = 0 := by
        by_cases h0 : i - ks.length = 0
        · exact h0
        · rw [List.getElem?_eq_none (by simp; omega)] at hk; cases hk
      rw [hi'] at hk
      simp only [List.getElem?_cons_zero, Option.some.injEq] at hk
      subst hk
      rw [if_pos rfl]
      refine ⟨_, rfl, ?_⟩
      rw [show i = ks.length by omega]
      exact hn.next
  · rw [nextNumber, put_ne (by decide), put_same, if_pos rfl]
    simp only [List.length_append, List.length_singleton]
    rw [hn.next, BitVec.ofNat_add]
    rfl

theorem numbers_ensureAccount (a : Bytes) : Numbers (doEnsureAccount a) := by
  intro m r m' hi h ks hn
  simp only [doEnsureAccount] at h
  split at h
  · cases h; exact hn.same
  · exact numbers_createAccount a none hi h hn

theorem numbers_credit (lib : CoinLib) (a : Bytes) (cs : List Coin) : Numbers (doCredit lib a cs) := by
  intro m r m' hi h ks hn
  simp only [doCredit] at h
  split at h
  · cases h
  split at h
  · exact Numbers.andThen (keeps_setBalance a cs) (numbers_setBalance a cs) (numbers_ensureAccount a) hi h hn
  · split at h
    · cases h
    · cases h; exact hn.same
    · exact numbers_setBalance _ _ hi h hn

theorem numbers_send (lib : CoinLib) (a b : Bytes) (cs : List Coin) : Numbers (doSend lib a b cs) := by
  intro m r m' hi h ks hn
  simp only [doSend] at h
  split at h
  · cases h
  split at h
  · cases h; exact hn.same
  · split at h
    · cases h
    · cases h; exact hn.same
    · exact Numbers.andThen (keeps_setBalance a _) (numbers_setBalance a _) (numbers_credit lib b cs) hi h hn

theorem numbers_transition (lib : CoinLib) (t : Tr) : Numbers (doTransition lib t) := by
  intro m r m' hi h ks hn
  unfold doTransition at h
  split at h
  · cases h
  · exact numbers_createAccount _ _ hi h hn
  · exact numbers_send _ _ _ _ hi h hn
  · split at h
    · cases h
    · cases h; exact hn.same
  · cases h; exact hn.same

theorem numbers_transitions (lib : CoinLib) : ∀ ts : List Tr, Numbers (doTransitions lib ts)
  | [] => by intro m r m' hi h ks hn; cases h; exact hn.same
  | t :: ts => Numbers.andThen (keeps_transition lib t) (numbers_transition lib t) (numbers_transitions lib ts)

theorem numbered_bump {ks : List Bytes} : ∀ (us : List Bytes) {m : World}, Numbered m ks → Numbered (bump m us) ks
  | [], _, h => h
  | u :: us, m, hn => by
    simp only [bump]
    cases ha : accountAt m u with
    | none => exact numbered_bump us hn
    | some a =>
      refine numbered_bump us ⟨hn.nodup, fun k => ?_, fun i k hk => ?_, ?_⟩
      · rw [accountAt_put]
        by_cases h : k = u
        · subst h
          simp only [if_true, Option.isSome_some, true_iff]
          exact (hn.accounts k).1 (by rw [ha]; rfl)
        · rw [if_neg h]; exact hn.accounts k
      · rw [accountAt_put]
        obtain ⟨b, hb, hnum⟩ := hn.numbers i k hk
        by_cases h : k = u
        · subst h
          rw [ha] at hb; cases hb
          rw [if_pos rfl]
          exact ⟨_, rfl, hnum⟩
        · rw [if_neg h]; exact ⟨b, hb, hnum⟩
      · rw [nextNumber, put_ne (by decide)]; exact hn.next

theorem numbers_tx (lib : CoinLib) (tx : AppTx) : Numbers (doTx lib tx) := by
  intro m r m' hi h ks hn
  simp only [doTx] at h
  have hb := inv_bump tx.users hi
  have hnb := numbered_bump tx.users hn
  generalize hs : doSend lib tx.raw.payer feeCollector tx.raw.fee (bump m tx.users) = y at h
  rcases y with ⟨e | ⟨⟩, s⟩ | _ | _
  · cases h; exact numbers_send _ _ _ _ hb hs hnb
  · obtain ⟨x, hx⟩ := numbers_send _ _ _ _ hb hs hnb
    obtain ⟨y, hy⟩ := numbers_transitions _ _ (keeps_send _ _ _ _ hb hs) h hx
    exact ⟨x ++ y, by rw [← List.append_assoc]; exact hy⟩
  · cases h
  · cases h

theorem serve_numbers (hi : AppInv m) {call : Call BlockReq} {r : Resp Obj} (h : Serve lib m call r m')
    {ks : List Bytes} (hn : Numbered m ks) : ∃ more, Numbered m' (ks ++ more) := by
  cases h with
  | executed bytes tx r h1 h2 _ h => exact numbers_tx _ _ hi h hn
  | beginBlock b => exact (hn.congr (by rw [doBeginBlock, put_ne (by decide), put_ne (by decide), put_ne (by decide)])
      (by rw [doBeginBlock, put_ne (by decide), put_ne (by decide), put_ne (by decide)])).same
  | endBlock b => exact (hn.congr (by rw [doEndBlock, put_ne (by decide), put_ne (by decide)])
      (by rw [doEndBlock, put_ne (by decide), put_ne (by decide)])).same
  | _ => exact hn.same

theorem run_numbers {calls : List (Call BlockReq)} {rs : List (Resp Obj)}
    (hr : Spec.Run lib m calls rs m') : AppInv m → ∀ {ks : List Bytes}, Numbered m ks →
    ∃ more, Numbered m' (ks ++ more) := by
  induction hr with
  | nil => intro _ ks h; exact h.same
  | cons h1 _ ih =>
    intro hi ks h
    obtain ⟨x, hx⟩ := serve_numbers hi h1 h
    obtain ⟨y, hy⟩ := ih (serve_inv hi h1) hx
    exact ⟨x ++ y, by rw [← List.append_assoc]; exact hy⟩

theorem genesis_numbered (c : Bytes) : Numbered (genesisWorld lib c) [genesisAddress] := by
  have h : ∀ k, accountAt (genesisWorld lib c) k = if k = genesisAddress then some genesisAccount else none := by
    intro k
    rw [accountAt, genesisWorld_eq, put_ne (by decide), put_ne (by decide), baseWorld, fill_eq, writes_account]
    by_cases h : k = genesisAddress
    · subst h; rfl
    · simp [h, Ne.symm h, Contents.empty]
  refine ⟨by simp, fun k => ?_, fun i k hk => ?_, rfl⟩
  · rw [h]
    by_cases h : k = genesisAddress <;> simp [h]
  · cases i with
    | zero =>
      simp only [List.getElem?_cons_zero, Option.some.injEq] at hk
      subst hk
      exact ⟨genesisAccount, by rw [h, if_pos rfl], rfl⟩
    | succ i => simp at hk

end Verif
