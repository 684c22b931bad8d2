import Verif.Proofs.AppRun
/-! # The invariant of the application -/

set_option linter.unusedSectionVars false
set_option linter.unusedSimpArgs false

namespace Verif
open Spec

variable {lib : Libs} {m m' : World}

theorem storable_put {ty k : Bytes} {o : Obj} (hi : ∀ ty k o, m ty k = some o → appStorable o = true)
    (ho : appStorable o = true) : ∀ ty' k' o', m.put ty k (some o) ty' k' = some o' → appStorable o' = true := by
  intro ty' k' o' h
  simp only [Contents.put] at h
  split at h
  · cases h; exact ho
  · exact hi _ _ _ h

theorem Spec.AppInv.putBalance (hi : AppInv m) (a : Bytes) (cs : List Coin)
    (ho : appStorable (.balance a cs) = true) :
    AppInv (m.put tyBalance (encKey a) (some (.balance a cs))) where
  toRolesInv := hi.toRolesInv.put (by decide) (by decide)
  others := by rw [put_ne (by decide)]; exact hi.others
  accounts := by rw [put_ne (by decide), put_ne (by decide)]; exact hi.accounts
  balances := by
    intro k o h
    rw [put_same] at h
    split at h
    · rename_i hk; cases h; exact ⟨a, cs, rfl, hk.symm⟩
    · exact hi.balances k o h
  number := by rw [put_ne (by decide)]; exact hi.number
  params := by rw [put_ne (by decide)]; exact hi.params
  height := by rw [put_ne (by decide)]; exact hi.height
  stage := by rw [put_ne (by decide)]; exact hi.stage
  chainId := by rw [put_ne (by decide)]; exact hi.chainId
  updates := by rw [put_ne (by decide)]; exact hi.updates
  beginState := by rw [put_ne (by decide)]; exact hi.beginState
  endState := by rw [put_ne (by decide)]; exact hi.endState
  mods := by rw [put_ne (by decide)]; exact hi.mods
  storable := storable_put hi.storable ho

/-- Replacing an account by one with the same address. -/
theorem Spec.AppInv.putAccount (hi : AppInv m) {k : Bytes} {a b : Account} (ha : accountAt m k = some a)
    (hb : b.address = a.address) (ho : appStorable (.account b) = true) : AppInv (m.put tyAccount k (some (.account b))) where
  toRolesInv := hi.toRolesInv.put (by decide) (by decide)
  others := by rw [put_ne (by decide)]; exact hi.others
  accounts := by
    intro k' o h
    rw [put_ne (by decide)]
    rw [put_same] at h
    split at h
    · rename_i hk; cases h; subst hk
      simp only [accountAt] at ha
      split at ha
      · rename_i x hx
        cases ha
        obtain ⟨a', h1, h2, h3⟩ := hi.accounts _ _ hx
        cases h1
        exact ⟨b, rfl, hb ▸ h2, hb ▸ h3⟩
      · cases ha
    · exact hi.accounts k' o h
  balances := by rw [put_ne (by decide)]; exact hi.balances
  number := by rw [put_ne (by decide)]; exact hi.number
  params := by rw [put_ne (by decide)]; exact hi.params
  height := by rw [put_ne (by decide)]; exact hi.height
  stage := by rw [put_ne (by decide)]; exact hi.stage
  chainId := by rw [put_ne (by decide)]; exact hi.chainId
  updates := by rw [put_ne (by decide)]; exact hi.updates
  beginState := by rw [put_ne (by decide)]; exact hi.beginState
  endState := by rw [put_ne (by decide)]; exact hi.endState
  mods := by rw [put_ne (by decide)]; exact hi.mods
  storable := storable_put hi.storable ho

theorem accountAt_none (hi : AppInv m) {k : Bytes} : accountAt m k = none ↔ m tyAccount k = none := by
  have := accountAt_isSome hi k
  cases h1 : m tyAccount k <;> cases h2 : accountAt m k <;> simp_all

theorem Spec.AppInv.newAccount (hi : AppInv m) {a : Account} {n : BitVec 64}
    (hb : boundAt m (encKey a.address) = false) (ho : accountFits a = true) :
    AppInv (((m.put tyAccount (encKey a.address) (some (.account a))).put
      tyAccountNumber singletonID (some (.accountNumber n))).put
      tyRoleBinding (encKey a.address) (some (.roleBinding a.address externalRoleID))) where
  roles := by rw [put_ne (by decide), put_ne (by decide), put_ne (by decide)]; exact hi.roles
  modules := by
    intro e he
    rw [put_same, put_ne (by decide), put_ne (by decide), if_neg]
    · exact hi.modules e he
    · intro h
      have := hi.modules e he
      rw [h] at this
      simp [boundAt, this] at hb
  others := by
    intro k o h
    rw [put_same, put_ne (by decide), put_ne (by decide)] at h
    split at h
    · rename_i hk; cases h; exact fun _ => ⟨a.address, hk.symm, rfl⟩
    · exact hi.others k o h
  accounts := by
    intro k o h
    rw [put_ne (by decide), put_ne (by decide), put_same] at h
    rw [put_same, put_ne (by decide), put_ne (by decide)]
    split at h
    · rename_i hk; cases h; exact ⟨a, rfl, hk.symm, by rw [if_pos hk]⟩
    · rename_i hk; rw [if_neg hk]; exact hi.accounts k o h
  balances := by rw [put_ne (by decide), put_ne (by decide), put_ne (by decide)]; exact hi.balances
  number := by rw [put_ne (by decide), put_same]; exact ⟨n, by simp⟩
  params := by rw [put_ne (by decide), put_ne (by decide), put_ne (by decide)]; exact hi.params
  height := by rw [put_ne (by decide), put_ne (by decide), put_ne (by decide)]; exact hi.height
  stage := by rw [put_ne (by decide), put_ne (by decide), put_ne (by decide)]; exact hi.stage
  chainId := by rw [put_ne (by decide), put_ne (by decide), put_ne (by decide)]; exact hi.chainId
  updates := by rw [put_ne (by decide), put_ne (by decide), put_ne (by decide)]; exact hi.updates
  beginState := by rw [put_ne (by decide), put_ne (by decide), put_ne (by decide)]; exact hi.beginState
  endState := by rw [put_ne (by decide), put_ne (by decide), put_ne (by decide)]; exact hi.endState
  mods := by rw [put_ne (by decide), put_ne (by decide), put_ne (by decide)]; exact hi.mods
  storable := storable_put (storable_put (storable_put hi.storable (Bool.and_eq_true_iff.1 ho).1) rfl)
    (Bool.and_eq_true_iff.1 ho).2

theorem accountAt_eq {k : Bytes} {a : Account} : accountAt m k = some a ↔ m tyAccount k = some (.account a) := by
  simp only [accountAt]
  constructor
  · intro h
    split at h
    · cases h; assumption
    · cases h
  · intro h; rw [h]

/-- Transitions that keep the invariant. -/
def Keeps (f : World → Outcome) : Prop := ∀ ⦃m r m'⦄, AppInv m → f m = .done r m' → AppInv m'

theorem andThen_done {r : Outcome} {f : World → Outcome} {x : Except Err Unit} {m' : World}
    (h : andThen r f = .done x m') :
    (∃ e, r = .done (.error e) m' ∧ x = .error e) ∨ ∃ m₁, r = .done (.ok ()) m₁ ∧ f m₁ = .done x m' := by
  rcases r with ⟨e | ⟨⟩, s⟩ | _ | _
  · simp only [andThen, Res.done.injEq] at h
    obtain ⟨rfl, rfl⟩ := h
    exact .inl ⟨e, rfl, rfl⟩
  · exact .inr ⟨s, rfl, h⟩
  · simp [andThen] at h
  · simp [andThen] at h

theorem Keeps.andThen {f g : World → Outcome} (hf : Keeps f) (hg : Keeps g) :
    Keeps fun m => Spec.andThen (f m) g := by
  intro m r m' hi h
  rcases andThen_done h with ⟨e, h1, _⟩ | ⟨m₁, h1, h2⟩
  · exact hf hi h1
  · exact hg (hf hi h1) h2

theorem keeps_setBalance (a : Bytes) (cs : List Coin) : Keeps (doSetBalance a cs) := by
  intro m r m' hi h
  simp only [doSetBalance] at h
  split at h
  · cases h
  split at h
  · cases h; exact hi
  · cases h
  · split at h
    · rename_i ho; cases h; exact hi.putBalance a cs ho
    · cases h

theorem keeps_createAccount (a : Bytes) (pk : Option AnyMsg) : Keeps (doCreateAccount a pk) := by
  intro m r m' hi h
  simp only [doCreateAccount] at h
  split at h
  · cases h
  · rename_i hc
    cases h
    refine hi.newAccount (a := ⟨a, pk, nextNumber m, 0⟩) ?_ ?_
    · cases hb : boundAt m (encKey a)
      · rfl
      · exact absurd (.inr (.inr (.inl hb))) hc
    · exact Bool.not_eq_false _ ▸ fun h => hc (.inr (.inr (.inr h)))

theorem keeps_ensureAccount (a : Bytes) : Keeps (doEnsureAccount a) := by
  intro m r m' hi h
  simp only [doEnsureAccount] at h
  split at h
  · cases h; exact hi
  · exact keeps_createAccount a none hi h

theorem keeps_credit (lib : CoinLib) (a : Bytes) (cs : List Coin) : Keeps (doCredit lib a cs) := by
  intro m r m' hi h
  simp only [doCredit] at h
  split at h
  · cases h
  split at h
  · exact (keeps_setBalance a cs).andThen (keeps_ensureAccount a) hi h
  · split at h
    · cases h
    · cases h; exact hi
    · exact keeps_setBalance _ _ hi h

theorem keeps_send (lib : CoinLib) (a b : Bytes) (cs : List Coin) : Keeps (doSend lib a b cs) := by
  intro m r m' hi h
  simp only [doSend] at h
  split at h
  · cases h
  split at h
  · cases h; exact hi
  · split at h
    · cases h
    · cases h; exact hi
    · exact (keeps_setBalance a _).andThen (keeps_credit lib b cs) hi h

theorem keeps_transition (lib : CoinLib) (t : Tr) : Keeps (doTransition lib t) := by
  intro m r m' hi h
  unfold doTransition at h
  split at h
  · cases h
  · exact keeps_createAccount _ _ hi h
  · exact keeps_send _ _ _ _ hi h
  · split at h
    · cases h
    · cases h; exact hi
  · cases h; exact hi

theorem keeps_transitions (lib : CoinLib) : ∀ ts : List Tr, Keeps (doTransitions lib ts)
  | [] => by intro m r m' hi h; cases h; exact hi
  | t :: ts => (keeps_transition lib t).andThen (keeps_transitions lib ts)

theorem inv_bump : ∀ (us : List Bytes) {m : World}, AppInv m → AppInv (bump m us)
  | [], _, hi => hi
  | u :: us, m, hi => by
    simp only [bump]
    split
    · exact inv_bump us hi
    · rename_i a ha
      exact inv_bump us (hi.putAccount ha rfl (hi.storable _ _ (.account a) (accountAt_eq.1 ha)))

theorem keeps_tx (lib : CoinLib) (tx : AppTx) : Keeps (doTx lib tx) := by
  intro m r m' hi h
  simp only [doTx] at h
  have hb := inv_bump tx.users hi
  rcases andThen_done h with ⟨e, h1, _⟩ | ⟨m₁, h1, h2⟩
  · generalize hs : doSend lib tx.raw.payer feeCollector tx.raw.fee (bump m tx.users) = y at h1
    rcases y with ⟨e | ⟨⟩, s⟩ | _ | _
    · cases h1; exact keeps_send _ _ _ _ hb hs
    · cases h1
    · cases h1
    · cases h1
  · generalize hs : doSend lib tx.raw.payer feeCollector tx.raw.fee (bump m tx.users) = y at h1
    rcases y with ⟨e | ⟨⟩, s⟩ | _ | _
    · cases h1
    · cases h1; exact keeps_transitions _ _ (keeps_send _ _ _ _ hb hs) h2
    · cases h1
    · cases h1

/-! ## What transitions leave alone -/

/-- The types of objects that transitions of users may write. -/
def userTypes : List Bytes := [tyAccount, tyAccountNumber, tyRoleBinding, tyBalance]

/-- Existing accounts and bindings, and all objects of other types, are as before. -/
structure Frame (m m' : World) : Prop where
  accounts : ∀ k o, m tyAccount k = some o → m' tyAccount k = some o
  bindings : ∀ k o, m tyRoleBinding k = some o → m' tyRoleBinding k = some o
  rest : ∀ ty, ty ∉ userTypes → m' ty = m ty

theorem Frame.refl (m : World) : Frame m m := ⟨fun _ _ h => h, fun _ _ h => h, fun _ _ => rfl⟩

theorem Frame.trans {a b c : World} (h1 : Frame a b) (h2 : Frame b c) : Frame a c :=
  ⟨fun k o h => h2.accounts k o (h1.accounts k o h), fun k o h => h2.bindings k o (h1.bindings k o h),
    fun ty h => (h2.rest ty h).trans (h1.rest ty h)⟩

/-- Transitions within the frame. -/
def Framed (f : World → Outcome) : Prop := ∀ ⦃m r m'⦄, AppInv m → f m = .done r m' → Frame m m'

theorem Framed.andThen {f g : World → Outcome} (hk : Keeps f) (hf : Framed f) (hg : Framed g) :
    Framed fun m => Spec.andThen (f m) g := by
  intro m r m' hi h
  rcases andThen_done h with ⟨e, h1, _⟩ | ⟨m₁, h1, h2⟩
  · exact hf hi h1
  · exact (hf hi h1).trans (hg (hk hi h1) h2)

theorem Frame.putBalance (m : World) (k : Bytes) (v : Option Obj) : Frame m (m.put tyBalance k v) :=
  ⟨by rw [put_ne (by decide)]; exact fun _ _ h => h, by rw [put_ne (by decide)]; exact fun _ _ h => h,
    fun ty h => put_ne (fun e => h (by rw [e]; decide)) _ _ _⟩

theorem framed_setBalance (a : Bytes) (cs : List Coin) : Framed (doSetBalance a cs) := by
  intro m r m' hi h
  simp only [doSetBalance] at h
  split at h
  · cases h
  split at h
  · cases h; exact .refl _
  · cases h
  · split at h
    · cases h; exact .putBalance _ _ _
    · cases h

theorem framed_createAccount (a : Bytes) (pk : Option AnyMsg) : Framed (doCreateAccount a pk) := by
  intro m r m' hi h
  simp only [doCreateAccount] at h
  split at h
  · cases h
  · rename_i hc
    cases h
    refine ⟨?_, ?_, ?_⟩
    · intro k o h
      rw [put_ne (by decide), put_ne (by decide), put_same, if_neg]
      · exact h
      · rintro rfl
        have := accountAt_isSome hi (encKey a)
        rw [h] at this
        exact hc (.inr (.inl this.symm))
    · intro k o h
      rw [put_same, if_neg, put_ne (by decide), put_ne (by decide)]
      · exact h
      · rintro rfl
        exact hc (.inr (.inr (.inl (by simp [boundAt, h]))))
    · intro ty h
      rw [put_ne fun e => h (by rw [e]; decide), put_ne fun e => h (by rw [e]; decide),
        put_ne fun e => h (by rw [e]; decide)]

theorem framed_ensureAccount (a : Bytes) : Framed (doEnsureAccount a) := by
  intro m r m' hi h
  simp only [doEnsureAccount] at h
  split at h
  · cases h; exact .refl _
  · exact framed_createAccount a none hi h

theorem framed_credit (lib : CoinLib) (a : Bytes) (cs : List Coin) : Framed (doCredit lib a cs) := by
  intro m r m' hi h
  simp only [doCredit] at h
  split at h
  · cases h
  split at h
  · exact Framed.andThen (keeps_setBalance a cs) (framed_setBalance a cs) (framed_ensureAccount a) hi h
  · split at h
    · cases h
    · cases h; exact .refl _
    · exact framed_setBalance _ _ hi h

theorem framed_send (lib : CoinLib) (a b : Bytes) (cs : List Coin) : Framed (doSend lib a b cs) := by
  intro m r m' hi h
  simp only [doSend] at h
  split at h
  · cases h
  split at h
  · cases h; exact .refl _
  · split at h
    · cases h
    · cases h; exact .refl _
    · exact Framed.andThen (keeps_setBalance a _) (framed_setBalance a _) (framed_credit lib b cs) hi h

theorem framed_transition (lib : CoinLib) (t : Tr) : Framed (doTransition lib t) := by
  intro m r m' hi h
  unfold doTransition at h
  split at h
  · cases h
  · exact framed_createAccount _ _ hi h
  · exact framed_send _ _ _ _ hi h
  · split at h
    · cases h
    · cases h; exact .refl _
  · cases h; exact .refl _

theorem framed_transitions (lib : CoinLib) : ∀ ts : List Tr, Framed (doTransitions lib ts)
  | [] => by intro m r m' hi h; cases h; exact .refl _
  | t :: ts => Framed.andThen (keeps_transition lib t) (framed_transition lib t) (framed_transitions lib ts)

end Verif
