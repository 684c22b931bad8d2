import Verif.Spec.Safe
import Verif.Proofs.Transfers
import Mathlib.Algebra.Order.BigOperators.Group.Finset
/-!
# Transactions that cannot crash the application
-/

set_option linter.unusedSectionVars false
set_option linter.unusedSimpArgs false

namespace Verif
open Spec

variable {lib : CoinLib} {m m' : World} {L : Int}

/-! ## What can be stored -/

theorem storable_balance (a : Bytes) (cs : List Coin) :
    appStorable (.balance a cs) = true ↔ validUtf8 a = true ∧ TextOk cs := by
  have : appStorable (.balance a cs) =
    (!((Obj.balance a cs).strings.any (fun s => !validUtf8 s) || false) && true) := rfl
  rw [this]
  simp only [Obj.strings, Bool.or_false, Bool.and_true, Bool.not_eq_true', List.any_eq_false,
    Bool.not_eq_false, List.mem_cons, List.mem_flatMap, TextOk]
  constructor
  · intro h
    exact ⟨h a (.inl rfl), fun c hc => ⟨h c.denom (.inr ⟨c, hc, by simp⟩), h c.amount (.inr ⟨c, hc, by simp⟩)⟩⟩
  · rintro ⟨h1, h2⟩ x (rfl | ⟨c, hc, hx⟩)
    · exact h1
    · simp only [List.mem_cons, List.not_mem_nil, or_false] at hx
      rcases hx with rfl | rfl
      · exact (h2 c hc).1
      · exact (h2 c hc).2

theorem appendVarint_le (n : Nat) (h : n < 2 ^ 64) : (appendVarint n).length ≤ 10 := by
  have h1 := appendVarint_length_mono (2 ^ 64 - 1) n (by omega)
  have h2 : (appendVarint (2 ^ 64 - 1)).length = 10 := by decide +kernel
  omega

theorem fits_account {a : Bytes} {p : Option AnyMsg} {n : BitVec 64} (h : a.length < 128) (ha : validUtf8 a = true)
    (hp : ∀ k, p = some k → validUtf8 k.typeUrl = true) : accountFits ⟨a, p, n, 0⟩ = true := by
  have h1 : appStorable (.account ⟨a, p, n, 0⟩) =
    (!((Obj.account ⟨a, p, n, 0⟩).strings.any (fun s => !validUtf8 s) || false) &&
      (decide (25 + 29 + 13 + (appendVarint n.toNat).length + (encKey a).length < maxLen) && true)) := rfl
  have h2 : appStorable (.roleBinding a externalRoleID) =
    (!((Obj.roleBinding a externalRoleID).strings.any (fun s => !validUtf8 s) || false) &&
      (decide (25 + 35 + 7 + (encKey externalRoleID).length + (encKey a).length < maxLen) && true)) := rfl
  have hk := encKey_short h
  have hv := appendVarint_le n.toNat n.isLt
  have hr : validUtf8 externalRoleID = true := by decide +kernel
  have hl : (encKey externalRoleID).length < 128 := by decide +kernel
  rw [accountFits, h1, h2, hk]
  have e1 : (Obj.account ⟨a, p, n, 0⟩).strings.any (fun s => !validUtf8 s) = false := by
    simp only [Obj.strings, List.any_cons, ha, Bool.not_true, Bool.false_or, List.any_eq_false]
    intro x hx
    cases p with
    | none => cases hx
    | some k =>
      simp only [Option.map_some, Option.toList_some, List.mem_singleton] at hx
      subst hx
      simp [hp k rfl]
  have e2 : (Obj.roleBinding a externalRoleID).strings.any (fun s => !validUtf8 s) = false := by
    simp [Obj.strings, ha, hr]
  rw [e1, e2]
  simp only [Bool.or_false, Bool.not_false, Bool.true_and, Bool.and_true, Bool.and_eq_true, maxLen]
  exact ⟨decide_eq_true (by omega), decide_eq_true (by omega)⟩

/-! ## Who is bound has an account -/

/-- All bindings but those of modules belong to an account. -/
def BoundAccounts (m : World) : Prop :=
  ∀ k, boundAt m k = true → (∀ e ∈ moduleRoles, e.1 ≠ k) → (accountAt m k).isSome = true

/-- Accounts may be added at the given keys only. -/
structure Grown (m m' : World) (l : List Bytes) : Prop where
  bound : BoundAccounts m → BoundAccounts m'
  same : ∀ k, k ∉ l → (accountAt m' k).isSome = (accountAt m k).isSome

theorem Grown.refl (m : World) (l : List Bytes) : Grown m m l := ⟨id, fun _ _ => rfl⟩

theorem Grown.trans {a b c : World} {l l' : List Bytes} (h1 : Grown a b l) (h2 : Grown b c l') : Grown a c (l ++ l') :=
  ⟨fun h => h2.bound (h1.bound h), fun k hk => by
    rw [List.mem_append, not_or] at hk
    rw [h2.same k hk.2, h1.same k hk.1]⟩

theorem Grown.congr (h1 : m' tyAccount = m tyAccount) (h2 : m' tyRoleBinding = m tyRoleBinding) (l : List Bytes) :
    Grown m m' l := by
  have h3 : ∀ k, accountAt m' k = accountAt m k := fun k => by simp only [accountAt, h1]
  exact ⟨fun h k hk hm => by rw [h3]; exact h k (by simpa only [boundAt, h2] using hk) hm, fun k _ => by rw [h3]⟩

theorem Grown.mono {l l' : List Bytes} (h : Grown m m' l) (hl : ∀ k ∈ l, k ∈ l') : Grown m m' l' :=
  ⟨h.bound, fun k hk => h.same k fun h' => hk (hl k h')⟩

theorem grown_createAccount {a : Bytes} {p : Option AnyMsg} {r : Except Err Unit}
    (h : doCreateAccount a p m = .done r m') : Grown m m' [encKey a] := by
  simp only [doCreateAccount] at h
  split at h
  · cases h
  · cases h
    refine ⟨fun hb k hk hm => ?_, fun k hk => ?_⟩
    · rw [boundAt, put_same, put_ne (by decide), put_ne (by decide)] at hk
      rw [accountAt, put_ne (by decide), put_ne (by decide), put_same]
      by_cases e : k = encKey a
      · simp [e]
      · rw [if_neg e] at hk ⊢
        exact hb k hk hm
    · have e : k ≠ encKey a := by simpa using hk
      simp only [accountAt]
      rw [put_ne (by decide), put_ne (by decide), put_same, if_neg e]

theorem grown_ensureAccount {a : Bytes} {r : Except Err Unit} (h : doEnsureAccount a m = .done r m') :
    Grown m m' [encKey a] := by
  simp only [doEnsureAccount] at h
  split at h
  · cases h; exact .refl _ _
  · exact grown_createAccount h

theorem grown_setBalance {a : Bytes} {cs : List Coin} {r : Except Err Unit} (h : doSetBalance a cs m = .done r m') :
    Grown m m' [] := by
  simp only [doSetBalance] at h
  split at h
  · cases h
  · split at h
    · cases h; exact .refl _ _
    · cases h
    · split at h
      · cases h; exact .congr (put_ne (by decide) _ _ _) (put_ne (by decide) _ _ _) _
      · cases h

theorem grown_credit {b : Bytes} {cs : List Coin} {r : Except Err Unit} (h : doCredit lib b cs m = .done r m') :
    Grown m m' [encKey b] := by
  simp only [doCredit] at h
  split at h
  · cases h
  · split at h
    · rcases andThen_done h with ⟨e, h1, _⟩ | ⟨m₁, h1, h2⟩
      · exact (grown_setBalance h1).mono (by simp)
      · exact (grown_setBalance h1).trans (grown_ensureAccount h2)
    · split at h
      · cases h
      · cases h; exact .refl _ _
      · exact (grown_setBalance h).mono (by simp)

theorem grown_send {a b : Bytes} {cs : List Coin} {r : Except Err Unit} (h : doSend lib a b cs m = .done r m') :
    Grown m m' [encKey b] := by
  simp only [doSend] at h
  split at h
  · cases h
  · split at h
    · cases h; exact .refl _ _
    · split at h
      · cases h
      · cases h; exact .refl _ _
      · rcases andThen_done h with ⟨e, h1, _⟩ | ⟨m₁, h1, h2⟩
        · exact (grown_setBalance h1).mono (by simp)
        · exact (grown_setBalance h1).trans (grown_credit h2)

/-- The keys at which a transition may add accounts. -/
def keysOf (t : Tr) : List Bytes := ((created t).toList ++ (credited t).toList).map encKey

theorem grown_transition {t : Tr} {r : Except Err Unit} (h : doTransition lib t m = .done r m') :
    Grown m m' (keysOf t) := by
  unfold doTransition at h
  split at h
  · cases h
  · exact grown_createAccount h
  · exact grown_send h
  · split at h
    · cases h
    · cases h; exact .refl _ _
  · cases h; exact .refl _ _

theorem grown_transitions : ∀ {ts : List Tr} {m : World} {r : Except Err Unit},
    doTransitions lib ts m = .done r m' → Grown m m' (ts.flatMap keysOf)
  | [], m, r, h => by cases h; exact .refl _ _
  | t :: ts, m, r, h => by
    rcases andThen_done h with ⟨e, h1, _⟩ | ⟨m₁, h1, h2⟩
    · exact (grown_transition h1).mono fun k hk => by simp [hk]
    · exact (grown_transition h1).trans (grown_transitions h2)

theorem bump_isSome : ∀ (us : List Bytes) (m : World) (k : Bytes),
    (accountAt (bump m us) k).isSome = (accountAt m k).isSome
  | [], _, _ => rfl
  | u :: us, m, k => by
    simp only [bump]
    cases h : accountAt m u with
    | none => exact bump_isSome us m k
    | some a =>
      refine (bump_isSome us _ k).trans ?_
      rw [accountAt_put]
      by_cases e : k = u
      · rw [if_pos e, e, h]; rfl
      · rw [if_neg e]

theorem grown_bump (us : List Bytes) (m : World) : Grown m (bump m us) [] :=
  ⟨fun h k hk hm => by
    rw [bump_isSome]
    refine h k ?_ hm
    rwa [boundAt, bump_other us (by decide)] at hk, fun k _ => bump_isSome us m k⟩

theorem asBadRequest_done {o : Outcome} {r : Except Err Unit} (h : asBadRequest o = .done r m') :
    ∃ r', o = .done r' m' := by
  rcases o with ⟨e | ⟨⟩, s⟩ | _ | _
  · cases h; exact ⟨_, rfl⟩
  · cases h; exact ⟨_, rfl⟩
  · cases h
  · cases h

theorem grown_tx {tx : AppTx} {r : Except Err Unit} (h : doTx lib tx m = .done r m') :
    Grown m m' (encKey feeCollector :: tx.transitions.flatMap keysOf) := by
  rcases andThen_done h with ⟨e, h1, _⟩ | ⟨m₁, h1, h2⟩
  · obtain ⟨r', h1⟩ := asBadRequest_done h1
    exact ((grown_bump _ _).trans (grown_send h1)).mono fun k hk => by simp only [List.nil_append, List.mem_singleton] at hk; simp [hk]
  · obtain ⟨r', h1⟩ := asBadRequest_done h1
    exact ((grown_bump _ _).trans ((grown_send h1).trans (grown_transitions h2))).mono fun k hk => by simpa using hk

theorem serve_boundAccounts {lib : Libs} {call : Call BlockReq} {r : Resp Obj} (h : Serve lib m call r m')
    (hb : BoundAccounts m) : BoundAccounts m' := by
  cases h with
  | executed bytes tx r h1 h2 _ h => exact (grown_tx h).bound hb
  | beginBlock b =>
    refine (Grown.congr (l := []) ?_ ?_).bound hb
    · rw [doBeginBlock, put_ne (by decide), put_ne (by decide), put_ne (by decide)]
    · rw [doBeginBlock, put_ne (by decide), put_ne (by decide), put_ne (by decide)]
  | endBlock b =>
    refine (Grown.congr (l := []) ?_ ?_).bound hb
    · rw [doEndBlock, put_ne (by decide), put_ne (by decide)]
    · rw [doEndBlock, put_ne (by decide), put_ne (by decide)]
  | _ => exact hb

theorem run_boundAccounts {lib : Libs} {calls : List (Call BlockReq)} {rs : List (Resp Obj)}
    (h : Spec.Run lib m calls rs m') (hb : BoundAccounts m) : BoundAccounts m' := by
  induction h with
  | nil => exact hb
  | cons h1 _ ih => exact ih (serve_boundAccounts h1 hb)


theorem genesis_bound (lib : Libs) (c : Bytes) : BoundAccounts (genesisWorld lib c) := by
  intro k hk hm
  cases ho : genesisWorld lib c tyRoleBinding k with
  | none => rw [boundAt, ho] at hk; cases hk
  | some o =>
    rw [genesisWorld_eq, put_ne (by decide), put_ne (by decide), baseWorld] at ho
    obtain ⟨e, he, rfl, rfl⟩ := fill_some writes_binding ho
    have hall : ∀ e ∈ bindingWrites, e.2.1 = genesisAddress ∨ ∃ x ∈ moduleRoles, x.1 = e.2.1 := by decide +kernel
    rcases hall e he with h | ⟨x, hx, h⟩
    · obtain ⟨a, ha⟩ : ∃ a, accountAt (genesisWorld lib c) genesisAddress = some a := by
        have := ((genesis_numbered (lib := lib) c).accounts genesisAddress)
        simpa [Option.isSome_iff_exists] using this
      rw [h, ha]; rfl
    · exact absurd h (hm x hx)

/-! ## Amounts -/

/-- The amounts of coins in all balances are in range, and who is bound has an account. -/
structure Solvent (lib : CoinLib) (L : Int) (m : World) : Prop extends Funded lib L m where
  bound : BoundAccounts m

theorem Solvent.conserved (h : Solvent lib L m) (hc : Conserved lib m m') {l : List Bytes}
    (hg : Grown m m' l) : Solvent lib L m' :=
  ⟨h.toFunded.conserved hc, hg.bound h.bound⟩

theorem text_sum (tx : TextCoins lib) {s t : List Coin} {a b b' c : SdkCoins} (ha : lib.balanceOf s = .ret (.ok a))
    (hb : lib.balanceOf t = .ret (.ok b')) (hd : ∀ y ∈ b, ∃ z ∈ b', z.1 = y.1) (hc : lib.safeAdd a b = .ret c) :
    TextOk (lib.toCoins c) := by
  intro x hx
  obtain ⟨y, hy, rfl⟩ := List.mem_map.1 hx
  refine ⟨?_, tx.printed _⟩
  rcases (safeAdd_sum _ _ _ hc).denoms y hy with ⟨z, hz, he⟩ | ⟨z, hz, he⟩
  · show validUtf8 y.1 = true
    rw [← he]; exact tx.denoms ha z hz
  · obtain ⟨w, hw, he'⟩ := hd z hz
    show validUtf8 y.1 = true
    rw [← he, ← he']; exact tx.denoms hb w hw

theorem text_add (tx : TextCoins lib) {s t n : List Coin} (h : lib.safeAddCoins s t = .ret (.ok n)) : TextOk n := by
  simp only [CoinLib.safeAddCoins] at h
  split at h
  · cases h
  · cases h
  · rename_i a ha
    split at h
    · cases h
    · cases h
    · rename_i b hb
      split at h
      · cases h
      · split at h
        · cases h
        · rename_i c hc
          cases h
          exact text_sum tx ha hb (fun y hy => ⟨y, hy, rfl⟩) hc

theorem text_sub (tx : TextCoins lib) {s t n : List Coin} (h : lib.safeSubCoins s t = .ret (.ok n)) : TextOk n := by
  simp only [CoinLib.safeSubCoins] at h
  split at h
  · cases h
  · cases h
  · rename_i a ha
    split at h
    · cases h
    · cases h
    · rename_i b hb
      split at h
      · cases h
      · split at h
        · cases h
        · rename_i c hc
          split at h
          · cases h
          · cases h
            refine text_sum tx ha hb (fun y hy => ?_) hc
            obtain ⟨z, hz, rfl⟩ := List.mem_map.1 hy
            exact ⟨z, hz, rfl⟩

/-! ## No crash -/

theorem createAccount_safe (hb : BoundAccounts m) {a : Bytes} {p : Option AnyMsg} (hu : Usable a)
    (ha : validUtf8 a = true) (hp : ∀ k, p = some k → validUtf8 k.typeUrl = true) (hn : accountAt m a = none) :
    ∃ m', doCreateAccount a p m = .done (.ok ()) m' := by
  simp only [doCreateAccount, encKey_short hu.2.1]
  rw [if_neg]
  · exact ⟨_, rfl⟩
  · rintro (h | h | h | h)
    · exact hu.1 h
    · rw [hn] at h; cases h
    · have := hb a h hu.2.2
      rw [hn] at this; cases this
    · rw [fits_account hu.2.1 ha hp] at h; cases h

theorem setBalance_safe {a : Bytes} {cs : List Coin} (h : a ≠ []) (hl : a.length < 128) (ha : validUtf8 a = true)
    (hc : TextOk cs) : doSetBalance a cs m = .done (.ok ()) (m.put tyBalance a (some (.balance a cs))) := by
  rw [setBalance_short hl, if_neg h, if_pos ((storable_balance a cs).2 ⟨ha, hc⟩)]

theorem credit_safe (ok : CoinsUpTo lib L) (tx : TextCoins lib)
    (hp : Parsed lib m) (hb : BoundAccounts m) {b : Bytes} {cs : List Coin} (hu : Usable b)
    (hv : validUtf8 b = true) (hc : TextOk cs) {l : SdkCoins} (hl : lib.balanceOf cs = .ret (.ok l))
    (h : ∀ d, amountAt lib m b d + amountOf lib cs d ≤ L) : ∃ m', doCredit lib b cs m = .done (.ok ()) m' := by
  simp only [doCredit, if_neg hu.1]
  cases hbal : balanceAt m b with
  | none =>
    simp only [setBalance_safe hu.1 hu.2.1 hv hc, andThen, doEnsureAccount]
    split
    · exact ⟨_, rfl⟩
    · rename_i hn
      refine createAccount_safe ?_ hu hv (fun k hk => nomatch hk) (by simpa using hn)
      exact (Grown.congr (l := []) (put_ne (by decide) _ _ _) (put_ne (by decide) _ _ _)).bound hb
  | some old =>
    obtain ⟨a, ha⟩ := hp b old hbal
    obtain ⟨n, hn⟩ := safeAdd_safe ok ha hl (fun d => by rw [← amountAt_some hbal]; exact h d)
    simp only [hn]
    exact ⟨_, setBalance_safe hu.1 hu.2.1 hv (text_add tx hn)⟩

theorem send_safe (ok : CoinsUpTo lib L) (tx : TextCoins lib)
    (hs : Solvent lib L m) {a b : Bytes} {cs : List Coin} (ha : a ≠ []) (hal : a.length < 128)
    (hav : validUtf8 a = true) (hu : Usable b) (hv : validUtf8 b = true) (hc : TextOk cs)
    (hl : lib.balanceOf cs ≠ .panic) : ∃ r m', doSend lib a b cs m = .done r m' := by
  simp only [doSend, if_neg ha]
  cases hbal : balanceAt m a with
  | none => exact ⟨_, _, rfl⟩
  | some old =>
    obtain ⟨x, hx⟩ := hs.parsed a old hbal
    cases hp : lib.balanceOf cs with
    | panic => exact absurd hp hl
    | ret q =>
      cases q with
      | error e =>
        have : lib.safeSubCoins old cs = .ret (.error e) := by simp only [CoinLib.safeSubCoins, hx, hp]
        simp only [this]; exact ⟨_, _, rfl⟩
      | ok l =>
        rcases safeSub_iff ok hx hp with ⟨h, _⟩ | ⟨⟨n, h⟩, hle⟩
        · simp only [h]; exact ⟨_, _, rfl⟩
        · simp only [h, setBalance_safe ha hal hav (text_sub tx h), andThen]
          obtain ⟨x', l', y, hx', hl', hy, hsum⟩ := safeSub_ok ok h
          rw [hx] at hx'; cases hx'
          rw [hp] at hl'; cases hl'
          obtain ⟨m', hm'⟩ := credit_safe (m := m.put tyBalance a (some (.balance a n))) ok tx
            (parsed_put hs.parsed ⟨y, hy⟩)
            ((Grown.congr (l := []) (put_ne (by decide) _ _ _) (put_ne (by decide) _ _ _)).bound hs.bound)
            hu hv hc hp (hs.room ok hbal hx hp hy hsum)
          exact ⟨_, _, hm'⟩

theorem safe_short {t : Tr} (h : SafeTransition lib t) : ShortTransition t := by
  cases t with
  | sendCoins a b cs => exact ⟨h.2.1, h.2.2.1.2.1⟩
  | _ => trivial

theorem transition_safe (ok : CoinsUpTo lib L) (tx : TextCoins lib)
    (hs : Solvent lib L m) {t : Tr} (h : SafeTransition lib t) (ht : TextTransition t)
    (hf : ∀ a, created t = some a → accountAt m a = none) : ∃ r m', doTransition lib t m = .done r m' := by
  cases t with
  | createAccount a =>
    cases a with
    | none => exact absurd h id
    | some a =>
      obtain ⟨m', hm⟩ := createAccount_safe hs.bound h ht.1 ht.2 (hf _ rfl)
      exact ⟨_, m', hm⟩
  | sendCoins a b cs => exact send_safe ok tx hs h.1 h.2.1 ht.1 h.2.2.1 ht.2.1 ht.2.2 h.2.2.2
  | other api => exact ⟨_, _, if_neg fun hn => hn.elim (fun e => ht.1 (by rw [e]; decide +kernel)) ht.2⟩
  | _ => exact ⟨_, _, rfl⟩

theorem keysOf_safe {t : Tr} (h : SafeTransition lib t) {k : Bytes} (hk : k ∈ keysOf t) :
    created t = some k ∨ credited t = some k := by
  cases t with
  | createAccount a =>
    cases a with
    | none => exact absurd h id
    | some a =>
      simp only [keysOf, created, credited, Option.toList_some, Option.toList_none, List.append_nil, List.map_cons,
        List.map_nil, List.mem_singleton, encKey_short h.2.1] at hk
      exact .inl (by rw [hk]; rfl)
  | sendCoins a b cs =>
    simp only [keysOf, created, credited, Option.toList_some, Option.toList_none, List.nil_append, List.map_cons,
      List.map_nil, List.mem_singleton, encKey_short h.2.2.1.2.1] at hk
    exact .inr (by rw [hk]; rfl)
  | _ => cases hk

theorem transitions_safe (ok : CoinsUpTo lib L) (tx : TextCoins lib) :
    ∀ (ts : List Tr) (m : World), Solvent lib L m → (∀ t ∈ ts, SafeTransition lib t) → (∀ t ∈ ts, TextTransition t) →
    (∀ a ∈ ts.filterMap created, accountAt m a = none) → (ts.filterMap created).Nodup →
    (∀ a ∈ ts.filterMap created, a ∉ ts.filterMap credited) → ∃ r m', doTransitions lib ts m = .done r m'
  | [], m, _, _, _, _, _, _ => ⟨_, _, rfl⟩
  | t :: ts, m, hs, h1, h2, h3, h4, h5 => by
    have ht := h1 t (by simp)
    obtain ⟨r, m₁, h⟩ := transition_safe ok tx hs ht (h2 t (by simp))
      (fun a ha => h3 a (List.mem_filterMap.2 ⟨t, by simp, ha⟩))
    simp only [doTransitions, h]
    rcases r with e | ⟨⟩
    · exact ⟨_, _, rfl⟩
    · have hg := grown_transition h
      refine transitions_safe ok tx ts m₁ (hs.conserved (transition_conserved ok hs.toFunded (safe_short ht) h) hg)
        (fun t ht => h1 t (by simp [ht])) (fun t ht => h2 t (by simp [ht])) ?_ ?_ ?_
      · intro a ha
        have hm : a ∈ (t :: ts).filterMap created := by
          obtain ⟨u, hu, he⟩ := List.mem_filterMap.1 ha
          exact List.mem_filterMap.2 ⟨u, by simp [hu], he⟩
        have := hg.same a fun hk => by
          rcases keysOf_safe ht hk with he | he
          · rw [List.filterMap_cons, he] at h4
            exact (List.nodup_cons.1 h4).1 ha
          · exact h5 a hm (List.mem_filterMap.2 ⟨t, by simp, he⟩)
        rw [h3 a hm] at this
        simpa using this
      · rw [List.filterMap_cons] at h4
        split at h4
        · exact h4
        · exact (List.nodup_cons.1 h4).2
      · intro a ha hc
        obtain ⟨u, hu, he⟩ := List.mem_filterMap.1 ha
        obtain ⟨v, hv, hv'⟩ := List.mem_filterMap.1 hc
        exact h5 a (List.mem_filterMap.2 ⟨u, by simp [hu], he⟩) (List.mem_filterMap.2 ⟨v, by simp [hv], hv'⟩)

theorem feeCollector_usable : Usable feeCollector :=
  ⟨by decide, by decide, by decide +kernel⟩

theorem bump_solvent (hs : Solvent lib L m) (us : List Bytes) : Solvent lib L (bump m us) := by
  have h : bump m us tyBalance = m tyBalance := bump_other us (by decide)
  exact hs.conserved (.same hs.parsed (balanceAt_congr h)) (grown_bump us m)

theorem tx_safe (ok : CoinsUpTo lib L) (text : TextCoins lib)
    (hs : Solvent lib L m) {tx : AppTx} (h : SafeTx lib m tx) (ht : TextTx tx) (hp : tx.raw.payer ≠ []) :
    ∃ r m', doTx lib tx m = .done r m' := by
  have hsb := bump_solvent hs tx.users
  obtain ⟨r, m₁, h1⟩ := send_safe (m := bump m tx.users) ok text hsb hp h.payer ht.1
    feeCollector_usable (by decide +kernel) ht.2.1 h.fee
  rw [doTx, h1]
  rcases r with e | ⟨⟩
  · exact ⟨_, _, rfl⟩
  · refine transitions_safe ok text _ m₁ ?_ h.safe ht.2.2 (fun a ha => ?_) h.once h.apart
    · rcases send_short ok hsb.toFunded h.payer feeCollector_usable.2.1 h1 with ⟨⟨e, he⟩, _⟩ | ⟨_, hm⟩
      · cases he
      · exact hsb.conserved hm.conserved (grown_send h1)
    · have h2 := (grown_send h1).same a (by
        rw [encKey_short feeCollector_usable.2.1]
        simpa using (h.fresh a ha).2)
      rw [bump_isSome, (h.fresh a ha).1] at h2
      simpa using h2

/-! ## Served histories -/

theorem served_solvent {lib : Libs} (ok : CoinsUpTo lib.coins L) (hw : DecodesWell lib) {calls : List (Call BlockReq)}
    {rs : List (Resp Obj)} (hst : Starts calls) (h : Served lib calls rs m) (hsh : ShortCalls lib calls) :
    Solvent lib.coins L m := by
  refine ⟨served_funded ok hw h hsh, ?_⟩
  rcases served_run hw h with ⟨_, hn⟩ | ⟨pre, rs₀, c, post, rs', rfl, _, _, _, _, hr⟩
  · exact absurd hst hn
  · exact run_boundAccounts hr (genesis_bound lib c)

end Verif
