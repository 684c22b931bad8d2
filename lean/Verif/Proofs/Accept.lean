import Verif.Proofs.Safe
import Verif.Spec.Accept
import Mathlib.Tactic.Ring
/-!
# Transactions that are accepted: lemmas
-/

namespace Verif
open Spec

variable {lib : CoinLib} {L : Int} {m m' : World}

theorem balance_of_positive {a d : Bytes} (h : 0 < amountAt lib m a d) : ∃ cs, balanceAt m a = some cs := by
  cases hb : balanceAt m a with
  | none => simp [amountAt, hb] at h
  | some cs => exact ⟨cs, rfl⟩

theorem amountOf_ok {cs : List Coin} {l : SdkCoins} (h : lib.balanceOf cs = .ret (.ok l)) (d : Bytes) :
    amountOf lib cs d = amount l d := by rw [amountOf, h]

theorem sub_ok (ok : CoinsUpTo lib L) (hp : Parsed lib m) {a : Bytes} {cs : List Coin}
    {l : SdkCoins} (hl : lib.balanceOf cs = .ret (.ok l)) (hpos : ∃ d, 0 < amountOf lib cs d)
    (h : ∀ d, amountOf lib cs d ≤ amountAt lib m a d) :
    ∃ old n, balanceAt m a = some old ∧ lib.safeSubCoins old cs = .ret (.ok n) := by
  obtain ⟨d, hd⟩ := hpos
  obtain ⟨old, hold⟩ := balance_of_positive (lt_of_lt_of_le hd (h d))
  obtain ⟨x, hx⟩ := hp a old hold
  rcases safeSub_iff ok hx hl with ⟨_, d, hd⟩ | ⟨⟨n, hn⟩, _⟩
  · have := h d
    rw [amountAt_some hold, amountOf_ok hx, amountOf_ok hl] at this
    omega
  · exact ⟨old, n, hold, hn⟩

theorem send_ok (ok : CoinsUpTo lib L) (text : TextCoins lib)
    (hs : Solvent lib L m) {a b : Bytes} {cs : List Coin} (ha : a ≠ []) (hal : a.length < 128)
    (hav : validUtf8 a = true) (hu : Usable b) (hv : validUtf8 b = true) (hc : TextOk cs)
    {l : SdkCoins} (hl : lib.balanceOf cs = .ret (.ok l)) (hpos : ∃ d, 0 < amountOf lib cs d)
    (h : ∀ d, amountOf lib cs d ≤ amountAt lib m a d) : ∃ m', doSend lib a b cs m = .done (.ok ()) m' := by
  obtain ⟨old, n, hold, hn⟩ := sub_ok ok hs.parsed hl hpos h
  obtain ⟨r, m', hr⟩ := send_safe ok text hs ha hal hav hu hv hc (by rw [hl]; exact fun h => nomatch h)
  obtain ⟨rfl, _⟩ := send_covered ok hs.toFunded hal hu.2.1 hold hn hr
  exact ⟨m', hr⟩

theorem transition_ok (ok : CoinsUpTo lib L) (text : TextCoins lib)
    (hs : Solvent lib L m) {t : Tr} (h : SafeTransition lib t) (ht : TextTransition t)
    (hf : ∀ a, created t = some a → accountAt m a = none) (hp : Payment lib t)
    (hc : ∀ x ∈ transfersOf t, ∀ d, amountOf lib x.coins d ≤ amountAt lib m x.source d) :
    ∃ m', doTransition lib t m = .done (.ok ()) m' := by
  cases t with
  | createAccount a =>
    cases a with
    | none => exact absurd h id
    | some a => exact createAccount_safe hs.bound h ht.1 ht.2 (hf _ rfl)
  | sendCoins a b cs =>
    obtain ⟨⟨l, hl⟩, hpos⟩ := hp
    exact send_ok ok text hs h.1 h.2.1 ht.1 h.2.2.1 ht.2.1 ht.2.2 hl hpos (hc ⟨a, b, cs⟩ (by simp [transfersOf]))
  | _ => exact absurd hp id

theorem transitions_ok (ok : CoinsUpTo lib L) (text : TextCoins lib) :
    ∀ (ts : List Tr) (m : World), Solvent lib L m → (∀ t ∈ ts, SafeTransition lib t) → (∀ t ∈ ts, TextTransition t) →
    (∀ a ∈ ts.filterMap created, accountAt m a = none) → (ts.filterMap created).Nodup →
    (∀ a ∈ ts.filterMap created, a ∉ ts.filterMap credited) → (∀ t ∈ ts, Payment lib t) →
    (∀ before a b cs after, ts = before ++ .sendCoins a b cs :: after → ∀ d,
      amountOf lib cs d ≤ amountAt lib m a d + changes lib a d (before.flatMap transfersOf)) →
    ∃ m', doTransitions lib ts m = .done (.ok ()) m'
  | [], m, _, _, _, _, _, _, _, _ => ⟨_, rfl⟩
  | t :: ts, m, hs, h1, h2, h3, h4, h5, h6, h7 => by
    have ht := h1 t (by simp)
    obtain ⟨m₁, h⟩ := transition_ok ok text hs ht (h2 t (by simp))
      (fun a ha => h3 a (List.mem_filterMap.2 ⟨t, by simp, ha⟩)) (h6 t (by simp)) (by
        intro x hx d
        cases t with
        | sendCoins a b cs =>
          rw [transfersOf, List.mem_singleton] at hx
          subst hx
          simpa [changes_nil] using h7 [] a b cs ts rfl d
        | _ => cases hx)
    simp only [doTransitions, h]
    have hg := grown_transition h
    rcases transition_moves ok hs.toFunded (safe_short ht) h with ⟨⟨e, he⟩, _⟩ | ⟨_, hmv, _⟩
    · cases he
    refine transitions_ok ok text ts m₁ (hs.conserved (transition_conserved ok hs.toFunded (safe_short ht) h) hg)
      (fun t ht => h1 t (by simp [ht])) (fun t ht => h2 t (by simp [ht])) ?_ ?_ ?_ (fun t ht => h6 t (by simp [ht])) ?_
    · intro a ha
      have hm : a ∈ (t :: ts).filterMap created := by
        obtain ⟨u, hu, he⟩ := List.mem_filterMap.1 ha
        exact List.mem_filterMap.2 ⟨u, by simp [hu], he⟩
      have := hg.same a fun hk => by
        rcases keysOf_safe ht hk with he | he
        · rw [List.filterMap_cons, he] at h4
          exact (List.nodup_cons.1 h4).1 ha
        · exact h5 a hm (List.mem_filterMap.2 ⟨t, by simp, he⟩)
      rw [h3 a hm] at this
      simpa using this
    · rw [List.filterMap_cons] at h4
      split at h4
      · exact h4
      · exact (List.nodup_cons.1 h4).2
    · intro a ha hc
      obtain ⟨u, hu, he⟩ := List.mem_filterMap.1 ha
      obtain ⟨v, hv, hv'⟩ := List.mem_filterMap.1 hc
      exact h5 a (List.mem_filterMap.2 ⟨u, by simp [hu], he⟩) (List.mem_filterMap.2 ⟨v, by simp [hv], hv'⟩)
    · intro before a b cs after he d
      have := h7 (t :: before) a b cs after (by rw [he]; rfl) d
      rw [List.flatMap_cons, changes_append] at this
      rw [hmv]
      omega

theorem tx_ok (ok : CoinsUpTo lib L) (text : TextCoins lib)
    (hs : Solvent lib L m) {tx : AppTx} (h : SafeTx lib m tx) (ht : TextTx tx) (hp : tx.raw.payer ≠ [])
    {l : SdkCoins} (hl : lib.balanceOf tx.raw.fee = .ret (.ok l)) (hpos : ∃ d, 0 < amountOf lib tx.raw.fee d)
    (hfee : ∀ d, amountOf lib tx.raw.fee d ≤ amountAt lib m tx.raw.payer d)
    (hpay : ∀ t ∈ tx.transitions, Payment lib t)
    (hcov : ∀ before a b cs after, tx.transitions = before ++ .sendCoins a b cs :: after → ∀ d,
      amountOf lib cs d ≤ amountAt lib m a d + (feeOf tx).change lib a d + changes lib a d (before.flatMap transfersOf)) :
    ∃ m', doTx lib tx m = .done (.ok ()) m' := by
  have hsb := bump_solvent hs tx.users
  have hbm : ∀ k d, amountAt lib (bump m tx.users) k d = amountAt lib m k d := fun k d => by
    rw [amountAt, bump_balances, amountAt]
  obtain ⟨m₁, h1⟩ := send_ok (m := bump m tx.users) ok text hsb hp h.payer ht.1
    feeCollector_usable (by decide +kernel) ht.2.1 hl hpos fun d => by rw [hbm]; exact hfee d
  rw [doTx, h1]
  rcases send_short ok hsb.toFunded h.payer feeCollector_usable.2.1 h1 with ⟨⟨e, he⟩, _⟩ | ⟨_, hm⟩
  · cases he
  refine transitions_ok ok text _ m₁ (hsb.conserved hm.conserved (grown_send h1)) h.safe ht.2.2 (fun a ha => ?_)
    h.once h.apart hpay ?_
  · have h2 := (grown_send h1).same a (by
      rw [encKey_short feeCollector_usable.2.1]
      simpa using (h.fresh a ha).2)
    rw [bump_isSome, (h.fresh a ha).1] at h2
    simpa using h2
  · intro before a b cs after he d
    have := hcov before a b cs after he d
    have e : amountAt lib m₁ a d = amountAt lib m a d + (feeOf tx).change lib a d := by
      rw [hm.amounts, hbm]; simp only [Transfer.change, feeOf]; by_cases h1 : a = tx.raw.payer <;> by_cases h2 : a = feeCollector <;> simp only [h1, h2, if_true, if_false] <;> ring
    rw [e]; exact this

/-! ## Parameters -/

theorem serve_params {lib : Libs} (hi : AppInv m) {call : Call BlockReq} {r : Resp Obj} (h : Serve lib m call r m') :
    params m' = params m := by
  have : m' tyAuthnParams = m tyAuthnParams := by
    cases h with
    | executed bytes tx r h1 h2 _ h => exact tx_rest hi h (by decide)
    | beginBlock b => rw [doBeginBlock, put_ne (by decide), put_ne (by decide), put_ne (by decide)]
    | endBlock b => rw [doEndBlock, put_ne (by decide), put_ne (by decide)]
    | _ => rfl
  simp only [params, this]

theorem served_params {lib : Libs} (hw : DecodesWell lib) {calls : List (Call BlockReq)} {rs : List (Resp Obj)}
    (hs : Starts calls) (h : Served lib calls rs m) : params m = ⟨1000000, 1000000⟩ := by
  rcases (served_iff hw).1 h with ⟨rfl, hr⟩ | ⟨pre, rs₀, c', post, rs', rfl, _, hp, hu, hr⟩
  · exact absurd hs (runIdle_starts hr)
  · have hrun : ∀ {m m' : World} {post : List (Call BlockReq)} {q : List (Resp Obj)}, Spec.Run lib m post q m' →
        AppInv m → params m' = params m := by
      intro m m' post q hr
      induction hr with
      | nil => exact fun _ => rfl
      | cons h1 _ ih => exact fun hi => (ih (serve_inv hi h1)).trans (serve_params hi h1)
    rw [hrun hr (genesis_inv hu)]
    rfl

end Verif
