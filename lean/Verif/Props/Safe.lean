import Verif.Proofs.Safe
import Verif.Props.Decoder
/-!
# Transactions and crashes: C43
-/

namespace Verif.Props
open Verif Spec

variable {lib : Libs} {env : DecodeEnv} {m : World}

/-! ## What the decoder guarantees -/

theorem lastOr_text : ∀ {l : List Bytes} {d : Bytes}, AllText l → validUtf8 d = true → validUtf8 (lastOr d l) = true
  | [], _, _, hd => hd
  | x :: l, _, h, _ => lastOr_text (l := l) (fun y hy => h y (List.mem_cons_of_mem _ hy)) (h x List.mem_cons_self)

theorem text_nil : validUtf8 [] = true := validUtf8_ascii fun _ h => nomatch h

theorem coins_text {bs : List Bytes} {cs : List Coin} (h : List.Forall₂ IsCoin bs cs) : TextOk cs := by
  induction h with
  | nil => exact fun _ h => nomatch h
  | cons hc _ ih =>
    obtain ⟨fs, _, h1, h2, rfl⟩ := hc
    intro c hc
    rcases List.mem_cons.1 hc with rfl | hc
    · exact ⟨lastOr_text h1 text_nil, lastOr_text h2 text_nil⟩
    · exact ih c hc

theorem transition_text {name value : Bytes} {t : Tr} (h : IsTransition env name value t) :
    TextTransition t := by
  rw [IsTransition] at h
  split at h
  · obtain ⟨fs, cs, _, h1, h2, h3, rfl⟩ := h
    exact ⟨lastOr_text h1 text_nil, lastOr_text h2 text_nil, coins_text h3⟩
  · split at h
    · obtain ⟨fs, gs, a, _, _, h1, rfl⟩ := h
      split
      · trivial
      · refine ⟨by rw [h1.2.1]; exact lastOr_text h1.1 text_nil, fun k hk => ?_⟩
        obtain ⟨ks, key, _, h2, h3⟩ := h1.2.2.1
        rw [h3] at hk
        split at hk
        · cases hk
        · cases hk
          rw [h2.2]
          exact lastOr_text h2.1 text_nil
    · split at h
      · obtain ⟨_, _, _, _, _, _, rfl⟩ := h
        trivial
      · split at h
        · obtain ⟨_, _, _, _, rfl⟩ := h
          trivial
        · obtain ⟨api, hi, _, rfl⟩ := h
          cases hi <;> exact ⟨by decide +kernel, by decide +kernel⟩

/-- **C42** The content of the transitions of which only the name is kept is never read: whatever it is, a
transaction that requests them is refused when it is executed, and validated by the name alone. -/
theorem C42_refused {value : Bytes} {api : APIDef} (h : IsOther env value api) {t : Tr} (ht : t.api = api)
    (lib : CoinLib) (m : World) : doTransition lib t m = .done (.error .unauthorized) m ∧
    checkTransition m t = .ret (if api.name ∈ handledNames then .ok () else .error .transitionNotFound) := by
  subst ht
  cases t with
  | other api =>
    have hx : api.name ∉ validatedNames ∧ api.name ≠ tname (.sendCoins [] [] [] : Tr) := by
      cases h <;> exact ⟨by decide +kernel, by decide +kernel⟩
    refine ⟨?_, ?_⟩
    · rw [doTransition, if_neg fun hn => hn.elim (fun e => hx.1 (by rw [e]; decide +kernel)) hx.2]
    · rw [checkTransition, if_neg hx.1]; rfl
  | createRole r => cases h
  | bindRole a b => cases h
  | createAccount a => cases h
  | sendCoins a b c => cases h
  | createModules | setInitChain | setCheckTx | setBeginBlock | setDeliverTx | setEndBlock | setValidatorUpdates
  | setBalance =>
    refine ⟨rfl, ?_⟩
    rw [if_pos (by
      simp only [handledNames, List.map_cons, List.mem_cons]
      simp only [show ∀ t : Tr, tname t = t.api.name from fun _ => rfl, Tr.api, true_or, or_true])]
    rfl

/-- Two of them have no handler. -/
example : IsOther sampleEnv [] ⟨b!"tmos.x.authn.v1alpha1", b!"MsgUpdateAccount"⟩ :=
  (isOther_iff sampleEnv [] _).1 ⟨messageReader [(2, accountReader)], by simp [otherTransitions], by decide +kernel⟩

/-- Whatever a decoded transaction stores is text. -/
theorem decoded_text {bytes : Bytes} {tx : AppTx}
    (h : appDecode env bytes = .ret (.ok tx)) : TextTx tx := by
  have hsig := fun (s : Signer) (hs : s ∈ tx.raw.signers) => (C77_signers h hs).2.1
  obtain ⟨p, hs, _, _, h3, h4, _⟩ := C42_accepts.1 h
  obtain ⟨fs, gs, _, _, _, _, hfee, htext, _, hdecl⟩ := hs.parts.authInfo
  refine ⟨?_, by rw [h4]; exact coins_text hfee, ?_⟩
  · split at h3
    · obtain ⟨s, hs, e⟩ := List.mem_map.1 (List.mem_of_mem_head? (by rw [← h3]; rfl :
        tx.raw.payer ∈ (tx.raw.signers.map Signer.address).head?))
      rw [← e]
      exact hsig s hs
    · rw [h3, hdecl]
      exact lastOr_text htext text_nil
  · have := hs.transitions
    clear h3 h4 h hsig hs
    generalize p.messages = ms, tx.transitions = ts at this ⊢
    induction this with
    | nil => exact fun _ h => nomatch h
    | cons ha _ ih =>
      intro t ht
      rcases List.mem_cons.1 ht with rfl | ht
      · rw [HoldsTransition] at ha
        split at ha
        · exact transition_text ha
        · obtain ⟨_, name, _, ha⟩ := ha
          exact transition_text ha
      · exact ih t ht

/-! ## C43 -/

/-- The fee check of a safe transaction does not crash. -/
theorem fee_safe {limit : Int} (ok : CoinsUpTo lib.coins limit) (hp : Parsed lib.coins m) {tx : AppTx}
    (hf : lib.coins.balanceOf tx.raw.fee ≠ .panic) : ¬ FeeCrashes lib m tx := by
  rintro ⟨balance, hb, h⟩
  obtain ⟨a, ha⟩ := hp _ _ hb
  cases hq : lib.coins.balanceOf tx.raw.fee with
  | panic => exact hf hq
  | ret q => cases q with
    | error e => simp only [CoinLib.safeSubCoins, ha, hq] at h; cases h
    | ok l =>
      rcases safeSub_iff ok ha hq with ⟨h', _⟩ | ⟨⟨n, h'⟩, _⟩
      · rw [h] at h'; cases h'
      · rw [h] at h'; cases h'

/-- When the application crashes on a transaction, in a chain that has started: if the decoder
crashes, or the check of the fee of a signed transaction, or the execution of an authenticated
transaction. -/
theorem C43_exactly (hw : DecodesWell lib) {calls : List (Call BlockReq)} {rs : List (Resp Obj)}
    (hst : Starts calls) (hs : Served lib calls rs m) {bytes : Bytes} {n : Nat} (hn : 10 ≤ n) :
    (ormApp lib).steps n ⟨fresh appReg, false, false⟩ (calls ++ [.deliverTx bytes]) = .panic ↔
      lib.decode bytes = .panic ∨ ∃ tx, lib.decode bytes = .ret (.ok tx) ∧
        ((Signed lib m tx ∧ FeeCrashes lib m tx) ∨
          (Authenticated lib m tx ∧ ∀ r m', doTx lib.coins tx m ≠ .done r m')) := by
  rw [crash_iff hw hst hs hn]
  cases hd : lib.decode bytes with
  | panic => simp [exec1, hd]
  | ret q =>
    cases q with
    | error e => simp [exec1, hd]
    | ok tx =>
      have hdone := fun r m' => txOutcome_done (lib := lib) (m := m) (m' := m') (hw hd) (r := r)
      have hfee : Authenticated lib m tx → ¬ FeeCrashes lib m tx := by
        rintro ha ⟨b, hb, hc⟩
        obtain ⟨b', x, hb', hx⟩ := ha.fee
        rw [hb] at hb'; cases hb'
        rw [hc] at hx; cases hx
      have h0 : exec1 lib m (.deliverTx bytes) = none ↔ ∀ r m', txOutcome lib m tx ≠ .done r m' := by
        simp only [exec1, hd]
        cases txOutcome lib m tx with
        | done r m' => simp
        | panic => simp
        | diverge => simp
      rw [h0]
      constructor
      · intro h
        refine .inr ⟨tx, rfl, ?_⟩
        by_cases hf : Signed lib m tx ∧ FeeCrashes lib m tx
        · exact .inl hf
        · by_cases ha : Authenticated lib m tx
          · exact .inr ⟨ha, fun r m' hx => h r m' ((hdone r m').2 (.inr ⟨ha, hx⟩))⟩
          · exact absurd ((hdone (.error .badRequest) m).2 (.inl ⟨⟨ha, hf⟩, rfl, rfl⟩)) (h _ _)
      · rintro (h | ⟨tx', h, h'⟩) r m' hx
        · cases h
        · cases h
          rcases (hdone r m').1 hx with ⟨⟨ha, hf⟩, _⟩ | ⟨ha, hx⟩
          · exact h'.elim hf fun h' => ha h'.1
          · exact h'.elim (fun h' => hfee ha h'.2) fun h' => h'.2 r m' hx

/-- **C43 partial**: a transaction is answered by DeliverTx, after any history that was answered and
whose addresses are shorter than 128 bytes, unless one of its signers has a public key that does not
have 33 bytes, or it is not safe as described by `SafeTx`. -/
theorem C43_partial (hl : lib.decode = appDecode env) (ok : CoinsOk lib.coins) (text : TextCoins lib.coins)
    {calls : List (Call BlockReq)} {rs : List (Resp Obj)} (hst : Starts calls)
    (hs : Served lib calls rs m) (hsh : ShortCalls lib calls) {bytes : Bytes} (hk : ¬ BadKey env bytes)
    (hsafe : ∀ tx, appDecode env bytes = .ret (.ok tx) → SafeTx lib.coins m tx) :
    ∃ code m', Served lib (calls ++ [.deliverTx bytes]) (rs ++ [.code code]) m' := by
  have hw : DecodesWell lib := decodesWell hl
  obtain ⟨limit, ok⟩ := ok
  have hm := served_solvent ok hw hst hs hsh
  cases hd : appDecode env bytes with
  | panic => exact absurd (C42_crashes.1 hd) hk
  | ret q =>
    cases q with
    | error e =>
      exact ⟨_, m, (served_more hw hst hs).2 (.cons (.undecodable m bytes e (by rw [hl, hd])) (.nil _))⟩
    | ok tx =>
      have hd' : lib.decode bytes = .ret (.ok tx) := by rw [hl, hd]
      have hf := fee_safe ok hm.parsed (hsafe tx hd).fee
      by_cases ha : Authenticated lib m tx
      · obtain ⟨r, m', hx⟩ := tx_safe ok text hm (hsafe tx hd) (decoded_text hd) ha.payer
        exact ⟨_, m', (served_more hw hst hs).2 (.cons (.executed m m' bytes tx r hd' ha hx) (.nil _))⟩
      · exact ⟨_, m, (served_more hw hst hs).2
          (.cons (.unauthenticated m bytes tx hd' ha fun h => hf h.2) (.nil _))⟩

theorem checkTransitions_safe : ∀ {ts : List Tr}, (∀ t ∈ ts, ∀ subject, t ≠ .bindRole [] subject) →
    (∀ t ∈ ts, TextTransition t) → ∃ r, checkTransitions m ts = .ret r
  | [], _, _ => ⟨_, rfl⟩
  | t :: ts, h, hx => by
    have h1 : ∃ r, checkTransition m t = .ret r := by
      have ht := h t (by simp)
      cases t with
      | createAccount a => cases a <;> exact ⟨_, rfl⟩
      | createRole r => cases r <;> exact ⟨_, rfl⟩
      | bindRole id s =>
        by_cases hi : id = []
        · exact absurd (by rw [hi]) (ht s)
        · exact ⟨_, by rw [checkTransition, if_neg hi]⟩
      | other api => exact ⟨_, by rw [checkTransition, if_neg (hx (.other api) (by simp)).1]⟩
      | _ => exact ⟨_, rfl⟩
    obtain ⟨r, h1⟩ := h1
    rcases r with e | ⟨⟩
    · exact ⟨.error e, by simp only [checkTransitions, h1]⟩
    · obtain ⟨r, h2⟩ := checkTransitions_safe (ts := ts) (fun t ht => h t (by simp [ht]))
        (fun t ht => hx t (by simp [ht]))
      exact ⟨r, by simp only [checkTransitions, h1, h2]⟩

/-- **C43 partial** for CheckTx, which does not execute transactions: only keys that do not have 33
bytes, fees that cannot be read and bindings of the role without a name crash it. -/
theorem C43_check_partial (hl : lib.decode = appDecode env) (ok : CoinsOk lib.coins)
    {calls : List (Call BlockReq)} {rs : List (Resp Obj)} (hst : Starts calls)
    (hs : Served lib calls rs m) (hsh : ShortCalls lib calls) {bytes : Bytes} (hk : ¬ BadKey env bytes)
    (hsafe : ∀ tx, appDecode env bytes = .ret (.ok tx) → lib.coins.balanceOf tx.raw.fee ≠ .panic ∧ SafeCheck tx) :
    ∃ code, Served lib (calls ++ [.checkTx bytes]) (rs ++ [.code code]) m := by
  obtain ⟨limit, ok⟩ := ok
  have hw : DecodesWell lib := decodesWell hl
  cases hd : appDecode env bytes with
  | panic => exact absurd (C42_crashes.1 hd) hk
  | ret q =>
    cases q with
    | error e =>
      exact ⟨_, (served_more hw hst hs).2 (.cons (.checkUndecodable m bytes e (by rw [hl, hd])) (.nil _))⟩
    | ok tx =>
      have hd' : lib.decode bytes = .ret (.ok tx) := by rw [hl, hd]
      have hf := fee_safe ok (served_funded ok hw hs hsh).parsed (hsafe tx hd).1
      by_cases ha : Authenticated lib m tx
      · obtain ⟨r, hx⟩ := checkTransitions_safe (m := m) (hsafe tx hd).2 (decoded_text hd).2.2
        exact ⟨_, (served_more hw hst hs).2 (.cons (.checked m bytes tx r hd' ha hx) (.nil _))⟩
      · exact ⟨_, (served_more hw hst hs).2
          (.cons (.checkUnauthenticated m bytes tx hd' ha fun h => hf h.2) (.nil _))⟩

/-! ### Transactions that crash -/

/-- Whether the application crashes on a request after the given ones. -/
def crashes (lib : Libs) (calls : List (Call BlockReq)) (call : Call BlockReq) : Bool :=
  match exec lib (genesisWorld lib sampleChain) calls with
  | some (_, m) => (exec1 lib m call).isNone
  | none => false

theorem crashes_panic (hw : DecodesWell lib) {calls : List (Call BlockReq)} {call : Call BlockReq}
    (h : crashes lib calls call = true) : ∃ rs m, Served lib (.initChain sampleChain [] :: calls) rs m ∧
    ∀ n, 10 ≤ n → (ormApp lib).steps n ⟨fresh appReg, false, false⟩
      (.initChain sampleChain [] :: calls ++ [call]) = .panic := by
  simp only [crashes] at h
  split at h
  · rename_i rs m he
    have hs := served_exec hw (c := sampleChain) rfl he
    exact ⟨_, m, hs, fun n hn => (crash_iff hw ⟨sampleChain, [], by simp⟩ hs hn).2 (by simpa using h)⟩
  · cases h

/-- Requests that crash the application: a transaction with a public key that has 32 bytes, sent to
CheckTx and to DeliverTx, and transactions that create an account without saying which one, create an
account that exists, send coins to the empty address, and send coins to a module. -/
def crashers : List (Call BlockReq) := [.checkTx shortKeyBytes, .deliverTx shortKeyBytes,
  .deliverTx noAccountBytes, .deliverTx existingBytes, .deliverTx toNobodyBytes, .deliverTx toModuleBytes]

theorem crashers_check : crashers.all (crashes wireLib [.deliverTx payBytes]) = true := by decide +kernel

/-- **C43 fails**: there are transactions that crash the node, in CheckTx and in DeliverTx. -/
theorem C43_fails : ∃ (env : DecodeEnv) (lib : Libs) (_ : lib.decode = appDecode env) (_ : CoinsOk lib.coins)
    (_ : TextCoins lib.coins) (calls : List (Call BlockReq)) (rs : List (Resp Obj)) (m : World),
    Starts calls ∧ Served lib calls rs m ∧
    (∃ bytes, ∀ n, 10 ≤ n →
      (ormApp lib).steps n ⟨fresh appReg, false, false⟩ (calls ++ [.checkTx bytes]) = .panic) ∧
    ∀ call ∈ crashers, ∀ n, 10 ≤ n →
      (ormApp lib).steps n ⟨fresh appReg, false, false⟩ (calls ++ [call]) = .panic := by
  have h := List.all_eq_true.1 crashers_check
  obtain ⟨m, hs, _⟩ := leadsTo_served wire_well payer_check.1
  have hall : ∀ call ∈ crashers, ∀ n, 10 ≤ n → (ormApp wireLib).steps n ⟨fresh appReg, false, false⟩
      ([.initChain sampleChain [], .deliverTx payBytes] ++ [call]) = .panic := by
    intro call hc
    obtain ⟨_, _, _, hp⟩ := crashes_panic wire_well (h call hc)
    exact hp
  exact ⟨sampleEnv, wireLib, rfl, sample_coinsOk, sample_text,
    [.initChain sampleChain [], .deliverTx payBytes], [.none, .code 0], m, ⟨sampleChain, [], List.mem_cons_self⟩, hs,
    ⟨shortKeyBytes, hall _ List.mem_cons_self⟩, hall⟩

/-- A transaction that is safe and accepted (compare `payBytes`): the hypotheses of `C43_partial` can
be met. -/
example : SafeTx sampleCoins (genesisWorld wireLib sampleChain)
    (genesisTx [] 0 [.sendCoins genesisAddress b!"bob" [⟨b!"test", b!"5"⟩],
      .createAccount (some ⟨b!"ann", none, 0, 0⟩)]) where
  fee := by decide +kernel
  payer := by decide
  safe t ht := by
    rcases List.mem_cons.1 ht with rfl | ht
    · exact ⟨by decide, by decide, ⟨by decide, by decide, by decide +kernel⟩, by decide +kernel⟩
    · rcases List.mem_cons.1 ht with rfl | ht
      · exact ⟨by decide, by decide, by decide +kernel⟩
      · cases ht
  fresh a ha := by
    have : b!"ann" = a := by simpa [genesisTx, sampleTx, created] using ha
    subst this
    exact ⟨rfl, by decide⟩
  once := by decide
  apart := by decide

end Verif.Props
