import Verif.Proofs.Transfers
import Verif.Props.Accounts
/-!
# Coins: C45 to C49

About every history the application on the object store has served.
-/

namespace Verif.Props
open Verif Spec

variable {lib : Libs} {m m' m₁ m₂ : World}

/-! ## C45 -/

/-- **C45 partial**: as long as no address is longer than 127 bytes, all balances together contain
the same amount of each denomination before and after any requests. -/
theorem C45_partial (hw : DecodesWell lib) (ok : CoinsOk lib.coins) {calls more : List (Call BlockReq)}
    {rs rs' : List (Resp Obj)} (hs : Starts calls) (h : Served lib calls rs m)
    (h1 : Served lib (calls ++ more) (rs ++ rs') m₁) (hshort : ShortCalls lib (calls ++ more))
    {ks ks' : List Bytes} (hk : Holders m ks) (hk' : Holders m₁ ks') (d : Bytes) :
    supply lib.coins m₁ ks' d = supply lib.coins m ks d := by
  obtain ⟨limit, ok⟩ := ok
  exact (run_conserved ok (served_between hw hs h h1).2
    (served_funded ok hw h fun b hb => hshort b (List.mem_append_left _ hb))
    fun b hb => hshort b (List.mem_append_right _ hb)).supply_eq hk hk' d

/-- The balances of any served history are finitely many. -/
theorem C45_holders_partial (hw : DecodesWell lib) {calls : List (Call BlockReq)} {rs : List (Resp Obj)}
    (h : Served lib calls rs m) : ∃ ks, Holders m ks := by
  rcases served_run hw h with ⟨rfl, _⟩ | ⟨_, _, c, _, _, _, _, _, _, _, hr⟩
  · exact ⟨[], by simp, fun k => by simp [balanceAt, Contents.empty]⟩
  · have key : ∀ {m m' : World} {cs : List (Call BlockReq)} {rs : List (Resp Obj)}, Spec.Run lib m cs rs m' →
        (∃ ks, Holders m ks) → ∃ ks, Holders m' ks := by
      intro m m' cs rs hr
      induction hr with
      | nil => exact id
      | cons h1 _ ih =>
        rintro ⟨ks, hk⟩
        refine ih ?_
        cases h1 with
        | executed _ _ _ _ _ _ hx => exact (tx_touches hx).holders hk
        | beginBlock b => exact Touches.holders (l := []) (fun k _ => begin_balances b k) hk
        | endBlock b => exact Touches.holders (l := []) (fun k _ => end_balances b k) hk
        | _ => exact ⟨ks, hk⟩
    exact key hr ⟨_, genesis_holders c⟩

/-- **C45 partial**: the amounts are those of genesis. -/
theorem C45_genesis_partial (hw : DecodesWell lib) (ok : CoinsOk lib.coins) {calls : List (Call BlockReq)}
    {rs : List (Resp Obj)} (hs : Starts calls) (h : Served lib calls rs m) (hshort : ShortCalls lib calls)
    {ks : List Bytes} (hk : Holders m ks) (d : Bytes) :
    supply lib.coins m ks d = amountOf lib.coins genesisCoins d := by
  obtain ⟨limit, ok⟩ := ok
  rcases served_run hw h with ⟨_, hn⟩ | ⟨pre, rs₀, c, post, rs', rfl, _, _, _, _, hr⟩
  · exact absurd hs hn
  · have := (run_conserved ok hr (genesis_funded ok c) fun b hb => hshort b (by simp [hb])).supply_eq
      (genesis_holders c) hk d
    rw [this, supply, List.map_singleton, List.sum_singleton, amountAt, genesis_balance, if_pos rfl]

/-- A long address. -/
def longAddress : Bytes := List.replicate 128 97

/-- One transaction with two transfers: to a long address, and to the address that is the key of
this address in the store. -/
def burnTx : AppTx := genesisTx b!"pay" 0
  [.sendCoins genesisAddress longAddress [⟨b!"test", b!"5"⟩],
   .sendCoins genesisAddress (1 :: longAddress) [⟨b!"test", b!"5"⟩]]

/-- The application with this transaction. -/
def burnLib : Libs := sampleLib [(b!"1", burnTx)]

theorem burn_well : DecodesWell burnLib := sample_well rfl

theorem burn_check : leadsTo burnLib [] [] (fun m => balanceAt m genesisAddress == some genesisCoins) = true ∧
    leadsTo burnLib [.deliverTx b!"1"] [.code (codeOf .notFound)]
      (fun m => balanceAt m genesisAddress == some [⟨b!"test", b!"4999999989"⟩] &&
        balanceAt m feeCollector == some [⟨b!"test", b!"1"⟩] &&
        balanceAt m (1 :: longAddress) == some [⟨b!"test", b!"5"⟩] &&
        (balanceAt m (1 :: 1 :: longAddress)).isNone) = true := by decide +kernel

/-- Delivering a transaction touches only the balances of the payer, the fee collector, and the
sources and targets of transfers. -/
theorem delivered_touches (hw : DecodesWell lib) {calls : List (Call BlockReq)} {rs : List (Resp Obj)} {r : Resp Obj}
    {bytes : Bytes} {tx : AppTx} (hs : Starts calls) (h : Served lib calls rs m)
    (hd : lib.decode bytes = .ret (.ok tx)) (h1 : Served lib (calls ++ [.deliverTx bytes]) (rs ++ [r]) m₁) :
    Touches ((feeOf tx :: tx.transitions.flatMap transfersOf).flatMap Transfer.keys) m m₁ := by
  obtain ⟨hi, hr⟩ := served_between hw hs h h1
  cases hr with
  | cons h2 h3 =>
    cases h3
    cases h2 with
    | undecodable _ e hd' => rw [hd] at hd'; cases hd'
    | unauthenticated _ t hd' hna => exact .refl _ _
    | executed _ _ t q hd' hau hx => rw [hd] at hd'; cases hd'; exact tx_touches hx

/-- **C45 fails**: a transaction that burns coins. -/
theorem C45_fails : ∃ (lib : Libs) (_ : DecodesWell lib) (_ : CoinsOk lib.coins) (calls : List (Call BlockReq))
    (rs : List (Resp Obj)) (m m' : World) (bytes : Bytes) (r : Resp Obj) (ks ks' : List Bytes) (d : Bytes),
    Served lib calls rs m ∧ Served lib (calls ++ [.deliverTx bytes]) (rs ++ [r]) m' ∧
    Holders m ks ∧ Holders m' ks' ∧ supply lib.coins m' ks' d < supply lib.coins m ks d := by
  have h0 : Served burnLib [.initChain sampleChain []] [.none] (genesisWorld burnLib sampleChain) :=
    served_exec burn_well (by rfl) rfl
  obtain ⟨m, h2, hb⟩ := leadsTo_served burn_well burn_check.2
  simp only [Bool.and_eq_true, beq_iff_eq, Option.isNone_iff_eq_none] at hb
  obtain ⟨⟨⟨b1, b2⟩, b3⟩, b4⟩ := hb
  have hk : Holders m [genesisAddress, feeCollector, 1 :: longAddress] := by
    refine ⟨by decide +kernel, fun k => ⟨fun hk => ?_, fun hk => ?_⟩⟩
    · simp only [List.mem_cons, List.not_mem_nil, or_false] at hk
      rcases hk with rfl | rfl | rfl
      · rw [b1]; rfl
      · rw [b2]; rfl
      · rw [b3]; rfl
    · by_contra hn
      have hkeys : (feeOf burnTx :: burnTx.transitions.flatMap transfersOf).flatMap Transfer.keys =
          [genesisAddress, feeCollector, genesisAddress, 1 :: longAddress, genesisAddress,
            1 :: 1 :: longAddress] := by decide +kernel
      have := delivered_touches (calls := [.initChain sampleChain []]) (bytes := b!"1") (tx := burnTx)
        burn_well starts_exec h0 rfl h2 k (fun hm => by
          rw [hkeys] at hm
          simp only [List.mem_cons, List.not_mem_nil, or_false, not_or] at hm hn
          rcases hm with h | h | h | h | h | h
          · exact hn.1 h
          · exact hn.2.1 h
          · exact hn.1 h
          · exact hn.2.2 h
          · exact hn.1 h
          · rw [h, b4] at hk; cases hk)
      rw [this, genesis_balance] at hk
      split at hk
      · rename_i hg; exact hn (by simp [hg])
      · cases hk
  refine ⟨burnLib, burn_well, sample_coinsOk, _, _, _, m, b!"1", _, _, _, b!"test", h0, h2, genesis_holders _, hk, ?_⟩
  show supply sampleCoins m _ b!"test" < supply sampleCoins (genesisWorld burnLib sampleChain) _ b!"test"
  simp only [supply, List.map_cons, List.map_nil, amountAt_some b1, amountAt_some b2, amountAt_some b3,
    amountAt_some ((genesis_balance sampleChain genesisAddress).trans (if_pos rfl))]
  decide +kernel

/-- Coins for the address that is the key of the long address in the store, and then for the long
address. -/
def setupTx : AppTx := genesisTx b!"pay" 0
  [.sendCoins genesisAddress (1 :: longAddress) [⟨b!"test", b!"5"⟩],
   .sendCoins genesisAddress longAddress [⟨b!"test", b!"5"⟩]]

/-- One transaction with two transfers of coins of the former address: what is read is the balance of
the long address, what is written is the balance of the former address. -/
def mintTx : AppTx := genesisTx b!"pay" 1
  [.sendCoins (1 :: longAddress) b!"ann" [⟨b!"test", b!"5"⟩],
   .sendCoins (1 :: longAddress) b!"ann" [⟨b!"test", b!"5"⟩]]

/-- The application with these transactions. -/
def mintLib : Libs := sampleLib [(b!"1", setupTx), (b!"2", mintTx)]

theorem mint_well : DecodesWell mintLib := sample_well rfl

theorem mint_check :
    leadsTo mintLib [.deliverTx b!"1"] [.code 0]
      (fun m => balanceAt m genesisAddress == some [⟨b!"test", b!"4999999989"⟩] &&
        balanceAt m feeCollector == some [⟨b!"test", b!"1"⟩] &&
        balanceAt m (1 :: longAddress) == some [⟨b!"test", b!"5"⟩] &&
        balanceAt m (1 :: 1 :: longAddress) == some [⟨b!"test", b!"5"⟩]) = true ∧
    leadsTo mintLib [.deliverTx b!"1", .deliverTx b!"2"] [.code 0, .code 0]
      (fun m => balanceAt m genesisAddress == some [⟨b!"test", b!"4999999988"⟩] &&
        balanceAt m feeCollector == some [⟨b!"test", b!"2"⟩] &&
        balanceAt m (1 :: longAddress) == some [⟨b!"test", b!"5"⟩] &&
        balanceAt m (1 :: 1 :: longAddress) == some [] &&
        balanceAt m b!"ann" == some [⟨b!"test", b!"10"⟩]) = true := by decide +kernel

/-- **C45 fails**: a transaction that mints coins: it is accepted, and all balances together contain
more after it. -/
theorem C45_mint_fails : ∃ (lib : Libs) (_ : DecodesWell lib) (_ : CoinsOk lib.coins) (calls : List (Call BlockReq))
    (rs : List (Resp Obj)) (m m' : World) (bytes : Bytes) (ks ks' : List Bytes) (d : Bytes),
    Served lib calls rs m ∧ Served lib (calls ++ [.deliverTx bytes]) (rs ++ [.code 0]) m' ∧
    Holders m ks ∧ Holders m' ks' ∧ supply lib.coins m ks d < supply lib.coins m' ks' d := by
  have h0 : Served mintLib [.initChain sampleChain []] [.none] (genesisWorld mintLib sampleChain) :=
    served_exec mint_well (by rfl) rfl
  obtain ⟨m, h1, hb⟩ := leadsTo_served mint_well mint_check.1
  obtain ⟨m', h2, hb'⟩ := leadsTo_served mint_well mint_check.2
  simp only [Bool.and_eq_true, beq_iff_eq] at hb hb'
  obtain ⟨⟨⟨b1, b2⟩, b3⟩, b4⟩ := hb
  obtain ⟨⟨⟨⟨c1, c2⟩, c3⟩, c4⟩, c5⟩ := hb'
  have hk : Holders m [genesisAddress, feeCollector, 1 :: longAddress, 1 :: 1 :: longAddress] := by
    refine ⟨by decide +kernel, fun k => ⟨fun hk => ?_, fun hk => ?_⟩⟩
    · simp only [List.mem_cons, List.not_mem_nil, or_false] at hk
      rcases hk with rfl | rfl | rfl | rfl
      · rw [b1]; rfl
      · rw [b2]; rfl
      · rw [b3]; rfl
      · rw [b4]; rfl
    · by_contra hn
      have hkeys : (feeOf setupTx :: setupTx.transitions.flatMap transfersOf).flatMap Transfer.keys =
          [genesisAddress, feeCollector, genesisAddress, 1 :: 1 :: longAddress, genesisAddress,
            1 :: longAddress] := by decide +kernel
      have := delivered_touches (calls := [.initChain sampleChain []]) (bytes := b!"1") (tx := setupTx)
        mint_well starts_exec h0 rfl h1 k (fun hm => hn (by
          rw [hkeys] at hm
          simp only [List.mem_cons, List.not_mem_nil, or_false] at hm ⊢
          generalize (1 :: longAddress : Bytes) = x at hm ⊢
          generalize (1 :: x : Bytes) = y at hm ⊢
          generalize genesisAddress = g at hm ⊢
          generalize feeCollector = f at hm ⊢
          generalize b!"ann" = a at hm ⊢
          clear * - hm
          tauto))
      rw [this, genesis_balance] at hk
      split at hk
      · rename_i hg; exact hn (by simp [hg])
      · cases hk
  have hk' : Holders m' [genesisAddress, feeCollector, 1 :: longAddress, 1 :: 1 :: longAddress, b!"ann"] := by
    refine ⟨by decide +kernel, fun k => ⟨fun hk => ?_, fun hk' => ?_⟩⟩
    · simp only [List.mem_cons, List.not_mem_nil, or_false] at hk
      rcases hk with rfl | rfl | rfl | rfl | rfl
      · rw [c1]; rfl
      · rw [c2]; rfl
      · rw [c3]; rfl
      · rw [c4]; rfl
      · rw [c5]; rfl
    · by_contra hn
      have hkeys : (feeOf mintTx :: mintTx.transitions.flatMap transfersOf).flatMap Transfer.keys =
          [genesisAddress, feeCollector, 1 :: 1 :: longAddress, b!"ann", 1 :: 1 :: longAddress,
            b!"ann"] := by decide +kernel
      have := delivered_touches (bytes := b!"2") (tx := mintTx) mint_well starts_exec h1 rfl h2 k (fun hm => hn (by
          rw [hkeys] at hm
          simp only [List.mem_cons, List.not_mem_nil, or_false] at hm ⊢
          generalize (1 :: longAddress : Bytes) = x at hm ⊢
          generalize (1 :: x : Bytes) = y at hm ⊢
          generalize genesisAddress = g at hm ⊢
          generalize feeCollector = f at hm ⊢
          generalize b!"ann" = a at hm ⊢
          clear * - hm
          tauto))
      rw [this, ← hk.mem k] at hk'
      simp only [List.mem_cons, List.not_mem_nil, or_false] at hk' hn
      exact hn (by rcases hk' with h | h | h | h <;> simp only [h, true_or, or_true])
  refine ⟨mintLib, mint_well, sample_coinsOk, _, _, m, m', b!"2", _, _, b!"test", h1, h2, hk, hk', ?_⟩
  show supply sampleCoins m _ b!"test" < supply sampleCoins m' _ b!"test"
  simp only [supply, List.map_cons, List.map_nil, amountAt_some b1, amountAt_some b2, amountAt_some b3,
    amountAt_some b4, amountAt_some c1, amountAt_some c2, amountAt_some c3, amountAt_some c4, amountAt_some c5]
  decide +kernel

/-! ## C46 and C49 -/

/-- **C49 partial**: an authenticated transaction first moves its fee from the payer to the fee collector;
then its transitions take effect up to the first that fails.  (Addresses shorter than 128
bytes.) -/
theorem C49_fee_partial (hw : DecodesWell lib) (ok : CoinsOk lib.coins) {calls : List (Call BlockReq)}
    {rs : List (Resp Obj)} {r : Resp Obj} {bytes : Bytes} {tx : AppTx} (hs : Starts calls) (h : Served lib calls rs m)
    (hsc : ShortCalls lib calls)
    (hd : lib.decode bytes = .ret (.ok tx)) (hshort : ShortTx tx) (ha : Authenticated lib m tx)
    (h1 : Served lib (calls ++ [.deliverTx bytes]) (rs ++ [r]) m₁) :
    ∃ done rest, tx.transitions = done ++ rest ∧ (r = .code 0 ↔ rest = []) ∧
      ∀ k d, amountAt lib.coins m₁ k d = amountAt lib.coins m k d + (feeOf tx).change lib.coins k d +
        changes lib.coins k d (done.flatMap transfersOf) := by
  obtain ⟨limit, ok⟩ := ok
  obtain ⟨hi, hr⟩ := served_between hw hs h h1
  have hcode : ∀ e : Err, codeOf e ≠ 0 := by intro e; cases e <;> decide
  cases hr with
  | cons h2 h3 =>
    cases h3
    cases h2 with
    | undecodable _ e hd' => rw [hd] at hd'; cases hd'
    | unauthenticated _ t hd' hna => rw [hd] at hd'; cases hd'; exact absurd ha hna
    | executed _ _ t q hd' hau hx =>
      rw [hd] at hd'
      cases hd'
      obtain ⟨m₂, hf, ⟨rfl, hm⟩ | ⟨e, t₁, t, t₂, rfl, ht, hm⟩⟩ := tx_moves ok (served_funded ok hw h hsc) hshort ha hx
      · exact ⟨_, [], (List.append_nil _).symm, by simp [resultCode], fun k d => by rw [hm.amounts, hf]⟩
      · refine ⟨t₁, t :: t₂, ht, ?_, fun k d => by rw [hm.amounts, hf]⟩
        simp [resultCode, hcode e]

/-- **C49 partial** for a transaction without transfers to or from the payer: the payer has exactly the fee
less. -/
theorem C49_payer_partial (hw : DecodesWell lib) (ok : CoinsOk lib.coins) {calls : List (Call BlockReq)}
    {rs : List (Resp Obj)} {r : Resp Obj} {bytes : Bytes} {tx : AppTx} (hs : Starts calls) (h : Served lib calls rs m)
    (hsc : ShortCalls lib calls)
    (hd : lib.decode bytes = .ret (.ok tx)) (hshort : ShortTx tx) (ha : Authenticated lib m tx)
    (h1 : Served lib (calls ++ [.deliverTx bytes]) (rs ++ [r]) m₁) (hne : tx.raw.payer ≠ feeCollector)
    (hno : ∀ t ∈ tx.transitions, transfersOf t = []) (d : Bytes) :
    amountAt lib.coins m₁ tx.raw.payer d = amountAt lib.coins m tx.raw.payer d - amountOf lib.coins tx.raw.fee d ∧
    amountAt lib.coins m₁ feeCollector d = amountAt lib.coins m feeCollector d + amountOf lib.coins tx.raw.fee d := by
  obtain ⟨l, l', ht, _, hm⟩ := C49_fee_partial hw ok hs h hsc hd hshort ha h1
  have : l.flatMap transfersOf = [] := List.flatMap_eq_nil_iff.2 fun t hl => hno t (by simp [ht, hl])
  rw [hm, hm, this, changes_nil, changes_nil, Transfer.change, Transfer.change, feeOf]
  simp only [if_true, if_neg hne, if_neg (Ne.symm hne)]
  omega

/-- **C49 partial**: a payer with too little makes the transaction fail with code 400 and without
effect.  (After a history whose addresses are shorter than 128 bytes.) -/
theorem C49_insufficient_partial (hw : DecodesWell lib) (ok : CoinsOk lib.coins) {calls : List (Call BlockReq)}
    {rs : List (Resp Obj)} {bytes : Bytes} {tx : AppTx} (hs : Starts calls) (h : Served lib calls rs m)
    (hsc : ShortCalls lib calls)
    (hd : lib.decode bytes = .ret (.ok tx)) {d : Bytes}
    (hless : amountAt lib.coins m tx.raw.payer d < amountOf lib.coins tx.raw.fee d) :
    Served lib (calls ++ [.deliverTx bytes]) (rs ++ [.code 400]) m := by
  obtain ⟨limit, ok⟩ := ok
  have hsub : ∀ balance, balanceAt m tx.raw.payer = some balance →
      lib.coins.safeSubCoins balance tx.raw.fee = .ret (.error .other) := by
    intro balance hb
    obtain ⟨la, hla⟩ := (served_funded ok hw h hsc).parsed _ _ hb
    cases hf : lib.coins.balanceOf tx.raw.fee with
    | panic =>
      have := amountOf_nonneg ok balance d
      rw [amountAt_some hb] at hless
      simp only [amountOf, hf] at hless this
      omega
    | ret q =>
      cases q with
      | error e =>
        have := amountOf_nonneg ok balance d
        rw [amountAt_some hb] at hless
        simp only [amountOf, hf] at hless this
        omega
      | ok lb =>
        rcases safeSub_iff ok hla hf with ⟨h1, _⟩ | ⟨_, h2⟩
        · exact h1
        · have := h2 d
          rw [amountAt_some hb, amountOf_eq hla, amountOf_eq hf] at hless
          omega
  refine (served_more hw hs h).2 (.cons (.unauthenticated m bytes tx hd (fun ha => ?_) fun ha => ?_) (.nil _))
  · obtain ⟨b, rest, hb, h2⟩ := ha.fee
    rw [hsub b hb] at h2
    cases h2
  · obtain ⟨b, hb, h2⟩ := ha.2
    rw [hsub b hb] at h2
    cases h2

/-- **C46 partial**: an accepted transaction moves exactly the amounts of its fee and of its transfers.
(Addresses shorter than 128 bytes.) -/
theorem C46_accepted_partial (hw : DecodesWell lib) (ok : CoinsOk lib.coins) {calls : List (Call BlockReq)}
    {rs : List (Resp Obj)} {bytes : Bytes} {tx : AppTx} (hs : Starts calls) (h : Served lib calls rs m)
    (hsc : ShortCalls lib calls)
    (hd : lib.decode bytes = .ret (.ok tx)) (hshort : ShortTx tx)
    (h1 : Served lib (calls ++ [.deliverTx bytes]) (rs ++ [.code 0]) m₁) :
    (∀ k d, amountAt lib.coins m₁ k d = amountAt lib.coins m k d + (feeOf tx).change lib.coins k d +
      changes lib.coins k d (tx.transitions.flatMap transfersOf)) ∧
    ∀ before a b cs after, tx.transitions = before ++ .sendCoins a b cs :: after → ∀ d,
      amountOf lib.coins cs d ≤ amountAt lib.coins m a d + (feeOf tx).change lib.coins a d +
        changes lib.coins a d (before.flatMap transfersOf) := by
  obtain ⟨limit, ok⟩ := ok
  obtain ⟨tx', hd', ha, hx⟩ := accepted_authenticated hw hs h h1
  rw [hd] at hd'
  cases hd'
  obtain ⟨m₂, hf, ⟨_, hm⟩ | ⟨e, t₁, t, t₂, he, _, _⟩⟩ := tx_moves ok (served_funded ok hw h hsc) hshort ha hx
  · refine ⟨fun k d => by rw [hm.amounts, hf], fun t₁ a b cs t₂ ht d => ?_⟩
    rw [← hf]
    exact hm.covered t₁ a b cs t₂ ht d
  · cases he

/-- **C46 partial** for one transfer without a fee. -/
theorem C46_transfer_partial (hw : DecodesWell lib) (ok : CoinsOk lib.coins) {calls : List (Call BlockReq)}
    {rs : List (Resp Obj)} {bytes : Bytes} {tx : AppTx} (hs : Starts calls) (h : Served lib calls rs m)
    (hsc : ShortCalls lib calls)
    (hd : lib.decode bytes = .ret (.ok tx)) (hshort : ShortTx tx)
    (h1 : Served lib (calls ++ [.deliverTx bytes]) (rs ++ [.code 0]) m₁) {x y : Bytes} {a : List Coin}
    (ht : tx.transitions = [.sendCoins x y a]) (hfee : ∀ d, amountOf lib.coins tx.raw.fee d = 0) :
    (x ≠ y → ∀ d, amountAt lib.coins m₁ x d = amountAt lib.coins m x d - amountOf lib.coins a d ∧
      amountAt lib.coins m₁ y d = amountAt lib.coins m y d + amountOf lib.coins a d ∧
      amountOf lib.coins a d ≤ amountAt lib.coins m x d) ∧
    (x = y → ∀ d, amountAt lib.coins m₁ x d = amountAt lib.coins m x d) ∧
    ∀ z d, z ≠ x → z ≠ y → amountAt lib.coins m₁ z d = amountAt lib.coins m z d := by
  obtain ⟨hm, hc⟩ := C46_accepted_partial hw ok hs h hsc hd hshort h1
  have hm' : ∀ k d, amountAt lib.coins m₁ k d = amountAt lib.coins m k d +
      ((if k = y then amountOf lib.coins a d else 0) - (if k = x then amountOf lib.coins a d else 0)) := by
    intro k d
    rw [hm, ht, Transfer.change, feeOf]
    simp only [hfee, ite_self, sub_zero, add_zero, List.flatMap_cons, List.flatMap_nil, List.append_nil, transfersOf,
      changes_one, Transfer.change]
  refine ⟨fun hne d => ⟨?_, ?_, ?_⟩, fun he d => ?_, fun z d hx hy => ?_⟩
  · rw [hm', if_neg hne, if_pos rfl]; omega
  · rw [hm', if_pos rfl, if_neg (Ne.symm hne)]; omega
  · have := hc [] x y a [] ht d
    simpa [Transfer.change, feeOf, hfee, changes_nil] using this
  · rw [hm', if_pos he, if_pos rfl]; omega
  · rw [hm', if_neg hx, if_neg hy]; omega

/-- **C46 partial**: a transfer of more than there is, after the fee was paid, fails and changes no amount
beyond the fee. -/
theorem C46_insufficient_partial (hw : DecodesWell lib) (ok : CoinsOk lib.coins) {calls : List (Call BlockReq)}
    {rs : List (Resp Obj)} {r : Resp Obj} {bytes : Bytes} {tx : AppTx} (hs : Starts calls) (h : Served lib calls rs m)
    (hsc : ShortCalls lib calls)
    (hd : lib.decode bytes = .ret (.ok tx)) (hshort : ShortTx tx) (ha : Authenticated lib m tx)
    (h1 : Served lib (calls ++ [.deliverTx bytes]) (rs ++ [r]) m₁) {x y : Bytes} {a : List Coin}
    (ht : tx.transitions = [.sendCoins x y a]) {d : Bytes}
    (hless : amountAt lib.coins m x d + (feeOf tx).change lib.coins x d < amountOf lib.coins a d) :
    r ≠ .code 0 ∧ ∀ k d, amountAt lib.coins m₁ k d = amountAt lib.coins m k d + (feeOf tx).change lib.coins k d := by
  obtain ⟨l, l', hl, hr, hm⟩ := C49_fee_partial hw ok hs h hsc hd hshort ha h1
  have hne : r ≠ .code 0 := by
    rintro rfl
    have := (C46_accepted_partial hw ok hs h hsc hd hshort h1).2 [] x y a [] ht d
    rw [List.flatMap_nil, changes_nil] at this
    omega
  refine ⟨hne, fun k d => ?_⟩
  have hl0 : l = [] := by
    rw [ht] at hl
    cases l with
    | nil => rfl
    | cons t l =>
      exfalso
      apply hne
      rw [hr]
      simp only [List.cons_append, List.cons.injEq] at hl
      exact (List.append_eq_nil_iff.1 hl.2.symm).2
  rw [hm, hl0, List.flatMap_nil, changes_nil, add_zero]

/-- Coins for the long address. -/
def longTx : AppTx := genesisTx b!"pay" 0 [.sendCoins genesisAddress longAddress [⟨b!"test", b!"5"⟩]]

/-- Coins for the address that is the key of the long address in the store. -/
def aliasTx : AppTx := genesisTx b!"pay" 1 [.sendCoins genesisAddress (1 :: longAddress) [⟨b!"test", b!"5"⟩]]
  (fee := [])

/-- A transaction that declares this address as the payer. -/
def aliasPays : AppTx := sampleTx b!"pay" [signer genesisAddress b!"key" b!"pay" 0 1] (1 :: longAddress)
  [.sendCoins genesisAddress b!"ann" [⟨b!"test", b!"5"⟩]]

/-- The application with these transactions. -/
def aliasLib : Libs := sampleLib [(b!"1", longTx), (b!"2", aliasTx), (b!"3", aliasPays)]

theorem alias_well : DecodesWell aliasLib := sample_well rfl

/-- Whether the outcome is a success. -/
def passes : Out (Except Err Unit) → Bool
  | .ret (.ok _) => true
  | _ => false

theorem passes_iff {o : Out (Except Err Unit)} : passes o = true ↔ o = .ret (.ok ()) := by
  rcases o with ⟨_ | ⟨⟩⟩ | _ <;> simp [passes]

theorem alias_check :
    leadsTo aliasLib [.deliverTx b!"1"] [.code 0]
      (fun m => balanceAt m genesisAddress == some [⟨b!"test", b!"4999999994"⟩] &&
        balanceAt m (1 :: longAddress) == some [⟨b!"test", b!"5"⟩] &&
        passes (authOutcome aliasLib m aliasPays)) = true ∧
    leadsTo aliasLib [.deliverTx b!"1", .deliverTx b!"2"] [.code 0, .code (codeOf .notFound)]
      (fun m => balanceAt m genesisAddress == some [⟨b!"test", b!"4999999989"⟩]) = true ∧
    leadsTo aliasLib [.deliverTx b!"1", .deliverTx b!"3"] [.code 0, .code 400]
      (fun m => balanceAt m (1 :: longAddress) == some [⟨b!"test", b!"5"⟩]) = true := by decide +kernel

/-- **C46 fails** for addresses longer than 127 bytes: a transfer fails, but the source has lost the
coins. -/
theorem C46_fails : ∃ (lib : Libs) (_ : DecodesWell lib) (_ : CoinsOk lib.coins) (calls : List (Call BlockReq))
    (rs : List (Resp Obj)) (m m' : World) (bytes : Bytes) (tx : AppTx) (x y d : Bytes) (a : List Coin) (r : Resp Obj),
    Served lib calls rs m ∧ lib.decode bytes = .ret (.ok tx) ∧ tx.transitions = [.sendCoins x y a] ∧ tx.raw.fee = [] ∧
    Served lib (calls ++ [.deliverTx bytes]) (rs ++ [r]) m' ∧ r ≠ .code 0 ∧
    amountAt lib.coins m' x d = amountAt lib.coins m x d - amountOf lib.coins a d ∧ 0 < amountOf lib.coins a d := by
  obtain ⟨m, h1, hb⟩ := leadsTo_served alias_well alias_check.1
  obtain ⟨m', h2, hb'⟩ := leadsTo_served alias_well alias_check.2.1
  simp only [Bool.and_eq_true, beq_iff_eq] at hb hb'
  refine ⟨aliasLib, alias_well, sample_coinsOk, _, _, m, m', b!"2", aliasTx, genesisAddress, 1 :: longAddress,
    b!"test", [⟨b!"test", b!"5"⟩], _, h1, rfl, rfl, rfl, h2, by decide, ?_, by decide +kernel⟩
  rw [amountAt_some hb.1.1, amountAt_some hb']
  decide +kernel

/-- **C49 fails** for addresses longer than 127 bytes: a transaction passes authentication, but its
fee is not taken. -/
theorem C49_fails : ∃ (lib : Libs) (_ : DecodesWell lib) (_ : CoinsOk lib.coins) (calls : List (Call BlockReq))
    (rs : List (Resp Obj)) (m m' : World) (bytes : Bytes) (tx : AppTx) (d : Bytes),
    Served lib calls rs m ∧ lib.decode bytes = .ret (.ok tx) ∧ Authenticated lib m tx ∧
    Served lib (calls ++ [.deliverTx bytes]) (rs ++ [.code 400]) m' ∧ 0 < amountOf lib.coins tx.raw.fee d ∧
    amountAt lib.coins m' tx.raw.payer d = amountAt lib.coins m tx.raw.payer d := by
  obtain ⟨m, h1, hb⟩ := leadsTo_served alias_well alias_check.1
  obtain ⟨m', h2, hb'⟩ := leadsTo_served alias_well alias_check.2.2
  simp only [Bool.and_eq_true, beq_iff_eq] at hb hb'
  refine ⟨aliasLib, alias_well, sample_coinsOk, _, _, m, m', b!"3", aliasPays, b!"test", h1, rfl, ?_, h2,
    by decide +kernel, ?_⟩
  · exact authOutcome_ok.1 (passes_iff.1 hb.2)
  · show amountAt _ m' (1 :: longAddress) _ = amountAt _ m (1 :: longAddress) _
    rw [amountAt_some hb.1.2, amountAt_some hb']

/-- The amounts of the sample history. -/
example : ∃ m, Served payLib payCalls [.none, .none, .code 0] m ∧ amountAt payLib.coins m b!"bob" b!"test" = 5 ∧
    amountAt payLib.coins m feeCollector b!"test" = 1 ∧
    amountAt payLib.coins m genesisAddress b!"test" = 5000000000 - 6 := by
  obtain ⟨m, h, _⟩ := pay_served
  have hm := (C46_accepted_partial (calls := [.initChain sampleChain [], .beginBlock ⟨7, b!"main", []⟩]) (bytes := b!"1") (tx := payBob)
    payLib_well payLib_coins starts_exec pay_before (fun b hb => by simp at hb) rfl ⟨of_decide_eq_true rfl, fun t ht => by
      simp only [payBob, genesisTx, sampleTx, List.mem_singleton] at ht
      subst ht
      exact ⟨of_decide_eq_true rfl, of_decide_eq_true rfl⟩⟩ h).1
  refine ⟨m, h, ?_, ?_, ?_⟩ <;> rw [hm] <;> decide +kernel

/-! ## C47 -/

/-- **C47 partial**: in every served history every stored balance can be parsed, as coins with
distinct denominations in increasing order and amounts that are not negative, as long as no address
is longer than 127 bytes.  Missing: that the stored list itself has this form; what was sent first is stored as it was sent. -/
theorem C47_partial (hw : DecodesWell lib) (ok : CoinsOk lib.coins) {calls : List (Call BlockReq)}
    {rs : List (Resp Obj)} (h : Served lib calls rs m)
    (hsc : ShortCalls lib calls) {k : Bytes} {cs : List Coin} (hk : balanceAt m k = some cs) :
    ∃ l, lib.coins.balanceOf cs = .ret (.ok l) ∧ l.Pairwise (fun a b => a.1 ≠ b.1) ∧ SortedCoins l ∧
      ∀ c ∈ l, 0 ≤ c.2 := by
  obtain ⟨limit, ok⟩ := ok
  obtain ⟨l, hl⟩ := (served_funded ok hw h hsc).parsed k cs hk
  obtain ⟨h1, h2⟩ := ok.parsed hl
  refine ⟨l, hl, h1.imp fun {a b} hab he => ?_, h1, fun c hc => (h2 c hc).1⟩
  rw [he] at hab
  exact absurd hab (by rw [Bytes.lt_irrefl]; simp)

/-- Coins without a denomination; their denominations are written into their amounts. -/
def oddCoins : List Coin := [⟨[], b!"0coin"⟩, ⟨[], b!"2test"⟩]

/-- A transaction that sends them to a new account. -/
def oddTx : AppTx := genesisTx b!"pay" 0 [.sendCoins genesisAddress b!"bob" oddCoins]

/-- The application with this transaction. -/
def oddLib : Libs := sampleLib [(b!"1", oddTx)]

theorem odd_well : DecodesWell oddLib := sample_well rfl

theorem odd_check : leadsTo oddLib [.deliverTx b!"1"] [.code 0]
    (fun m => balanceAt m b!"bob" == some oddCoins) = true := by decide +kernel

/-- **C47 fails**: a stored balance whose denominations are not distinct. -/
theorem C47_fails : ∃ (lib : Libs) (_ : DecodesWell lib) (_ : CoinsOk lib.coins) (calls : List (Call BlockReq))
    (rs : List (Resp Obj)) (m : World) (k : Bytes) (cs : List Coin),
    Served lib calls rs m ∧ balanceAt m k = some cs ∧ ¬ (cs.map Coin.denom).Nodup := by
  obtain ⟨m, h, hb⟩ := leadsTo_served odd_well odd_check
  exact ⟨oddLib, odd_well, sample_coinsOk, _, _, m, _, oddCoins, h, beq_iff_eq.1 hb, by decide⟩

/-! ## C48 -/

/-- A transaction signed by the genesis account that takes coins from bob. -/
def takeTx : AppTx := genesisTx b!"pay" 1 [.sendCoins b!"bob" b!"ann" [⟨b!"test", b!"3"⟩]]

/-- The application with this transaction. -/
def takeLib : Libs := sampleLib [(b!"1", payBob), (b!"2", takeTx)]

theorem take_well : DecodesWell takeLib := sample_well rfl

theorem take_check : leadsTo takeLib [.deliverTx b!"1"] [.code 0]
      (fun m => balanceAt m b!"bob" == some [⟨b!"test", b!"5"⟩]) = true ∧
    leadsTo takeLib [.deliverTx b!"1", .deliverTx b!"2"] [.code 0, .code 0]
      (fun m => balanceAt m b!"bob" == some [⟨b!"test", b!"2"⟩]) = true := by decide +kernel

/-- **C48 fails**: a transaction is accepted and decreases a balance, though the owner is neither a
signer nor the payer of the fee: sending coins does not check the source. -/
theorem C48_fails : ∃ (lib : Libs) (_ : DecodesWell lib) (_ : CoinsOk lib.coins) (calls : List (Call BlockReq))
    (rs : List (Resp Obj)) (m m' : World) (bytes : Bytes) (tx : AppTx) (owner d : Bytes),
    Served lib calls rs m ∧ lib.decode bytes = .ret (.ok tx) ∧
    Served lib (calls ++ [.deliverTx bytes]) (rs ++ [.code 0]) m' ∧
    owner ∉ tx.raw.signers.map Signer.address ∧ owner ≠ tx.raw.payer ∧
    amountAt lib.coins m' owner d < amountAt lib.coins m owner d := by
  obtain ⟨m, h1, hb⟩ := leadsTo_served take_well take_check.1
  obtain ⟨m', h2, hb'⟩ := leadsTo_served take_well take_check.2
  refine ⟨takeLib, take_well, sample_coinsOk, _, _, m, m', b!"2", takeTx, b!"bob", b!"test", h1, rfl, h2,
    of_decide_eq_true rfl, of_decide_eq_true rfl, ?_⟩
  show amountAt sampleCoins m' b!"bob" _ < amountAt sampleCoins m b!"bob" _
  rw [amountAt_some (beq_iff_eq.1 hb), amountAt_some (beq_iff_eq.1 hb')]
  exact of_decide_eq_true rfl

theorem changes_nonneg {lib : CoinLib} {limit : Int} (ok : CoinsUpTo lib limit) {k d : Bytes} {l : List Transfer}
    (h : ∀ t ∈ l, t.source ≠ k) : 0 ≤ changes lib k d l := by
  induction l with
  | nil => exact le_refl _
  | cons t l ih =>
    rw [changes_cons]
    refine add_nonneg ?_ (ih fun u hu => h u (List.mem_cons_of_mem _ hu))
    rw [Transfer.change, if_neg (Ne.symm (h t List.mem_cons_self)), sub_zero]
    split
    · exact amountOf_nonneg ok _ _
    · exact le_refl _

/-- **C48 partial**: a transaction decreases a balance only if the owner is the payer of its fee or
the source of one of its transfers.  Missing: that these are signers.  (Addresses shorter than 128
bytes.) -/
theorem C48_partial (hw : DecodesWell lib) (ok : CoinsOk lib.coins) {calls : List (Call BlockReq)}
    {rs : List (Resp Obj)} {r : Resp Obj} {bytes : Bytes} {tx : AppTx} (hs : Starts calls) (h : Served lib calls rs m)
    (hsc : ShortCalls lib calls)
    (hd : lib.decode bytes = .ret (.ok tx)) (hshort : ShortTx tx)
    (h1 : Served lib (calls ++ [.deliverTx bytes]) (rs ++ [r]) m₁) {owner d : Bytes}
    (hless : amountAt lib.coins m₁ owner d < amountAt lib.coins m owner d) :
    Authenticated lib m tx ∧ (owner = tx.raw.payer ∨ ∃ b cs, .sendCoins owner b cs ∈ tx.transitions) := by
  obtain ⟨limit, ok⟩ := ok
  by_cases ha : Authenticated lib m tx
  · refine ⟨ha, ?_⟩
    obtain ⟨l, l', hl, _, hm⟩ := C49_fee_partial hw ⟨_, ok⟩ hs h hsc hd hshort ha h1
    by_contra hn
    simp only [not_or, not_exists] at hn
    have h2 := changes_nonneg (k := owner) (d := d) ok (l := feeOf tx :: l.flatMap transfersOf) (fun t ht => by
      rcases List.mem_cons.1 ht with rfl | ht
      · exact fun e => hn.1 e.symm
      · obtain ⟨u, hu, hut⟩ := List.mem_flatMap.1 ht
        rintro rfl
        cases u with
        | sendCoins a b cs =>
          simp only [transfersOf, List.mem_singleton] at hut
          subst hut
          exact hn.2 b cs (by rw [hl]; exact List.mem_append_left _ hu)
        | _ => simp [transfersOf] at hut)
    rw [changes_cons] at h2
    have := hm owner d
    omega
  · obtain ⟨_, rfl⟩ := C37_unauthenticated hw hs h hd h1 ha
    omega

/-- **C48 partial**: for addresses of any length, a transaction changes only balances stored for the
payer, the fee collector, and sources and targets of its transfers. -/
theorem C48_touched_partial (hw : DecodesWell lib) {calls : List (Call BlockReq)} {rs : List (Resp Obj)} {r : Resp Obj}
    {bytes : Bytes} {tx : AppTx} (hs : Starts calls) (h : Served lib calls rs m)
    (hd : lib.decode bytes = .ret (.ok tx)) (h1 : Served lib (calls ++ [.deliverTx bytes]) (rs ++ [r]) m₁) {k : Bytes}
    (hk : ∀ t ∈ feeOf tx :: tx.transitions.flatMap transfersOf, k ≠ encKey t.source ∧ k ≠ encKey t.target) :
    balanceAt m₁ k = balanceAt m k := by
  refine delivered_touches hw hs h hd h1 k fun hm => ?_
  obtain ⟨t, ht, hkt⟩ := List.mem_flatMap.1 hm
  simp only [Transfer.keys, List.mem_cons, List.not_mem_nil, or_false] at hkt
  rcases hkt with e | e
  · exact (hk t ht).1 e
  · exact (hk t ht).2 e

/-- **C48 partial**: requests other than deliveries change no balance. -/
theorem C48_others_partial (hw : DecodesWell lib) {calls : List (Call BlockReq)} {rs : List (Resp Obj)} {r : Resp Obj}
    {call : Call BlockReq} (hs : Starts calls) (h : Served lib calls rs m)
    (h1 : Served lib (calls ++ [call]) (rs ++ [r]) m₁) (hc : ∀ bytes, call ≠ .deliverTx bytes) (k : Bytes) :
    balanceAt m₁ k = balanceAt m k := by
  obtain ⟨hi, hr⟩ := served_between hw hs h h1
  cases hr with
  | cons h2 h3 =>
    cases h3
    cases h2 with
    | undecodable b | unauthenticated b | executed _ b => exact absurd rfl (hc _)
    | beginBlock b => exact begin_balances b k
    | endBlock b => exact end_balances b k
    | _ => rfl

end Verif.Props
