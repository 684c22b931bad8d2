import Verif.Proofs.Coins
import Verif.Proofs.AppFacts
import Mathlib.Algebra.BigOperators.Group.Finset.Basic
import Mathlib.Algebra.BigOperators.Group.Finset.Piecewise
import Mathlib.Algebra.Order.BigOperators.Group.Finset
/-! # Where coins go -/

namespace Verif
open Spec

variable {lib : CoinLib} {m m' : World} {L : Int}

/-- All balances can be parsed. -/
def Parsed (lib : CoinLib) (m : World) : Prop :=
  ∀ k cs, balanceAt m k = some cs → ∃ l, lib.balanceOf cs = .ret (.ok l)

theorem setBalance_short {a : Bytes} {cs : List Coin} (h : a.length < 128) :
    doSetBalance a cs m = if a = [] then .panic else
      if appStorable (.balance a cs) then .done (.ok ()) (m.put tyBalance a (some (.balance a cs))) else .panic := by
  simp only [doSetBalance, encKey_short h]
  split
  · rfl
  · cases balanceAt m a <;> rfl

theorem balanceAt_put {k k' a : Bytes} {cs : List Coin} :
    balanceAt (m.put tyBalance k (some (.balance a cs))) k' = if k' = k then some cs else balanceAt m k' := by
  simp only [balanceAt, put_same]
  by_cases h : k' = k <;> simp [h]

theorem balanceAt_congr (h : m' tyBalance = m tyBalance) (k : Bytes) : balanceAt m' k = balanceAt m k := by
  simp only [balanceAt, h]

theorem createAccount_balances {a : Bytes} {p : Option AnyMsg} {r : Except Err Unit}
    (h : doCreateAccount a p m = .done r m') : r = .ok () ∧ m' tyBalance = m tyBalance := by
  simp only [doCreateAccount] at h
  split at h
  · cases h
  · cases h
    exact ⟨rfl, by rw [put_ne (by decide), put_ne (by decide), put_ne (by decide)]⟩

theorem ensureAccount_balances {a : Bytes} {r : Except Err Unit} (h : doEnsureAccount a m = .done r m') :
    r = .ok () ∧ m' tyBalance = m tyBalance := by
  simp only [doEnsureAccount] at h
  split at h
  · cases h; exact ⟨rfl, rfl⟩
  · exact createAccount_balances h

/-- Coins were moved. -/
structure Moved (lib : CoinLib) (m m' : World) (a b : Bytes) (cs : List Coin) : Prop where
  source : a ≠ []
  target : b ≠ []
  held : (balanceAt m a).isSome
  parses : ∃ l, lib.balanceOf cs = .ret (.ok l)
  enough : ∀ d, amountOf lib cs d ≤ amountAt lib m a d
  amounts : ∀ k d, amountAt lib m' k d = amountAt lib m k d
    - (if k = a then amountOf lib cs d else 0) + (if k = b then amountOf lib cs d else 0)
  holders : ∀ k, (balanceAt m' k).isSome ↔ (balanceAt m k).isSome ∨ k = b
  others : ∀ k, k ≠ a → k ≠ b → balanceAt m' k = balanceAt m k
  parsed : Parsed lib m'

theorem amountAt_some {k : Bytes} {cs : List Coin} (h : balanceAt m k = some cs) (d : Bytes) :
    amountAt lib m k d = amountOf lib cs d := by simp only [amountAt, h]

theorem amountAt_none {k : Bytes} (h : balanceAt m k = none) (d : Bytes) : amountAt lib m k d = 0 := by
  simp only [amountAt, h]

theorem parsed_put {a : Bytes} {cs : List Coin} (hp : Parsed lib m)
    (h : ∃ l, lib.balanceOf cs = .ret (.ok l)) : Parsed lib (m.put tyBalance a (some (.balance a cs))) := by
  intro k cs' hk
  rw [balanceAt_put] at hk
  split at hk
  · cases hk; exact h
  · exact hp k cs' hk

/-- Coins given to an address. -/
structure Given (lib : CoinLib) (m m' : World) (b : Bytes) (cs : List Coin) : Prop where
  target : b ≠ []
  amounts : ∀ k d, amountAt lib m' k d = amountAt lib m k d + (if k = b then amountOf lib cs d else 0)
  holders : ∀ k, (balanceAt m' k).isSome ↔ (balanceAt m k).isSome ∨ k = b
  others : ∀ k, k ≠ b → balanceAt m' k = balanceAt m k
  parsed : Parsed lib m'

theorem given_put {b : Bytes} {cs new : List Coin} (hb : b ≠ []) (hp : Parsed lib m)
    (hn : ∃ l, lib.balanceOf new = .ret (.ok l))
    (ha : ∀ d, amountOf lib new d = amountAt lib m b d + amountOf lib cs d) :
    Given lib m (m.put tyBalance b (some (.balance b new))) b cs where
  target := hb
  amounts k d := by
    by_cases hk : k = b
    · subst hk
      rw [amountAt_some (balanceAt_put.trans (if_pos rfl)), ha, if_pos rfl]
    · rw [if_neg hk, add_zero, amountAt, balanceAt_put, if_neg hk]; rfl
  holders k := by
    rw [balanceAt_put]
    by_cases hk : k = b <;> simp [hk]
  others k hk := by rw [balanceAt_put, if_neg hk]
  parsed := parsed_put hp hn

theorem Given.congr {m₁ : World} {b : Bytes} {cs : List Coin} (h : Given lib m m₁ b cs)
    (he : m' tyBalance = m₁ tyBalance) : Given lib m m' b cs where
  target := h.target
  amounts k d := by rw [← h.amounts, amountAt, amountAt, balanceAt_congr he]
  holders k := by rw [balanceAt_congr he, h.holders]
  others k hk := by rw [balanceAt_congr he, h.others k hk]
  parsed k cs hk := h.parsed k cs (by rw [← balanceAt_congr he]; exact hk)

theorem credit_short (ok : CoinsUpTo lib L) (hp : Parsed lib m) {b : Bytes} {cs : List Coin} (hb : b.length < 128)
    (hc : ∃ l, lib.balanceOf cs = .ret (.ok l)) (hle : ∀ d, amountAt lib m b d + amountOf lib cs d ≤ L) {r : Except Err Unit} (h : doCredit lib b cs m = .done r m') :
    r = .ok () ∧ Given lib m m' b cs := by
  simp only [doCredit] at h
  split at h
  · cases h
  · rename_i hne
    split at h
    · rename_i hnone
      have hg : Given lib m (m.put tyBalance b (some (.balance b cs))) b cs :=
        given_put hne hp hc fun d => by rw [amountAt_none hnone, zero_add]
      rcases andThen_done h with ⟨e, h1, rfl⟩ | ⟨m₁, h1, h2⟩
      · rw [setBalance_short hb] at h1
        split at h1
        · cases h1
        · split at h1 <;> cases h1
      · rw [setBalance_short hb] at h1
        split at h1
        · cases h1
        · split at h1
          · cases h1
            obtain ⟨rfl, h3⟩ := ensureAccount_balances h2
            exact ⟨rfl, hg.congr h3⟩
          · cases h1
    · rename_i bal hbal
      obtain ⟨l, hl⟩ := hp b bal hbal
      obtain ⟨lc, hlc⟩ := hc
      have hle' : ∀ d, amountOf lib bal d + amountOf lib cs d ≤ L := fun d => by
        rw [← amountAt_some hbal]; exact hle d
      obtain ⟨n, h1⟩ := safeAdd_safe ok hl hlc hle'
      rw [h1] at h
      obtain ⟨a', b', c, h2, h3, h4, h5⟩ := safeAdd_ok ok h1 hle'
      have h : doSetBalance b n m = .done r m' := h
      rw [setBalance_short hb, if_neg hne] at h
      split at h
      · cases h
        refine ⟨rfl, given_put hne hp ⟨c, h4⟩ fun d => ?_⟩
        rw [amountAt_some hbal, amountOf_eq h4, amountOf_eq h2, amountOf_eq h3, h5]
      · cases h

/-! ## All balances together -/

/-- All balances can be parsed, and no amount in all of them together is too large. -/
structure Funded (lib : CoinLib) (L : Int) (m : World) : Prop where
  parsed : Parsed lib m
  supply : ∃ ks, Holders m ks ∧ ∀ d, supply lib m ks d ≤ L

theorem amountAt_nonneg (ok : CoinsUpTo lib L) (m : World) (k d : Bytes) : 0 ≤ amountAt lib m k d := by
  unfold amountAt
  split
  · exact amountOf_nonneg ok _ d
  · exact le_refl _

theorem Funded.one (ok : CoinsUpTo lib L) (h : Funded lib L m) {a : Bytes} (ha : (balanceAt m a).isSome)
    (d : Bytes) : amountAt lib m a d ≤ L := by
  obtain ⟨ks, hk, hs⟩ := h.supply
  refine le_trans ?_ (hs d)
  rw [Spec.supply, ← List.sum_toFinset _ hk.nodup]
  exact Finset.single_le_sum (f := fun k => amountAt lib m k d) (fun k _ => amountAt_nonneg ok m k d)
    (List.mem_toFinset.2 ((hk.mem a).2 ha))

theorem Funded.two (ok : CoinsUpTo lib L) (h : Funded lib L m) {a b : Bytes} (hab : a ≠ b)
    (ha : (balanceAt m a).isSome) (hb : (balanceAt m b).isSome) (d : Bytes) :
    amountAt lib m a d + amountAt lib m b d ≤ L := by
  obtain ⟨ks, hk, hs⟩ := h.supply
  refine le_trans ?_ (hs d)
  rw [Spec.supply, ← List.sum_toFinset _ hk.nodup, ← Finset.sum_pair (f := fun k => amountAt lib m k d) hab]
  refine Finset.sum_le_sum_of_subset_of_nonneg ?_ fun k _ _ => amountAt_nonneg ok m k d
  intro k hkk
  rw [Finset.mem_insert, Finset.mem_singleton] at hkk
  rw [List.mem_toFinset, hk.mem]
  rcases hkk with rfl | rfl <;> assumption

theorem Funded.congr (h : Funded lib L m) (he : ∀ k, balanceAt m' k = balanceAt m k) : Funded lib L m' := by
  obtain ⟨ks, hk, hs⟩ := h.supply
  exact ⟨fun k cs hc => h.parsed k cs (he k ▸ hc), ks, ⟨hk.nodup, fun k => by rw [he]; exact hk.mem k⟩,
    fun d => by simp only [Spec.supply, amountAt, he]; exact hs d⟩

/-- What an address has after paying, and what it is paid, together are not too large. -/
theorem Funded.room (ok : CoinsUpTo lib L) (hf : Funded lib L m) {a b : Bytes} {cs old new : List Coin}
    {x l y : SdkCoins} (hbal : balanceAt m a = some old) (hx : lib.balanceOf old = .ret (.ok x))
    (hl : lib.balanceOf cs = .ret (.ok l)) (hy : lib.balanceOf new = .ret (.ok y))
    (hsum : ∀ d, amount y d = amount x d - amount l d) (d : Bytes) :
    amountAt lib (m.put tyBalance a (some (.balance a new))) b d + amountOf lib cs d ≤ L := by
  rw [amountOf_eq hl]
  have h1 := hf.one ok (a := a) (by rw [hbal]; rfl) d
  rw [amountAt_some hbal, amountOf_eq hx] at h1
  by_cases hab : b = a
  · have : amountAt lib (m.put tyBalance a (some (.balance a new))) b d = amount y d := by
      rw [amountAt, balanceAt_put, if_pos hab]
      exact amountOf_eq hy d
    rw [this, hsum]
    omega
  · have : amountAt lib (m.put tyBalance a (some (.balance a new))) b d = amountAt lib m b d := by
      rw [amountAt, balanceAt_put, if_neg hab]; rfl
    rw [this]
    have h2 := amountOf_nonneg ok new d
    rw [amountOf_eq hy, hsum] at h2
    cases hbb : balanceAt m b with
    | none =>
      rw [amountAt_none hbb]
      omega
    | some z =>
      have h1 := hf.two ok (Ne.symm hab) (by rw [hbal]; rfl) (by rw [hbb]; rfl) d
      rw [amountAt_some hbal, amountOf_eq hx] at h1
      omega

theorem send_short (ok : CoinsUpTo lib L) (hp : Funded lib L m) {a b : Bytes} {cs : List Coin} (ha : a.length < 128)
    (hb : b.length < 128) {r : Except Err Unit} (h : doSend lib a b cs m = .done r m') :
    ((∃ e, r = .error e) ∧ m' = m) ∨ (r = .ok () ∧ Moved lib m m' a b cs) := by
  simp only [doSend] at h
  split at h
  · cases h
  · rename_i hne
    split at h
    · cases h; exact .inl ⟨⟨_, rfl⟩, rfl⟩
    · rename_i bal hbal
      cases hs : lib.safeSubCoins bal cs with
      | panic => rw [hs] at h; cases h
      | ret q =>
        rw [hs] at h
        cases q with
        | error e => cases h; exact .inl ⟨⟨_, rfl⟩, rfl⟩
        | ok new =>
          right
          obtain ⟨la, lc, ln, h1, h2, h3, h4⟩ := safeSub_ok ok hs
          have hle : ∀ d, amountOf lib cs d ≤ amountAt lib m a d := fun d => by
            have := amountOf_nonneg ok new d
            rw [amountAt_some hbal, amountOf_eq h1, amountOf_eq h2]
            rw [amountOf_eq h3, h4] at this
            omega
          have h : andThen (doSetBalance a new m) (doCredit lib b cs) = .done r m' := h
          rw [setBalance_short ha, if_neg hne] at h
          split at h
          · have h : doCredit lib b cs (m.put tyBalance a (some (.balance a new))) = .done r m' := h
            obtain ⟨rfl, hg⟩ := credit_short ok (parsed_put hp.parsed ⟨ln, h3⟩) hb ⟨lc, h2⟩
              (hp.room ok hbal h1 h2 h3 h4) h
            refine ⟨rfl, hne, hg.target, by rw [hbal]; rfl, ⟨lc, h2⟩, hle, fun k d => ?_, fun k => ?_,
              fun k hka hkb => ?_, hg.parsed⟩
            · rw [hg.amounts]
              by_cases hk : k = a
              · subst hk
                rw [amountAt_some (balanceAt_put.trans (if_pos rfl)), if_pos rfl, amountAt_some hbal,
                  amountOf_eq h3, amountOf_eq h1, h4, amountOf_eq h2]
              · rw [if_neg hk, sub_zero, amountAt, balanceAt_put, if_neg hk]; rfl
            · rw [hg.holders, balanceAt_put]
              by_cases hk : k = a
              · subst hk; simp [hbal]
              · rw [if_neg hk]
            · rw [hg.others k hkb, balanceAt_put, if_neg hka]
          · cases h

/-! ## The supply -/

/-- Balances may be added, and the sum of all balances stays the same. -/
structure Conserved (lib : CoinLib) (m m' : World) : Prop where
  parsed : Parsed lib m'
  grows : ∀ k, (balanceAt m k).isSome → (balanceAt m' k).isSome
  finite : ∀ ks, Holders m ks → ∃ ks', Holders m' ks'
  sums : ∀ ks, ks.Nodup → (∀ k, (balanceAt m' k).isSome → k ∈ ks) → ∀ d, supply lib m' ks d = supply lib m ks d

theorem Conserved.same (hp : Parsed lib m) (h : ∀ k, balanceAt m' k = balanceAt m k) : Conserved lib m m' where
  parsed k cs hk := hp k cs (h k ▸ hk)
  grows k hk := by rw [h]; exact hk
  finite ks hk := ⟨ks, hk.nodup, fun k => by rw [h]; exact hk.mem k⟩
  sums ks _ _ d := by simp only [supply, amountAt, h]

theorem Conserved.refl (hp : Parsed lib m) : Conserved lib m m := .same hp fun _ => rfl

theorem Conserved.trans {a b c : World} (h1 : Conserved lib a b) (h2 : Conserved lib b c) : Conserved lib a c where
  parsed := h2.parsed
  grows k hk := h2.grows k (h1.grows k hk)
  finite ks hk := by
    obtain ⟨ks', hk'⟩ := h1.finite ks hk
    exact h2.finite ks' hk'
  sums ks hn hk d := by
    rw [h2.sums ks hn hk, h1.sums ks hn fun k h => hk k (h2.grows k h)]

theorem sum_single {ks : List Bytes} (hn : ks.Nodup) {a : Bytes} (ha : a ∈ ks) (x : Int) :
    (ks.map fun k => if k = a then x else 0).sum = x := by
  rw [← List.sum_toFinset _ hn, Finset.sum_ite_eq', if_pos (by simpa using ha)]

theorem list_sum_add (ks : List Bytes) (f g h : Bytes → Int) :
    (ks.map fun k => f k - g k + h k).sum = (ks.map f).sum - (ks.map g).sum + (ks.map h).sum := by
  induction ks with
  | nil => rfl
  | cons k ks ih => simp only [List.map_cons, List.sum_cons, ih]; omega

theorem Moved.conserved {a b : Bytes} {cs : List Coin} (h : Moved lib m m' a b cs) : Conserved lib m m' where
  parsed := h.parsed
  grows k hk := (h.holders k).2 (.inl hk)
  finite ks hk := by
    by_cases hb : b ∈ ks
    · refine ⟨ks, hk.nodup, fun k => ?_⟩
      rw [h.holders, ← hk.mem]
      exact ⟨.inl, fun h => h.elim id (fun h => h ▸ hb)⟩
    · refine ⟨b :: ks, List.nodup_cons.2 ⟨hb, hk.nodup⟩, fun k => ?_⟩
      rw [h.holders, ← hk.mem, List.mem_cons, or_comm]
  sums ks hn hk d := by
    simp only [supply, h.amounts]
    rw [list_sum_add, sum_single hn (hk a ((h.holders a).2 (.inl h.held))),
      sum_single hn (hk b ((h.holders b).2 (.inr rfl)))]
    omega

theorem supply_extend {ks : List Bytes} (hn : ks.Nodup) (hk : Holders m ks) {L : List Bytes} (hL : L.Nodup)
    (hs : ∀ k ∈ ks, k ∈ L) (d : Bytes) : supply lib m L d = supply lib m ks d := by
  simp only [supply]
  rw [← List.sum_toFinset _ hL, ← List.sum_toFinset _ hn]
  symm
  apply Finset.sum_subset
  · intro k hkk
    simp only [List.mem_toFinset] at hkk ⊢
    exact hs k hkk
  · intro k _ hkk
    simp only [List.mem_toFinset] at hkk
    rw [hk.mem] at hkk
    exact amountAt_none (by simpa using hkk) d

/-- The supply does not depend on how the holders are listed. -/
theorem Conserved.supply_eq (h : Conserved lib m m') {ks ks' : List Bytes} (hk : Holders m ks)
    (hk' : Holders m' ks') (d : Bytes) : supply lib m' ks' d = supply lib m ks d := by
  rw [h.sums ks' hk'.nodup (fun k hs => (hk'.mem k).2 hs) d]
  exact supply_extend hk.nodup hk hk'.nodup (fun k hm => (hk'.mem k).2 (h.grows k ((hk.mem k).1 hm))) d

theorem Funded.conserved (h : Funded lib L m) (hc : Conserved lib m m') : Funded lib L m' := by
  obtain ⟨ks, hk, hs⟩ := h.supply
  obtain ⟨ks', hk'⟩ := hc.finite ks hk
  exact ⟨hc.parsed, ks', hk', fun d => by rw [hc.supply_eq hk hk']; exact hs d⟩

theorem transition_conserved (ok : CoinsUpTo lib L) (hp : Funded lib L m) {t : Tr} (ht : ShortTransition t)
    {r : Except Err Unit} (h : doTransition lib t m = .done r m') : Conserved lib m m' := by
  unfold doTransition at h
  split at h
  · cases h
  · exact .same hp.parsed (balanceAt_congr (createAccount_balances h).2)
  · rcases send_short ok hp ht.1 ht.2 h with ⟨_, rfl⟩ | ⟨_, hm⟩
    · exact .refl hp.parsed
    · exact hm.conserved
  · split at h
    · cases h
    · cases h; exact .refl hp.parsed
  · cases h; exact .refl hp.parsed

theorem transitions_conserved (ok : CoinsUpTo lib L) : ∀ {ts : List Tr} {m : World} (_ : Funded lib L m)
    (_ : ∀ t ∈ ts, ShortTransition t) {r : Except Err Unit}, doTransitions lib ts m = .done r m' →
    Conserved lib m m'
  | [], m, hp, _, r, h => by cases h; exact .refl hp.parsed
  | t :: ts, m, hp, ht, r, h => by
    simp only [doTransitions] at h
    rcases andThen_done h with ⟨e, h1, _⟩ | ⟨m₁, h1, h2⟩
    · exact transition_conserved ok hp (ht t (by simp)) h1
    · have hc := transition_conserved ok hp (ht t (by simp)) h1
      exact hc.trans (transitions_conserved ok (hp.conserved hc) (fun t h => ht t (by simp [h])) h2)

theorem bump_balances (us : List Bytes) (m : World) (k : Bytes) : balanceAt (bump m us) k = balanceAt m k :=
  balanceAt_congr (bump_other us (by decide)) k

theorem parsed_congr (hp : Parsed lib m) (h : ∀ k, balanceAt m' k = balanceAt m k) : Parsed lib m' :=
  fun k cs hk => hp k cs (h k ▸ hk)

theorem tx_conserved (ok : CoinsUpTo lib L) (hp : Funded lib L m) {tx : AppTx} (ht : ShortTx tx)
    {r : Except Err Unit} (h : doTx lib tx m = .done r m') : Conserved lib m m' := by
  have hb := bump_balances tx.users m
  have hpb := hp.congr hb
  have h0 : Conserved lib m (bump m tx.users) := .same hp.parsed hb
  simp only [doTx] at h
  generalize hs : doSend lib tx.raw.payer feeCollector tx.raw.fee (bump m tx.users) = y at h
  rcases y with ⟨e | ⟨⟩, s⟩ | _ | _
  · cases h
    rcases send_short ok hpb ht.1 (by decide) hs with ⟨_, rfl⟩ | ⟨h, _⟩
    · exact h0
    · cases h
  · have h : doTransitions lib tx.transitions s = .done r m' := h
    rcases send_short ok hpb ht.1 (by decide) hs with ⟨⟨e, h⟩, _⟩ | ⟨_, hm⟩
    · cases h
    · have := h0.trans hm.conserved
      exact this.trans (transitions_conserved ok (hp.conserved this) ht.2 h)
  · cases h
  · cases h

/-! ## Histories -/

theorem begin_balances (b : BlockReq) (k : Bytes) : balanceAt (doBeginBlock b m) k = balanceAt m k :=
  balanceAt_congr (by rw [doBeginBlock, put_ne (by decide), put_ne (by decide), put_ne (by decide)]) k

theorem end_balances (h : Int) (k : Bytes) : balanceAt (doEndBlock h m) k = balanceAt m k :=
  balanceAt_congr (by rw [doEndBlock, put_ne (by decide), put_ne (by decide)]) k

section
variable {lib : Libs}

theorem genesis_balance (c k : Bytes) :
    balanceAt (genesisWorld lib c) k = if k = genesisAddress then some genesisCoins else none := by
  rw [balanceAt, genesisWorld_eq, put_ne (by decide), put_ne (by decide), baseWorld, fill_eq, writes_balance]
  by_cases h : k = genesisAddress
  · subst h; rfl
  · simp [h, Ne.symm h, Contents.empty]

theorem genesis_parsed (ok : CoinsUpTo lib.coins L) (c : Bytes) : Parsed lib.coins (genesisWorld lib c) := by
  intro k cs hk
  rw [genesis_balance] at hk
  split at hk
  · cases hk; exact ok.genesis
  · cases hk

theorem genesis_holders (c : Bytes) : Holders (genesisWorld lib c) [genesisAddress] where
  nodup := by simp
  mem k := by rw [genesis_balance, List.mem_singleton]; split <;> simp [*]

theorem genesis_funded (ok : CoinsUpTo lib.coins L) (c : Bytes) : Funded lib.coins L (genesisWorld lib c) := by
  obtain ⟨l, hl⟩ := ok.genesis
  refine ⟨genesis_parsed ok c, _, genesis_holders c, fun d => ?_⟩
  simp only [supply, List.map_cons, List.map_nil, List.sum_cons, List.sum_nil, add_zero, amountAt, genesis_balance,
    if_true]
  rw [amountOf_eq (by exact hl)]
  exact amount_le (cs := genesisCoins) ok hl d

theorem serve_conserved (ok : CoinsUpTo lib.coins L) (hp : Funded lib.coins L m) {call : Call BlockReq} {r : Resp Obj}
    (hs : ∀ bytes, call = .deliverTx bytes → ∀ tx, lib.decode bytes = .ret (.ok tx) → ShortTx tx)
    (h : Serve lib m call r m') : Conserved lib.coins m m' := by
  cases h with
  | executed _ b tx r h1 h2 h => exact tx_conserved ok hp (hs b rfl tx h1) h
  | beginBlock b => exact .same hp.parsed (begin_balances b)
  | endBlock b => exact .same hp.parsed (end_balances b)
  | _ => exact .refl hp.parsed

theorem run_conserved (ok : CoinsUpTo lib.coins L) {calls : List (Call BlockReq)} {rs : List (Resp Obj)}
    (h : Spec.Run lib m calls rs m') : Funded lib.coins L m → ShortCalls lib calls → Conserved lib.coins m m' := by
  induction h with
  | nil => exact fun hp _ => .refl hp.parsed
  | cons h1 _ ih =>
    intro hp hs
    have hc := serve_conserved ok hp (fun b hb tx ht => hs b (by simp [hb]) tx ht) h1
    exact hc.trans (ih (hp.conserved hc) fun b hb tx ht => hs b (by simp [hb]) tx ht)

theorem served_funded (ok : CoinsUpTo lib.coins L) (hw : DecodesWell lib) {calls : List (Call BlockReq)}
    {rs : List (Resp Obj)} (h : Served lib calls rs m) (hs : ShortCalls lib calls) : Funded lib.coins L m := by
  rcases served_run hw h with ⟨rfl, _⟩ | ⟨_, _, c, _, _, rfl, _, _, _, _, hr⟩
  · refine ⟨fun k cs hk => (nomatch hk), [], ⟨.nil, fun k => by simp [balanceAt, Contents.empty]⟩,
      fun d => by simpa [supply] using ok.nonneg⟩
  · have hg := genesis_funded ok c (lib := lib)
    exact hg.conserved (run_conserved ok hr hg fun b hb tx ht => hs b (by simp [hb]) tx ht)

end

end Verif
