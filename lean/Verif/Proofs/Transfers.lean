import Verif.Proofs.Supply
import Verif.Proofs.AppFacts
import Mathlib.Data.List.Dedup
/-! # What a transaction does to balances -/

set_option linter.unusedSectionVars false

namespace Verif
open Spec

variable {lib : CoinLib} {m m' : World} {L : Int}

theorem changes_nil (k d : Bytes) : changes lib k d [] = 0 := rfl

theorem changes_append (k d : Bytes) (a b : List Transfer) :
    changes lib k d (a ++ b) = changes lib k d a + changes lib k d b := by
  simp [changes]

theorem changes_one (k d : Bytes) (t : Transfer) : changes lib k d [t] = t.change lib k d := by
  simp [changes]

theorem changes_cons (k d : Bytes) (t : Transfer) (l : List Transfer) :
    changes lib k d (t :: l) = t.change lib k d + changes lib k d l := by
  simp [changes]

/-- What a transition does to the amounts. -/
theorem transition_moves (ok : CoinsUpTo lib L) (hp : Funded lib L m) {t : Tr} (ht : ShortTransition t)
    {r : Except Err Unit} (h : doTransition lib t m = .done r m') :
    ((∃ e, r = .error e) ∧ m' = m) ∨ (r = .ok () ∧
      (∀ k d, amountAt lib m' k d = amountAt lib m k d + changes lib k d (transfersOf t)) ∧
      ∀ x ∈ transfersOf t, ∀ d, amountOf lib x.coins d ≤ amountAt lib m x.source d) := by
  have same : ∀ {m' : World}, (∀ k, balanceAt m' k = balanceAt m k) → transfersOf t = [] →
      (∀ k d, amountAt lib m' k d = amountAt lib m k d + changes lib k d (transfersOf t)) ∧
      ∀ x ∈ transfersOf t, ∀ d, amountOf lib x.coins d ≤ amountAt lib m x.source d := by
    intro m' hb he
    rw [he]
    exact ⟨fun k d => by rw [changes_nil, add_zero, amountAt, hb, amountAt], fun x hx => by cases hx⟩
  unfold doTransition at h
  split at h
  · cases h
  · obtain ⟨rfl, hb⟩ := createAccount_balances h
    exact .inr ⟨rfl, same (balanceAt_congr hb) rfl⟩
  · rename_i a b cs
    rcases send_short ok hp ht.1 ht.2 h with ⟨he, rfl⟩ | ⟨rfl, hm⟩
    · exact .inl ⟨he, rfl⟩
    · refine .inr ⟨rfl, fun k d => ?_, fun x hx d => ?_⟩
      · rw [transfersOf, changes_one, Transfer.change, hm.amounts]
        simp only
        omega
      · simp only [transfersOf, List.mem_singleton] at hx
        subst hx
        exact hm.enough d
  · split at h
    · cases h
    · cases h; exact .inl ⟨⟨_, rfl⟩, rfl⟩
  · cases h; exact .inl ⟨⟨_, rfl⟩, rfl⟩

/-- Some transitions took effect, up to the first failure; each transfer was covered. -/
structure Moves (lib : CoinLib) (m m' : World) (ts : List Tr) : Prop where
  amounts : ∀ k d, amountAt lib m' k d = amountAt lib m k d + changes lib k d (ts.flatMap transfersOf)
  covered : ∀ t₁ a b cs t₂, ts = t₁ ++ .sendCoins a b cs :: t₂ → ∀ d, amountOf lib cs d ≤
    amountAt lib m a d + changes lib a d (t₁.flatMap transfersOf)

theorem transitions_moves (ok : CoinsUpTo lib L) : ∀ {ts : List Tr} {m : World} (_ : Funded lib L m)
    (_ : ∀ t ∈ ts, ShortTransition t) {r : Except Err Unit}, doTransitions lib ts m = .done r m' →
    (r = .ok () ∧ Moves lib m m' ts) ∨
    ∃ e t₁ t t₂, r = .error e ∧ ts = t₁ ++ t :: t₂ ∧ Moves lib m m' t₁
  | [], m, hp, _, r, h => by
    cases h
    refine .inl ⟨rfl, fun k d => by simp [changes_nil], fun t₁ a b cs t₂ he => ?_⟩
    cases t₁ <;> cases he
  | t :: ts, m, hp, ht, r, h => by
    simp only [doTransitions] at h
    have hts : ShortTransition t := ht t List.mem_cons_self
    have step : ∀ {m₁ m' : World} {us : List Tr}, doTransition lib t m = .done (.ok ()) m₁ →
        Moves lib m₁ m' us → Moves lib m m' (t :: us) := by
      intro m₁ m' us h1 hm
      rcases transition_moves ok hp hts h1 with ⟨⟨e, he⟩, _⟩ | ⟨_, h3, h4⟩
      · cases he
      · refine ⟨fun k d => ?_, fun t₁ a b cs t₂ he d => ?_⟩
        · rw [hm.amounts, h3, List.flatMap_cons, changes_append, add_assoc]
        · cases t₁ with
          | nil =>
            simp only [List.nil_append, List.cons.injEq] at he
            obtain ⟨rfl, _⟩ := he
            have := h4 ⟨a, b, cs⟩ (by simp [transfersOf]) d
            simpa [changes_nil] using this
          | cons u t₁ =>
            simp only [List.cons_append, List.cons.injEq] at he
            obtain ⟨rfl, rfl⟩ := he
            have := hm.covered t₁ a b cs t₂ rfl d
            rw [h3, add_assoc, ← changes_append, ← List.flatMap_cons] at this
            exact this
    rcases andThen_done h with ⟨e, h1, rfl⟩ | ⟨m₁, h1, h2⟩
    · rcases transition_moves ok hp hts h1 with ⟨_, rfl⟩ | ⟨he, _⟩
      · refine .inr ⟨e, [], t, ts, rfl, rfl, fun k d => by simp [changes_nil], fun t₁ a b cs t₂ he => ?_⟩
        cases t₁ <;> cases he
      · cases he
    · have hp1 := hp.conserved (transition_conserved ok hp hts h1)
      rcases transitions_moves ok hp1 (fun u hu => ht u (List.mem_cons_of_mem _ hu)) h2 with
        ⟨rfl, hm⟩ | ⟨e, t₁, u, t₂, rfl, rfl, hm⟩
      · exact .inl ⟨rfl, step h1 hm⟩
      · exact .inr ⟨e, t :: t₁, u, t₂, rfl, rfl, step h1 hm⟩

/-- A send that was found to be covered does not fail. -/
theorem send_covered (ok : CoinsUpTo lib L) (hp : Funded lib L m) {a b : Bytes} {cs : List Coin} (ha : a.length < 128)
    (hb : b.length < 128) {balance rest : List Coin} (h1 : balanceAt m a = some balance)
    (h2 : lib.safeSubCoins balance cs = .ret (.ok rest)) {r : Except Err Unit}
    (h : doSend lib a b cs m = .done r m') : r = .ok () ∧ Moved lib m m' a b cs := by
  rcases send_short ok hp ha hb h with ⟨⟨e, rfl⟩, rfl⟩ | h
  · exfalso
    simp only [doSend, h1, h2] at h
    split at h
    · cases h
    · rename_i hne
      rw [setBalance_short ha, if_neg hne] at h
      split at h
      · have h : doCredit lib b cs _ = .done _ _ := h
        obtain ⟨la, lc, ln, h3, h4, h5, h6⟩ := safeSub_ok ok h2
        have := (credit_short ok (parsed_put hp.parsed ⟨ln, h5⟩) hb ⟨lc, h4⟩ (hp.room ok h1 h3 h4 h5 h6) h).1
        cases this
      · cases h
  · exact h

/-- What an authenticated transaction does to the amounts. -/
theorem tx_moves {lib : Libs} (ok : CoinsUpTo lib.coins L) (hp : Funded lib.coins L m) {tx : AppTx} (ht : ShortTx tx)
    (ha : Authenticated lib m tx) {r : Except Err Unit} (h : doTx lib.coins tx m = .done r m') :
    ∃ m₁, (∀ k d, amountAt lib.coins m₁ k d = amountAt lib.coins m k d + (feeOf tx).change lib.coins k d) ∧
      ((r = .ok () ∧ Moves lib.coins m₁ m' tx.transitions) ∨
        ∃ e t₁ t t₂, r = .error e ∧ tx.transitions = t₁ ++ t :: t₂ ∧ Moves lib.coins m₁ m' t₁) := by
  have hb := bump_balances tx.users m
  have hpb := hp.congr hb
  simp only [doTx] at h
  generalize hs : doSend lib.coins tx.raw.payer feeCollector tx.raw.fee (bump m tx.users) = y at h
  obtain ⟨balance, rest, h1, h2⟩ := ha.fee
  have hlen : feeCollector.length < 128 := by decide
  rcases y with ⟨q, s⟩ | _ | _
  · obtain ⟨rfl, hm⟩ := send_covered ok hpb ht.1 hlen ((hb _).trans h1) h2 hs
    refine ⟨s, fun k d => ?_, transitions_moves ok (hpb.conserved hm.conserved) ht.2 h⟩
    have e1 : amountAt lib.coins (bump m tx.users) k d = amountAt lib.coins m k d := by simp only [amountAt, hb]
    rw [hm.amounts, e1, Transfer.change, feeOf]
    simp only
    omega
  · cases h
  · cases h

/-! ## Which balances are touched, for addresses of any length -/

/-- Only the entries under the given keys are changed. -/
def Touches (ks : List Bytes) (m m' : World) : Prop := ∀ k, k ∉ ks → balanceAt m' k = balanceAt m k

theorem Touches.refl (ks : List Bytes) (m : World) : Touches ks m m := fun _ _ => rfl

theorem Touches.trans {ks ks' l : List Bytes} {a b c : World} (h1 : Touches ks a b) (h2 : Touches ks' b c)
    (s1 : ∀ k ∈ ks, k ∈ l) (s2 : ∀ k ∈ ks', k ∈ l) : Touches l a c :=
  fun k hk => (h2 k fun h => hk (s2 k h)).trans (h1 k fun h => hk (s1 k h))

theorem setBalance_touches {a : Bytes} {cs : List Coin} {r : Except Err Unit}
    (h : doSetBalance a cs m = .done r m') : Touches [encKey a] m m' := by
  simp only [doSetBalance] at h
  split at h
  · cases h
  · split at h
    · cases h; exact .refl _ _
    · cases h
    · split at h
      · cases h
        intro k hk
        rw [balanceAt_put, if_neg (by simpa using hk)]
      · cases h

theorem credit_touches {a : Bytes} {cs : List Coin} {r : Except Err Unit}
    (h : doCredit lib a cs m = .done r m') : Touches [encKey a] m m' := by
  simp only [doCredit] at h
  split at h
  · cases h
  · split at h
    · rcases andThen_done h with ⟨e, h1, _⟩ | ⟨m₁, h1, h2⟩
      · exact setBalance_touches h1
      · intro k hk
        rw [balanceAt_congr (ensureAccount_balances h2).2, setBalance_touches h1 k hk]
    · split at h
      · cases h
      · cases h; exact .refl _ _
      · exact setBalance_touches h

theorem send_touches {a b : Bytes} {cs : List Coin} {r : Except Err Unit}
    (h : doSend lib a b cs m = .done r m') : Touches [encKey a, encKey b] m m' := by
  simp only [doSend] at h
  split at h
  · cases h
  · split at h
    · cases h; exact .refl _ _
    · split at h
      · cases h
      · cases h; exact .refl _ _
      · rcases andThen_done h with ⟨e, h1, _⟩ | ⟨m₁, h1, h2⟩
        · exact (setBalance_touches h1).trans (.refl [] _) (by simp) (by simp)
        · exact (setBalance_touches h1).trans (credit_touches h2) (by simp) (by simp)

/-- The keys of a transfer. -/
def Spec.Transfer.keys (t : Transfer) : List Bytes := [encKey t.source, encKey t.target]

theorem transition_touches {t : Tr} {r : Except Err Unit} (h : doTransition lib t m = .done r m') :
    Touches ((transfersOf t).flatMap Transfer.keys) m m' := by
  unfold doTransition at h
  split at h
  · cases h
  · intro k _; exact balanceAt_congr (createAccount_balances h).2 k
  · exact send_touches h
  · split at h
    · cases h
    · cases h; exact .refl _ _
  · cases h; exact .refl _ _

theorem transitions_touches : ∀ {ts : List Tr} {m : World} {r : Except Err Unit},
    doTransitions lib ts m = .done r m' → Touches ((ts.flatMap transfersOf).flatMap Transfer.keys) m m'
  | [], m, r, h => by cases h; exact .refl _ _
  | t :: ts, m, r, h => by
    simp only [doTransitions] at h
    rcases andThen_done h with ⟨e, h1, _⟩ | ⟨m₁, h1, h2⟩
    · exact (transition_touches h1).trans (.refl [] _)
        (fun k hk => by rw [List.flatMap_cons, List.flatMap_append]; exact List.mem_append_left _ hk) (by simp)
    · exact (transition_touches h1).trans (transitions_touches h2)
        (fun k hk => by rw [List.flatMap_cons, List.flatMap_append]; exact List.mem_append_left _ hk)
        (fun k hk => by rw [List.flatMap_cons, List.flatMap_append]; exact List.mem_append_right _ hk)

theorem tx_touches {tx : AppTx} {r : Except Err Unit} (h : doTx lib tx m = .done r m') :
    Touches ((feeOf tx :: tx.transitions.flatMap transfersOf).flatMap Transfer.keys) m m' := by
  have hb := bump_balances tx.users m
  simp only [doTx] at h
  generalize hs : doSend lib tx.raw.payer feeCollector tx.raw.fee (bump m tx.users) = y at h
  have h0 : Touches [] m (bump m tx.users) := fun k _ => hb k
  rcases y with ⟨e | ⟨⟩, s⟩ | _ | _
  · cases h
    exact h0.trans (send_touches hs) (by simp) (fun k hk => by
      rw [List.flatMap_cons]; exact List.mem_append_left _ hk)
  · exact (h0.trans (send_touches hs) (l := (feeOf tx).keys) (by simp) (fun k hk => hk)).trans
      (transitions_touches h) (fun k hk => by rw [List.flatMap_cons]; exact List.mem_append_left _ hk)
      (fun k hk => by rw [List.flatMap_cons]; exact List.mem_append_right _ hk)
  · cases h
  · cases h

/-- The keys of all balances after a change. -/
theorem Touches.holders {l ks : List Bytes} (h : Touches l m m') (hk : Holders m ks) :
    ∃ ks', Holders m' ks' := by
  classical
  refine ⟨((ks ++ l).filter fun k => (balanceAt m' k).isSome).dedup, List.nodup_dedup _, fun k => ?_⟩
  rw [List.mem_dedup, List.mem_filter, List.mem_append]
  refine ⟨fun h => h.2, fun hs => ⟨?_, hs⟩⟩
  by_cases hm : k ∈ l
  · exact .inr hm
  · rw [h k hm, ← hk.mem] at hs; exact .inl hs

end Verif
