import Verif.Proofs.AppFacts
import Verif.Proofs.Exec
/-!
# Accounts: C36 to C40 and C50

About every history the application on the object store has served.
-/

namespace Verif.Spec

/-- The height after a request. -/
def nextHeight (h : BitVec 64) : Call BlockReq → BitVec 64
  | .beginBlock b => b.height
  | _ => h

/-- The height of the last BeginBlock among the requests; 0 if there is none. -/
def lastHeight (calls : List (Call BlockReq)) : BitVec 64 := calls.foldl nextHeight 0

end Verif.Spec

namespace Verif.Props
open Verif Spec

variable {lib : Libs} {m m' m₁ m₂ : World}

/-! ## A sample history -/

/-- The genesis account pays bob. -/
def payBob : AppTx := genesisTx b!"pay" 0 [.sendCoins genesisAddress b!"bob" [⟨b!"test", b!"5"⟩]]

/-- A sample application with one transaction. -/
def payLib : Libs := sampleLib [(b!"1", payBob)]

theorem payLib_well : DecodesWell payLib := sample_well rfl

theorem payLib_coins : CoinsOk payLib.coins := sample_coinsOk

/-- A block with the transaction. -/
def payCalls : List (Call BlockReq) := [.initChain sampleChain [], .beginBlock ⟨7, b!"main", []⟩, .deliverTx b!"1"]

/-- The state before the transaction. -/
def payBefore : World := doBeginBlock ⟨7, b!"main", []⟩ (genesisWorld payLib sampleChain)

set_option maxRecDepth 8000 in
theorem pay_authenticated : Authenticated payLib payBefore payBob := authOutcome_ok.1 (by rfl)

set_option maxRecDepth 8000 in
theorem pay_before : Served payLib [.initChain sampleChain [], .beginBlock ⟨7, b!"main", []⟩] [.none, .none] payBefore :=
  served_exec payLib_well (by rfl) (by rfl)

set_option maxRecDepth 8000 in
theorem pay_served : ∃ m, Served payLib payCalls [.none, .none, .code 0] m ∧
    balanceAt m b!"bob" = some [⟨b!"test", b!"5"⟩] := by
  obtain ⟨m, h1, h2⟩ : ∃ m, exec payLib (genesisWorld payLib sampleChain) [.beginBlock ⟨7, b!"main", []⟩, .deliverTx b!"1"] =
    some ([.none, .code 0], m) ∧ balanceAt m b!"bob" = some [⟨b!"test", b!"5"⟩] := ⟨_, rfl, rfl⟩
  exact ⟨m, served_exec payLib_well (by rfl) h1, h2⟩

/-! ## C36 -/

/-- A transaction that is not correctly signed is answered with code 400 and has no effect. -/
theorem unsigned_served (hw : DecodesWell lib) {calls : List (Call BlockReq)} {rs : List (Resp Obj)} {bytes : Bytes}
    {tx : AppTx} (hs : Starts calls) (h : Served lib calls rs m) (hd : lib.decode bytes = .ret (.ok tx))
    (hn : ¬ Signed lib m tx) : Served lib (calls ++ [.deliverTx bytes]) (rs ++ [.code 400]) m :=
  (served_more hw hs h).2 (.cons (.unauthenticated m bytes tx hd (fun ha => hn ha.toSigned) fun ha => hn ha.1) (.nil _))

theorem sequence_ne {s : BitVec 64} {n : Nat} (h0 : 0 < n) (h1 : n < 2 ^ 64) : s + BitVec.ofNat 64 n ≠ s := by
  intro h
  have h2 := congrArg BitVec.toNat h
  rw [BitVec.toNat_add, BitVec.toNat_ofNat] at h2
  have := s.isLt
  omega

/-- **C36** Once a transaction has passed authentication, redelivering it, after fewer than
2^64 - 1 further requests, is answered with code 400 and has no effect. -/
theorem C36_no_replay (hw : DecodesWell lib) {calls more : List (Call BlockReq)} {rs rs' : List (Resp Obj)}
    {r : Resp Obj} {bytes : Bytes} {tx : AppTx} (hs : Starts calls) (h : Served lib calls rs m)
    (hd : lib.decode bytes = .ret (.ok tx)) (ha : Authenticated lib m tx)
    (h1 : Served lib (calls ++ [.deliverTx bytes] ++ more) (rs ++ [r] ++ rs') m₁) (hl : more.length < 2 ^ 64 - 1) :
    ¬ Authenticated lib m₁ tx ∧ Served lib (calls ++ [.deliverTx bytes] ++ more ++ [.deliverTx bytes])
      (rs ++ [r] ++ rs' ++ [.code 400]) m₁ := by
  have hi := served_inv hw hs h
  obtain ⟨_, hr⟩ := served_between hw hs h (more := [.deliverTx bytes] ++ more) (rs' := [r] ++ rs')
    (by simpa [List.append_assoc] using h1)
  have hn : ¬ Signed lib m₁ tx := by
    intro hsg
    cases hr with
    | cons h2 h3 =>
      cases h2 with
      | undecodable _ e hd' => rw [hd] at hd'; cases hd'
      | unauthenticated _ t hd' hna => rw [hd] at hd'; cases hd'; exact hna ha
      | executed _ _ t q hd' _ hx =>
        rw [hd] at hd'
        cases hd'
        obtain ⟨s, hsm⟩ := List.exists_mem_of_ne_nil _ (hw hd).signed
        obtain ⟨_, a, ok⟩ := ha.signers s hsm
        obtain ⟨_, b, ok'⟩ := hsg.signers s hsm
        have e1 := tx_account hi (hw hd) hx ok.account
        rw [if_pos ((hw hd).mem_users.2 ⟨s, hsm, rfl⟩)] at e1
        obtain ⟨n, hle, e2⟩ := run_account hw h3 (serve_inv hi (.executed _ _ _ _ _ hd ha hx)) e1
        rw [ok'.account] at e2
        have e3 := ok'.sequence
        cases e2
        simp only at e3
        rw [← ok.sequence] at e3
        have hle' : n ≤ more.length := hle
        refine sequence_ne (s := a.sequence) (n := 1 + n) (by omega) (by omega) ?_
        rw [BitVec.ofNat_add, ← BitVec.add_assoc]
        exact e3
  refine ⟨fun hau => hn hau.toSigned, unsigned_served hw ?_ h1 hd hn⟩
  obtain ⟨c, st, hc⟩ := hs
  exact ⟨c, st, by simp [hc]⟩

/-- An accepted transaction has passed authentication. -/
theorem accepted_authenticated (hw : DecodesWell lib) {calls : List (Call BlockReq)} {rs : List (Resp Obj)}
    {bytes : Bytes} (hs : Starts calls) (h : Served lib calls rs m)
    (h1 : Served lib (calls ++ [.deliverTx bytes]) (rs ++ [.code 0]) m₁) :
    ∃ tx, lib.decode bytes = .ret (.ok tx) ∧ Authenticated lib m tx ∧ doTx lib.coins tx m = .done (.ok ()) m₁ := by
  obtain ⟨_, hr⟩ := served_between hw hs h h1
  have hcode : ∀ e : Err, codeOf e ≠ 0 := by intro e; cases e <;> decide
  generalize hq : Resp.code 0 = q at hr
  cases hr with
  | cons h2 h3 =>
    cases h3
    cases h2 with
    | undecodable _ e hd => exact absurd (Resp.code.inj hq).symm (hcode e)
    | unauthenticated => cases hq
    | executed _ _ t r hd ha hx =>
      cases r with
      | error e => exact absurd (Resp.code.inj hq).symm (hcode e)
      | ok u => exact ⟨t, hd, ha, hx⟩

/-- **C36** for accepted transactions, without reference to authentication: no transaction is
answered with code 0 twice. -/
theorem C36_accepted_once (hw : DecodesWell lib) {calls more : List (Call BlockReq)} {rs rs' : List (Resp Obj)}
    {bytes : Bytes} (hs : Starts calls) (hlen : rs.length = calls.length)
    (h1 : Served lib (calls ++ [.deliverTx bytes] ++ more) (rs ++ [.code 0] ++ rs') m₁)
    (hl : more.length < 2 ^ 64 - 1) :
    Served lib (calls ++ [.deliverTx bytes] ++ more ++ [.deliverTx bytes])
      (rs ++ [.code 0] ++ rs' ++ [.code 400]) m₁ := by
  obtain ⟨m₂, q, q', hq, hql, h2⟩ := served_prefix h1
  obtain ⟨rfl, rfl⟩ := List.append_inj hq (by simp [hql, hlen])
  obtain ⟨m, q, q', hq, hql, h⟩ := served_prefix h2
  obtain ⟨rfl, rfl⟩ := List.append_inj hq (by simp [hql, hlen])
  obtain ⟨tx, hd, ha, _⟩ := accepted_authenticated hw hs h h2
  exact (C36_no_replay hw hs h hd ha h1 hl).2

example : ∃ m, Served payLib (payCalls ++ [.commit] ++ [.deliverTx b!"1"])
    [.none, .none, .code 0, .none, .code 400] m := by
  obtain ⟨m, h, _⟩ := pay_served
  have h1 := (served_more payLib_well starts_exec h).2 (.cons (.commit m) (.nil m))
  exact ⟨_, C36_accepted_once (calls := [.initChain sampleChain [], .beginBlock ⟨7, b!"main", []⟩]) (more := [.commit])
    (rs := [.none, .none]) (rs' := [.none]) payLib_well starts_exec rfl h1 (by decide)⟩

/-! ## C37 -/

/-- **C37** Delivering a transaction increments the sequences of its signers by one if it passes
authentication, and changes accounts in no other way. -/
theorem C37_sequences (hw : DecodesWell lib) {calls : List (Call BlockReq)} {rs : List (Resp Obj)} {r : Resp Obj}
    {bytes : Bytes} {tx : AppTx} (hs : Starts calls) (h : Served lib calls rs m)
    (hd : lib.decode bytes = .ret (.ok tx)) (h1 : Served lib (calls ++ [.deliverTx bytes]) (rs ++ [r]) m₁)
    {k : Bytes} {a : Account} (ha : accountAt m k = some a) :
    (Authenticated lib m tx → (∃ s ∈ tx.raw.signers, s.address = k) →
      accountAt m₁ k = some { a with sequence := a.sequence + 1 }) ∧
    (Authenticated lib m tx → (∀ s ∈ tx.raw.signers, s.address ≠ k) → accountAt m₁ k = some a) ∧
    (¬ Authenticated lib m tx → accountAt m₁ k = some a) := by
  obtain ⟨hi, hr⟩ := served_between hw hs h h1
  cases hr with
  | cons h2 h3 =>
    cases h3
    cases h2 with
    | undecodable _ e hd' => rw [hd] at hd'; cases hd'
    | unauthenticated _ t hd' hna =>
      rw [hd] at hd'
      cases hd'
      exact ⟨fun h => absurd h hna, fun h => absurd h hna, fun _ => ha⟩
    | executed _ _ t q hd' hau hx =>
      rw [hd] at hd'
      cases hd'
      have e1 := tx_account hi (hw hd) hx ha
      refine ⟨fun _ hk => ?_, fun _ hk => ?_, fun hn => absurd hau hn⟩
      · rw [if_pos ((hw hd).mem_users.2 hk)] at e1; exact e1
      · rw [if_neg fun hm => ?_] at e1
        · exact e1
        · obtain ⟨s, hsm, hsk⟩ := (hw hd).mem_users.1 hm
          exact hk s hsm hsk

/-- **C37** A transaction that does not pass authentication has no effect. -/
theorem C37_unauthenticated (hw : DecodesWell lib) {calls : List (Call BlockReq)} {rs : List (Resp Obj)} {r : Resp Obj}
    {bytes : Bytes} {tx : AppTx} (hs : Starts calls) (h : Served lib calls rs m)
    (hd : lib.decode bytes = .ret (.ok tx)) (h1 : Served lib (calls ++ [.deliverTx bytes]) (rs ++ [r]) m₁)
    (hna : ¬ Authenticated lib m tx) : r = .code 400 ∧ m₁ = m := by
  obtain ⟨hi, hr⟩ := served_between hw hs h h1
  cases hr with
  | cons h2 h3 =>
    cases h3
    cases h2 with
    | undecodable _ e hd' => rw [hd] at hd'; cases hd'
    | unauthenticated _ t hd' _ => exact ⟨rfl, rfl⟩
    | executed _ _ t q hd' hau hx => rw [hd] at hd'; cases hd'; exact absurd hau hna

/-- **C37** Requests other than deliveries change no account, and each delivery adds at most one to
a sequence: after further requests an account is the same up to a sequence that moved by at most
their number. -/
theorem C37_history (hw : DecodesWell lib) {calls more : List (Call BlockReq)} {rs rs' : List (Resp Obj)}
    (hs : Starts calls) (h : Served lib calls rs m) (h1 : Served lib (calls ++ more) (rs ++ rs') m₁)
    {k : Bytes} {a : Account} (ha : accountAt m k = some a) :
    ∃ n, n ≤ (more.filter fun c => match c with
        | .deliverTx _ => true
        | _ => false).length ∧
      accountAt m₁ k = some { a with sequence := a.sequence + BitVec.ofNat 64 n } := by
  obtain ⟨hi, hr⟩ := served_between hw hs h h1
  clear h h1 hs
  induction hr generalizing a with
  | nil => exact ⟨0, by simp, by rw [seq_zero, ha]⟩
  | @cons m m₁ m' c r cs rs h1 _ ih =>
    have hstep : ∃ n, n ≤ ([c].filter fun c => match c with
        | .deliverTx _ => true
        | _ => false).length ∧
      accountAt m₁ k = some { a with sequence := a.sequence + BitVec.ofNat 64 n } := by
      obtain ⟨n, hn, he⟩ := serve_account hw hi h1 ha
      cases h1 with
      | undecodable | unauthenticated | executed => exact ⟨n, by simpa using hn, he⟩
      | beginBlock b => exact ⟨0, by simp, by rw [seq_zero, block_account, ha]⟩
      | endBlock b => exact ⟨0, by simp, by rw [seq_zero, end_account, ha]⟩
      | _ => exact ⟨0, by simp, by rw [seq_zero, ha]⟩
    obtain ⟨n₁, l1, h2⟩ := hstep
    obtain ⟨n₂, l2, h3⟩ := ih h2 (serve_inv hi h1)
    refine ⟨n₁ + n₂, ?_, ?_⟩
    · rw [show c :: cs = [c] ++ cs from rfl, List.filter_append, List.length_append]; omega
    · rw [h3]
      simp only [Option.some.injEq, Account.mk.injEq, true_and]
      rw [BitVec.ofNat_add, BitVec.add_assoc]

set_option maxRecDepth 8000 in
example : accountAt payBefore genesisAddress = some genesisAccount ∧ genesisAccount.sequence = 0 := ⟨rfl, rfl⟩

example : ∃ m, Served payLib payCalls [.none, .none, .code 0] m ∧
    accountAt m genesisAddress = some { genesisAccount with sequence := 1 } := by
  obtain ⟨m, h, _⟩ := pay_served
  refine ⟨m, h, ?_⟩
  refine (C37_sequences (bytes := b!"1") (tx := payBob) (r := .code 0) payLib_well starts_exec pay_before rfl h
    (k := genesisAddress) (a := genesisAccount) (by rfl)).1 pay_authenticated ⟨_, List.mem_cons_self, rfl⟩

/-! ## C38 -/

/-- **C38** The accounts of a served history are numbered in the order of their creation. -/
theorem C38_numbered (hw : DecodesWell lib) {calls : List (Call BlockReq)} {rs : List (Resp Obj)}
    (hs : Starts calls) (h : Served lib calls rs m) : ∃ ks, Numbered m ks := by
  rcases served_run hw h with ⟨_, hn⟩ | ⟨pre, rs₀, c, post, rs', _, _, _, _, hc, hr⟩
  · exact absurd hs hn
  · obtain ⟨more, hm⟩ := run_numbers hr (genesis_inv hc) (genesis_numbered c)
    exact ⟨_, hm⟩

/-- **C38** Unless there are more than 2^64 accounts, different accounts have different numbers. -/
theorem C38_unique (hw : DecodesWell lib) {calls : List (Call BlockReq)} {rs : List (Resp Obj)}
    (hs : Starts calls) (h : Served lib calls rs m)
    (hfew : ∀ ks : List Bytes, ks.Nodup → (∀ k ∈ ks, (accountAt m k).isSome) → ks.length ≤ 2 ^ 64)
    {k k' : Bytes} {a a' : Account} (ha : accountAt m k = some a) (ha' : accountAt m k' = some a')
    (hne : k ≠ k') : a.number ≠ a'.number := by
  obtain ⟨ks, hn⟩ := C38_numbered hw hs h
  have hl := hfew ks hn.nodup fun k hk => (hn.accounts k).2 hk
  obtain ⟨i, hi⟩ := List.getElem?_of_mem ((hn.accounts k).1 (by rw [ha]; rfl))
  obtain ⟨j, hj⟩ := List.getElem?_of_mem ((hn.accounts k').1 (by rw [ha']; rfl))
  obtain ⟨b, hb, hbn⟩ := hn.numbers i k hi
  obtain ⟨b', hb', hbn'⟩ := hn.numbers j k' hj
  rw [ha] at hb
  rw [ha'] at hb'
  cases hb
  cases hb'
  rw [hbn, hbn']
  intro heq
  have h1 := (List.getElem?_eq_some_iff.1 hi).1
  have h2 := (List.getElem?_eq_some_iff.1 hj).1
  have h3 := congrArg BitVec.toNat heq
  rw [BitVec.toNat_ofNat, BitVec.toNat_ofNat, Nat.mod_eq_of_lt (by omega), Nat.mod_eq_of_lt (by omega)] at h3
  subst h3
  rw [hi] at hj
  exact hne (Option.some.inj hj)

/-- **C38** The address, key and number of an account never change, and accounts are never
removed. -/
theorem C38_constant (hw : DecodesWell lib) {calls more : List (Call BlockReq)} {rs rs' : List (Resp Obj)}
    (hs : Starts calls) (h : Served lib calls rs m) (h1 : Served lib (calls ++ more) (rs ++ rs') m₁)
    {k : Bytes} {a : Account} (ha : accountAt m k = some a) :
    ∃ b, accountAt m₁ k = some b ∧ b.number = a.number ∧ b.address = a.address ∧ b.pubKey = a.pubKey := by
  obtain ⟨n, _, h2⟩ := C37_history hw hs h h1 ha
  exact ⟨_, h2, rfl, rfl, rfl⟩

set_option maxRecDepth 8000 in
example : ∃ m, Served payLib payCalls [.none, .none, .code 0] m ∧
    (accountAt m genesisAddress).map Account.number = some 0 ∧ (accountAt m feeCollector).map Account.number = some 1 ∧
    (accountAt m b!"bob").map Account.number = some 2 := by
  obtain ⟨m, h1, h2⟩ : ∃ m, exec payLib (genesisWorld payLib sampleChain) [.beginBlock ⟨7, b!"main", []⟩, .deliverTx b!"1"] =
    some ([.none, .code 0], m) ∧ (accountAt m genesisAddress).map Account.number = some 0 ∧
      (accountAt m feeCollector).map Account.number = some 1 ∧
      (accountAt m b!"bob").map Account.number = some 2 := ⟨_, rfl, rfl, rfl, rfl⟩
  exact ⟨m, served_exec payLib_well (by rfl) h1, h2⟩

/-! ## C50 -/

/-- **C50** The height of the current block is that of the last BeginBlock. -/
theorem C50_height (hw : DecodesWell lib) {calls : List (Call BlockReq)} {rs : List (Resp Obj)}
    (h : Served lib calls rs m) : height m = lastHeight calls := by
  have hidle : ∀ {pre : List (Call BlockReq)} {q : List (Resp Obj)}, RunIdle lib pre q → lastHeight pre = 0 := by
    intro pre q hr
    simp only [lastHeight]
    induction hr with
    | nil => rfl
    | cons h1 _ ih =>
      rw [List.foldl_cons]
      cases h1 <;> exact ih
  rcases (served_iff hw).1 h with ⟨rfl, hr⟩ | ⟨pre, rs₀, c, post, rs', rfl, _, hp, hc, hr⟩
  · rw [hidle hr]; rfl
  · have h0 := hidle hp
    have key : ∀ {m : World} {x : BitVec 64}, AppInv m → height m = x → ∀ {q : List (Resp Obj)} {m' : World},
        Spec.Run lib m post q m' → height m' = post.foldl nextHeight x := by
      clear hr hp h
      induction post with
      | nil => intro m x _ hx q m' hr; cases hr; exact hx
      | cons c post ih =>
        intro m x hi hx q m' hr
        cases hr with
        | cons h1 h2 =>
          rw [List.foldl_cons]
          refine ih (serve_inv hi h1) ?_ h2
          rw [serve_height hi h1]
          cases c <;> first | rfl | exact hx
    simp only [lastHeight] at h0 ⊢
    rw [List.foldl_append, h0, List.foldl_cons]
    exact key (genesis_inv hc) (by rfl) hr

/-- **C50** In particular no transaction changes it. -/
theorem C50_stays (hw : DecodesWell lib) {calls more : List (Call BlockReq)} {rs : List (Resp Obj)} {b : BlockReq}
    (h : Served lib (calls ++ .beginBlock b :: more) rs m)
    (hb : ∀ b', .beginBlock b' ∉ more) : height m = b.height := by
  rw [C50_height hw h, lastHeight, List.foldl_append, List.foldl_cons]
  have key : ∀ {l : List (Call BlockReq)} {x : BitVec 64}, (∀ b', .beginBlock b' ∉ l) → l.foldl nextHeight x = x := by
    intro l
    induction l with
    | nil => intros; rfl
    | cons c l ih =>
      intro x hl
      have h1 := ih (x := x) fun b' hb' => hl b' (List.mem_cons_of_mem _ hb')
      cases c with
      | beginBlock b' => exact absurd List.mem_cons_self (hl b')
      | _ => exact h1
  exact key hb

example : ∃ m, Served payLib payCalls [.none, .none, .code 0] m ∧ height m = 7 := by
  obtain ⟨m, h, _⟩ := pay_served
  exact ⟨m, h, C50_stays (calls := [.initChain sampleChain []]) (b := ⟨7, b!"main", []⟩) payLib_well h (by simp)⟩

/-! ## C39 -/

/-- **C39** A transaction with a timeout before the height of the current block is answered with
code 400 and has no effect. -/
theorem C39_timeout (hw : DecodesWell lib) {calls : List (Call BlockReq)} {rs : List (Resp Obj)} {bytes : Bytes}
    {tx : AppTx} (hs : Starts calls) (h : Served lib calls rs m) (hd : lib.decode bytes = .ret (.ok tx))
    (h0 : tx.raw.timeout ≠ 0) (hlate : tx.raw.timeout < lastHeight calls) :
    ¬ Authenticated lib m tx ∧ Served lib (calls ++ [.deliverTx bytes]) (rs ++ [.code 400]) m := by
  have hn : ¬ Signed lib m tx := by
    intro hsg
    rw [← C50_height hw h] at hlate
    rcases hsg.timeout with h1 | h1
    · exact h0 h1
    · rw [BitVec.lt_def] at hlate
      rw [BitVec.le_def] at h1
      omega
  exact ⟨fun ha => hn ha.toSigned, unsigned_served hw hs h hd hn⟩


/-- **C39** stated for accepted transactions. -/
theorem C39_accepted_in_time (hw : DecodesWell lib) {calls : List (Call BlockReq)} {rs : List (Resp Obj)}
    {bytes : Bytes} {tx : AppTx} (hs : Starts calls) (h : Served lib calls rs m)
    (h1 : Served lib (calls ++ [.deliverTx bytes]) (rs ++ [.code 0]) m₁) (hd : lib.decode bytes = .ret (.ok tx)) :
    tx.raw.timeout = 0 ∨ lastHeight calls ≤ tx.raw.timeout := by
  obtain ⟨tx', hd', ha, _⟩ := accepted_authenticated hw hs h h1
  rw [hd] at hd'
  cases hd'
  rw [← C50_height hw h]
  exact ha.timeout

/-- A sample application with a transaction that is valid up to height 6, and one up to 7. -/
def lateLib : Libs := sampleLib [
  (b!"1", genesisTx b!"pay" 0 [.sendCoins genesisAddress b!"bob" [⟨b!"test", b!"5"⟩]] (timeout := 6)),
  (b!"2", genesisTx b!"pay" 0 [.sendCoins genesisAddress b!"bob" [⟨b!"test", b!"5"⟩]] (timeout := 7))]

set_option maxRecDepth 8000 in
example : ∃ m, Served lateLib [.initChain sampleChain [], .beginBlock ⟨7, b!"main", []⟩, .deliverTx b!"1", .deliverTx b!"2"]
    [.none, .none, .code 400, .code 0] m := by
  obtain ⟨m, h⟩ : ∃ m, exec lateLib (genesisWorld lateLib sampleChain)
    [.beginBlock ⟨7, b!"main", []⟩, .deliverTx b!"1", .deliverTx b!"2"] = some ([.none, .code 400, .code 0], m) := ⟨_, rfl⟩
  exact ⟨m, served_exec (sample_well rfl) (by rfl) h⟩

/-! ## C40 -/

/-- The public key in an account: the field 1 of a secp256k1 key. -/
def storedKey (a : Account) : Option Bytes := match a.pubKey with
  | some ⟨_, 10 :: n :: key⟩ => if key.length = n.toNat then some key else none
  | _ => none

set_option maxRecDepth 8000 in
/-- **C40 fails**: a transaction is accepted whose signature does not verify under the key stored
in the account of its only signer.  The key of the transaction is used instead. -/
theorem C40_fails : ∃ (lib : Libs) (_ : DecodesWell lib) (calls : List (Call BlockReq)) (rs : List (Resp Obj))
    (m m' : World) (bytes : Bytes) (tx : AppTx) (s : Signer) (a : Account) (key : Bytes),
    Served lib calls rs m ∧ lib.decode bytes = .ret (.ok tx) ∧
    Served lib (calls ++ [.deliverTx bytes]) (rs ++ [.code 0]) m' ∧
    tx.raw.signers = [s] ∧ accountAt m s.address = some a ∧ storedKey a = some key ∧
    lib.verify key (signDoc tx.raw.bodyBytes tx.raw.authInfoBytes (chainId m) a.number) s.signature = false := by
  obtain ⟨m, h, _⟩ := pay_served
  exact ⟨payLib, payLib_well, _, _, payBefore, m, b!"1", payBob, _, genesisAccount, _, pay_before, rfl, h, rfl, rfl,
    rfl, rfl⟩

/-- **C40 partial**: what an accepted transaction fulfils.  Each signer has an account with some
public key, the signature verifies, under the key given *in the transaction*, over the sign document
of the raw body, the raw auth info, the chain id and the number of the account, and the sequence is
the account's.  Missing: that the key is the one stored in the account. -/
theorem C40_partial (hw : DecodesWell lib) {calls : List (Call BlockReq)} {rs : List (Resp Obj)} {bytes : Bytes}
    {tx : AppTx} (hs : Starts calls) (h : Served lib calls rs m) (hd : lib.decode bytes = .ret (.ok tx))
    (h1 : Served lib (calls ++ [.deliverTx bytes]) (rs ++ [.code 0]) m₁) :
    tx.raw.signers ≠ [] ∧ ∀ s ∈ tx.raw.signers, ∃ a, accountAt m s.address = some a ∧ a.pubKey ≠ none ∧
      a.sequence = s.sequence ∧ lib.verify s.pubKey.key
        (signDoc tx.raw.bodyBytes tx.raw.authInfoBytes (chainId m) a.number) s.signature = true := by
  obtain ⟨tx', hd', ha, _⟩ := accepted_authenticated hw hs h h1
  rw [hd] at hd'
  cases hd'
  refine ⟨(hw hd).signed, fun s hsm => ?_⟩
  obtain ⟨_, a, ok⟩ := ha.signers s hsm
  exact ⟨a, ok.account, ok.hasKey, ok.sequence, ok.verified⟩

/-- **C40 partial**: any transaction for which this does not hold is answered with code 400 and
has no effect. -/
theorem C40_rejected_partial (hw : DecodesWell lib) {calls : List (Call BlockReq)} {rs : List (Resp Obj)} {bytes : Bytes}
    {tx : AppTx} (hs : Starts calls) (h : Served lib calls rs m) (hd : lib.decode bytes = .ret (.ok tx))
    (hbad : ∃ s ∈ tx.raw.signers, ∀ a, accountAt m s.address = some a → a.pubKey = none ∨ a.sequence ≠ s.sequence ∨
      lib.verify s.pubKey.key (signDoc tx.raw.bodyBytes tx.raw.authInfoBytes (chainId m) a.number) s.signature = false) :
    Served lib (calls ++ [.deliverTx bytes]) (rs ++ [.code 400]) m := by
  refine unsigned_served hw hs h hd fun hsg => ?_
  obtain ⟨s, hsm, hb⟩ := hbad
  obtain ⟨_, a, ok⟩ := hsg.signers s hsm
  rcases hb a ok.account with h1 | h1 | h1
  · exact ok.hasKey h1
  · exact h1 ok.sequence
  · rw [ok.verified] at h1; cases h1

/-- **C40 partial**: the chain identifier in sign documents is that of InitChain. -/
theorem C40_chain_partial (hw : DecodesWell lib) {calls : List (Call BlockReq)} {rs : List (Resp Obj)}
    (h : Served lib calls rs m) {c st : Bytes} (hc : .initChain c st ∈ calls) : chainId m = c := by
  rcases (served_iff hw).1 h with ⟨rfl, hr⟩ | ⟨pre, rs₀, c', post, rs', rfl, _, hp, hu, hr⟩
  · exact absurd ⟨c, st, hc⟩ (runIdle_starts hr)
  · have hrun : ∀ {m m' : World} {post : List (Call BlockReq)} {q : List (Resp Obj)}, Spec.Run lib m post q m' →
        AppInv m → chainId m' = chainId m ∧ .initChain c st ∉ post := by
      intro m m' post q hr
      induction hr with
      | nil => exact fun _ => ⟨rfl, by simp⟩
      | cons h1 _ ih =>
        intro hi
        obtain ⟨e1, e2⟩ := ih (serve_inv hi h1)
        refine ⟨e1.trans (serve_chainId hi h1), ?_⟩
        intro hm
        rcases List.mem_cons.1 hm with rfl | hm
        · cases h1
        · exact e2 hm
    obtain ⟨e1, e2⟩ := hrun hr (genesis_inv hu)
    rw [e1]
    rcases List.mem_append.1 hc with hm | hm
    · exact absurd ⟨c, st, hm⟩ (runIdle_starts hp)
    · rcases List.mem_cons.1 hm with he | hm
      · cases he; rfl
      · exact absurd hm e2

end Verif.Props
