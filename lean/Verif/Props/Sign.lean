import Verif.Proofs.Sign
import Verif.Props.SdkCoins
import Verif.Props.Decoder
import Verif.Proofs.Accept
import Verif.Proofs.Holders
import Verif.Spec.SampleTx
/-!
# Transactions of clients

What clients of the cosmos-sdk sign and send is read by the application as it was meant.
-/

namespace Verif.Props
open Verif Verif.Spec Verif.Client

variable {env : DecodeEnv}

/-- What a signer said in a transaction, with the address of the key. -/
def signerOf (env : DecodeEnv) (s : SignerData) (signature : Bytes) : Signer :=
  ⟨bech32 b!"test" (env.ripemd160 (env.sha256 s.key)), ⟨s.key, []⟩, signature, s.sequence⟩

/-- **C98** A transaction of a client is decoded to what the client said: its messages in order, each
signature with its key, the sequences, the fee, the memo, the timeout; the payer is the one declared or
the first signer; what is signed is kept byte for byte.  (The client has to say at least one message,
one signer and one coin of the fee, keys have 33 bytes, the length of the bytes fits into 64 bits.) -/
theorem C98_decoded (t : Client.Tx) (signatures : List Bytes) (transitions : List Tr) (first : SignerData)
    (ht : t.IsText) (hl : (t.raw signatures).length < 2 ^ 64) (hm : t.messages ≠ [])
    (htr : List.Forall₂ (HoldsTransition env) t.messages transitions)
    (hfee : t.fee ≠ []) (hfirst : t.signers.head? = some first) (hkeys : ∀ s ∈ t.signers, s.key.length = 33)
    (hsig : signatures.length = t.signers.length) :
    appDecode env (t.raw signatures) = .ret (.ok {
      transitions := transitions
      users := Users.ofNames (t.signers.map fun s => bech32 b!"test" (env.ripemd160 (env.sha256 s.key)))
      raw := {
        signers := (t.signers.zip signatures).map fun s => signerOf env s.1 s.2
        payer := if t.payer = [] then bech32 b!"test" (env.ripemd160 (env.sha256 first.key)) else t.payer
        fee := t.fee
        timeout := t.timeout
        memo := t.memo
        bodyBytes := t.body
        authInfoBytes := t.authInfo } }) := by
  have haddr : ((t.signers.zip signatures).map fun s => signerOf env s.1 s.2).map Signer.address =
      t.signers.map fun s => bech32 b!"test" (env.ripemd160 (env.sha256 s.key)) := by
    rw [List.map_map]
    have : (Signer.address ∘ fun s : SignerData × Bytes => signerOf env s.1 s.2) =
      (fun s => bech32 b!"test" (env.ripemd160 (env.sha256 s.key))) ∘ Prod.fst := rfl
    rw [this, ← List.map_map, List.map_fst_zip (by omega)]
  refine C42_accepts.2 ⟨t.parts signatures, ⟨isTx ht signatures hl, hfee, hm, htr, ?_, ?_⟩, ?_, ?_, ?_, rfl, rfl, rfl, rfl, rfl⟩
  · cases h : t.signers with
    | nil => rw [h] at hfirst; cases hfirst
    | cons s l => simp [Tx.parts, h]
  · simpa [Tx.parts] using hsig
  · show List.Forall₂ _ ((t.signers.map _).zip signatures) _
    clear hsig hfirst haddr hl
    generalize t.signers = l at hkeys
    induction l generalizing signatures with
    | nil => exact .nil
    | cons s l ih =>
      cases signatures with
      | nil => exact .nil
      | cons g gs =>
        refine .cons ⟨_, ⟨rfl, .inr rfl, isPubKey _ ?_⟩, hkeys s (by simp), rfl⟩ (ih gs fun x hx => hkeys x (by simp [hx]))
        rw [hkeys s (by simp)]; decide
  · exact congrArg Users.ofNames haddr.symm
  · show if t.payer = [] then _ else _
    split
    · show some _ = (List.map Signer.address _).head?
      rw [haddr, List.head?_map, hfirst]
      simp only [*, Option.map_some]
    · simp only [*]; rfl

/-- **C98** A transfer of a client is read as this transfer. -/
theorem C98_transfer (source target : Bytes) (amount : List Coin) (hs : validUtf8 source = true)
    (ht : validUtf8 target = true) (hc : ∀ c ∈ amount, validUtf8 c.denom = true ∧ validUtf8 c.amount = true)
    (hl : (msgSend source target amount).value.length < 2 ^ 64) :
    HoldsTransition env (msgSend source target amount) (.sendCoins source target amount) := by
  have e : (msgSend source target amount).value.length = (putText 1 source).length + ((putText 2 target).length +
      (putAll 3 (amount.map coin)).length) := by rw [msgSend, List.length_append, List.length_append]
  have l1 := length_text 1 source
  have l2 := length_text 2 target
  have l3 : ∀ c ∈ amount, (coin c).length ≤ (putAll 3 (amount.map coin)).length := fun c h =>
    length_all 3 (List.mem_map_of_mem h)
  unfold HoldsTransition
  rw [if_pos (by rfl)]
  unfold IsTransition
  rw [if_pos (by rfl)]
  refine ⟨_, amount, (message_text (num rfl) (by omega)).append ((message_text (num rfl) (by omega)).append
    (message_all (num rfl) ?_)), ?_, ?_, ?_, ?_⟩
  · intro b hb
    obtain ⟨a, ha, rfl⟩ := List.mem_map.1 hb
    have := l3 a ha; omega
  · simpa [payloads_append] using allText_one hs
  · simpa [payloads_append] using allText_one ht
  · simpa [payloads_append] using isCoins hc fun c h => by have := l3 c h; omega
  · simp [payloads_append]

/-- **C98** What clients sign is what the application verifies signatures of. -/
theorem C98_signed (t : Client.Tx) (chainId : Bytes) (number : BitVec 64) :
    t.signBytes chainId number = signDoc t.body t.authInfo chainId number := by
  have h1 : ∀ n b, putText n b = if b = [] then [] else appendTag n 2 ++ appendBytes b := fun _ _ => rfl
  simp only [Tx.signBytes, signDoc, h1, putNumber, List.append_assoc]
  rfl

/-! ## C99 -/

/-- **C99** (partial) In the deployed application a transaction that is signed, safe, and covered by the
balances is accepted by DeliverTx.  (That it is signed and covered is necessary: C40, C46.) -/
theorem C99_accepted_partial {bits : Option Nat} {lib : Libs} {m : World} (hd : Deployed env bits lib)
    {calls : List (Call BlockReq)} {rs : List (Resp Obj)} (hst : Starts calls)
    (hs : Served lib calls rs m) (hsh : ShortCalls lib calls) {bytes : Bytes} {tx : AppTx}
    (hdec : appDecode env bytes = .ret (.ok tx)) (hsigned : Signed lib m tx) (hsafe : SafeTx lib.coins m tx)
    (hc : Covered lib.coins m tx) : ∃ m', Served lib (calls ++ [.deliverTx bytes]) (rs ++ [.code 0]) m' := by
  obtain ⟨limit, ok⟩ := hd.ok
  have hm := served_solvent ok hd.well hst hs hsh
  obtain ⟨l, hl⟩ := hc.readable
  obtain ⟨old, n, hold, hn⟩ := sub_ok ok hm.parsed hl hc.positive hc.fee
  obtain ⟨m', hx⟩ := tx_ok ok hd.text hm hsafe (decoded_text hdec) hsigned.payer hl hc.positive hc.fee hc.payments
    hc.covered
  refine ⟨m', (served_more hd.well hst hs).2 (.cons (.executed m m' bytes tx (.ok ()) (by rw [hd.decode, hdec])
    ⟨hsigned, old, n, hold, hn⟩ hx) (.nil _))⟩

/-- The coins of a client, as they are written. -/
def written (coins : SdkCoins) : List Coin := coins.map fun c => ⟨c.1, Sdk.print c.2⟩

/-- Coins that can be sent: valid denominations, each once, with positive amounts that can be read. -/
structure Sendable (bits : Option Nat) (coins : SdkCoins) : Prop where
  some : coins ≠ []
  each : ∀ c ∈ coins, DenomText c.1 ∧ 0 < c.2 ∧ Readable bits c.2.natAbs
  once : (coins.map Prod.fst).Nodup

theorem amount_natAbs {coins : SdkCoins} (h : ∀ c ∈ coins, 0 < c.2) (d : Bytes) :
    (((coins.map fun c => (c.1, c.2.natAbs)).map fun c => if c.1 = d then c.2 else 0).sum : Nat) = amount coins d := by
  induction coins with
  | nil => rfl
  | cons c l ih =>
    have hc := h c (by simp)
    have := ih fun x hx => h x (by simp [hx])
    simp only [List.map_cons, List.sum_cons, amount] at this ⊢
    rw [← this]
    split <;> omega

theorem amount_pos {coins : SdkCoins} (h : ∀ c ∈ coins, 0 < c.2) (hne : coins ≠ []) : ∃ d, 0 < amount coins d := by
  cases coins with
  | nil => exact absurd rfl hne
  | cons c l =>
    refine ⟨c.1, ?_⟩
    have h1 := h c (by simp)
    have h2 := amount_natAbs (coins := l) (fun x hx => h x (by simp [hx])) c.1
    have : amount (c :: l) c.1 = c.2 + amount l c.1 := by simp [amount]
    omega

/-- Coins that can be sent are read as they are. -/
theorem Sendable.read {bits : Option Nat} {coins : SdkCoins} (h : Sendable bits coins) :
    (∃ r, (Sdk.coins bits).balanceOf (written coins) = .ret (.ok r)) ∧
      ∀ d, amountOf (Sdk.coins bits) (written coins) d = amount coins d := by
  have hw : WellformedList (written coins) (coins.map fun c => (c.1, c.2.natAbs)) := by
    have := h.each
    clear h
    induction coins with
    | nil => exact .nil
    | cons c l ih =>
      obtain ⟨h1, h2, _⟩ := this c (by simp)
      exact .cons ⟨h1, rfl, (writes_iff _ _).2 (Sdk.print_digits h2.le)⟩ (ih fun x hx => this x (by simp [hx]))
  have hn : ((coins.map fun c => (c.1, c.2.natAbs)).map Prod.fst).Nodup := by
    rw [List.map_map]; exact h.once
  obtain ⟨r, h1, _, _, h2⟩ := C97_read_partial (bits := bits) hw
    (by
      intro c hc
      obtain ⟨x, hx, rfl⟩ := List.mem_map.1 hc
      exact (h.each x hx).2.2)
    (hn.sublist (List.filter_sublist.map _))
  refine ⟨⟨r, h1⟩, fun d => ?_⟩
  rw [amountOf, h1]
  exact (h2 d).trans (amount_natAbs (fun c hc => (h.each c hc).2.1) d)

theorem Sendable.text {bits : Option Nat} {coins : SdkCoins} (h : Sendable bits coins) : TextOk (written coins) := by
  intro c hc
  obtain ⟨x, hx, rfl⟩ := List.mem_map.1 hc
  refine ⟨?_, (Sdk.textCoins bits).printed _⟩
  refine validUtf8_ascii fun b hb => ?_
  have := (h.each x hx).1.all b hb
  simp only [Letter, Digit] at this
  rw [UInt8.lt_iff_toNat_lt]
  rcases this with this | this | rfl
  · show b.toNat < 128
    omega
  · show b.toNat < 128
    omega
  · decide

/-- The fee of `Sign`. -/
def signFee : SdkCoins := [(b!"test", 50)]

theorem sendable_test {bits : Option Nat} (h : ∀ b, bits = some b → 93 ≤ b) {n : Int} (h0 : 0 < n)
    (hn : n ≤ 5000000000) : Sendable bits [(b!"test", n)] := by
  have h1 : n.natAbs ≤ 5000000000 := by omega
  refine ⟨by simp, ?_, by simp⟩
  intro c hc
  rw [List.mem_singleton] at hc
  subst hc
  refine ⟨(denomText_iff b!"test").1 (by decide), h0, lt_of_le_of_lt h1 (by decide), fun b hb => ?_⟩
  refine lt_of_le_of_lt (Nat.mul_le_mul_right _ h1) ?_
  exact lt_of_lt_of_le (b := 2 ^ 93) (by decide) (Nat.pow_le_pow_right (by decide) (h b hb))

theorem sendable_fee {bits : Option Nat} (h : ∀ b, bits = some b → 93 ≤ b) : Sendable bits signFee :=
  sendable_test h (by decide) (by decide)

/-- What the transaction of `Sign` is decoded to. -/
structure SignDecoded (env : DecodeEnv) (key chain send recv : Bytes) (coins : SdkCoins) (bytes sig : Bytes)
    (tx : AppTx) : Prop where
  decoded : appDecode env bytes = .ret (.ok tx)
  transitions : tx.transitions = [.sendCoins send recv (written coins)]
  signers : tx.raw.signers = [⟨bech32 b!"test" (env.ripemd160 (env.sha256 key)), ⟨key, []⟩, sig, 0⟩]
  payer : tx.raw.payer = bech32 b!"test" (env.ripemd160 (env.sha256 key))
  fee : tx.raw.fee = written signFee
  timeout : tx.raw.timeout = 0
  memo : tx.raw.memo = []
  signed : ∀ number, (signTx key send recv coins).signBytes chain number =
    signDoc tx.raw.bodyBytes tx.raw.authInfoBytes chain number

theorem sign_decoded {pubKey : Bytes → Bytes} {signature : Bytes → Bytes → Option Bytes}
    {pkHex chain send recv bytes pk : Bytes} {coins : SdkCoins}
    (hhex : hexDecode pkHex = some pk) (hkey : (pubKey pk).length = 33)
    (hsign : Client.sign pubKey signature pkHex chain send recv coins = some bytes) (hlen : bytes.length < 2 ^ 64)
    (hs : validUtf8 send = true) (hr : validUtf8 recv = true) (hc : TextOk (written coins)) :
    ∃ sig tx, signature pk ((signTx (pubKey pk) send recv coins).signBytes chain 0) = some sig ∧
      SignDecoded env (pubKey pk) chain send recv coins bytes sig tx := by
  obtain ⟨t, ht⟩ : ∃ t, t = signTx (pubKey pk) send recv coins := ⟨_, rfl⟩
  simp only [Client.sign, hhex] at hsign
  cases hsg : signature pk ((signTx (pubKey pk) send recv coins).signBytes chain 0) with
  | none => rw [hsg] at hsign; cases hsign
  | some sig =>
    simp only [hsg, Option.some.injEq] at hsign
    rw [← ht] at hsg hsign
    subst hsign
    have hmsgs : t.messages = [msgSend send recv (written coins)] := by rw [ht]; rfl
    have hfeet : t.fee = written signFee := by rw [ht]; rfl
    have hft : TextOk (written signFee) := by
      intro c hc
      rw [written, signFee, List.map_singleton, List.mem_singleton] at hc
      subst hc
      exact ⟨rfl, rfl⟩
    have hml : (msgSend send recv (written coins)).value.length < 2 ^ 64 := by
      have h1 := length_text 1 t.body
      have h2 := length_all 1 (l := t.messages.map any) (List.mem_map_of_mem (by rw [hmsgs]; exact List.mem_singleton.2 rfl))
      have h3 := length_text 2 (msgSend send recv (written coins)).value
      have e1 : (t.raw [sig]).length = (putText 1 t.body).length + ((putText 2 t.authInfo).length +
        (putAll 3 [sig]).length) := by rw [Client.Tx.raw, List.length_append, List.length_append]
      have e2 : t.body.length = (putAll 1 (t.messages.map any)).length + ((putText 2 t.memo).length +
        (putNumber 3 t.timeout).length) := by rw [Client.Tx.body, List.length_append, List.length_append]
      have e3 : (any (msgSend send recv (written coins))).length =
        (putText 1 (msgSend send recv (written coins)).typeUrl).length +
        (putText 2 (msgSend send recv (written coins)).value).length := by rw [Client.any, List.length_append]
      omega
    have hdec := C98_decoded (env := env) t [sig] [.sendCoins send recv (written coins)] ⟨pubKey pk, 0⟩
      ⟨by rw [hmsgs]; intro a ha; rw [List.mem_singleton.1 ha]; rfl, by rw [ht]; rfl,
        by rw [hfeet]; exact hft, by rw [ht]; rfl, by rw [ht]; rfl⟩
      hlen (by rw [hmsgs]; simp) (by rw [hmsgs]; exact .cons (C98_transfer _ _ _ hs hr hc hml) .nil)
      (by rw [ht]; simp [signTx]) (by rw [ht]; rfl) (by rw [ht]; intro s hs; rw [List.mem_singleton.1 hs]; exact hkey)
      (by rw [ht]; rfl)
    obtain ⟨tx, htx⟩ : ∃ tx : AppTx, appDecode env (t.raw [sig]) = .ret (.ok tx) := ⟨_, hdec⟩
    have etx := htx.symm.trans hdec
    simp only [Out.ret.injEq, Except.ok.injEq] at etx
    refine ⟨sig, tx, rfl, htx, by rw [etx], by rw [etx, ht]; rfl, by rw [etx, ht]; rfl,
      by rw [etx]; exact hfeet, by rw [etx, ht]; rfl, by rw [etx, ht]; rfl, fun n => ?_⟩
    rw [← ht, C98_signed, etx]

/-- **C99** (partial) What `Sign` returns is accepted by the deployed application, and moves the fee and
the coins: for the first transaction of the account with the number 0, whose address the sender is, on
the chain with the given identifier, if the account has a public key and enough coins, and signatures of
the key are valid.  Missing: other accounts and later transactions, for which `Sign` always says number
0 and sequence 0 (`C99_fails`). -/
theorem C99_sign_partial {bits : Option Nat} {lib : Libs} {m : World} (hd : Deployed env bits lib)
    {calls : List (Call BlockReq)} {rs : List (Resp Obj)}
    (hs : Served lib calls rs m) (hsh : ShortCalls lib calls)
    {pubKey : Bytes → Bytes} {signature : Bytes → Bytes → Option Bytes}
    {pkHex chain st send recv bytes pk : Bytes} {coins : SdkCoins} {account : Account}
    (hchain : .initChain chain st ∈ calls)
    (hhex : hexDecode pkHex = some pk) (hkey : (pubKey pk).length = 33)
    (hvalid : ∀ msg s, signature pk msg = some s → lib.verify (pubKey pk) msg s = true)
    (hsign : Client.sign pubKey signature pkHex chain send recv coins = some bytes) (hlen : bytes.length < 2 ^ 64)
    (hsend : send = bech32 b!"test" (env.ripemd160 (env.sha256 (pubKey pk)))) (hshort : send.length < 128)
    (hacc : accountAt m send = some account) (hpk : account.pubKey ≠ none) (hnum : account.number = 0)
    (hseq : account.sequence = 0)
    (hrecv : Usable recv) (htext : validUtf8 recv = true) (hcoins : Sendable bits coins)
    (hfunds : ∀ d, amount signFee d + amount coins d ≤ amountAt lib.coins m send d) :
    ∃ m', Served lib (calls ++ [.deliverTx bytes]) (rs ++ [.code 0]) m' ∧
      accountAt m' send = some { account with sequence := 1 } ∧
      ∀ k d, amountAt lib.coins m' k d = amountAt lib.coins m k d
        + ((if k = feeCollector then amount signFee d else 0) - (if k = send then amount signFee d else 0))
        + ((if k = recv then amount coins d else 0) - (if k = send then amount coins d else 0)) := by
  have hst : Starts calls := ⟨chain, st, hchain⟩
  have hcid := C40_chain_partial hd.well hs hchain
  have hsutf : validUtf8 send = true := by rw [hsend]; exact validUtf8_ascii (bech32_ascii (by decide))
  obtain ⟨sig, tx, hsg, hx⟩ := sign_decoded (env := env) hhex hkey hsign hlen hsutf htext hcoins.text
  have hfee := sendable_fee hd.bits
  have hpos : ∀ d, 0 ≤ amount signFee d := fun d => by
    rw [← amount_natAbs (fun c hc => (hfee.each c hc).2.1)]; omega
  have hpos' : ∀ d, 0 ≤ amount coins d := fun d => by
    rw [← amount_natAbs (fun c hc => (hcoins.each c hc).2.1)]; omega
  have e1 := hx.transitions
  have e2 := hx.signers
  have e3 := hx.payer
  rw [← hsend] at e2 e3
  have e4 := hx.fee
  have hdec' : lib.decode bytes = .ret (.ok tx) := by rw [hd.decode, hx.decoded]
  have hne : send ≠ [] := by rw [hsend]; simp [bech32]
  have hnf : send ≠ feeCollector := by
    rw [hsend]; intro h
    have := congrArg List.head? h
    simp [bech32, feeCollector] at this
  have hutf : validUtf8 chain = true := by
    rcases served_run hd.well hs with ⟨_, hn⟩ | ⟨pre, rs₀, c, post, rs', rfl, rfl, _, _, hu, hr⟩
    · exact absurd hst hn
    · have := C40_chain_partial hd.well hs (c := c) (st := []) (by simp)
      rw [hcid] at this
      rw [this]; exact hu
  obtain ⟨⟨rf, hrf⟩, haf⟩ := hfee.read
  obtain ⟨⟨rc, hrc⟩, hac⟩ := hcoins.read
  have hsigned : Signed lib m tx := by
    refine ⟨fun u hu => ?_, .inl hx.timeout, by rw [hx.memo]; exact Nat.zero_le _, ?_, ?_, by rw [e3]; exact hne⟩
    · obtain ⟨s, hs', rfl⟩ := (hd.well hdec').mem_users.1 hu
      rw [e2] at hs'
      rw [List.mem_singleton.1 hs']
      exact ⟨hne, by rw [hacc]; rfl⟩
    · rw [e2, served_params hd.well hst hs]; show 1 ≤ _; decide
    · intro s hs'
      rw [e2] at hs'
      rw [List.mem_singleton.1 hs']
      refine ⟨hne, account, hacc, hpk, hseq, by rw [hcid]; exact hutf, ?_⟩
      rw [hcid, hnum, ← hx.signed]
      exact hvalid _ _ hsg
  have hsafe : SafeTx lib.coins m tx := by
    refine ⟨(by rw [e4, hd.coins, hrf]; exact fun h => nomatch h), by rw [e3]; exact hshort, ?_, ?_, ?_, ?_⟩
    · intro t' ht'
      rw [e1] at ht'
      rw [List.mem_singleton.1 ht']
      exact ⟨hne, hshort, hrecv, (by rw [hd.coins, hrc]; exact fun h => nomatch h)⟩
    · rw [e1]; exact fun _ h => nomatch h
    · rw [e1]; exact List.nodup_nil
    · rw [e1]; exact fun _ h => nomatch h
  have hcov : Covered lib.coins m tx := by
    refine ⟨?_, by rw [e4, hd.coins]; exact ⟨rf, hrf⟩, ?_, fun d => ?_, ?_⟩
    · intro t' ht'
      rw [e1] at ht'
      rw [List.mem_singleton.1 ht', hd.coins]
      obtain ⟨d, hd'⟩ := amount_pos (fun c hc => (hcoins.each c hc).2.1) hcoins.some
      exact ⟨⟨rc, hrc⟩, d, by rw [hac]; exact hd'⟩
    · rw [e4, hd.coins]
      exact ⟨b!"test", by rw [haf]; decide⟩
    · have := hfunds d
      have := hpos' d
      rw [e4, e3, hd.coins, haf, ← hd.coins]
      omega
    · intro before a b cs after he d
      rw [e1] at he
      cases before with
      | cons x l => simp at he
      | nil =>
        simp only [List.nil_append, List.cons.injEq, Tr.sendCoins.injEq] at he
        obtain ⟨⟨rfl, rfl, rfl⟩, _⟩ := he
        have h1 : (feeOf tx).change lib.coins send d = - amount signFee d := by
          simp only [Transfer.change, feeOf, e3, e4, if_neg hnf, if_true, hd.coins, haf]; omega
        have h2 := hfunds d
        rw [h1, List.flatMap_nil, changes_nil]
        rw [hd.coins, hac, ← hd.coins]
        omega
  obtain ⟨m', hm'⟩ := C99_accepted_partial hd hst hs hsh hx.decoded hsigned hsafe hcov
  have hauth : Authenticated lib m tx := by
    obtain ⟨tx', h1, h2, _⟩ := accepted_authenticated hd.well hst hs hm'
    rw [hdec'] at h1
    cases h1
    exact h2
  refine ⟨m', hm', ?_, fun k d => ?_⟩
  · rw [(C37_sequences hd.well hst hs hdec' hm' hacc).1 hauth ⟨_, by rw [e2]; exact List.mem_singleton.2 rfl, rfl⟩, hseq]
    rfl
  have := (C46_accepted_partial hd.well hd.ok hst hs hsh hdec' ⟨by rw [e3]; exact hshort, by
    rw [e1]; intro t' ht'; rw [List.mem_singleton.1 ht']; exact ⟨hshort, hrecv.2.1⟩⟩ hm').1 k d
  rw [this, e1]
  simp only [List.flatMap_cons, List.flatMap_nil, List.append_nil, transfersOf, changes_one, Transfer.change, feeOf,
    e3, e4, hd.coins, haf, hac]

theorem signDoc_number {b a c : Bytes} {n n' : BitVec 64} (h : signDoc b a c n = signDoc b a c n') : n = n' := by
  simp only [signDoc] at h
  have h := List.append_cancel_left h
  split at h <;> split at h
  · simp_all
  · cases h
  · cases h
  · simp only [List.cons.injEq, true_and] at h
    exact BitVec.eq_of_toNat_eq (appendVarint_inj n.isLt n'.isLt h)

/-- **C99** (fails) Whatever `Sign` returns for an account that has signed a transaction before, or that has
another number than 0 (and signatures are valid for one message only), is rejected without effect,
however many coins there are. -/
theorem C99_fails {bits : Option Nat} {lib : Libs} {m : World} (hd : Deployed env bits lib)
    {calls : List (Call BlockReq)} {rs : List (Resp Obj)} (hs : Served lib calls rs m)
    {pubKey : Bytes → Bytes} {signature : Bytes → Bytes → Option Bytes}
    {pkHex chain st send recv bytes pk : Bytes} {coins : SdkCoins} {account : Account}
    (hchain : .initChain chain st ∈ calls)
    (hhex : hexDecode pkHex = some pk) (hkey : (pubKey pk).length = 33)
    (honly : ∀ msg msg' s, signature pk msg = some s → lib.verify (pubKey pk) msg' s = true → msg' = msg)
    (hsign : Client.sign pubKey signature pkHex chain send recv coins = some bytes) (hlen : bytes.length < 2 ^ 64)
    (hs' : validUtf8 send = true) (hr : validUtf8 recv = true) (hc : TextOk (written coins))
    (hacc : accountAt m (bech32 b!"test" (env.ripemd160 (env.sha256 (pubKey pk)))) = some account)
    (hother : account.sequence ≠ 0 ∨ account.number ≠ 0) :
    Served lib (calls ++ [.deliverTx bytes]) (rs ++ [.code 400]) m := by
  have hcid := C40_chain_partial hd.well hs hchain
  obtain ⟨sig, tx, hsg, hx⟩ := sign_decoded (env := env) hhex hkey hsign hlen hs' hr hc
  refine C40_rejected_partial hd.well ⟨chain, st, hchain⟩ hs (by rw [hd.decode, hx.decoded])
    ⟨_, by rw [hx.signers]; exact List.mem_singleton.2 rfl, fun a ha => ?_⟩
  rw [hacc] at ha
  cases ha
  rcases hother with h | h
  · exact .inr (.inl h)
  · refine .inr (.inr ?_)
    rw [hcid, ← hx.signed]
    cases hv : lib.verify (pubKey pk) ((signTx (pubKey pk) send recv coins).signBytes chain account.number) sig with
    | false => rfl
    | true =>
      exfalso
      have := honly _ _ _ hsg hv
      rw [C98_signed, C98_signed] at this
      exact h (signDoc_number this)

/-! Both happen: the sample application with the coins of the cosmos-sdk, and signatures that are the key
and the message. -/

/-- The sample application with the coins of the cosmos-sdk. -/
def signLib : Libs := { wireLib with coins := Sdk.coins (some 315) }

theorem signLib_deployed : Deployed sampleEnv (some 315) signLib :=
  ⟨rfl, rfl, fun b h => by cases h; decide⟩

/-- What `Sign` returns for the genesis account. -/
def signSample (recv : Bytes) : Option Bytes :=
  Client.sign (fun _ => genesisPubKey) (fun _ msg => some (genesisPubKey ++ msg)) b!"0aF1" sampleChain genesisAddress recv
    [(b!"test", 5)]

theorem signSample_accepted : ∃ bytes m', signSample b!"bob" = some bytes ∧ bytes.length < 2 ^ 64 ∧
    Served signLib [.initChain sampleChain [], .deliverTx bytes] [.none, .code 0] m' ∧
    accountAt m' genesisAddress = some { genesisAccount with sequence := 1 } ∧
    0 < amountAt signLib.coins m' b!"bob" b!"test" := by
  obtain ⟨bytes, hb⟩ : ∃ bytes, signSample b!"bob" = some bytes := ⟨_, rfl⟩
  have h0 : Served signLib [.initChain sampleChain []] [.none] (genesisWorld signLib sampleChain) :=
    served_exec signLib_deployed.well (by rfl) rfl
  have hlen : bytes.length < 2 ^ 64 := by
    have : (signSample b!"bob").all (fun b => b.length < 2 ^ 64) = true := by decide +kernel
    rw [hb] at this
    simpa using this
  obtain ⟨m', h, ha, hm⟩ := C99_sign_partial signLib_deployed h0
    (by intro b hb; simp at hb) (pk := [10, 241]) (account := genesisAccount)
    (List.mem_singleton.2 rfl) (by decide) (by decide +kernel)
    (fun msg s hs => by cases hs; simp [signLib, wireLib, sampleLib, sampleVerify]) hb hlen
    (by decide +kernel) (by decide +kernel) rfl (by decide) rfl rfl ⟨by decide, by decide, by decide +kernel⟩ (by decide)
    (sendable_test signLib_deployed.bits (by decide) (by decide)) (by
      intro d
      have h := (sendable_test signLib_deployed.bits (n := 5000000000) (by decide) (by decide)).read.2 d
      have hg : written [(b!"test", 5000000000)] = genesisCoins := by decide +kernel
      rw [hg] at h
      rw [amountAt, genesis_balance, if_pos rfl]
      show _ ≤ amountOf (Sdk.coins (some 315)) genesisCoins d
      rw [h]
      simp only [amount, signFee, List.map_cons, List.map_nil, List.sum_cons, List.sum_nil]
      split <;> decide)
  refine ⟨bytes, m', hb, hlen, h, ha, ?_⟩
  rw [hm, amountAt, genesis_balance]
  decide +kernel

/-- A second transaction of `Sign`, for another transfer, is rejected. -/
example : ∃ bytes bytes' m', signSample b!"bob" = some bytes ∧ signSample b!"ann" = some bytes' ∧
    Served signLib [.initChain sampleChain [], .deliverTx bytes, .deliverTx bytes'] [.none, .code 0, .code 400] m' := by
  obtain ⟨bytes, m', hb, _, h, ha, _⟩ := signSample_accepted
  obtain ⟨bytes', hb'⟩ : ∃ bytes, signSample b!"ann" = some bytes := ⟨_, rfl⟩
  have hlen : bytes'.length < 2 ^ 64 := by
    have : (signSample b!"ann").all (fun b => b.length < 2 ^ 64) = true := by decide +kernel
    rw [hb'] at this
    simpa using this
  have ht := (sendable_test (bits := some 315) (n := 5) signLib_deployed.bits (by decide) (by decide)).text
  have := C99_fails signLib_deployed h (pk := [10, 241]) (account := { genesisAccount with sequence := 1 })
    List.mem_cons_self (by decide) (by decide +kernel)
    (fun msg msg' s hs hv => by
      cases hs
      simpa [signLib, wireLib, sampleLib, sampleVerify, eq_comm] using hv) hb' hlen (by decide +kernel) (by decide) ht
    (by
      have : bech32 b!"test" (sampleEnv.ripemd160 (sampleEnv.sha256 genesisPubKey)) = genesisAddress := by decide +kernel
      rw [this, ha]) (.inl (by decide))
  exact ⟨bytes, bytes', m', hb, hb', this⟩

/-! ## C100 -/

variable {lib : Libs} {m m₁ m₂ : World}

/-- **C100** (fails) An account without a public key never gets one, and no transaction it signs is ever
accepted: it is locked for the rest of the chain. -/
theorem C100_locked_fails (hw : DecodesWell lib) {calls more : List (Call BlockReq)} {rs rs' : List (Resp Obj)}
    (hst : Starts calls) (h : Served lib calls rs m) {k : Bytes} {a : Account} (ha : accountAt m k = some a)
    (hk : a.pubKey = none) (h1 : Served lib (calls ++ more) (rs ++ rs') m₁) :
    (∃ a', accountAt m₁ k = some a' ∧ a'.pubKey = none) ∧
    ∀ bytes tx, lib.decode bytes = .ret (.ok tx) → (∃ s ∈ tx.raw.signers, s.address = k) →
      Served lib (calls ++ more ++ [.deliverTx bytes]) (rs ++ rs' ++ [.code 400]) m₁ := by
  obtain ⟨hi, hr⟩ := served_between hw hst h h1
  obtain ⟨n, _, ha'⟩ := run_account hw hr hi ha
  refine ⟨⟨_, ha', hk⟩, fun bytes tx hd ⟨s, hs, he⟩ => ?_⟩
  have hst' : Starts (calls ++ more) := by
    obtain ⟨c, st, hc⟩ := hst
    exact ⟨c, st, List.mem_append_left _ hc⟩
  refine C40_rejected_partial hw hst' h1 hd ⟨s, hs, fun b hb => .inl ?_⟩
  rw [he, ha'] at hb
  cases hb
  exact hk

/-- **C100** (fails) An account that appears by receiving coins, not by a message that creates it with a
public key, has no public key; whatever it signs later is rejected.  (The key under which the account of
an address is stored is `encKey` of the address, which is the address if it is short.) -/
theorem C100_received_fails (hw : DecodesWell lib) {calls more : List (Call BlockReq)} {rs rs' : List (Resp Obj)}
    (hst : Starts calls) (h : Served lib calls rs m) {k : Bytes} {a : Account} (hno : accountAt m k = none)
    (hmore : ∀ bytes, .deliverTx bytes ∈ more → ∀ tx, lib.decode bytes = .ret (.ok tx) →
      ∀ x, .createAccount (some x) ∈ tx.transitions → encKey x.address ≠ k)
    (h1 : Served lib (calls ++ more) (rs ++ rs') m₁) (ha : accountAt m₁ k = some a) :
    a.pubKey = none ∧ ∀ bytes tx, lib.decode bytes = .ret (.ok tx) → (∃ s ∈ tx.raw.signers, s.address = k) →
      Served lib (calls ++ more ++ [.deliverTx bytes]) (rs ++ rs' ++ [.code 400]) m₁ := by
  have hkey : Keyless m₁ k := by
    have hr := (served_between hw hst h h1).2
    have h0 : Keyless m k := fun x hx => by rw [hno] at hx; cases hx
    clear h h1 ha hno
    induction hr with
    | nil => exact h0
    | cons hs _ ih =>
      refine ih (fun b hb => hmore b (by simp [hb])) (keyless_serve h0 ?_ hs)
      intro b hb tx hd t ht x hx hk
      subst hx
      exact absurd hk (hmore b (by simp [hb]) tx hd x ht)
  have hst' : Starts (calls ++ more) := by
    obtain ⟨c, st, hc⟩ := hst
    exact ⟨c, st, List.mem_append_left _ hc⟩
  refine ⟨hkey a ha, fun bytes tx hd hs => ?_⟩
  have := (C100_locked_fails hw hst' h1 ha (hkey a ha) (more := []) (rs' := []) (by simpa using h1)).2 bytes tx hd hs
  simpa using this

/-- **C100** (partial) Whoever has a balance has an account.  (Of addresses shorter than 128 bytes; missing:
the account may have no public key, `C100_received_fails`.) -/
theorem C100_owners_partial (hw : DecodesWell lib) {calls : List (Call BlockReq)} {rs : List (Resp Obj)}
    (h : Served lib calls rs m) (hs : ShortCalls lib calls) {k : Bytes} (hk : (balanceAt m k).isSome) :
    (accountAt m k).isSome :=
  served_owners hw h hs k hk

/-- Bob gets coins, and with them an account that can not be used. -/
example : ∃ bytes m' a, signSample b!"bob" = some bytes ∧
    Served signLib [.initChain sampleChain [], .deliverTx bytes] [.none, .code 0] m' ∧
    accountAt m' b!"bob" = some a ∧ a.pubKey = none := by
  obtain ⟨bytes, m', hb, hlen, h, _, hbal⟩ := signSample_accepted
  have h0 : Served signLib [.initChain sampleChain []] [.none] (genesisWorld signLib sampleChain) :=
    served_exec signLib_deployed.well (by rfl) rfl
  obtain ⟨sig, tx, _, hx⟩ := sign_decoded (env := sampleEnv) (pk := [10, 241]) (by decide) (by decide +kernel) hb hlen
    (by decide +kernel) (by decide)
    (sendable_test (bits := some 315) (n := 5) signLib_deployed.bits (by decide) (by decide)).text
  have hpay : tx.raw.payer = genesisAddress := by rw [hx.payer]; decide +kernel
  have honly : ∀ b, Call.deliverTx b ∈ [Call.deliverTx (B := BlockReq) bytes] → ∀ tx', signLib.decode b = .ret (.ok tx') →
      tx' = tx := by
    intro b hb' tx' hd
    cases List.mem_singleton.1 hb'
    have : signLib.decode bytes = .ret (.ok tx) := by rw [signLib_deployed.decode, hx.decoded]
    rw [this] at hd
    cases hd; rfl
  have hacc := C100_owners_partial signLib_deployed.well h (by
    intro b hb' tx' hd
    rw [honly b (by simpa using hb') tx' hd]
    refine ⟨by rw [hpay]; decide +kernel, fun t ht => ?_⟩
    rw [hx.transitions, List.mem_singleton] at ht
    rw [ht]
    exact ⟨by decide +kernel, by decide⟩) (k := b!"bob") (by
      cases hc : balanceAt m' b!"bob" with
      | some _ => rfl
      | none => rw [amountAt, hc] at hbal; exact absurd hbal (by decide))
  obtain ⟨a, ha⟩ := Option.isSome_iff_exists.1 hacc
  refine ⟨bytes, m', a, hb, h, ha, (C100_received_fails signLib_deployed.well (calls := [.initChain sampleChain []])
    (rs := [.none]) (rs' := [.code 0]) ⟨_, _, List.mem_singleton.2 rfl⟩ h0 (by decide +kernel) ?_ h ha).1⟩
  intro b hb' tx' hd x hm'
  rw [honly b hb' tx' hd, hx.transitions, List.mem_singleton] at hm'
  cases hm'

end Verif.Props
