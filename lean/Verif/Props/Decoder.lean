import Verif.Proofs.Decoder
import Verif.Proofs.Bech32
import Verif.Proofs.Transfers
import Verif.Props.Accounts
import Verif.Spec.SampleTx
/-!
# Decoding transactions: C42, C44, C76 to C78
-/

namespace Verif.Props
open Verif Spec

variable {env : DecodeEnv} {hrp bytes : Bytes} {tx : AppTx}

/-! ## C42 -/

/-- The decoder accepts exactly the bytes described by `Accepted`, with the transaction described
there. -/
theorem C42_accepts : decodeTx env hrp bytes = .ret (.ok tx) ↔ Accepted env hrp bytes tx :=
  decodeTx_ok env hrp bytes tx

/-- The decoder crashes exactly if everything is well up to a public key that does not have 33
bytes. -/
theorem C42_crashes : decodeTx env hrp bytes = .panic ↔ BadKey env bytes := decodeTx_panic env hrp bytes

/-- All other bytes are rejected with an error. -/
theorem C42_rejects (ha : ∀ tx, ¬ Accepted env hrp bytes tx) (hb : ¬ BadKey env bytes) :
    decodeTx env hrp bytes = .ret (.error .other) := by
  cases h : decodeTx env hrp bytes with
  | panic => exact absurd (C42_crashes.1 h) hb
  | ret r => cases r with
    | ok tx => exact absurd (C42_accepts.1 h) (ha tx)
    | error e => rw [decodeTx_error env hrp bytes e h]

theorem signatures_of_signers {is : List SignerInfo} {sigs : List Bytes} {l : List Signer}
    (hlen : sigs.length = is.length)
    (h : List.Forall₂ (fun i s => IsSigner env hrp i.1 i.2 s) (is.zip sigs) l) :
    l.map Signer.signature = sigs := by
  induction is generalizing sigs l with
  | nil =>
    cases sigs with
    | nil =>
      cases l with
      | nil => rfl
      | cons _ _ => cases h
    | cons _ _ => cases hlen
  | cons i is ih =>
    cases sigs with
    | nil => cases hlen
    | cons s sigs =>
      rw [List.zip_cons_cons] at h
      cases h with
      | cons hi h =>
        obtain ⟨k, _, _, rfl⟩ := hi
        rw [List.map_cons, ih (by simpa using hlen) h]

/-- **C42 partial**: a transaction that decodes has at least one transition, one for each of its
messages, exactly one signature for each signer, a payer that is the declared one or the first signer,
and in its three outer messages no unknown fields (this is part of `IsTx`). -/
theorem C42_partial (h : decodeTx env hrp bytes = .ret (.ok tx)) :
    ∃ p, IsTx bytes p ∧ tx.transitions ≠ [] ∧ tx.transitions.length = p.messages.length ∧
      tx.raw.signers ≠ [] ∧ tx.raw.signers.map Signer.signature = p.signatures ∧
      (p.declared ≠ [] → tx.raw.payer = p.declared) ∧
      (p.declared = [] → (tx.raw.signers.map Signer.address).head? = some tx.raw.payer) := by
  obtain ⟨p, hs, h1, _, h3, _⟩ := C42_accepts.1 h
  have hl := hs.transitions.length_eq
  have hm := signatures_of_signers hs.matched h1
  refine ⟨p, hs.parts, ?_, hl.symm, ?_, hm, fun hd => by rw [if_neg hd] at h3; exact h3,
    fun hd => by rw [if_pos hd] at h3; exact h3.symm⟩
  · intro e
    rw [e] at hl
    exact hs.nonempty (List.length_eq_zero_iff.1 hl)
  · intro e
    rw [e] at hm
    have := hs.matched
    rw [← hm] at this
    exact hs.signed (List.length_eq_zero_iff.1 this.symm)

/-- The parts of a transaction are determined by its bytes. -/
theorem decoded_parts {p : TxParts} (h : decodeTx env hrp bytes = .ret (.ok tx)) (hp : IsTx bytes p) :
    tx.raw.bodyBytes = p.body ∧ tx.raw.authInfoBytes = p.authInfo ∧
    tx.raw.signers.map Signer.signature = p.signatures := by
  obtain ⟨q, hs, h1, _, _, _, _, _, h7, h8⟩ := C42_accepts.1 h
  obtain ⟨f1, m1, _, e1, e2, e3⟩ := hp.outer
  obtain ⟨f2, m2, _, e1', e2', e3'⟩ := hs.parts.outer
  cases m1.unique m2
  exact ⟨by rw [h7, e1, e1'], by rw [h8, e2, e2'], by rw [e3, ← e3']; exact signatures_of_signers hs.matched h1⟩

/-- What the theorems about the application assume of its decoder. -/
theorem decodeTx_decoded (h : decodeTx env hrp bytes = .ret (.ok tx)) : Decoded tx := by
  obtain ⟨p, hp, ht, _, hn, _, hd1, hd2⟩ := C42_partial h
  obtain ⟨q, hs, h1, h2, _⟩ := C42_accepts.1 h
  have haddr : ∀ s ∈ tx.raw.signers, s.address ≠ [] := by
    clear h2 ht hn hd1 hd2
    intro s hs'
    generalize tx.raw.signers = l at h1 hs'
    generalize q.infos.zip q.signatures = z at h1
    induction h1 with
    | nil => cases hs'
    | cons hi _ ih =>
      rcases List.mem_cons.1 hs' with rfl | hs'
      · obtain ⟨k, _, _, rfl⟩ := hi
        simp [bech32]
      · exact ih hs'
  refine ⟨hn, haddr, ?_, .of_eq h2, ht⟩
  by_cases hd : p.declared = []
  · have := hd2 hd
    intro e
    obtain ⟨s, hs, e'⟩ := List.mem_map.1 (List.mem_of_mem_head? (by rw [this]; rfl : tx.raw.payer ∈ _))
    exact haddr s hs (by rw [e', e])
  · rw [hd1 hd]; exact hd

/-- The decoder of the code meets the assumption of the theorems about the application. -/
theorem decodesWell {lib : Libs} (h : lib.decode = decodeTx env hrp) : DecodesWell lib := by
  intro bytes tx ht
  rw [h] at ht
  exact decodeTx_decoded ht

theorem wire_well : DecodesWell wireLib := decodesWell (env := sampleEnv) (hrp := b!"test") rfl

/-- Whether the transaction is accepted with a fee that has an unknown field. -/
def oddFee (o : Out (Except Err AppTx)) : Bool := match o with
  | .panic => false
  | .ret (.error _) => false
  | .ret (.ok tx) => match fields tx.raw.authInfoBytes with
    | none => false
    | some fs => (payloads fs 2).any fun b => match fields b with
      | none => false
      | some gs => gs.any fun f => decide (f.num ∉ [1, 2, 3, 4])

theorem oddFee_check : oddFee (appDecode sampleEnv oddFeeBytes) = true := by decide +kernel

theorem shortKey_check : (match appDecode sampleEnv shortKeyBytes with
    | .panic => true
    | _ => false) = true := by decide +kernel

/-- **C42 fails**: there is a transaction that is accepted although its fee has a field that `Fee`
does not have (its fields are 1 to 4); and there are bytes for which the decoder crashes. -/
theorem C42_fails : ∃ env : DecodeEnv,
    (∃ bytes tx p fs b gs f, appDecode env bytes = .ret (.ok tx) ∧ IsTx bytes p ∧ IsMessage p.authInfo fs ∧
      b ∈ payloads fs 2 ∧ IsMessage b gs ∧ f ∈ gs ∧ f.num ∉ [1, 2, 3, 4]) ∧
    ∃ bytes, appDecode env bytes = .panic := by
  refine ⟨sampleEnv, ?_, ?_⟩
  · have h := oddFee_check
    cases e : appDecode sampleEnv oddFeeBytes with
    | panic => rw [e] at h; cases h
    | ret r => cases r with
      | error _ => rw [e] at h; cases h
      | ok tx =>
        rw [e] at h
        obtain ⟨p, hp, _⟩ := C42_partial e
        have hau := (decoded_parts e hp).2.1
        simp only [oddFee] at h
        cases ef : fields tx.raw.authInfoBytes with
        | none => rw [ef] at h; cases h
        | some fs =>
          rw [ef] at h
          simp only [List.any_eq_true] at h
          obtain ⟨b, hb, h⟩ := h
          cases eg : fields b with
          | none => rw [eg] at h; cases h
          | some gs =>
            rw [eg] at h
            simp only [List.any_eq_true, decide_eq_true_eq] at h
            obtain ⟨f, hf, hn⟩ := h
            exact ⟨oddFeeBytes, tx, p, fs, b, gs, f, e, hp, hau ▸ (fields_iff _ _).1 ef, hb, (fields_iff _ _).1 eg, hf, hn⟩
  · have h := shortKey_check
    cases e : appDecode sampleEnv shortKeyBytes with
    | panic => exact ⟨_, e⟩
    | ret r => rw [e] at h; cases h

/-- The bytes of a transaction that is accepted, and those of one with an unknown field, which is
rejected. -/
example : (match appDecode sampleEnv payBytes with
      | .ret (.ok tx) => decide (tx.raw.payer = genesisAddress ∧ tx.transitions.length = 1)
      | _ => false) = true ∧
    (match appDecode sampleEnv oddTxBytes with
      | .ret (.error .other) => true
      | _ => false) = true := by decide +kernel

/-- The whole application with this decoder: the coins arrive. -/
example : leadsTo wireLib [.deliverTx payBytes] [.code 0]
    (fun m => balanceAt m b!"bob" == some [⟨b!"test", b!"5"⟩]) = true := by decide +kernel

/-! ## C44 -/

/-- **C44 partial**: if the transaction does not declare a payer, its payer is one of its signers. -/
theorem C44_partial {p : TxParts} (h : decodeTx env hrp bytes = .ret (.ok tx)) (hp : IsTx bytes p)
    (hd : p.declared = []) : tx.raw.payer ∈ tx.raw.signers.map Signer.address := by
  obtain ⟨q, hs, h1, _, h3, _⟩ := C42_accepts.1 h
  have : q.declared = p.declared := by
    obtain ⟨f1, m1, _, _, e2, _⟩ := hp.outer
    obtain ⟨f2, m2, _, _, e2', _⟩ := hs.parts.outer
    cases m1.unique m2
    obtain ⟨g1, k1, n1, _, _, a1, _, _, _, d1⟩ := hp.authInfo
    obtain ⟨g2, k2, n2, _, _, a2, _, _, _, d2⟩ := hs.parts.authInfo
    rw [e2] at n1
    rw [e2'] at n2
    cases n1.unique n2
    rw [d1, d2, a1.unique a2]
  rw [this, if_pos hd] at h3
  exact List.mem_of_mem_head? (by rw [← h3]; rfl)

theorem payer_check : leadsTo wireLib [.deliverTx payBytes] [.code 0]
      (fun m => balanceAt m b!"bob" == some [⟨b!"test", b!"5"⟩]) = true ∧
    leadsTo wireLib [.deliverTx payBytes, .deliverTx bobPaysBytes] [.code 0, .code 0]
      (fun m => balanceAt m b!"bob" == some [⟨b!"test", b!"4"⟩]) = true := by decide +kernel

theorem bobPays_check : (match appDecode sampleEnv bobPaysBytes with
    | .ret (.ok tx) => decide (tx.raw.payer = b!"bob" ∧ tx.raw.payer ∉ tx.raw.signers.map Signer.address)
    | _ => false) = true := by decide +kernel

/-- **C44 fails**: a transaction is accepted and its fee taken from an account that is not among
its signers. -/
theorem C44_fails : ∃ (env : DecodeEnv) (lib : Libs) (_ : lib.decode = appDecode env) (_ : CoinsOk lib.coins)
    (calls : List (Call BlockReq)) (rs : List (Resp Obj)) (m m' : World) (bytes : Bytes) (tx : AppTx) (d : Bytes),
    Served lib calls rs m ∧ lib.decode bytes = .ret (.ok tx) ∧
    Served lib (calls ++ [.deliverTx bytes]) (rs ++ [.code 0]) m' ∧
    tx.raw.payer ∉ tx.raw.signers.map Signer.address ∧
    amountAt lib.coins m' tx.raw.payer d < amountAt lib.coins m tx.raw.payer d := by
  obtain ⟨m, h1, hb⟩ := leadsTo_served wire_well payer_check.1
  obtain ⟨m', h2, hb'⟩ := leadsTo_served wire_well payer_check.2
  have h := bobPays_check
  cases e : appDecode sampleEnv bobPaysBytes with
  | panic => rw [e] at h; cases h
  | ret r => cases r with
    | error _ => rw [e] at h; cases h
    | ok tx =>
      rw [e] at h
      simp only [decide_eq_true_eq] at h
      have hl : wireLib.decode = appDecode sampleEnv := rfl
      rw [← hl] at e
      refine ⟨sampleEnv, wireLib, hl, sample_coinsOk, [.initChain sampleChain [], .deliverTx payBytes],
        [.none, .code 0], m, m', bobPaysBytes, tx, b!"test", h1, e, h2, h.2, ?_⟩
      rw [h.1]
      show amountAt sampleCoins m' b!"bob" _ < amountAt sampleCoins m b!"bob" _
      rw [amountAt_some (beq_iff_eq.1 hb), amountAt_some (beq_iff_eq.1 hb')]
      exact of_decide_eq_true rfl

/-! ## C76 -/

/-- Bytes are read as a list of fields exactly if they are a message with these fields. -/
theorem C76_parses (b : Bytes) (fs : List Field) : fields b = some fs ↔ IsMessage b fs := fields_iff b fs

/-- A message has one reading only. -/
theorem C76_unique {b : Bytes} {fs gs : List Field} (h : IsMessage b fs) (h' : IsMessage b gs) : fs = gs :=
  h.unique h'

/-- Messages one after the other are one message: nothing that follows changes how a message is
read. -/
theorem C76_append {a b : Bytes} {fs gs : List Field} (ha : IsMessage a fs) (hb : IsMessage b gs) :
    IsMessage (a ++ b) (fs ++ gs) := by
  induction ha with
  | nil => exact hb
  | cons h1 h2 h3 _ ih => simpa using IsMessage.cons h1 h2 h3 ih

/-- A message with a number and a text; a group that is not closed and a number that is too long are
no messages. -/
example : fields (numField 3 300 ++ bytesField 1 b!"ab") =
      some [⟨3, .varint 300, [0xac, 0x02]⟩, ⟨1, .len b!"ab", [2, 97, 98]⟩] ∧
    fields [0x0b, 0x08, 0x01] = none ∧ (fields [0x0b, 0x08, 0x01, 0x0c]).isSome ∧
    fields ([0x08] ++ List.replicate 10 0xff ++ [1]) = none := by decide +kernel

/-! ## C77 -/

/-- Different bytes have different addresses. -/
theorem C77_injective {a b : Bytes} (h : bech32 hrp a = bech32 hrp b) : a = b := bech32_inj h

/-- Addresses are valid strings of BIP 173, in particular with the right checksum. -/
theorem C77_valid (hrp a : Bytes) : ValidBech32 hrp (bech32 hrp a) := bech32_valid hrp a

/-- The address of every signer of an accepted transaction is the address of the hash of its key. -/
theorem decoded_address (h : decodeTx env hrp bytes = .ret (.ok tx)) {s : Signer} (hs : s ∈ tx.raw.signers) :
    s.pubKey.key.length = 33 ∧ s.address = bech32 hrp (env.ripemd160 (env.sha256 s.pubKey.key)) := by
  obtain ⟨q, _, h1, _⟩ := C42_accepts.1 h
  generalize tx.raw.signers = l at h1 hs
  generalize q.infos.zip q.signatures = z at h1
  induction h1 with
  | nil => cases hs
  | cons hi _ ih =>
    rcases List.mem_cons.1 hs with rfl | hs
    · obtain ⟨k, _, hk, rfl⟩ := hi
      exact ⟨hk, rfl⟩
    · exact ih hs

/-- The signers of transactions that are accepted by the application have valid addresses with the
prefix `test`, which are plain text of 43 bytes if hashes have 20 bytes. -/
theorem C77_signers (h : appDecode env bytes = .ret (.ok tx)) {s : Signer} (hs : s ∈ tx.raw.signers) :
    ValidBech32 b!"test" s.address ∧ validUtf8 s.address = true ∧
    ((env.ripemd160 (env.sha256 s.pubKey.key)).length = 20 → s.address.length = 43) := by
  obtain ⟨_, e⟩ := decoded_address h hs
  rw [e]
  refine ⟨bech32_valid _ _, validUtf8_ascii (bech32_ascii (by decide)), fun hl => ?_⟩
  rw [bech32_length, hl]
  rfl

/-- Two signers, of any two transactions, share an address only if the hashes of their keys
collide. -/
theorem C77_collision {bytes' : Bytes} {tx' : AppTx} (h : appDecode env bytes = .ret (.ok tx))
    (h' : appDecode env bytes' = .ret (.ok tx')) {s s' : Signer} (hs : s ∈ tx.raw.signers) (hs' : s' ∈ tx'.raw.signers)
    (e : s.address = s'.address) :
    env.ripemd160 (env.sha256 s.pubKey.key) = env.ripemd160 (env.sha256 s'.pubKey.key) := by
  rw [(decoded_address h hs).2, (decoded_address h' hs').2] at e
  exact bech32_inj e

/-- No signer acts as one of the modules. -/
theorem C77_no_module (h : appDecode env bytes = .ret (.ok tx)) {s : Signer} (hs : s ∈ tx.raw.signers) :
    ∀ e ∈ moduleRoles, s.address ≠ e.1 := by
  intro e he heq
  have h1 := (decoded_address h hs).2
  rw [heq] at h1
  have h2 : e.1.take 5 = b!"test1" := by
    rw [h1]
    rfl
  have hall : ∀ e ∈ moduleRoles, e.1.take 5 ≠ b!"test1" := by decide +kernel
  exact hall e he h2

/-- The address of the genesis account is the address of the hash of its key. -/
example : bech32 b!"test" genesisHash = genesisAddress := by decide +kernel

/-! ## C78 -/

theorem valid_long {hrp a : Bytes} (h : ValidBech32 hrp a) : 7 ≤ a.length := by
  obtain ⟨l, v, rfl, h, _⟩ := h
  rw [List.length_append, List.length_cons]
  omega

/-- **C78 fails**: coins are sent to an address that is not valid with any prefix. -/
theorem C78_fails : ∃ (env : DecodeEnv) (lib : Libs) (_ : lib.decode = appDecode env)
    (calls : List (Call BlockReq)) (rs : List (Resp Obj)) (m : World) (bytes target : Bytes) (coins : List Coin),
    Served lib (calls ++ [.deliverTx bytes]) (rs ++ [.code 0]) m ∧
    (∀ hrp, ¬ ValidBech32 hrp target) ∧ balanceAt m target = some coins ∧ coins ≠ [] := by
  obtain ⟨m, h1, hb⟩ := leadsTo_served wire_well payer_check.1
  exact ⟨sampleEnv, wireLib, rfl, [.initChain sampleChain []], [.none], m, payBytes, b!"bob", _, h1,
    fun hrp h => absurd (valid_long h) (by decide), beq_iff_eq.1 hb, List.cons_ne_nil _ _⟩

/-- **C78 partial**: the addresses the application makes itself, those of signers, are valid. -/
theorem C78_partial (h : appDecode env bytes = .ret (.ok tx)) {s : Signer} (hs : s ∈ tx.raw.signers) :
    ValidBech32 b!"test" s.address := (C77_signers h hs).1

end Verif.Props
