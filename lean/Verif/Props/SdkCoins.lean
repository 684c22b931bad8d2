import Verif.Spec.SdkCoins
import Verif.Props.Bank
import Verif.Props.Safe
/-!
# Coins of the cosmos-sdk

* **C97** Coins are read as they are written: lists of amounts in decimal digits with valid
  denominations give these amounts, everything else is refused.

and what C43 and C45 to C49 say about the application with this parsing and the modelled decoder:
nothing is assumed of the cosmos-sdk there.
-/

namespace Verif.Props
open Verif Spec

theorem digit_iff (b : UInt8) : Sdk.isDigit b = true ↔ Digit b := by
  simp only [Sdk.isDigit, Digit, Bool.and_eq_true, decide_eq_true_eq, UInt8.le_iff_toNat_le]
  exact Iff.rfl

theorem letter_iff (b : UInt8) : Sdk.isLetter b = true ↔ Letter b := by
  simp only [Sdk.isLetter, Letter, Bool.or_eq_true, Bool.and_eq_true, decide_eq_true_eq, UInt8.le_iff_toNat_le]
  exact or_comm

theorem denomText_iff (d : Bytes) : Sdk.validDenom d = true ↔ DenomText d := by
  rw [Sdk.validDenom_iff]
  have hb : ∀ b, Sdk.isDenomByte b = true ↔ Letter b ∨ Digit b ∨ b = 47 := by
    intro b
    simp only [Sdk.isDenomByte, Bool.or_eq_true, letter_iff, digit_iff, beq_iff_eq, or_assoc]
  simp only [letter_iff, hb]
  exact ⟨fun h => ⟨h.1, h.2.1, h.2.2⟩, fun h => ⟨h.1, h.2, h.3⟩⟩

theorem writes_iff (t : Bytes) (n : Nat) :
    Writes t n ↔ t ≠ [] ∧ (∀ b ∈ t, Sdk.isDigit b = true) ∧ Sdk.number t = n := by
  constructor
  · intro h
    induction h with
    | digit b h => exact ⟨by simp, by simp [digit_iff, h], by simp [Sdk.number]⟩
    | more _ b hb ih =>
      refine ⟨by simp, ?_, by rw [Sdk.number_append, ih.2.2]⟩
      intro c hc
      rcases List.mem_append.1 hc with hc | hc
      · exact ih.2.1 c hc
      · rw [List.mem_singleton.1 hc, digit_iff]; exact hb
  · rintro ⟨h1, h2, rfl⟩
    induction t using List.reverseRecOn with
    | nil => exact absurd rfl h1
    | append_singleton t b ih =>
      have hb := (digit_iff b).1 (h2 b (by simp))
      rw [Sdk.number_append]
      by_cases ht : t = []
      · subst ht
        simpa [Sdk.number] using Writes.digit b hb
      · exact .more (ih ht fun c hc => h2 c (by simp [hc])) b hb

theorem wellformed_plain {c : Coin} {d : Bytes} {n : Nat} (h : Wellformed c d n) :
    Sdk.Plain c ∧ c.denom = d ∧ Sdk.number c.amount = n := by
  obtain ⟨h1, h2, h3⟩ := h
  obtain ⟨h4, h5, h6⟩ := (writes_iff _ _).1 h3
  exact ⟨⟨h4, h5, by rw [h2]; exact (denomText_iff d).2 h1⟩, h2, h6⟩

/-! ## C97 -/

/-- A list of coins that are well-formed, as denominations and numbers. -/
def WellformedList (cs : List Coin) (l : List (Bytes × Nat)) : Prop :=
  List.Forall₂ (fun c x => Wellformed c x.1 x.2) cs l

theorem wellformedList_plain {cs : List Coin} {l : List (Bytes × Nat)} (h : WellformedList cs l) :
    (∀ c ∈ cs, Sdk.Plain c) ∧ l = cs.map fun c => (c.denom, Sdk.number c.amount) := by
  induction h with
  | nil => exact ⟨by simp, rfl⟩
  | cons h _ ih =>
    obtain ⟨h1, h2, h3⟩ := wellformed_plain h
    refine ⟨?_, ?_⟩
    · intro c hc
      rcases List.mem_cons.1 hc with rfl | hc
      · exact h1
      · exact ih.1 c hc
    · rw [List.map_cons, h2, h3, ← ih.2]

/-- The number can be read: it has at most 255 bits, and multiplied by 10¹⁸ as many as are allowed. -/
def Readable (bits : Option Nat) (n : Nat) : Prop := n < 2 ^ 255 ∧ ∀ b, bits = some b → n * 10 ^ 18 < 2 ^ b

theorem amount_perm {l l' : SdkCoins} (h : l.Perm l') (d : Bytes) : amount l d = amount l' d :=
  (h.map _).sum_eq

theorem amount_filter (l : List (Bytes × Nat)) (d : Bytes) :
    amount ((l.filter fun c => c.2 ≠ 0).map fun c => (c.1, (c.2 : Int))) d =
      ((l.map fun c => if c.1 = d then c.2 else 0).sum : Nat) := by
  induction l with
  | nil => rfl
  | cons c l ih =>
    by_cases hc : c.2 = 0
    · rw [List.filter_cons_of_neg (by simp [hc]), ih, List.map_cons, List.sum_cons]
      simp [hc]
    · rw [List.filter_cons_of_pos (by simp [hc]), List.map_cons, List.map_cons, List.sum_cons, amount,
        List.map_cons, List.sum_cons]
      rw [amount] at ih
      rw [ih]
      by_cases hd : c.1 = d <;> simp [hd]

/-- **C97** (partial) Well-formed coins that can be read and of which no two with an amount have the same
denomination are read as these amounts: sorted, without zeros, each denomination with its number. -/
theorem C97_read_partial {bits : Option Nat} {cs : List Coin} {l : List (Bytes × Nat)} (h : WellformedList cs l)
    (hr : ∀ c ∈ l, Readable bits c.2) (hn : ((l.filter fun c => c.2 ≠ 0).map Prod.fst).Nodup) :
    ∃ r, (Sdk.coins bits).balanceOf cs = .ret (.ok r) ∧ SortedCoins r ∧ (∀ c ∈ r, 0 < c.2) ∧
      ∀ d, amount r d = ((l.map fun c => if c.1 = d then c.2 else 0).sum : Nat) := by
  obtain ⟨hp, rfl⟩ := wellformedList_plain h
  have hnum : ∀ c ∈ cs, Readable bits (Sdk.number c.amount) := fun c hc => hr _ (List.mem_map.2 ⟨c, hc, rfl⟩)
  have hf : ((cs.map fun c => (c.denom, Sdk.number c.amount)).filter fun c => decide (c.2 ≠ 0)) =
      (Sdk.nonzero cs).map fun c => (c.denom, Sdk.number c.amount) := by
    rw [Sdk.nonzero, List.filter_map]; rfl
  have hn' : ((Sdk.nonzero cs).map Coin.denom).Nodup := by
    rw [hf, List.map_map] at hn; exact hn
  have hmem : ∀ c ∈ Sdk.nonzero cs, c ∈ cs ∧ 0 < Sdk.number c.amount := by
    intro c hc
    have := List.mem_filter.1 hc
    simp only [ne_eq, decide_not, Bool.not_eq_true', decide_eq_false_iff_not] at this
    exact ⟨this.1, Nat.pos_of_ne_zero this.2⟩
  have hdiv : ∀ n : Nat, n * 10 ^ 18 / 10 ^ 18 = n := fun n => Nat.mul_div_cancel _ (by decide)
  have hsort := Sdk.sort_perm ((Sdk.nonzero cs).map Sdk.decCoin)
  have hnorm : Sdk.normalize (Sdk.sort ((Sdk.nonzero cs).map Sdk.decCoin)) =
      .ret (Sdk.truncated (Sdk.sort ((Sdk.nonzero cs).map Sdk.decCoin))) := by
    rw [Sdk.normalize_iff]
    refine ⟨?_, rfl⟩
    intro c hc
    obtain ⟨x, hx, rfl⟩ := List.mem_map.1 (hsort.mem_iff.1 hc)
    simp only [Sdk.decCoin, hdiv]
    exact (hnum x (hmem x hx).1).1
  have htr : (Sdk.truncated (Sdk.sort ((Sdk.nonzero cs).map Sdk.decCoin))).Perm
      ((Sdk.nonzero cs).map fun c => (c.denom, ((Sdk.number c.amount : Nat) : Int))) := by
    refine (hsort.map _).trans (List.Perm.of_eq ?_)
    rw [List.map_map]
    apply List.map_congr_left
    intro c _
    simp only [Function.comp, Sdk.decCoin, hdiv]
  refine ⟨Sdk.truncated (Sdk.sort ((Sdk.nonzero cs).map Sdk.decCoin)), ?_, ?_, ?_, ?_⟩
  · show Sdk.parseCoins bits _ = _
    rw [Sdk.parseCoins, Sdk.parse_plain hp fun c hc => (hnum c hc).2, if_pos hn']
    simp only [hnorm]
  · rw [SortedCoins, Sdk.truncated, List.pairwise_map]
    refine Sdk.sort_strict ?_
    rw [List.map_map]; exact hn'
  · intro c hc
    obtain ⟨x, hx, rfl⟩ := List.mem_map.1 (htr.mem_iff.1 hc)
    have := (hmem x hx).2
    show (0 : Int) < (Sdk.number x.amount : Nat)
    omega
  · intro d
    rw [amount_perm htr, ← amount_filter, hf, List.map_map]
    rfl

/-- **C97** Well-formed coins of which two with an amount have the same denomination are refused. -/
theorem C97_repeated {bits : Option Nat} {cs : List Coin} {l : List (Bytes × Nat)} (h : WellformedList cs l)
    (hr : ∀ c ∈ l, Readable bits c.2) (hn : ¬ ((l.filter fun c => c.2 ≠ 0).map Prod.fst).Nodup) :
    (Sdk.coins bits).balanceOf cs = .ret (.error .other) := by
  obtain ⟨hp, rfl⟩ := wellformedList_plain h
  have hnum : ∀ c ∈ cs, Readable bits (Sdk.number c.amount) := fun c hc => hr _ (List.mem_map.2 ⟨c, hc, rfl⟩)
  have hf : ((cs.map fun c => (c.denom, Sdk.number c.amount)).filter fun c => decide (c.2 ≠ 0)) =
      (Sdk.nonzero cs).map fun c => (c.denom, Sdk.number c.amount) := by
    rw [Sdk.nonzero, List.filter_map]; rfl
  have hn' : ¬ ((Sdk.nonzero cs).map Coin.denom).Nodup := by
    rw [hf, List.map_map] at hn; exact hn
  show Sdk.parseCoins bits _ = _
  rw [Sdk.parseCoins, Sdk.parse_plain hp fun c hc => (hnum c hc).2, if_neg hn']

/-- **C97** What is read is sorted and not negative, and its denominations are valid, whatever was
written. -/
theorem C97_result {bits : Option Nat} {cs : List Coin} {r : SdkCoins}
    (h : (Sdk.coins bits).balanceOf cs = .ret (.ok r)) :
    SortedCoins r ∧ ∀ c ∈ r, DenomText c.1 ∧ 0 ≤ c.2 ∧ Readable bits c.2.natAbs := by
  obtain ⟨h1, h2⟩ := Sdk.parse_ok h
  refine ⟨h1, fun c hc => ?_⟩
  obtain ⟨h3, h4, h5⟩ := h2 c hc
  have := (Sdk.limit_iff bits c.2.natAbs).1 (by omega)
  exact ⟨(denomText_iff _).1 h3, h4, this.2, this.1⟩

/-- **C97** If numbers of at most 314 bits are parsed, reading coins does not crash. -/
theorem C97_no_crash {b : Nat} (hb : b ≤ 314) (cs : List Coin) : (Sdk.coins (some b)).balanceOf cs ≠ .panic := by
  intro h
  change Sdk.parseCoins (some b) _ = _ at h
  simp only [Sdk.parseCoins] at h
  split at h
  · cases h
  · rename_i l hl
    split at h
    · rename_i hp
      obtain ⟨c, hc, hge⟩ := (Sdk.normalize_panic_iff l).1 hp
      have h1 := ((Sdk.parseDecCoins_ok hl).2 c hc).2.2 b rfl
      have h2 : 2 ^ 255 * 10 ^ 18 ≤ c.2 := (Nat.le_div_iff_mul_le (by decide)).1 hge
      have h3 : 2 ^ b ≤ 2 ^ (255 + 59) := Nat.pow_le_pow_right (by decide) hb
      have h4 : 2 ^ (255 + 59) ≤ 2 ^ 255 * 10 ^ 18 := by
        rw [Nat.pow_add]; exact Nat.mul_le_mul_left _ (by decide)
      exact absurd h1 (Nat.not_lt.2 (h3.trans (h4.trans h2)))
    · cases h

/-- 2²⁵⁵. -/
def hugeCoin : Coin :=
  ⟨b!"test", b!"57896044618658097711785492504343953926634992332820282019728792003956564819968"⟩

/-- **C97** (fails) If numbers are parsed whatever their size, reading a coin can crash. -/
theorem C97_crash_fails : (Sdk.coins none).balanceOf [hugeCoin] = .panic := by decide +kernel

/-- **C97** (fails) Coins that are not well-formed and are read: two coins from one with a comma in the
denomination, a fraction cut off, a coin of nothing, the amount written into the denomination. -/
theorem C97_fails :
    (Sdk.coins (some 255)).balanceOf [⟨b!"abc,5def", b!"1"⟩] = .ret (.ok [(b!"abc", 1), (b!"def", 5)]) ∧
    (Sdk.coins (some 255)).balanceOf [⟨b!"abc", b!"1.9"⟩] = .ret (.ok [(b!"abc", 1)]) ∧
    (Sdk.coins (some 255)).balanceOf [⟨b!"abc", b!"0.9"⟩] = .ret (.ok [(b!"abc", 0)]) ∧
    (Sdk.coins (some 255)).balanceOf [⟨b!"7abc", []⟩] = .ret (.ok [(b!"abc", 7)]) ∧
    ∀ c ∈ [(⟨b!"abc,5def", b!"1"⟩ : Coin), ⟨b!"abc", b!"1.9"⟩, ⟨b!"abc", b!"0.9"⟩, ⟨b!"7abc", []⟩],
      ∀ d n, ¬ Wellformed c d n := by
  refine ⟨by decide +kernel, by decide +kernel, by decide +kernel, by decide +kernel, ?_⟩
  intro c hc d n hw
  obtain ⟨h1, _, _⟩ := wellformed_plain hw
  have hn : c.amount ≠ [] ∧ c.amount.all Sdk.isDigit = true ∧ Sdk.validDenom c.denom = true :=
    ⟨h1.ne, List.all_eq_true.2 h1.digits, h1.denom⟩
  revert hn
  simp only [List.mem_cons, List.not_mem_nil, or_false] at hc
  rcases hc with rfl | rfl | rfl | rfl <;> decide

example : ∃ r, (Sdk.coins (some 255)).balanceOf [⟨b!"test", b!"12"⟩, ⟨b!"abc", b!"003"⟩] = .ret (.ok r) ∧
    r = [(b!"abc", 3), (b!"test", 12)] := ⟨_, by decide +kernel, rfl⟩

example : WellformedList [⟨b!"test", b!"12"⟩] [(b!"test", 12)] := by
  refine .cons ⟨(denomText_iff _).1 (by decide), rfl, ?_⟩ .nil
  exact .more (.digit 49 ((digit_iff _).1 (by decide))) 50 ((digit_iff _).1 (by decide))

/-! ## The application with these coins -/

/-- The libraries are those of the repository: the modelled decoder, and the coins of a version of the
cosmos-sdk that reads the coins of the genesis account. -/
structure Deployed (env : DecodeEnv) (bits : Option Nat) (lib : Libs) : Prop where
  decode : lib.decode = appDecode env
  coins : lib.coins = Sdk.coins bits
  bits : ∀ b, bits = some b → 93 ≤ b

section
variable {env : DecodeEnv} {bits : Option Nat} {lib : Libs} {m m₁ : World}

theorem Deployed.well (h : Deployed env bits lib) : DecodesWell lib := decodesWell h.decode

theorem Deployed.ok (h : Deployed env bits lib) : CoinsOk lib.coins := by
  rw [h.coins]; exact Sdk.coinsOk h.bits

theorem Deployed.text (h : Deployed env bits lib) : TextCoins lib.coins := by
  rw [h.coins]; exact Sdk.textCoins bits

/-- **C97** What C43 and C45 to C49 assume of parsing, printing and decoding holds. -/
theorem C97_assumptions (h : Deployed env bits lib) : DecodesWell lib ∧ CoinsOk lib.coins ∧ TextCoins lib.coins :=
  ⟨h.well, h.ok, h.text⟩

/-- **C45** (partial) In the deployed application, as long as no address is longer than 127 bytes, all
balances together contain the coins of genesis. -/
theorem C45_deployed_partial (hd : Deployed env bits lib) {calls : List (Call BlockReq)} {rs : List (Resp Obj)}
    (hs : Starts calls) (h : Served lib calls rs m) (hshort : ShortCalls lib calls) :
    ∃ ks, Holders m ks ∧ ∀ d, supply lib.coins m ks d = if d = b!"test" then 5000000000 else 0 := by
  obtain ⟨ks, hk⟩ := C45_holders_partial hd.well h
  refine ⟨ks, hk, fun d => ?_⟩
  rw [C45_genesis_partial hd.well hd.ok hs h hshort hk d, hd.coins]
  have hr : (Sdk.coins bits).balanceOf genesisCoins = .ret (.ok [(b!"test", 5000000000)]) := by
    have hn : Sdk.number b!"5000000000" = 5000000000 := by decide
    have hb : ∀ c ∈ genesisCoins, Sdk.decBound bits (Sdk.number c.amount * 10 ^ 18) := by
      intro c hc
      rw [genesisCoins, List.mem_singleton] at hc
      subst hc
      intro b hb
      show Sdk.number b!"5000000000" * 10 ^ 18 < 2 ^ b
      rw [hn]
      exact lt_of_lt_of_le (b := 2 ^ 93) (by decide) (Nat.pow_le_pow_right (by decide) (hd.bits b hb))
    have hz : Sdk.nonzero genesisCoins = genesisCoins := by
      simp only [Sdk.nonzero, genesisCoins]; decide
    show Sdk.parseCoins bits _ = _
    rw [Sdk.parseCoins, Sdk.parse_plain Sdk.genesis_plain hb, hz, if_pos (by decide)]
    have : Sdk.normalize (Sdk.sort (genesisCoins.map Sdk.decCoin)) = .ret [(b!"test", 5000000000)] := by
      decide +kernel
    simp only [this]
  rw [amountOf, hr]
  simp only [amount, List.map_cons, List.map_nil, List.sum_cons, List.sum_nil, add_zero]
  by_cases hdd : d = b!"test"
  · rw [if_pos hdd, if_pos hdd.symm]
  · rw [if_neg hdd, if_neg (Ne.symm hdd)]

/-- **C46** (partial) In the deployed application an accepted transaction with one transfer of well-formed
coins, of different denominations, whose fee is well-formed too, moves exactly these numbers: each
balance changes by the fee and the transfer as they are written.  (Addresses shorter than 128 bytes.) -/
theorem C46_deployed_partial (hd : Deployed env bits lib) {calls : List (Call BlockReq)}
    {rs : List (Resp Obj)} {bytes : Bytes} {tx : AppTx} (hs : Starts calls) (h : Served lib calls rs m)
    (hsc : ShortCalls lib calls) (hdec : lib.decode bytes = .ret (.ok tx)) (hshort : ShortTx tx)
    (h1 : Served lib (calls ++ [.deliverTx bytes]) (rs ++ [.code 0]) m₁) {x y : Bytes} {cs : List Coin}
    (ht : tx.transitions = [.sendCoins x y cs]) {fee l : List (Bytes × Nat)}
    (hf : WellformedList tx.raw.fee fee) (hl : WellformedList cs l) (hr : ∀ c ∈ fee ++ l, Readable bits c.2)
    (hfn : (fee.map Prod.fst).Nodup) (hln : (l.map Prod.fst).Nodup) (k d : Bytes) :
    let paid (l : List (Bytes × Nat)) : Int := ((l.map fun c => if c.1 = d then c.2 else 0).sum : Nat)
    amountAt lib.coins m₁ k d = amountAt lib.coins m k d
      + ((if k = feeCollector then paid fee else 0) - (if k = tx.raw.payer then paid fee else 0))
      + ((if k = y then paid l else 0) - (if k = x then paid l else 0)) := by
  intro paid
  have key : ∀ {cs : List Coin} {l : List (Bytes × Nat)}, WellformedList cs l → (∀ c ∈ l, Readable bits c.2) →
      (l.map Prod.fst).Nodup → amountOf lib.coins cs d = paid l := by
    intro cs l hw hr hn
    obtain ⟨r, h1, _, _, h2⟩ := C97_read_partial hw hr (hn.sublist (List.filter_sublist.map _))
    rw [amountOf, hd.coins, h1]
    exact h2 d
  have hm := (C46_accepted_partial hd.well hd.ok hs h hsc hdec hshort h1).1 k d
  rw [hm, ht]
  simp only [List.flatMap_cons, List.flatMap_nil, List.append_nil, transfersOf, changes_one, Transfer.change, feeOf,
    key hf (fun c hc => hr c (List.mem_append_left _ hc)) hfn, key hl (fun c hc => hr c (List.mem_append_right _ hc)) hln]

/-- **C47** (partial) In the deployed application every stored balance is read as coins with valid, distinct
denominations and amounts that are not negative, as long as no address is longer than 127 bytes. -/
theorem C47_deployed_partial (hd : Deployed env bits lib) {calls : List (Call BlockReq)} {rs : List (Resp Obj)}
    (h : Served lib calls rs m) (hsc : ShortCalls lib calls) {k : Bytes} {cs : List Coin}
    (hk : balanceAt m k = some cs) :
    ∃ l, lib.coins.balanceOf cs = .ret (.ok l) ∧ SortedCoins l ∧
      ∀ c ∈ l, DenomText c.1 ∧ 0 ≤ c.2 ∧ Readable bits c.2.natAbs := by
  obtain ⟨l, h1, _, _, _⟩ := C47_partial hd.well hd.ok h hsc hk
  exact ⟨l, h1, C97_result (by rw [← hd.coins]; exact h1)⟩

/-- **C43** (partial) In the deployed application DeliverTx answers a transaction, after any history that
was answered and whose addresses are shorter than 128 bytes, unless one of its signers has a public key
that does not have 33 bytes, or it is not safe as described by `SafeTx`. -/
theorem C43_deployed_partial (hd : Deployed env bits lib) {calls : List (Call BlockReq)}
    {rs : List (Resp Obj)} (hst : Starts calls) (hs : Served lib calls rs m) (hsh : ShortCalls lib calls)
    {bytes : Bytes} (hk : ¬ BadKey env bytes)
    (hsafe : ∀ tx, appDecode env bytes = .ret (.ok tx) → SafeTx lib.coins m tx) :
    ∃ code m', Served lib (calls ++ [.deliverTx bytes]) (rs ++ [.code code]) m' :=
  C43_partial hd.decode hd.ok hd.text hst hs hsh hk hsafe

/-- **C43** (partial) CheckTx, with a version of the cosmos-sdk that checks the size of numbers: only keys
that do not have 33 bytes and bindings of the role without a name crash it. -/
theorem C43_deployed_check_partial {b : Nat} (hb : b ≤ 314) (hd : Deployed env (some b) lib)
    {calls : List (Call BlockReq)} {rs : List (Resp Obj)} (hst : Starts calls)
    (hs : Served lib calls rs m) (hsh : ShortCalls lib calls) {bytes : Bytes} (hk : ¬ BadKey env bytes)
    (hsafe : ∀ tx, appDecode env bytes = .ret (.ok tx) → SafeCheck tx) :
    ∃ code, Served lib (calls ++ [.checkTx bytes]) (rs ++ [.code code]) m :=
  C43_check_partial hd.decode hd.ok hst hs hsh hk fun tx ht =>
    ⟨by rw [hd.coins]; exact C97_no_crash hb _, hsafe tx ht⟩

end

/-- The sample application with the modelled decoder is one. -/
example : Deployed sampleEnv (some 255) wireLib := ⟨rfl, rfl, by rintro b ⟨⟩; decide⟩

end Verif.Props
