import Verif.Model.Hash
import Verif.Props.Ecdsa
import Verif.Spec.SampleTx
/-!
# The genesis account: C103; C99 with real keys

The application with the hash functions and the verification of signatures that the code calls.
-/

namespace Verif.Props
open Verif Verif.Spec Verif.Btcec

theorem isKey_inj {b : Bytes} {q q' : WeierstrassCurve.Affine.Point secp} (h : IsKey b q) (h' : IsKey b q') : q = q' := by
  have key : ∀ {q}, IsKey b q → ∃ x y, HasReduced x y q := by
    rintro q ⟨_, _, n, rfl, _⟩
    exact reduced_exists (WeierstrassCurve.Affine.Point.some_ne_zero _)
  obtain ⟨x, y, hr⟩ := key h
  obtain ⟨x', y', hr'⟩ := key h'
  have e := ((parse_iff b (x, y)).2 ⟨q, hr, h⟩).symm.trans ((parse_iff b (x', y')).2 ⟨q', hr', h'⟩)
  cases e
  exact point_inj hr.coords hr'.coords

theorem flatMap_length {α β : Type} {n : Nat} (l : List α) {f : α → List β} (h : ∀ a, (f a).length = n) :
    (l.flatMap f).length = n * l.length := by
  induction l with
  | nil => rfl
  | cons a l ih => rw [List.flatMap_cons, List.length_append, h, ih, List.length_cons, Nat.mul_succ, Nat.add_comm]

theorem sha256_length (m : Bytes) : (Hash.sha256 m).length = 32 := by
  rw [Hash.sha256, flatMap_length _ (n := 4) fun _ => rfl]; rfl

theorem ripemd160_length (m : Bytes) : (Hash.ripemd160 m).length = 20 := by
  rw [Hash.ripemd160, flatMap_length _ (n := 4) fun _ => rfl]; rfl

/-- **C77** The address of a key of 33 bytes is the hash of its hash, and other keys have none; the decoder of transactions
computes the same. -/
theorem C77_key_address (c : Verif.Curve) (env : DecodeEnv) (hs : env.sha256 = c.sha256) (hr : env.ripemd160 = c.ripemd160)
    (key : Bytes) : keyAddress env key = pubKeyAddress c key ∧
      (key.length = 33 → pubKeyAddress c key = .ret (c.ripemd160 (c.sha256 key))) ∧
      (key.length ≠ 33 → pubKeyAddress c key = .panic) := by
  refine ⟨by rw [keyAddress, pubKeyAddress, hs, hr], fun h => ?_, fun h => ?_⟩
  · rw [pubKeyAddress, if_neg (by simp [h])]
  · rw [pubKeyAddress, if_pos h]

/-- Addresses have 39 bytes after the prefix. -/
theorem address_length (hrp m : Bytes) : (bech32 hrp (Hash.ripemd160 m)).length = hrp.length + 39 := by
  rw [bech32, List.length_append, List.length_append, List.length_map, List.length_append, toFives, fives_length,
    bits_length, ripemd160_length]
  simp [bech32Checksum]

/-- The functions that the code calls are: those of secp256k1 and the hash functions, and the coin parser of
the cosmos-sdk. -/
structure RealLibs (describes : Bytes → Bool) (bits : Option Nat) (lib : Libs) : Prop where
  deployed : Deployed ⟨Hash.sha256, Hash.ripemd160, describes⟩ bits lib
  verify : lib.verify = verifySignature (curve Hash.sha256 Hash.ripemd160)

/-- The signature of a key (RFC 6979), if the secret number is found in `fuel` rounds. -/
def realSign (fuel : Nat) (key msg : Bytes) : Option Bytes :=
  match privSignRFC Hash.sha256 Hash.hmacSha256 fuel key msg with
  | some (.ret r) => r
  | _ => none

theorem realSign_valid {fuel : Nat} {key msg sig : Bytes} (hk : ¬ curveN ∣ setBytes key)
    (h : realSign fuel key msg = some sig) :
    verifySignature (curve Hash.sha256 Hash.ripemd160) (pubKey key) msg sig = true := by
  rw [realSign] at h
  split at h
  · rename_i r hr
    obtain ⟨r', h1, h2⟩ := C101_signs (ripemd160 := Hash.ripemd160) hk hr
    cases h1
    exact h2 sig h
  · cases h

/-- **C99** (partial) What `Sign` returns for the address of its key is accepted by the application with the
functions that the code calls: no assumption on signatures is needed.  Missing: `Sign` works for the first
transaction of the account with number 0 only, see `C99_fails`. -/
theorem C99_real_partial {describes : Bytes → Bool} {bits : Option Nat} {lib : Libs} {m : World}
    (hl : RealLibs describes bits lib) {calls : List (Call BlockReq)} {rs : List (Resp Obj)}
    (hs : Served lib calls rs m) (hsh : ShortCalls lib calls) {fuel : Nat}
    {pkHex chain st send recv bytes pk : Bytes} {coins : SdkCoins} {account : Account}
    (hchain : .initChain chain st ∈ calls)
    (hhex : Client.hexDecode pkHex = some pk) (hpk : ¬ curveN ∣ setBytes pk)
    (hsign : Client.sign pubKey (realSign fuel) pkHex chain send recv coins = some bytes) (hlen : bytes.length < 2 ^ 64)
    (hsend : send = bech32 b!"test" (Hash.ripemd160 (Hash.sha256 (pubKey pk))))
    (hacc : accountAt m send = some account) (hkey : account.pubKey ≠ none) (hnum : account.number = 0)
    (hseq : account.sequence = 0)
    (hrecv : Usable recv) (htext : validUtf8 recv = true) (hcoins : Sendable bits coins)
    (hfunds : ∀ d, amount signFee d + amount coins d ≤ amountAt lib.coins m send d) :
    ∃ m', Served lib (calls ++ [.deliverTx bytes]) (rs ++ [.code 0]) m' ∧
      accountAt m' send = some { account with sequence := 1 } ∧
      ∀ k d, amountAt lib.coins m' k d = amountAt lib.coins m k d
        + ((if k = feeCollector then amount signFee d else 0) - (if k = send then amount signFee d else 0))
        + ((if k = recv then amount coins d else 0) - (if k = send then amount coins d else 0)) :=
  C99_sign_partial hl.deployed hs hsh hchain hhex (C101_public_key hpk).1
    (fun msg s h => by rw [hl.verify]; exact realSign_valid hpk h) hsign hlen hsend
    (by rw [hsend, address_length]; decide) hacc hkey hnum hseq hrecv htext hcoins hfunds

/-- The private key of the genesis account (testapp/module/module.go:14). -/
def genesisPrivHex : Bytes := b!"f44351066b09af7e8b1c98de10214a3eeb8f60b01867b75867f27f162613e3a6"

/-- The same as bytes. -/
def genesisPriv : Bytes := (Client.hexDecode genesisPrivHex).getD []

/-- **C103** The three constants of the source belong together: the address is that of the public key, and the
public key that of the private key. -/
theorem C103_constants : Client.hexDecode genesisPrivHex = some genesisPriv ∧ pubKey genesisPriv = genesisPubKey ∧
    genesisKey.value = 10 :: 33 :: genesisPubKey ∧
    bech32 b!"test" (Hash.ripemd160 (Hash.sha256 genesisPubKey)) = genesisAddress := by decide +kernel

/-- **C103** Whatever the private key of the genesis account signs is accepted under the public key that is
stored with the account. -/
theorem C103_signs {fuel : Nat} {msg sig : Bytes} (h : realSign fuel genesisPriv msg = some sig) :
    verifySignature (curve Hash.sha256 Hash.ripemd160) genesisPubKey msg sig = true := by
  rw [← C103_constants.2.1]
  exact realSign_valid (by decide +kernel) h

/-- **C103** (partial) On a chain of any name, the first transaction that `Sign` makes with the private key of
the genesis account is accepted, whoever receives the coins, for every number of coins that leaves room for the
fee; fee and coins are moved.  Missing: the search for the secret number, of which is not known that it ends,
has ended; and neither of the two numbers of the signature was zero. -/
theorem C103_first_partial {describes : Bytes → Bool} {bits : Option Nat} {lib : Libs}
    (hl : RealLibs describes bits lib) {fuel : Nat} {chain recv bytes : Bytes} {n : Int} (hchain : validUtf8 chain = true)
    (h0 : 0 < n) (hn : n ≤ 4999999950) (hrecv : Usable recv) (htext : validUtf8 recv = true)
    (hsign : Client.sign pubKey (realSign fuel) genesisPrivHex chain genesisAddress recv [(b!"test", n)] = some bytes)
    (hlen : bytes.length < 2 ^ 64) :
    ∃ m', Served lib [.initChain chain [], .deliverTx bytes] [.none, .code 0] m' ∧
      accountAt m' genesisAddress = some { genesisAccount with sequence := 1 } ∧
      ∀ k d, amountAt lib.coins m' k d = (if k = genesisAddress ∧ d = b!"test" then 5000000000 else 0)
        + (if d = b!"test" then (if k = feeCollector then 50 else 0) - (if k = genesisAddress then 50 else 0)
          + ((if k = recv then n else 0) - (if k = genesisAddress then n else 0)) else 0) := by
  obtain ⟨c1, c2, _, c4⟩ := C103_constants
  have hd := hl.deployed
  have hs : Served lib [.initChain chain []] [.none] (genesisWorld lib chain) := served_exec hd.well hchain rfl
  have ham : ∀ (m : Int) d, amount [(b!"test", m)] d = if d = b!"test" then m else 0 := by
    intro m d
    simp only [amount, List.map_cons, List.map_nil, List.sum_cons, List.sum_nil, add_zero, eq_comm]
  have hg : ∀ k d, amountAt lib.coins (genesisWorld lib chain) k d =
      if k = genesisAddress ∧ d = b!"test" then 5000000000 else 0 := by
    intro k d
    have h := (sendable_test hd.bits (n := 5000000000) (by decide) (by decide)).read.2 d
    have hw : written [(b!"test", 5000000000)] = genesisCoins := by decide +kernel
    rw [hw, ham] at h
    rw [amountAt, genesis_balance]
    by_cases hk : k = genesisAddress
    · simp only [hk, if_true, true_and, hd.coins]
      exact h
    · simp only [hk, if_false, false_and]
  obtain ⟨m', h1, h2, h3⟩ := C99_sign_partial hd hs (by intro b hb; simp at hb) (account := genesisAccount)
    (List.mem_singleton.2 rfl) c1 (by rw [c2]; decide) (fun msg s h => by rw [hl.verify, c2]; exact C103_signs h)
    hsign hlen (by rw [c2]; exact c4.symm) (by decide) rfl (by decide) rfl rfl hrecv htext
    (sendable_test hd.bits h0 (by omega)) (fun d => by
      rw [hg, signFee, ham, ham]
      by_cases hd : d = b!"test" <;> simp [hd]; omega)
  refine ⟨m', h1, h2, fun k d => ?_⟩
  rw [h3, hg, signFee, ham, ham]
  by_cases hd : d = b!"test" <;> simp [hd]
  omega

/-- **C40** (partial) With the functions that the code calls: each signer of an accepted transaction gives a key
that belongs to exactly one private key, and the signature fulfils the equation of ECDSA for the sign document,
with the smaller s.  Missing: that the key is the one stored in the account, see `C40_fails`. -/
theorem C40_ecdsa_partial {describes : Bytes → Bool} {bits : Option Nat} {lib : Libs} {m m₁ : World}
    (hl : RealLibs describes bits lib) {calls : List (Call BlockReq)} {rs : List (Resp Obj)} {bytes : Bytes} {tx : AppTx}
    (hs : Starts calls) (h : Served lib calls rs m) (hd : lib.decode bytes = .ret (.ok tx))
    (h1 : Served lib (calls ++ [.deliverTx bytes]) (rs ++ [.code 0]) m₁) :
    tx.raw.signers ≠ [] ∧ ∀ s ∈ tx.raw.signers, ∃ a, accountAt m s.address = some a ∧ s.signature.length = 64 ∧
      ∃! d, (0 < d ∧ d < curveN) ∧ IsKey s.pubKey.key (d • basePoint) ∧
        setBytes (s.signature.drop 32) ≤ curveN / 2 ∧
        Valid (d • basePoint) (setBytes (Hash.sha256
            (signDoc tx.raw.bodyBytes tx.raw.authInfoBytes (chainId m) a.number)))
          (setBytes (s.signature.take 32)) (setBytes (s.signature.drop 32)) := by
  obtain ⟨h2, h3⟩ := C40_partial hl.deployed.well hs h hd h1
  refine ⟨h2, fun s hm => ?_⟩
  obtain ⟨a, ha, _, _, hv⟩ := h3 s hm
  rw [hl.verify, C101_exact] at hv
  obtain ⟨h4, q, hk, h5, h6⟩ := hv
  obtain ⟨d, ⟨hr, rfl⟩, hu⟩ := C101_owner hk
  rw [hashNumber, List.take_of_length_le (by rw [sha256_length])] at h6
  refine ⟨a, ha, h4, d, ⟨hr, hk, h5, h6⟩, ?_⟩
  rintro d' ⟨hr', hk', _⟩
  exact hu d' ⟨hr', (isKey_inj hk hk')⟩

/-- The functions of the code; no file descriptors are read, nothing is printed as JSON. -/
def realLib : Libs := { wireLib with
  coins := Sdk.coins (some 315)
  verify := verifySignature (curve Hash.sha256 Hash.ripemd160)
  decode := appDecode ⟨Hash.sha256, Hash.ripemd160, fun _ => false⟩ }

theorem realLib_real : RealLibs (fun _ => false) (some 315) realLib := ⟨⟨rfl, rfl, fun b h => by cases h; decide⟩, rfl⟩

/-- It happens: on a chain named test, bob receives seven coins. -/
example : ∃ bytes m', Client.sign pubKey (realSign 1) genesisPrivHex b!"test" genesisAddress b!"bob" [(b!"test", 7)] =
      some bytes ∧ Served realLib [.initChain b!"test" [], .deliverTx bytes] [.none, .code 0] m' ∧
    amountAt realLib.coins m' b!"bob" b!"test" = 7 := by
  have h : (match Client.sign pubKey (realSign 1) genesisPrivHex b!"test" genesisAddress b!"bob" [(b!"test", 7)] with
    | none => false
    | some b => decide (b.length < 2 ^ 64)) = true := by decide +kernel
  cases hb : Client.sign pubKey (realSign 1) genesisPrivHex b!"test" genesisAddress b!"bob" [(b!"test", 7)] with
  | none => rw [hb] at h; cases h
  | some bytes =>
    rw [hb] at h
    obtain ⟨m', h1, _, h3⟩ := C103_first_partial realLib_real (by decide) (by decide) (by decide)
      ⟨by decide, by decide, by decide +kernel⟩ (by decide) hb (of_decide_eq_true h)
    exact ⟨bytes, m', rfl, h1, by rw [h3]; decide⟩

/-! ## Published examples -/

/-- The address of the test of the repository (secp256k1_test.go:25-31). -/
example : Hash.ripemd160 (Hash.sha256 (pubKey testKey)) =
    (Client.hexDecode b!"7c2bb42a8be69791ec763e51f5a49bcd41e82237").getD [] := by decide +kernel

/-- A published example of RFC 6979 with secp256k1: private key 1. -/
example : privSignRFC Hash.sha256 Hash.hmacSha256 1 (padded 1) b!"Satoshi Nakamoto" = some (.ret (Client.hexDecode
    (b!"934b1ea10a4b3c1757e2b0c017d0b6143ce3c9a7e6a4a49860d7a6ab210ee3d8" ++
     b!"2442ce9d2b916064108014783e923ec36b49743e2ffa1c4496f01a512aafd9e5"))) := by decide +kernel

end Verif.Props
