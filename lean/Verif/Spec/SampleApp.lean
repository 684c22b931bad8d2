import Verif.Spec.Coins
import Verif.Model.SdkCoins
/-!
# A sample of what the application takes as parameters

Used only to show that hypotheses can be met, and for counterexamples: the coins of the cosmos-sdk,
signatures that are the key followed by the signed text, and a decoder
given by a table of transactions.
-/

namespace Verif.Spec

/-- Parsing and printing of coins, by the version of the cosmos-sdk with numbers of 255 bits. -/
def sampleCoins : CoinLib := Sdk.coins (some 255)

/-- Sample signatures: the key followed by the text. -/
def sampleVerify : Verify := fun key text signature => decide (signature = key ++ text)

/-- The sample application, whose transactions are given by a table. -/
def sampleLib (table : List (Bytes × AppTx)) : Libs where
  coins := sampleCoins
  verify := sampleVerify
  decode bytes := match table.find? (·.1 = bytes) with
    | some e => .ret (.ok e.2)
    | none => .ret (.error .badRequest)
  parseGenesis _ := .error .other
  jsonFails _ := false

/-- The chain identifier of the samples. -/
def sampleChain : Bytes := b!"chain"

/-- A signer of the sample chain with a valid signature of the body. -/
def signer (address key body : Bytes) (number sequence : BitVec 64) : Signer where
  address := address
  pubKey := { key := key }
  signature := key ++ signDoc body [] sampleChain number
  sequence := sequence

/-- A sample transaction. -/
def sampleTx (body : Bytes) (signers : List Signer) (payer : Bytes) (transitions : List Tr)
    (fee : List Coin := [⟨b!"test", b!"1"⟩]) (timeout : BitVec 64 := 0) : AppTx where
  transitions := transitions
  users := Users.ofNames (signers.map Signer.address)
  raw := { signers, payer, fee, timeout, memo := [], bodyBytes := body, authInfoBytes := [] }

/-- The sample transaction of the genesis account, signed with some key. -/
def genesisTx (body : Bytes) (sequence : BitVec 64) (transitions : List Tr)
    (fee : List Coin := [⟨b!"test", b!"1"⟩]) (timeout : BitVec 64 := 0) : AppTx :=
  sampleTx body [signer genesisAddress b!"key" body 0 sequence] genesisAddress transitions fee timeout

/-- The requests that start the sample chain. -/
def sampleStart : List (Call BlockReq) := [.initChain sampleChain []]

end Verif.Spec
