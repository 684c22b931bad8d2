import Verif.Spec.SampleApp
import Verif.Model.Decoder
/-!
# Sample transactions as bytes

Used only for examples and counterexamples.
-/

namespace Verif.Spec

/-- A field with bytes. -/
def bytesField (num : Nat) (b : Bytes) : Bytes := appendTag num 2 ++ (appendVarint b.length ++ b)

/-- A field with a number. -/
def numField (num n : Nat) : Bytes := appendTag num 0 ++ appendVarint n

def anyBytes (url value : Bytes) : Bytes := bytesField 1 url ++ bytesField 2 value

def coinBytes (denom amount : Bytes) : Bytes := bytesField 1 denom ++ bytesField 2 amount

/-- The message that sends coins. -/
def sendBytes (source target amount : Bytes) : Bytes :=
  anyBytes b!"/tmos.x.bank.v1alpha1.MsgSendCoins"
    (bytesField 1 source ++ (bytesField 2 target ++ bytesField 3 (coinBytes b!"test" amount)))

/-- A signer in direct mode. -/
def signerBytes (key : Bytes) (sequence : Nat) : Bytes :=
  bytesField 1 (anyBytes b!"/cosmos.crypto.secp256k1.PubKey" (bytesField 1 key)) ++
    (bytesField 2 (bytesField 1 (numField 1 1)) ++ numField 3 sequence)

/-- The public key of the genesis account. -/
def genesisPubKey : Bytes := genesisKey.value.drop 2

/-- Its address as bytes. -/
def genesisHash : Bytes := [245, 198, 158, 202, 197, 229, 165, 165, 218, 216, 34, 146, 180, 67, 99, 138,
  66, 91, 216, 163]

/-- Sample hashes: right for the key of the genesis account. -/
def sampleEnv : DecodeEnv where
  sha256 b := b
  ripemd160 b := if b = genesisPubKey then genesisHash else b.take 20
  describes _ := false

/-- The sample application with the decoder of the code. -/
def wireLib : Libs := { sampleLib [] with decode := appDecode sampleEnv }

/-- A transaction in the sample chain. -/
def txBytes (messages : List Bytes) (key : Bytes) (number sequence : Nat) (fee : Bytes) : Bytes :=
  let body := (messages.map (bytesField 1)).flatten
  let authInfo := bytesField 1 (signerBytes key sequence) ++ bytesField 2 fee
  bytesField 1 body ++ (bytesField 2 authInfo ++
    bytesField 3 (key ++ signDoc body authInfo sampleChain (BitVec.ofNat 64 number)))

/-- A fee of one coin. -/
def feeBytes (rest : Bytes) : Bytes := bytesField 1 (coinBytes b!"test" b!"1") ++ rest

/-- The genesis account sends five coins to bob. -/
def payBytes : Bytes := txBytes [sendBytes genesisAddress b!"bob" b!"5"] genesisPubKey 0 0 (feeBytes [])

/-- The genesis account sends five coins to ann, and declares bob as the payer. -/
def bobPaysBytes : Bytes :=
  txBytes [sendBytes genesisAddress b!"ann" b!"5"] genesisPubKey 0 1 (feeBytes (bytesField 3 b!"bob"))

/-- A transaction whose fee has a field with the number 15. -/
def oddFeeBytes : Bytes :=
  txBytes [sendBytes genesisAddress b!"bob" b!"5"] genesisPubKey 0 0 (feeBytes (numField 15 7))

/-- A transaction whose key has 32 bytes. -/
def shortKeyBytes : Bytes :=
  txBytes [sendBytes genesisAddress b!"bob" b!"5"] (genesisPubKey.drop 1) 0 0 (feeBytes [])

/-- A transaction with a field with the number 4 besides body, authentication and signatures. -/
def oddTxBytes : Bytes := payBytes ++ numField 4 1

/-- The message that creates an account; the argument is the account. -/
def createBytes (account : Bytes) : Bytes := anyBytes b!"/tmos.x.authn.v1alpha1.MsgCreateAccount" account

/-- The second transaction of the genesis account. -/
def secondBytes (message : Bytes) : Bytes := txBytes [message] genesisPubKey 0 1 (feeBytes [])

/-- No account is given. -/
def noAccountBytes : Bytes := secondBytes (createBytes [])

/-- The account of the sender. -/
def existingBytes : Bytes := secondBytes (createBytes (bytesField 1 (bytesField 1 genesisAddress)))

/-- Coins to the empty address. -/
def toNobodyBytes : Bytes := secondBytes (sendBytes genesisAddress [] b!"5")

/-- Coins to a module. -/
def toModuleBytes : Bytes := secondBytes (sendBytes genesisAddress b!"bank" b!"5")

end Verif.Spec
