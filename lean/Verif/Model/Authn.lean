import Verif.Model.RBAC
import Verif.Model.Coins
/-!
# Accounts and transaction authentication (x/authn), fees (x/distribution)
-/

namespace Verif

/-- `secp256k1.PubKey` (x/authn/crypto/secp256k1/secp256k1.proto): the key bytes and unknown
fields, if the message came with some. -/
structure PubKey where
  key : Bytes
  unknown : Bytes := []
  deriving DecidableEq, Repr

/-- `proto.Marshal` of a public key: field 1, then unknown fields. -/
def PubKey.marshal (p : PubKey) : Bytes :=
  (if p.key = [] then [] else 0x0a :: appendBytes p.key) ++ p.unknown

/-- `tx.Signer` (x/authn/tx/tx.go:14-19). -/
structure Signer where
  address : Bytes
  pubKey : PubKey
  signature : Bytes
  sequence : BitVec 64
  deriving DecidableEq, Repr

/-- What the authentication handlers read of `tx.Wrapper` (x/authn/tx/tx.go:23-31) besides
transitions and users. -/
structure TxData where
  signers : List Signer
  payer : Bytes
  fee : List Coin
  timeout : BitVec 64
  memo : Bytes
  bodyBytes : Bytes
  authInfoBytes : Bytes
  deriving DecidableEq, Repr

/-- A transaction of the application. -/
abbrev AppTx := Tx Tr TxData

/-! ## Transition handlers -/

/-- `CreateAccountAdmissionHandler.Validate` (x/authn/ctrl_admission.go:16-29). -/
def createAccountAdmission : Users → Tr → Code
  | _, .createAccount none => .ret (.error .other)
  | _, .createAccount (some acc) =>
    if acc.address = [] then .ret (.error .other) else .ret (.ok ())
  | _, _ => .crash

/-- `CreateAccountHandler.Exec` (x/authn/ctrl_state_transition.go:22-55).  `msg.Account.Address`
panics if there is no account. -/
def createAccountExec : Users → Tr → Code
  | _, .createAccount acc? => getAccountNumber fun
    | .error e => .ret (.error e)
    | .ok last => match acc? with
      | none => .crash
      | some acc =>
        .create (.account { address := acc.address, pubKey := acc.pubKey, number := last, sequence := 0 })
          (Prog.orReturn (.update (.accountNumber (last + 1))
            (Prog.orReturn (.deliver (.bindRole externalRoleID acc.address) none .ret))))
  | _, _ => .crash

/-- `genesis.Default` and `Import` (x/authn/genesis.go:14-36). -/
def authnGenesis : Code × (Option Bytes → Code) :=
  (.create (.authnParams ⟨1000000, 1000000⟩)
    (Prog.orReturn (.create (.accountNumber 0) .ret)), fun _ => .crash)

/-! ## Authentication of transactions -/

/-- A loop in module code that stops at the first error. -/
def forEach {α : Type} (body : α → (Except Err Unit → Code) → Code) : List α → Code
  | [] => .ret (.ok ())
  | a :: as => body a (Prog.orReturn (forEach body as))

/-- `mempoolFee.Validate` (x/authn/extensions.go:83-85). -/
def mempoolFee : AppTx → Code := fun _ => .ret (.ok ())

/-- `accountExists.Validate` (extensions.go:25-34). -/
def accountExists : AppTx → Code := fun tx =>
  forEach (fun u k => getAccount u fun
    | .error e => k (.error e)
    | .ok _ => k (.ok ())) tx.users

/-- `timeoutBlockExtension.Validate` (extensions.go:44-55). -/
def timeoutBlock : AppTx → Code := fun tx => getCurrentBlock fun
  | .error e => .ret (.error e)
  | .ok n => if tx.raw.timeout ≠ 0 ∧ n > tx.raw.timeout then .ret (.error .other) else .ret (.ok ())

/-- `validateMemoExtension.Validate` (extensions.go:65-77). -/
def validateMemo : AppTx → Code := fun tx => getAuthnParams fun
  | .error e => .ret (.error e)
  | .ok p => if p.maxMemo.toNat < tx.raw.memo.length then .ret (.error .other) else .ret (.ok ())

/-- `sigCount.Validate` (extensions.go:95-112); `countSubKeys` is 1 (114-125), so the check inside
the loop fails for some prefix of the signers iff it fails for all of them. -/
def sigCount : AppTx → Code := fun tx => getAuthnParams fun
  | .error e => .ret (.error e)
  | .ok p => if p.sigLimit.toNat < tx.raw.signers.length then .ret (.error .other) else .ret (.ok ())

/-- `proto.Marshal` of a `SignDoc` (x/authn/v1alpha1/tx.proto): fields 1 to 4, those with the
default value left out. -/
def signDoc (body authInfo chainId : Bytes) (accnum : BitVec 64) : Bytes :=
  (if body = [] then [] else 0x0a :: appendBytes body) ++
  (if authInfo = [] then [] else 0x12 :: appendBytes authInfo) ++
  (if chainId = [] then [] else 0x1a :: appendBytes chainId) ++
  (if accnum = 0 then [] else 0x20 :: appendVarint accnum.toNat)

/-- `DirectSignBytes` (extensions.go:234-242): marshalling fails if the chain id is not UTF-8. -/
def directSignBytes (body authInfo chainId : Bytes) (accnum : BitVec 64) : Except Err Bytes :=
  if validUtf8 chainId then .ok (signDoc body authInfo chainId accnum) else .error .other

/-- Signature verification: `PubKey.VerifySignature` of key bytes, message and signature. -/
abbrev Verify := Bytes → Bytes → Bytes → Bool

/-- The body of the loop of `sigVerifier.Validate` (extensions.go:208-228).  The signature is
verified with the key that came with the transaction. -/
def verifySigner (verify : Verify) (raw : TxData) (chainId : Bytes) (signer : Signer)
    (k : Except Err Unit → Code) : Code :=
  getAccount signer.address fun
    | .error e => k (.error e)
    | .ok acc =>
      if acc.pubKey = none then k (.error .other)
      else if acc.sequence ≠ signer.sequence then k (.error .other)
      else match directSignBytes raw.bodyBytes raw.authInfoBytes chainId acc.number with
        | .error e => k (.error e)
        | .ok expected =>
          if !verify signer.pubKey.key expected signer.signature then k (.error .other)
          else k (.ok ())

/-- `sigVerifier.Validate` (extensions.go:199-230). -/
def sigVerifier (verify : Verify) : AppTx → Code := fun tx => getInitChainInfo fun
  | .error e => .ret (.error e)
  | .ok chainId => forEach (verifySigner verify tx.raw chainId) tx.raw.signers

/-- `consumeGasForTxSize.Exec` (extensions.go:134-137). -/
def consumeGas : AppTx → Code := fun _ => .ret (.ok ())

/-- The type of stored public keys (x/authn/v1alpha1/client.go:65-68). -/
def pubKeyTypeUrl : Bytes := b!"/tmos.x.authn.crypto.v1alpha1.PubKey"

/-- `Client.UpdatePublicKey` (x/authn/v1alpha1/client.go:53-70). -/
def updatePublicKey (address : Bytes) (pk : PubKey) (k : Except Err Unit → Code) : Code :=
  getAccount address fun
    | .error e => k (.error e)
    | .ok acc => .update (.account { acc with pubKey := some ⟨pubKeyTypeUrl, pk.marshal⟩ }) k

/-- `setPubKeys.Exec` (extensions.go:149-166). -/
def setPubKeys : AppTx → Code := fun tx =>
  forEach (fun signer k => getAccount signer.address fun
    | .error e => k (.error e)
    | .ok acc =>
      if acc.pubKey ≠ none then k (.ok ()) else updatePublicKey signer.address signer.pubKey k)
    tx.raw.signers

/-- `increaseSequence.Exec` (extensions.go:176-185) with `Client.IncreaseSequence`
(x/authn/v1alpha1/client.go:22-30); `uint64` wraps around. -/
def increaseSequence : AppTx → Code := fun tx =>
  forEach (fun u k => getAccount u fun
    | .error e => k (.error e)
    | .ok acc => .update (.account { acc with sequence := acc.sequence + 1 }) k) tx.users

/-! ## Fees (x/distribution/extensions.go) -/

/-- `FeeChecker.Validate` (19-37). -/
def feeChecker (lib : CoinLib) : AppTx → Code := fun tx => getBalance tx.raw.payer fun
  | .error e => .ret (.error e)
  | .ok balance => withCoins (lib.safeSubCoins balance tx.raw.fee) fun
    | .error e => .ret (.error e)
    | .ok _ => .ret (.ok ())

/-- The account that collects fees (line 52). -/
def feeCollector : Bytes := b!"fee_collector"

/-- `FeeDeduction.Exec` (48-55). -/
def feeDeduction : AppTx → Code := fun tx =>
  .deliver (.sendCoins tx.raw.payer feeCollector tx.raw.fee) none .ret

end Verif
