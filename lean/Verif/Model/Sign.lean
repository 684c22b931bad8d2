import Verif.Model.SdkCoins
import Verif.Model.Authn
import Verif.Model.Proto
/-!
# Transactions of clients (testapp/module/sign.go)

`Sign` builds a transaction with the client of the cosmos-sdk v0.42.4 (dependency, its source was not
at hand): the messages are those of cosmos/tx/v1beta1/tx.proto, cosmos/bank/v1beta1/tx.proto and
cosmos/base/v1beta1/coin.proto of that version, marshalled by gogoproto: fields in the order of their
numbers, fields with the default value left out, embedded messages and repeated fields always written.
-/

namespace Verif.Client

/-- A field with bytes or a message. -/
def putBytes (num : Nat) (b : Bytes) : Bytes := appendTag num 2 ++ (appendVarint b.length ++ b)

/-- A field with bytes or text that is left out if it is empty. -/
def putText (num : Nat) (b : Bytes) : Bytes := if b = [] then [] else putBytes num b

/-- A field with a number that is left out if it is zero. -/
def putNumber (num : Nat) (n : BitVec 64) : Bytes :=
  if n = 0 then [] else appendTag num 0 ++ appendVarint n.toNat

/-- A repeated field. -/
def putAll (num : Nat) (l : List Bytes) : Bytes := l.flatMap (putBytes num)

/-- `google.protobuf.Any`. -/
def any (a : AnyMsg) : Bytes := putText 1 a.typeUrl ++ putText 2 a.value

/-- `cosmos.base.v1beta1.Coin`; the amount is a custom type, which is always written. -/
def coin (c : Coin) : Bytes := putText 1 c.denom ++ putBytes 2 c.amount

/-- `cosmos.bank.v1beta1.MsgSend` (sign.go:23-27). -/
def msgSend (source target : Bytes) (amount : List Coin) : AnyMsg :=
  ⟨b!"/cosmos.bank.v1beta1.MsgSend", putText 1 source ++ (putText 2 target ++ putAll 3 (amount.map coin))⟩

/-- A signature of a builder (sign.go:48-52), without the signature. -/
structure SignerData where
  key : Bytes
  sequence : BitVec 64

/-- What a `TxBuilder` was told (sign.go:29-33, 54). -/
structure Tx where
  messages : List AnyMsg
  memo : Bytes := []
  timeout : BitVec 64 := 0
  signers : List SignerData
  fee : List Coin
  gas : BitVec 64
  payer : Bytes := []
  granter : Bytes := []

/-- `TxBody`. -/
def Tx.body (t : Tx) : Bytes :=
  putAll 1 (t.messages.map any) ++ (putText 2 t.memo ++ putNumber 3 t.timeout)

/-- `SignerInfo` of a key of secp256k1, with one signature in direct mode (the default mode,
sign.go:35). -/
def SignerData.info (s : SignerData) : Bytes :=
  putBytes 1 (any ⟨b!"/cosmos.crypto.secp256k1.PubKey", putText 1 s.key⟩) ++
    (putBytes 2 (putBytes 1 (putNumber 1 1)) ++ putNumber 3 s.sequence)

/-- `Fee`. -/
def Tx.feeInfo (t : Tx) : Bytes :=
  putAll 1 (t.fee.map coin) ++ (putNumber 2 t.gas ++ (putText 3 t.payer ++ putText 4 t.granter))

/-- `AuthInfo`. -/
def Tx.authInfo (t : Tx) : Bytes := putAll 1 (t.signers.map SignerData.info) ++ putBytes 2 t.feeInfo

/-- `TxRaw`, as the encoder writes it (sign.go:85). -/
def Tx.raw (t : Tx) (signatures : List Bytes) : Bytes :=
  putText 1 t.body ++ (putText 2 t.authInfo ++ putAll 3 signatures)

/-- The sign bytes of direct mode (sign.go:59): a marshalled `SignDoc`. -/
def Tx.signBytes (t : Tx) (chainId : Bytes) (number : BitVec 64) : Bytes :=
  putText 1 t.body ++ (putText 2 t.authInfo ++ (putText 3 chainId ++ putNumber 4 number))

/-- A digit of `hex.DecodeString` (library). -/
def nibble (b : UInt8) : Option UInt8 :=
  if 48 ≤ b ∧ b ≤ 57 then some (b - 48)
  else if 97 ≤ b ∧ b ≤ 102 then some (b - 87)
  else if 65 ≤ b ∧ b ≤ 70 then some (b - 55)
  else none

/-- `hex.DecodeString` (library). -/
def hexDecode : Bytes → Option Bytes
  | [] => some []
  | [_] => none
  | a :: b :: l => match nibble a, nibble b, hexDecode l with
    | some x, some y, some r => some ((x * 16 + y) :: r)
    | _, _, _ => none

/-- The transaction `Sign` builds (sign.go:23-52): a transfer, for a fee of 50 "test" and 5000 gas,
signed by one key with the sequence 0. -/
def signTx (key send recv : Bytes) (coins : SdkCoins) : Tx where
  messages := [msgSend send recv (coins.map fun c => ⟨c.1, Sdk.print c.2⟩)]
  signers := [⟨key, 0⟩]
  fee := [⟨b!"test", b!"50"⟩]
  gas := 5000

/-- `Sign` (testapp/module/sign.go:14-91).  `pubKey` and `sign` are `PrivKey.PubKey` and `PrivKey.Sign`
of the cosmos-sdk.  The account number is 0 (39). -/
def sign (pubKey : Bytes → Bytes) (signature : Bytes → Bytes → Option Bytes) (pkHex chainId send recv : Bytes)
    (coins : SdkCoins) : Option Bytes :=
  match hexDecode pkHex with
  | none => none
  | some pk =>
    let t := signTx (pubKey pk) send recv coins
    match signature pk (t.signBytes chainId 0) with
    | none => none
    | some s => some (t.raw [s])

end Verif.Client
