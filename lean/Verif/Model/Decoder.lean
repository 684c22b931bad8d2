import Verif.Model.Authn
import Verif.Model.Secp
import Verif.Model.Proto
import Verif.Model.Bech32
/-!
# Decoding transactions (x/authn/tx/decoder.go, decode_unknowns.go)

Unknown fields of nested messages are dropped where nothing reads them (they are kept of public
keys, which are stored as a whole).  Every error of the decoder is `Err.other`: none of them is one
of the errors the runtime distinguishes.
-/

namespace Verif

/-- What the decoder uses without a model: hashes, and whether bytes can be read as a
`CreateModuleDescriptors`, which contains descriptors of protobuf files
(google/protobuf/descriptor.proto). -/
structure DecodeEnv where
  sha256 : Bytes → Bytes
  ripemd160 : Bytes → Bytes
  describes : Bytes → Bool

/-! ## Messages (x/authn/v1alpha1/tx.proto)

Each `step` is what the generated message does with one field.  A field with another number or
another wire type is an unknown field. -/

/-- `google.protobuf.Any`. -/
def AnyMsg.step (m : AnyMsg) (f : Field) : Option AnyMsg :=
  match f.num, f.val with
  | 1, .len b => if validUtf8 b then some { m with typeUrl := b } else none
  | 2, .len b => some { m with value := b }
  | _, _ => some m

/-- A new `Any`. -/
def parseAny (b : Bytes) : Option AnyMsg := mergeInto AnyMsg.step ⟨[], []⟩ b

/-- `coin.Coin` (core/coin/v1alpha1/coin.proto). -/
def Coin.step (m : Coin) (f : Field) : Option Coin :=
  match f.num, f.val with
  | 1, .len b => if validUtf8 b then some { m with denom := b } else none
  | 2, .len b => if validUtf8 b then some { m with amount := b } else none
  | _, _ => some m

def parseCoin (b : Bytes) : Option Coin := mergeInto Coin.step ⟨[], []⟩ b

/-- `secp256k1.PubKey` (x/authn/crypto/secp256k1/secp256k1.proto); unknown fields are kept, with the
tag written anew. -/
def PubKey.step (m : PubKey) (f : Field) : Option PubKey :=
  match f.num, f.val with
  | 1, .len b => some { m with key := b }
  | _, _ => some { m with unknown := m.unknown ++ (appendTag f.num f.val.wire ++ f.raw) }

def parsePubKeyMsg (b : Bytes) : Option PubKey := mergeInto PubKey.step ⟨[], []⟩ b

/-- `TxRaw`; `unknown`: there are unknown fields. -/
structure TxRawMsg where
  body : Bytes := []
  authInfo : Bytes := []
  signatures : List Bytes := []
  unknown : Bool := false
  deriving DecidableEq, Repr

def TxRawMsg.step (m : TxRawMsg) (f : Field) : Option TxRawMsg :=
  match f.num, f.val with
  | 1, .len b => some { m with body := b }
  | 2, .len b => some { m with authInfo := b }
  | 3, .len b => some { m with signatures := m.signatures ++ [b] }
  | _, _ => some { m with unknown := true }

/-- `TxBody`; the extension options have to parse, but nothing reads them. -/
structure TxBodyMsg where
  messages : List AnyMsg := []
  memo : Bytes := []
  timeout : BitVec 64 := 0
  unknown : Bool := false
  deriving DecidableEq, Repr

def TxBodyMsg.step (m : TxBodyMsg) (f : Field) : Option TxBodyMsg :=
  match f.num, f.val with
  | 1, .len b => match parseAny b with
    | none => none
    | some a => some { m with messages := m.messages ++ [a] }
  | 2, .len b => if validUtf8 b then some { m with memo := b } else none
  | 3, .varint n => some { m with timeout := BitVec.ofNat 64 n }
  | 1023, .len b => match parseAny b with
    | none => none
    | some _ => some m
  | 2047, .len b => match parseAny b with
    | none => none
    | some _ => some m
  | _, _ => some { m with unknown := true }

/-- `ModeInfo`: which case of the `oneof` is set, and the mode of a single signature. -/
inductive ModeInfoMsg where
  | unset
  | single (mode : Nat)
  | multi
  deriving DecidableEq, Repr

/-- `ModeInfo.Single`: an enum is an `int32`, whatever the size of the number. -/
def singleStep (m : Nat) (f : Field) : Option Nat :=
  match f.num, f.val with
  | 1, .varint n => some (n % 4294967296)
  | _, _ => some m

/-- Whether a `ModeInfo` parses (the first argument bounds the nesting). -/
def modeInfoParses : Nat → Bytes → Bool
  | 0, _ => false
  | fuel + 1, b => match fields b with
    | none => false
    | some fs => fs.all fun f => match f.num, f.val with
      | 1, .len b => (fields b).isSome
      | 2, .len b => match fields b with
        | none => false
        | some gs => gs.all fun g => match g.num, g.val with
          | 1, .len b => (fields b).isSome
          | 2, .len b => modeInfoParses fuel b
          | _, _ => true
      | _, _ => true

/-- Whether a `ModeInfo.Multi` parses: a `CompactBitArray` (whose fields are never an error) and a
list of `ModeInfo`s.  Their contents are never read. -/
def multiParses (b : Bytes) : Bool :=
  match fields b with
  | none => false
  | some gs => gs.all fun g => match g.num, g.val with
    | 1, .len c => (fields c).isSome
    | 2, .len c => modeInfoParses (b.length + 1) c
    | _, _ => true

/-- What a `Single` is read into: the one that is there, or a new one. -/
def ModeInfoMsg.current : ModeInfoMsg → Nat
  | .single n => n
  | .unset => 0
  | .multi => 0

def ModeInfoMsg.step (m : ModeInfoMsg) (f : Field) : Option ModeInfoMsg :=
  match f.num, f.val with
  | 1, .len b =>
    match mergeInto singleStep m.current b with
    | none => none
    | some n => some (.single n)
  | 2, .len b => if multiParses b then some .multi else none
  | _, _ => some m

/-- `SignerInfo`. -/
structure SignerInfoMsg where
  publicKey : Option AnyMsg := none
  modeInfo : Option ModeInfoMsg := none
  sequence : BitVec 64 := 0
  deriving DecidableEq, Repr

def SignerInfoMsg.step (m : SignerInfoMsg) (f : Field) : Option SignerInfoMsg :=
  match f.num, f.val with
  | 1, .len b => match mergeInto AnyMsg.step (m.publicKey.getD ⟨[], []⟩) b with
    | none => none
    | some a => some { m with publicKey := some a }
  | 2, .len b => match mergeInto ModeInfoMsg.step (m.modeInfo.getD .unset) b with
    | none => none
    | some a => some { m with modeInfo := some a }
  | 3, .varint n => some { m with sequence := BitVec.ofNat 64 n }
  | _, _ => some m

def parseSignerInfo (b : Bytes) : Option SignerInfoMsg := mergeInto SignerInfoMsg.step {} b

/-- `Fee`; the gas limit is never read. -/
structure FeeMsg where
  amount : List Coin := []
  payer : Bytes := []
  deriving DecidableEq, Repr

def FeeMsg.step (m : FeeMsg) (f : Field) : Option FeeMsg :=
  match f.num, f.val with
  | 1, .len b => match parseCoin b with
    | none => none
    | some c => some { m with amount := m.amount ++ [c] }
  | 3, .len b => if validUtf8 b then some { m with payer := b } else none
  | 4, .len b => if validUtf8 b then some m else none
  | _, _ => some m

/-- `AuthInfo`. -/
structure AuthInfoMsg where
  signers : List SignerInfoMsg := []
  fee : Option FeeMsg := none
  unknown : Bool := false
  deriving DecidableEq, Repr

def AuthInfoMsg.step (m : AuthInfoMsg) (f : Field) : Option AuthInfoMsg :=
  match f.num, f.val with
  | 1, .len b => match parseSignerInfo b with
    | none => none
    | some s => some { m with signers := m.signers ++ [s] }
  | 2, .len b => match mergeInto FeeMsg.step (m.fee.getD {}) b with
    | none => none
    | some a => some { m with fee := some a }
  | _, _ => some { m with unknown := true }

/-! ## Transitions -/

/-- `MsgSendCoins` (x/bank/v1alpha1/bank.proto). -/
structure SendCoinsMsg where
  source : Bytes := []
  target : Bytes := []
  amount : List Coin := []

def SendCoinsMsg.step (m : SendCoinsMsg) (f : Field) : Option SendCoinsMsg :=
  match f.num, f.val with
  | 1, .len b => if validUtf8 b then some { m with source := b } else none
  | 2, .len b => if validUtf8 b then some { m with target := b } else none
  | 3, .len b => match parseCoin b with
    | none => none
    | some c => some { m with amount := m.amount ++ [c] }
  | _, _ => some m

/-- `Account` (x/authn/v1alpha1/authn.proto). -/
def Account.step (m : Account) (f : Field) : Option Account :=
  match f.num, f.val with
  | 1, .len b => if validUtf8 b then some { m with address := b } else none
  | 2, .len b => match mergeInto AnyMsg.step (m.pubKey.getD ⟨[], []⟩) b with
    | none => none
    | some a => some { m with pubKey := some a }
  | 3, .varint n => some { m with number := BitVec.ofNat 64 n }
  | 4, .varint n => some { m with sequence := BitVec.ofNat 64 n }
  | _, _ => some m

/-- `MsgCreateAccount`. -/
def createAccountStep (m : Option Account) (f : Field) : Option (Option Account) :=
  match f.num, f.val with
  | 1, .len b => match mergeInto Account.step (m.getD ⟨[], none, 0, 0⟩) b with
    | none => none
    | some a => some (some a)
  | _, _ => some m

/-- `Role` (core/rbac/v1alpha1/rbac.proto:19-40). -/
def Role.step (m : Role) (f : Field) : Option Role :=
  match f.num, f.val with
  | 1, .len b => if validUtf8 b then some { m with id := b } else none
  | 2, .len b => if validUtf8 b then some { m with gets := m.gets ++ [b] } else none
  | 3, .len b => if validUtf8 b then some { m with lists := m.lists ++ [b] } else none
  | 4, .len b => if validUtf8 b then some { m with creates := m.creates ++ [b] } else none
  | 5, .len b => if validUtf8 b then some { m with updates := m.updates ++ [b] } else none
  | 6, .len b => if validUtf8 b then some { m with deletes := m.deletes ++ [b] } else none
  | 7, .len b => if validUtf8 b then some { m with delivers := m.delivers ++ [b] } else none
  | _, _ => some { m with hasUnknown := true }

/-- `MsgCreateRole` (rbac.proto:55-63). -/
def createRoleStep (m : Option Role) (f : Field) : Option (Option Role) :=
  match f.num, f.val with
  | 1, .len b => match mergeInto Role.step (m.getD { id := [] }) b with
    | none => none
    | some r => some (some r)
  | _, _ => some m

/-- `MsgBindRole` (rbac.proto:66-74): the role and the subject. -/
def bindRoleStep (m : Bytes × Bytes) (f : Field) : Option (Bytes × Bytes) :=
  match f.num, f.val with
  | 1, .len b => if validUtf8 b then some (b, m.2) else none
  | 2, .len b => if validUtf8 b then some (m.1, b) else none
  | _, _ => some m

/-! Nothing reads the content of the other transitions: accounts may not request them, rbac refuses them
by their name, and they are not validated (`C42_refused`).  Of them only matters whether they can be
read, their content is left out. -/

/-- Whether bytes can be read as the value of a field. -/
abbrev Reader := Bytes → Bool

/-- A message with the given fields that hold text or messages.  No other field can be an error. -/
def messageReader (known : List (Nat × Reader)) : Reader := fun b =>
  match fields b with
  | none => false
  | some fs => fs.all fun f => match f.val with
    | .len p => (match known.lookup f.num with
      | none => true
      | some r => r p)
    | _ => true

/-- `coin.Coin` (core/coin/v1alpha1/coin.proto:8-11). -/
def coinReader : Reader := messageReader [(1, validUtf8), (2, validUtf8)]

/-- `Account` with `google.protobuf.Any` (x/authn/v1alpha1/authn.proto:46-57). -/
def accountReader : Reader := messageReader [(1, validUtf8), (2, messageReader [(1, validUtf8)])]

/-- `Header` (core/abci/tendermint/types/types.proto:51-75), with `Consensus`, `Timestamp`, and `BlockID`
with `PartSetHeader` (31-46). -/
def headerReader : Reader := messageReader
  [(1, messageReader []), (2, validUtf8), (4, messageReader []), (5, messageReader [(2, messageReader [])])]

/-- `RequestBeginBlock` (core/abci/tendermint/abci/types.proto:65-70), with `LastCommitInfo` (257-260),
`VoteInfo` (303-306), `Evidence` (314-326) and `Validator` (291-294). -/
def beginBlockReader : Reader := messageReader
  [(2, headerReader), (3, messageReader [(2, messageReader [(1, messageReader [])])]),
   (4, messageReader [(2, messageReader []), (4, messageReader [])])]

/-- The other state transitions of the modules of the application (core/runtime/v1alpha1/module.proto:18-25,
x/authn/v1alpha1/authn.proto:23-42, x/bank/v1alpha1/bank.proto:23-31,
core/abci/v1alpha1/abci.proto:84-136); those of x/crisis and testdata are not linked. -/
def otherTransitions (env : DecodeEnv) : List (APIDef × Reader) :=
  [(⟨b!"tmos.runtime.v1alpha1", b!"CreateModuleDescriptors"⟩, env.describes),
   (⟨b!"tmos.x.authn.v1alpha1", b!"MsgUpdateAccount"⟩, messageReader [(2, accountReader)]),
   (⟨b!"tmos.x.authn.v1alpha1", b!"MsgDeleteAccount"⟩, messageReader [(2, accountReader)]),
   (⟨b!"tmos.x.bank.v1alpha1", b!"MsgSetBalance"⟩, messageReader [(1, validUtf8), (2, coinReader)]),
   (⟨b!"tmos.abci.v1alpha1", b!"MsgSetBeginBlockState"⟩, messageReader [(1, beginBlockReader)]),
   (⟨b!"tmos.abci.v1alpha1", b!"MsgSetCheckTxState"⟩, messageReader [(1, messageReader [])]),
   (⟨b!"tmos.abci.v1alpha1", b!"MsgSetDeliverTxState"⟩, messageReader [(1, messageReader [])]),
   (⟨b!"tmos.abci.v1alpha1", b!"MsgSetEndBlockState"⟩, messageReader [(1, messageReader [])]),
   (⟨b!"tmos.abci.v1alpha1", b!"MsgSetInitChain"⟩, messageReader [(1, messageReader [(1, validUtf8)])]),
   (⟨b!"tmos.abci.v1alpha1", b!"MsgSetValidatorUpdates"⟩, messageReader [(1, messageReader [(1, messageReader [])])])]

/-- `protoregistry.GlobalTypes.FindMessageByURL`: what follows the last `/`. -/
def urlName (url : Bytes) : Bytes := (url.reverse.takeWhile (· != 0x2f)).reverse

/-- The message of a full name, if it is a state transition (decode_unknowns.go:49-58). -/
def parseTransition (env : DecodeEnv) (name value : Bytes) : Option Tr :=
  if name = b!"tmos.x.bank.v1alpha1.MsgSendCoins" then
    match mergeInto SendCoinsMsg.step {} value with
    | none => none
    | some m => some (.sendCoins m.source m.target m.amount)
  else if name = b!"tmos.x.authn.v1alpha1.MsgCreateAccount" then
    match mergeInto createAccountStep none value with
    | none => none
    | some a => some (.createAccount a)
  else if name = b!"tmos.core.rbac.v1alpha1.MsgCreateRole" then
    match mergeInto createRoleStep none value with
    | none => none
    | some r => some (.createRole r)
  else if name = b!"tmos.core.rbac.v1alpha1.MsgBindRole" then
    match mergeInto bindRoleStep ([], []) value with
    | none => none
    | some m => some (.bindRole m.1 m.2)
  else match (otherTransitions env).find? fun t => t.1.name = name with
    | none => none
    | some t => if t.2 value then some (.other t.1) else none

/-- `anypb.UnmarshalNew` with `sdkTypeURLMatcher` (decode_unknowns.go:71-78) and the assertion that
the message is a state transition (55-58). -/
def anyTransition (env : DecodeEnv) (a : AnyMsg) : Option Tr :=
  if a.typeUrl = [] then none
  else if a.typeUrl = b!"/cosmos.bank.v1beta1.MsgSend" then
    parseTransition env (urlName b!"/tmos.x.bank.v1alpha1.MsgSendCoins") a.value
  else parseTransition env (urlName a.typeUrl) a.value

/-- The loop of `getTransitions` (decode_unknowns.go:47-60). -/
def anyTransitions (env : DecodeEnv) : List AnyMsg → Option (List Tr)
  | [] => some []
  | a :: as => match anyTransition env a with
    | none => none
    | some t => match anyTransitions env as with
      | none => none
      | some ts => some (t :: ts)

/-- `getTransitions` (decode_unknowns.go:42-62). -/
def getTransitions (env : DecodeEnv) (body : TxBodyMsg) : Option (List Tr) :=
  if body.messages = [] then none else anyTransitions env body.messages

/-! ## The decoder -/

/-- The type URLs `NewDefaultPubKeyResolver` knows (x/authn/crypto/crypto.go:13-20, with the keys of
decoder.go:18). -/
def knownPubKeys : List Bytes :=
  [b!"/tmos.x.authn.crypto.v1alpha1.PubKey", b!"/cosmos.crypto.secp256k1.PubKey"]

/-- `PubKeyResolver.New` (crypto.go:27-42); both type URLs stand for the same message. -/
def resolvePubKey (a : AnyMsg) : Option PubKey :=
  if a.typeUrl ∈ knownPubKeys then parsePubKeyMsg a.value else none

/-- `PubKey.Address` (x/authn/crypto/secp256k1/secp256k1.go:117-126), see `pubKeyAddress`. -/
def keyAddress (env : DecodeEnv) (key : Bytes) : Out Bytes :=
  if key.length ≠ 33 then .panic else .ret (env.ripemd160 (env.sha256 key))

/-- One turn of the loop of `Decoder.authInfo` (decoder.go:100-136). -/
def decodeSigner (env : DecodeEnv) (hrp : Bytes) (info : SignerInfoMsg) (signature : Bytes) :
    Out (Except Err Signer) :=
  match info.publicKey with
  | none => .ret (.error .other)
  | some key => match info.modeInfo with
    | none => .ret (.error .other)
    | some mode => match mode with
      | .unset => .ret (.error .other)
      | .multi => .ret (.error .other)
      | .single m =>
        if m ≠ 1 then .ret (.error .other)
        else match resolvePubKey key with
          | none => .ret (.error .other)
          | some pk => match keyAddress env pk.key with
            | .panic => .panic
            | .ret hash => .ret (.ok ⟨bech32 hrp hash, pk, signature, info.sequence⟩)

/-- The loop of `Decoder.authInfo` (decoder.go:100-136). -/
def decodeSigners (env : DecodeEnv) (hrp : Bytes) :
    List SignerInfoMsg → List Bytes → Out (Except Err (List Signer))
  | info :: infos, signature :: signatures =>
    match decodeSigner env hrp info signature with
    | .panic => .panic
    | .ret (.error e) => .ret (.error e)
    | .ret (.ok s) => match decodeSigners env hrp infos signatures with
      | .panic => .panic
      | .ret (.error e) => .ret (.error e)
      | .ret (.ok l) => .ret (.ok (s :: l))
  | _, _ => .ret (.ok [])

/-- `Decoder.authInfo` (decoder.go:89-145): fee payer and signers. -/
def decodeAuthInfo (env : DecodeEnv) (hrp : Bytes) (signers : List SignerInfoMsg) (fee : FeeMsg)
    (signatures : List Bytes) : Out (Except Err (Bytes × List Signer)) :=
  if signers = [] then .ret (.error .other)
  else if signatures.length ≠ signers.length then .ret (.error .other)
  else match decodeSigners env hrp signers signatures with
    | .panic => .panic
    | .ret (.error e) => .ret (.error e)
    | .ret (.ok l) =>
      let first := match l with
        | [] => []
        | s :: _ => s.address
      .ret (.ok (if fee.payer ≠ [] then fee.payer else first, l))

/-- `unmarshalAndRejectUnknowns` (decode_unknowns.go:24-40). -/
def rejectUnknowns {σ : Type} (step : σ → Field → Option σ) (unknown : σ → Bool) (empty : σ)
    (b : Bytes) : Option σ :=
  match mergeInto step empty b with
  | none => none
  | some m => if unknown m then none else some m

/-- `Decoder.Decode` (decoder.go:30-87) with the given prefix of addresses. -/
def decodeTx (env : DecodeEnv) (hrp : Bytes) (bytes : Bytes) : Out (Except Err AppTx) :=
  match rejectUnknowns TxRawMsg.step TxRawMsg.unknown {} bytes with
  | none => .ret (.error .other)
  | some raw =>
    if raw.body = [] then .ret (.error .other)
    else if raw.authInfo = [] then .ret (.error .other)
    else if raw.signatures = [] then .ret (.error .other)
    else match rejectUnknowns TxBodyMsg.step TxBodyMsg.unknown {} raw.body with
      | none => .ret (.error .other)
      | some body => match rejectUnknowns AuthInfoMsg.step AuthInfoMsg.unknown {} raw.authInfo with
        | none => .ret (.error .other)
        | some info => match info.fee with
          | none => .ret (.error .other)
          | some fee =>
            if fee.amount = [] then .ret (.error .other)
            else match getTransitions env body with
              | none => .ret (.error .other)
              | some transitions =>
                match decodeAuthInfo env hrp info.signers fee raw.signatures with
                | .panic => .panic
                | .ret (.error e) => .ret (.error e)
                | .ret (.ok (payer, signers)) => .ret (.ok {
                    transitions := transitions
                    users := Users.ofNames (signers.map Signer.address)
                    raw := {
                      signers := signers
                      payer := payer
                      fee := fee.amount
                      timeout := body.timeout
                      memo := body.memo
                      bodyBytes := raw.body
                      authInfoBytes := raw.authInfo } })

/-- The decoder of the application: addresses start with `test` (x/authn/authenticator.go:10). -/
def appDecode (env : DecodeEnv) : Bytes → Out (Except Err AppTx) := decodeTx env b!"test"

end Verif
