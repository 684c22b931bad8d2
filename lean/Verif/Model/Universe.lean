import Verif.Model.Builder
/-!
# The state objects and state transitions of the repository

One type `Obj` for all state objects and one type `Tr` for all state transitions of the modules
in core/ and x/ (without x/crisis, which no application uses).  A Go type assertion to the wrong
transition type panics; handlers below `crash` in that case.

`uint64` fields are `BitVec 64`.  Nested messages that are pointers in Go are `Option`s where
the code dereferences them.  `google.protobuf.Any` is a type URL and a value.
-/

namespace Verif

/-- `utf8.Valid` of the Go library: what proto3 requires of string fields when marshalling. -/
def validUtf8 : Bytes → Bool
  | [] => true
  | a :: r =>
    if a < 0x80 then validUtf8 r
    else match r with
      | [] => false
      | b :: r =>
        if 0xC2 ≤ a ∧ a ≤ 0xDF then (0x80 ≤ b && b ≤ 0xBF) && validUtf8 r
        else match r with
          | [] => false
          | c :: r =>
            if a = 0xE0 then (0xA0 ≤ b && b ≤ 0xBF) && (0x80 ≤ c && c ≤ 0xBF) && validUtf8 r
            else if a = 0xED then (0x80 ≤ b && b ≤ 0x9F) && (0x80 ≤ c && c ≤ 0xBF) && validUtf8 r
            else if 0xE1 ≤ a ∧ a ≤ 0xEF then
              (0x80 ≤ b && b ≤ 0xBF) && (0x80 ≤ c && c ≤ 0xBF) && validUtf8 r
            else match r with
              | [] => false
              | d :: r =>
                if a = 0xF0 then (0x90 ≤ b && b ≤ 0xBF) && (0x80 ≤ c && c ≤ 0xBF)
                  && (0x80 ≤ d && d ≤ 0xBF) && validUtf8 r
                else if a = 0xF4 then (0x80 ≤ b && b ≤ 0x8F) && (0x80 ≤ c && c ≤ 0xBF)
                  && (0x80 ≤ d && d ≤ 0xBF) && validUtf8 r
                else if 0xF1 ≤ a ∧ a ≤ 0xF3 then (0x80 ≤ b && b ≤ 0xBF) && (0x80 ≤ c && c ≤ 0xBF)
                  && (0x80 ≤ d && d ≤ 0xBF) && validUtf8 r
                else false

/-- `coin.Coin` (core/coin/v1alpha1/coin.proto): both fields are strings. -/
structure Coin where
  denom : Bytes
  amount : Bytes
  deriving DecidableEq, Repr

/-- `google.protobuf.Any`. -/
structure AnyMsg where
  typeUrl : Bytes
  value : Bytes
  deriving DecidableEq, Repr

/-- `authn.Account` (x/authn/v1alpha1/authn.proto). -/
structure Account where
  address : Bytes
  pubKey : Option AnyMsg := none
  number : BitVec 64 := 0
  sequence : BitVec 64 := 0
  deriving DecidableEq, Repr

/-- `authn.Params`; the cost fields are never read. -/
structure AuthnParams where
  maxMemo : BitVec 64
  sigLimit : BitVec 64
  deriving DecidableEq, Repr

/-- `rbac.Role` (core/rbac/v1alpha1/rbac.proto).  `hasUnknown`: the message came with unknown
fields. -/
structure Role where
  id : Bytes
  gets : List Bytes := []
  lists : List Bytes := []
  creates : List Bytes := []
  updates : List Bytes := []
  deletes : List Bytes := []
  delivers : List Bytes := []
  hasUnknown : Bool := false
  deriving DecidableEq, Repr

/-- A protobuf file, as far as `getACL` (core/rbac/rbac_applier.go:129-169) looks at it: whether
it can be turned into a descriptor and registered, and for each top-level message its short name
and the `external` flag of its access-control option, if it has the option; and its package, which
`getACL` does not look at. -/
structure ProtoFile where
  valid : Bool := true
  package : Bytes := []
  messages : List (Bytes × Option Bool)
  deriving DecidableEq, Repr

/-- `module.StateTransition` (core/module/module.proto). -/
structure RawTransition where
  api : APIDef
  fullName : Bytes
  files : List ProtoFile
  deriving DecidableEq, Repr

/-- `meta.APIType` (core/meta/meta.proto:8-14); enums are open in proto3, `unrecognized` stands for
any number without a name. -/
inductive ApiType where
  | stateObject | stateTransition | unrecognized
  deriving DecidableEq, Repr

/-- `module.Descriptor` (core/module/module.proto), as built by `Descriptor.Raw`
(runtime/module/descriptor.go:35-63).  Schema definitions and file descriptors of objects are
left out. -/
structure RawModule where
  name : Bytes
  objects : List APIDef := []
  transitions : List RawTransition := []
  needs : List (APIDef × ApiType) := []
  deriving DecidableEq, Repr

/-- `abci.ABCIStage` (core/abci/v1alpha1/abci.proto). -/
inductive Stage where
  | unknown | initChain | beginBlock | checkTx | reCheckTx | deliverTx | endBlock | commit
  deriving DecidableEq, Repr

/-- A `RequestBeginBlock`: the height of its header (absent if there is no header) and the chain id
in it, which is its only text (core/abci/tendermint/abci/types.proto), everything else as bytes. -/
structure BeginReq where
  height : Option (BitVec 64)
  chainId : Bytes
  rest : Bytes
  deriving DecidableEq, Repr

/-- A `RequestCheckTx`: its type and transaction. -/
inductive CheckType where
  | new | recheck | unrecognized
  deriving DecidableEq, Repr

structure CheckReq where
  type : CheckType
  tx : Bytes
  deriving DecidableEq, Repr

/-- A `ValidatorUpdate` as stored (core/abci/tendermint/abci/types.proto): its key may be absent,
or present without a value. -/
structure StoredUpdate where
  pubKey : Option (Option ValKey)
  power : BitVec 64
  deriving DecidableEq, Repr

/-- The state objects. -/
inductive Obj where
  | moduleDescriptors (mods : List RawModule)
  | rbacParams
  | role (r : Role)
  | roleBinding (subject roleRef : Bytes)
  | account (a : Account)
  | accountNumber (n : BitVec 64)
  | authnParams (p : AuthnParams)
  | balance (address : Bytes) (coins : List Coin)
  | currentBlock (n : BitVec 64)
  | stage (s : Stage)
  | initChainInfo (chainId : Bytes)
  | beginBlockState (b : Option BeginReq)
  | checkTxState (c : Option CheckReq)
  | deliverTxState (tx : Option Bytes)
  | validatorUpdates (l : List StoredUpdate)
  | endBlockState (height : Option (BitVec 64))
  deriving DecidableEq, Repr

/-- API definitions of the state objects (`APIDefinition` methods in *.starport.go). -/
def Obj.api : Obj → APIDef
  | .moduleDescriptors _ => ⟨b!"tmos.runtime.v1alpha1", b!"ModuleDescriptors"⟩
  | .rbacParams => ⟨b!"tmos.core.rbac.v1alpha1", b!"Params"⟩
  | .role _ => ⟨b!"tmos.core.rbac.v1alpha1", b!"Role"⟩
  | .roleBinding .. => ⟨b!"tmos.core.rbac.v1alpha1", b!"RoleBinding"⟩
  | .account _ => ⟨b!"tmos.x.authn.v1alpha1", b!"Account"⟩
  | .accountNumber _ => ⟨b!"tmos.x.authn.v1alpha1", b!"CurrentAccountNumber"⟩
  | .authnParams _ => ⟨b!"tmos.x.authn.v1alpha1", b!"Params"⟩
  | .balance .. => ⟨b!"tmos.x.bank.v1alpha1", b!"Balance"⟩
  | .currentBlock _ => ⟨b!"tmos.abci.v1alpha1", b!"CurrentBlock"⟩
  | .stage _ => ⟨b!"tmos.abci.v1alpha1", b!"Stage"⟩
  | .initChainInfo _ => ⟨b!"tmos.abci.v1alpha1", b!"InitChainInfo"⟩
  | .beginBlockState _ => ⟨b!"tmos.abci.v1alpha1", b!"BeginBlockState"⟩
  | .checkTxState _ => ⟨b!"tmos.abci.v1alpha1", b!"CheckTxState"⟩
  | .deliverTxState _ => ⟨b!"tmos.abci.v1alpha1", b!"DeliverTxState"⟩
  | .validatorUpdates _ => ⟨b!"tmos.abci.v1alpha1", b!"ValidatorUpdates"⟩
  | .endBlockState _ => ⟨b!"tmos.abci.v1alpha1", b!"EndBlockState"⟩

/-- The string fields of an object (only those that can carry text from outside). -/
def Obj.strings : Obj → List Bytes
  | .role r => r.id :: (r.gets ++ r.lists ++ r.creates ++ r.updates ++ r.deletes ++ r.delivers)
  | .roleBinding s r => [s, r]
  | .account a => a.address :: (a.pubKey.map AnyMsg.typeUrl).toList
  | .balance a cs => a :: cs.flatMap fun c => [c.denom, c.amount]
  | .initChainInfo c => [c]
  | .beginBlockState (some b) => [b.chainId]
  | _ => []

/-- Key fields by JSON name, and when marshalling panics: unknown fields or invalid UTF-8
(runtime/orm/objects/store.go:19-28). -/
instance : StateObject Obj where
  api := Obj.api
  field
    | .role r, f => if f = b!"id" then .str r.id else .unsupported []
    | .roleBinding s r, f =>
      if f = b!"subject" then .str s else if f = b!"roleRef" then .str r else .unsupported []
    | .account a, f =>
      if f = b!"address" then .str a.address
      else if f = b!"accountNumber" then .uint64 a.number else .unsupported []
    | .balance a _, f => if f = b!"address" then .str a else .unsupported []
    | _, _ => .unsupported []
  marshalPanics o := o.strings.any (fun s => !validUtf8 s) ||
    match o with
    | .role r => r.hasUnknown
    | _ => false

/-- The state transitions.  `other` is a transition without handler in the modelled modules
(`MsgUpdateAccount`, `MsgDeleteAccount`, the test module's). -/
inductive Tr where
  | createModules (mods : List RawModule)
  | createRole (r : Option Role)
  | bindRole (roleId subject : Bytes)
  | createAccount (a : Option Account)
  | sendCoins (source target : Bytes) (amount : List Coin)
  | setBalance (address : Bytes) (amount : List Coin)
  | setInitChain (chainId : Option Bytes)
  | setCheckTx (c : Option CheckReq)
  | setBeginBlock (b : Option BeginReq)
  | setDeliverTx (tx : Option Bytes)
  | setEndBlock (height : Option (BitVec 64))
  | setValidatorUpdates (l : List StoredUpdate)
  | other (api : APIDef)
  deriving DecidableEq, Repr

/-- API definitions of the transitions (*.starport.go). -/
def Tr.api : Tr → APIDef
  | .createModules _ => ⟨b!"tmos.runtime.v1alpha1", b!"CreateModuleDescriptors"⟩
  | .createRole _ => ⟨b!"tmos.core.rbac.v1alpha1", b!"MsgCreateRole"⟩
  | .bindRole .. => ⟨b!"tmos.core.rbac.v1alpha1", b!"MsgBindRole"⟩
  | .createAccount _ => ⟨b!"tmos.x.authn.v1alpha1", b!"MsgCreateAccount"⟩
  | .sendCoins .. => ⟨b!"tmos.x.bank.v1alpha1", b!"MsgSendCoins"⟩
  | .setBalance .. => ⟨b!"tmos.x.bank.v1alpha1", b!"MsgSetBalance"⟩
  | .setInitChain _ => ⟨b!"tmos.abci.v1alpha1", b!"MsgSetInitChain"⟩
  | .setCheckTx _ => ⟨b!"tmos.abci.v1alpha1", b!"MsgSetCheckTxState"⟩
  | .setBeginBlock _ => ⟨b!"tmos.abci.v1alpha1", b!"MsgSetBeginBlockState"⟩
  | .setDeliverTx _ => ⟨b!"tmos.abci.v1alpha1", b!"MsgSetDeliverTxState"⟩
  | .setEndBlock _ => ⟨b!"tmos.abci.v1alpha1", b!"MsgSetEndBlockState"⟩
  | .setValidatorUpdates _ => ⟨b!"tmos.abci.v1alpha1", b!"MsgSetValidatorUpdates"⟩
  | .other a => a

instance : StateTransition Tr := ⟨Tr.api⟩

/-- Code of the modelled modules. -/
abbrev Code := Prog Obj Tr (Except Err Unit)

/-- `meta.SingletonID` (core/meta/state.go:3). -/
def singletonID : Bytes := b!"unique"

/-! Typed reads: `client.Get` into a message of the given type.  What is stored under a type name
has that type, so the `crash` branch is never taken. -/

def tyRole : Bytes := (Obj.api (.role ⟨[], [], [], [], [], [], [], false⟩)).name
def tyRoleBinding : Bytes := (Obj.api (.roleBinding [] [])).name
def tyAccount : Bytes := (Obj.api (.account ⟨[], none, 0, 0⟩)).name
def tyAccountNumber : Bytes := (Obj.api (.accountNumber 0)).name
def tyAuthnParams : Bytes := (Obj.api (.authnParams ⟨0, 0⟩)).name
def tyBalance : Bytes := (Obj.api (.balance [] [])).name
def tyModuleDescriptors : Bytes := (Obj.api (.moduleDescriptors [])).name
def tyCurrentBlock : Bytes := (Obj.api (.currentBlock 0)).name
def tyStage : Bytes := (Obj.api (.stage .unknown)).name
def tyInitChainInfo : Bytes := (Obj.api (.initChainInfo [])).name
def tyValidatorUpdates : Bytes := (Obj.api (.validatorUpdates [])).name

def getRole (id : Bytes) (k : Except Err Role → Code) : Code :=
  .get tyRole id fun
    | .error e => k (.error e)
    | .ok (.role r) => k (.ok r)
    | .ok _ => .crash

def getAccount (address : Bytes) (k : Except Err Account → Code) : Code :=
  .get tyAccount address fun
    | .error e => k (.error e)
    | .ok (.account a) => k (.ok a)
    | .ok _ => .crash

def getAccountNumber (k : Except Err (BitVec 64) → Code) : Code :=
  .get tyAccountNumber singletonID fun
    | .error e => k (.error e)
    | .ok (.accountNumber n) => k (.ok n)
    | .ok _ => .crash

def getAuthnParams (k : Except Err AuthnParams → Code) : Code :=
  .get tyAuthnParams singletonID fun
    | .error e => k (.error e)
    | .ok (.authnParams p) => k (.ok p)
    | .ok _ => .crash

def getBalance (address : Bytes) (k : Except Err (List Coin) → Code) : Code :=
  .get tyBalance address fun
    | .error e => k (.error e)
    | .ok (.balance _ cs) => k (.ok cs)
    | .ok _ => .crash

def getModuleDescriptors (k : Except Err (List RawModule) → Code) : Code :=
  .get tyModuleDescriptors singletonID fun
    | .error e => k (.error e)
    | .ok (.moduleDescriptors ms) => k (.ok ms)
    | .ok _ => .crash

def getCurrentBlock (k : Except Err (BitVec 64) → Code) : Code :=
  .get tyCurrentBlock singletonID fun
    | .error e => k (.error e)
    | .ok (.currentBlock n) => k (.ok n)
    | .ok _ => .crash

def getStage (k : Except Err Stage → Code) : Code :=
  .get tyStage singletonID fun
    | .error e => k (.error e)
    | .ok (.stage s) => k (.ok s)
    | .ok _ => .crash

def getInitChainInfo (k : Except Err Bytes → Code) : Code :=
  .get tyInitChainInfo singletonID fun
    | .error e => k (.error e)
    | .ok (.initChainInfo c) => k (.ok c)
    | .ok _ => .crash

/-- `err` returned if not nil, otherwise go on. -/
def Prog.orReturn (k : Code) : Except Err Unit → Code
  | .error e => .ret (.error e)
  | .ok () => k

end Verif
