import Verif.Model.Authn
import Verif.Model.Bank
import Verif.Model.System
import Verif.Model.Files
import Verif.Model.Query
/-!
# The application of the repository (testapp/app/app.go)

The modules as their `Initialize` methods describe them, and the application built from them.
`ORM` storage, decoding, coin parsing and signature verification are as in the modules before.
-/

namespace Verif

/-- A module with everything that `Descriptor.Raw` (runtime/module/descriptor.go:35-63) and
`Builder` need: transitions with their API definition and protobuf file.  The full name of a
message is its API name (*.starport.go: `Group` is the protobuf package). -/
structure AppModule where
  name : Bytes
  genesis : Option (Code × (Option Bytes → Code)) := none
  admission : List (APIDef × (Users → Tr → Code)) := []
  exec : List (APIDef × (Users → Tr → Code) × File) := []
  post : List (APIDef × (Users → Tr → Code)) := []
  objects : List ObjectEntry := []
  needs : List APIDef := []
  authAdmission : List (AppTx → Code) := []
  postAuth : List (AppTx → Code) := []
  services : List Service := []
  authorizer : Option (Authorizer Obj) := none

/-- The descriptor given to the builder. -/
def AppModule.desc (m : AppModule) : ModuleDesc Obj Tr TxData where
  name := m.name
  genesis := m.genesis
  admission := m.admission.map fun e => (e.1.name, e.2)
  exec := m.exec.map fun e => (e.1.name, e.2.1)
  post := m.post.map fun e => (e.1.name, e.2)
  objects := m.objects
  needs := m.needs.map APIDef.name
  authAdmission := m.authAdmission
  postAuth := m.postAuth
  services := m.services
  authorizer := m.authorizer

/-- `Descriptor.Raw` (runtime/module/descriptor.go:35-63). -/
def AppModule.raw (m : AppModule) : RawModule where
  name := m.name
  objects := m.objects.map (·.api)
  transitions := m.exec.map fun e =>
    { api := e.1, fullName := e.1.name, files := e.2.2.withDependencies.map File.content }
  needs := m.needs.map fun n => (n, .stateTransition)

/-- An object entry; the full name of the message is its API name. -/
def entry (o : Obj) (fields : List FieldDesc) (schema : SchemaDef) : ObjectEntry :=
  ⟨o.api, ⟨o.api.name, fields⟩, schema⟩

/-- core/runtime/module.go:15-21; core/runtime/v1alpha1/module.proto. -/
def runtimeModule : AppModule where
  name := userRuntime
  objects := [
    entry (.moduleDescriptors []) [⟨b!"modules", .message, .list, b!"tmos.core.module.v1.Descriptor"⟩]
      { singleton := true }]
  exec := [(Tr.api (.createModules []), createModulesExec, file_core_runtime_v1alpha1_module)]

/-- core/abci/module.go:16-34; core/abci/v1alpha1/abci.proto. -/
def abciModule : AppModule where
  name := userABCI
  genesis := some abciGenesis
  objects := [
    entry (.stage .unknown) [⟨b!"stage", .enum, .single, []⟩] { singleton := true },
    entry (.beginBlockState none) [⟨b!"beginBlock", .message, .single, b!"tendermint.abci.RequestBeginBlock"⟩]
      { singleton := true },
    entry (.deliverTxState none) [⟨b!"deliverTx", .message, .single, b!"tendermint.abci.RequestDeliverTx"⟩]
      { singleton := true },
    entry (.checkTxState none) [⟨b!"checkTx", .message, .single, b!"tendermint.abci.RequestCheckTx"⟩]
      { singleton := true },
    entry (.initChainInfo []) [⟨b!"chainId", .string, .single, []⟩] { singleton := true },
    entry (.endBlockState none) [⟨b!"endBlock", .message, .single, b!"tendermint.abci.RequestEndBlock"⟩]
      { singleton := true },
    entry (.currentBlock 0) [⟨b!"blockNumber", .uint64, .single, []⟩] { singleton := true },
    entry (.validatorUpdates []) [⟨b!"validatorUpdates", .message, .list, b!"tendermint.abci.ValidatorUpdate"⟩]
      { singleton := true }]
  exec := [
    (Tr.api (.setInitChain none), setInitChainExec, file_core_abci_v1alpha1_abci),
    (Tr.api (.setCheckTx none), setCheckTxExec, file_core_abci_v1alpha1_abci),
    (Tr.api (.setBeginBlock none), setBeginBlockExec, file_core_abci_v1alpha1_abci),
    (Tr.api (.setDeliverTx none), setDeliverTxExec, file_core_abci_v1alpha1_abci),
    (Tr.api (.setEndBlock none), setEndBlockExec, file_core_abci_v1alpha1_abci),
    (Tr.api (.setValidatorUpdates []), setValidatorUpdatesExec, file_core_abci_v1alpha1_abci)]

/-- x/authn/module.go:19-51; x/authn/v1alpha1/authn.proto. -/
def authnModule (verify : Verify) : AppModule where
  name := b!"authn"
  genesis := some authnGenesis
  admission := [(Tr.api (.createAccount none), createAccountAdmission)]
  exec := [(Tr.api (.createAccount none), createAccountExec, file_x_authn_v1alpha1_authn)]
  objects := [
    entry (.account ⟨[], none, 0, 0⟩) [
        ⟨b!"address", .string, .single, []⟩,
        ⟨b!"pubKey", .message, .single, b!"google.protobuf.Any"⟩,
        ⟨b!"accountNumber", .uint64, .single, []⟩,
        ⟨b!"sequence", .uint64, .single, []⟩]
      { primaryKey := b!"address", secondaryKeys := [b!"accountNumber"] },
    entry (.authnParams ⟨0, 0⟩) [
        ⟨b!"maxMemoCharacters", .uint64, .single, []⟩,
        ⟨b!"txSigLimit", .uint64, .single, []⟩,
        ⟨b!"txSizeCostPerByte", .uint64, .single, []⟩,
        ⟨b!"sigVerifyCostEd25519", .uint64, .single, []⟩,
        ⟨b!"sigVerifyCostSecp256k1", .uint64, .single, []⟩]
      { singleton := true },
    entry (.accountNumber 0) [⟨b!"number", .uint64, .single, []⟩] { singleton := true }]
  needs := [Tr.api (.bindRole [] [])]
  authAdmission := [mempoolFee, accountExists, timeoutBlock, validateMemo, sigCount, sigVerifier verify]
  postAuth := [consumeGas, setPubKeys, increaseSequence]

/-- core/rbac/module.go:15-30; core/rbac/v1alpha1/rbac.proto. -/
def rbacModule : AppModule where
  name := b!"rbac"
  genesis := some rbacGenesis
  admission := [(Tr.api (.createRole none), createRoleAdmission),
    (Tr.api (.bindRole [] []), bindRoleAdmission)]
  exec := [(Tr.api (.createRole none), createRoleExec, file_core_rbac_v1alpha1_rbac),
    (Tr.api (.bindRole [] []), bindRoleExec, file_core_rbac_v1alpha1_rbac)]
  post := [(Tr.api (.createModules []), roleCreator)]
  objects := [
    entry (.role { id := [] }) [
        ⟨b!"id", .string, .single, []⟩,
        ⟨b!"gets", .string, .list, []⟩,
        ⟨b!"lists", .string, .list, []⟩,
        ⟨b!"creates", .string, .list, []⟩,
        ⟨b!"updates", .string, .list, []⟩,
        ⟨b!"deletes", .string, .list, []⟩,
        ⟨b!"delivers", .string, .list, []⟩]
      { primaryKey := b!"id" },
    entry (.roleBinding [] []) [
        ⟨b!"subject", .string, .single, []⟩,
        ⟨b!"roleRef", .string, .single, []⟩]
      { primaryKey := b!"subject", secondaryKeys := [b!"roleRef"] },
    entry .rbacParams [] { singleton := true }]
  authorizer := some rbacAuthorizer

/-- x/bank/module.go:16-24; x/bank/v1alpha1/bank.proto. -/
def bankModule (lib : CoinLib) : AppModule where
  name := b!"bank"
  genesis := some bankGenesis
  exec := [(Tr.api (.sendCoins [] [] []), sendCoinsExec lib, file_x_bank_v1alpha1_bank),
    (Tr.api (.setBalance [] []), setBalanceExec, file_x_bank_v1alpha1_bank)]
  objects := [
    entry (.balance [] []) [
        ⟨b!"address", .string, .single, []⟩,
        ⟨b!"balance", .message, .list, b!"tmos.core.coin.v1alpha1.Coin"⟩]
      { primaryKey := b!"address" }]
  needs := [Tr.api (.createAccount none)]

/-- x/distribution/module.go:15-22. -/
def distributionModule (lib : CoinLib) : AppModule where
  name := b!"distribution"
  authAdmission := [feeChecker lib]
  postAuth := [feeDeduction]
  needs := [Tr.api (.sendCoins [] [] [])]

/-- The address of the genesis account (testapp/module/module.go:17). -/
def genesisAddress : Bytes := b!"test17hrfajk9ukj6tkkcy2ftgsmr3fp9hk9rkzcc7w"

/-- Its public key (testapp/module/module.go:15-16). -/
def genesisKey : AnyMsg where
  typeUrl := b!"/cosmos.crypto.secp256k1.PubKey"
  value := [0x0a, 0x21, 0x03, 0x69, 0x5a, 0x07, 0x67, 0x49, 0x4e, 0x7b, 0x8a, 0x16, 0x1b, 0x6a,
    0x56, 0x15, 0x22, 0xb3, 0x2e, 0x11, 0x29, 0xc1, 0x0d, 0x76, 0x69, 0x12, 0xf4, 0xa7, 0x44,
    0x17, 0x66, 0xd0, 0xd5, 0x5e, 0x06]

/-- The coins it starts with (testapp/module/module.go:67-72). -/
def genesisCoins : List Coin := [⟨b!"test", b!"5000000000"⟩]

/-- `genesisController` (testapp/module/module.go:47-82). -/
def testingGenesis : Code × (Option Bytes → Code) :=
  (.deliver (.createAccount (some { address := genesisAddress, pubKey := some genesisKey })) none
    (Prog.orReturn (.deliver (.setBalance genesisAddress genesisCoins) none .ret)), fun _ => .crash)

/-- testapp/module/module.go:28-33. -/
def testingModule : AppModule where
  name := b!"testing"
  genesis := some testingGenesis
  needs := [Tr.api (.createAccount none)]

/-- core/apiserver/module.go:19-43.  Starting the service needs the HTTP router to accept the
state objects; here it succeeds. -/
def apiserverModule : AppModule where
  name := b!"apiserver"
  services := [{ moduleName := [], serviceName := b!"apiserver", start := .ok (), stop := .ok () }]

/-- What the application uses without a model. -/
structure Libs where
  coins : CoinLib
  verify : Verify
  decode : Bytes → Out (Except Err AppTx)
  parseGenesis : Bytes → Except Err (Bytes → Option Bytes)
  jsonFails : Obj → Bool

/-- The modules of the application: runtime and abci are added by `NewBuilder`
(runtime/builder.go:37-38), the others by `NewApp` (testapp/app/app.go:34-43). -/
def appModules (lib : Libs) : List AppModule :=
  [runtimeModule, abciModule, authnModule lib.verify, rbacModule, bankModule lib.coins,
   distributionModule lib.coins, testingModule, apiserverModule]

/-- A BeginBlock request of tendermint: the height and the chain id of its header, everything else
as bytes. -/
structure BlockReq where
  height : BitVec 64
  chainId : Bytes
  rest : Bytes

/-- `RequestBeginBlock.FromLegacyProto` (core/abci/tendermint/abci/types.go:13-16, 34-42): the request
is marshalled by gogoproto, which does not look at the text, and unmarshalled by protobuf-go, which
rejects text that is not UTF-8; `convert` then panics.  The header is not a pointer in tendermint's
request, so it is always present.  Simplification: the times of the request are in the range of
protobuf's timestamps, otherwise the marshalling fails too. -/
def BlockReq.convert (r : BlockReq) : Out BeginReq :=
  if validUtf8 r.chainId then .ret ⟨some r.height, r.chainId, r.rest⟩ else .panic

/-- The application on a store, given what the builder has produced. -/
def appConfig {S : Type} (lib : Libs) (ops : StoreOps S Obj) (b : Built Obj Tr TxData) :
    Config S Obj Tr TxData BlockReq where
  ops := ops
  authorizer := b.authorizer
  router := b.router
  decode := some lib.decode
  genesis := genesisOf ((appModules lib).map AppModule.desc)
  services := b.services
  parseGenesis := lib.parseGenesis
  query := handleQuery b.reg lib.jsonFails
  createModules := .createModules ((appModules lib).map AppModule.raw)
  setInitChain := fun chainId => .setInitChain (some chainId)
  setBeginBlock := fun r => match r.convert with
    | .panic => .panic
    | .ret b => .ret (.setBeginBlock (some b))
  setEndBlock := fun h => .setEndBlock (some (BitVec.ofInt 64 h))
  valUpdatesType := tyValidatorUpdates
  toLegacy := legacyUpdates
  singletonId := singletonID

end Verif
