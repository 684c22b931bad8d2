import Verif.Model.Codegen
/-!
# The annotated protobuf files of the repository

Copied from the .proto files: every top-level message with its fields and its annotations.
-/

namespace Verif

/-- core/runtime/v1alpha1/module.proto -/
def gen_core_runtime_v1alpha1_module : GenFile where
  path := b!"core/runtime/v1alpha1/module"
  goImportPath := b!"github.com/fdymylja/tmos/core/runtime/v1alpha1"
  package := b!"tmos.runtime.v1alpha1"
  messages := [
   { name := b!"ModuleDescriptors", goName := b!"ModuleDescriptors",
     fields := [⟨b!"modules", .message, .list, b!"tmos.core.module.v1.Descriptor"⟩],
     object := some { singleton := true } },
   { name := b!"CreateModuleDescriptors", goName := b!"CreateModuleDescriptors",
     fields := [⟨b!"modules", .message, .list, b!"tmos.core.module.v1.Descriptor"⟩],
     transition := true }]

/-- core/abci/v1alpha1/abci.proto -/
def gen_core_abci_v1alpha1_abci : GenFile where
  path := b!"core/abci/v1alpha1/abci"
  goImportPath := b!"github.com/fdymylja/tmos/core/abci/v1alpha1"
  package := b!"tmos.abci.v1alpha1"
  messages := [
   { name := b!"CurrentBlock", goName := b!"CurrentBlock",
     fields := [⟨b!"blockNumber", .uint64, .single, []⟩],
     object := some { singleton := true } },
   { name := b!"Stage", goName := b!"Stage",
     fields := [⟨b!"stage", .enum, .single, []⟩],
     object := some { singleton := true } },
   { name := b!"InitChainInfo", goName := b!"InitChainInfo",
     fields := [⟨b!"chainId", .string, .single, []⟩],
     object := some { singleton := true } },
   { name := b!"BeginBlockState", goName := b!"BeginBlockState",
     fields := [⟨b!"beginBlock", .message, .single, b!"tendermint.abci.RequestBeginBlock"⟩],
     object := some { singleton := true } },
   { name := b!"CheckTxState", goName := b!"CheckTxState",
     fields := [⟨b!"checkTx", .message, .single, b!"tendermint.abci.RequestCheckTx"⟩],
     object := some { singleton := true } },
   { name := b!"DeliverTxState", goName := b!"DeliverTxState",
     fields := [⟨b!"deliverTx", .message, .single, b!"tendermint.abci.RequestDeliverTx"⟩],
     object := some { singleton := true } },
   { name := b!"ValidatorUpdates", goName := b!"ValidatorUpdates",
     fields := [⟨b!"validatorUpdates", .message, .list, b!"tendermint.abci.ValidatorUpdate"⟩],
     object := some { singleton := true } },
   { name := b!"EndBlockState", goName := b!"EndBlockState",
     fields := [⟨b!"endBlock", .message, .single, b!"tendermint.abci.RequestEndBlock"⟩],
     object := some { singleton := true } },
   { name := b!"MsgSetBeginBlockState", goName := b!"MsgSetBeginBlockState",
     fields := [⟨b!"beginBlock", .message, .single, b!"tendermint.abci.RequestBeginBlock"⟩],
     transition := true },
   { name := b!"MsgSetCheckTxState", goName := b!"MsgSetCheckTxState",
     fields := [⟨b!"checkTx", .message, .single, b!"tendermint.abci.RequestCheckTx"⟩],
     transition := true },
   { name := b!"MsgSetDeliverTxState", goName := b!"MsgSetDeliverTxState",
     fields := [⟨b!"deliverTx", .message, .single, b!"tendermint.abci.RequestDeliverTx"⟩],
     transition := true },
   { name := b!"MsgSetEndBlockState", goName := b!"MsgSetEndBlockState",
     fields := [⟨b!"endBlock", .message, .single, b!"tendermint.abci.RequestEndBlock"⟩],
     transition := true },
   { name := b!"MsgSetInitChain", goName := b!"MsgSetInitChain",
     fields := [⟨b!"initChainInfo", .message, .single, b!"tmos.abci.v1alpha1.InitChainInfo"⟩],
     transition := true },
   { name := b!"MsgSetValidatorUpdates", goName := b!"MsgSetValidatorUpdates",
     fields := [⟨b!"validatorUpdates", .message, .list, b!"tendermint.abci.ValidatorUpdate"⟩],
     transition := true }]

/-- x/authn/v1alpha1/authn.proto -/
def gen_x_authn_v1alpha1_authn : GenFile where
  path := b!"x/authn/v1alpha1/authn"
  goImportPath := b!"github.com/fdymylja/tmos/x/authn/v1alpha1"
  package := b!"tmos.x.authn.v1alpha1"
  messages := [
   { name := b!"MsgCreateAccount", goName := b!"MsgCreateAccount",
     fields := [⟨b!"account", .message, .single, b!"tmos.x.authn.v1alpha1.Account"⟩],
     transition := true },
   { name := b!"MsgUpdateAccount", goName := b!"MsgUpdateAccount",
     fields := [⟨b!"account", .message, .single, b!"tmos.x.authn.v1alpha1.Account"⟩],
     transition := true },
   { name := b!"MsgDeleteAccount", goName := b!"MsgDeleteAccount",
     fields := [⟨b!"account", .message, .single, b!"tmos.x.authn.v1alpha1.Account"⟩],
     transition := true },
   { name := b!"Account", goName := b!"Account",
     fields := [⟨b!"address", .string, .single, []⟩, ⟨b!"pubKey", .message, .single, b!"google.protobuf.Any"⟩, ⟨b!"accountNumber", .uint64, .single, []⟩, ⟨b!"sequence", .uint64, .single, []⟩],
     object := some { primaryKey := b!"address", secondaryKeys := [b!"accountNumber"] } },
   { name := b!"CurrentAccountNumber", goName := b!"CurrentAccountNumber",
     fields := [⟨b!"number", .uint64, .single, []⟩],
     object := some { singleton := true } },
   { name := b!"Params", goName := b!"Params",
     fields := [⟨b!"maxMemoCharacters", .uint64, .single, []⟩, ⟨b!"txSigLimit", .uint64, .single, []⟩, ⟨b!"txSizeCostPerByte", .uint64, .single, []⟩, ⟨b!"sigVerifyCostEd25519", .uint64, .single, []⟩, ⟨b!"sigVerifyCostSecp256k1", .uint64, .single, []⟩],
     object := some { singleton := true } }]

/-- core/rbac/v1alpha1/rbac.proto -/
def gen_core_rbac_v1alpha1_rbac : GenFile where
  path := b!"core/rbac/v1alpha1/rbac"
  goImportPath := b!"github.com/fdymylja/tmos/core/rbac/v1alpha1"
  package := b!"tmos.core.rbac.v1alpha1"
  messages := [
   { name := b!"Params", goName := b!"Params",
     fields := [],
     object := some { singleton := true } },
   { name := b!"Role", goName := b!"Role",
     fields := [⟨b!"id", .string, .single, []⟩, ⟨b!"gets", .string, .list, []⟩, ⟨b!"lists", .string, .list, []⟩, ⟨b!"creates", .string, .list, []⟩, ⟨b!"updates", .string, .list, []⟩, ⟨b!"deletes", .string, .list, []⟩, ⟨b!"delivers", .string, .list, []⟩],
     object := some { primaryKey := b!"id" } },
   { name := b!"RoleBinding", goName := b!"RoleBinding",
     fields := [⟨b!"subject", .string, .single, []⟩, ⟨b!"roleRef", .string, .single, []⟩],
     object := some { primaryKey := b!"subject", secondaryKeys := [b!"roleRef"] } },
   { name := b!"MsgCreateRole", goName := b!"MsgCreateRole",
     fields := [⟨b!"newRole", .message, .single, b!"tmos.core.rbac.v1alpha1.Role"⟩],
     transition := true },
   { name := b!"MsgBindRole", goName := b!"MsgBindRole",
     fields := [⟨b!"roleId", .string, .single, []⟩, ⟨b!"subject", .string, .single, []⟩],
     transition := true }]

/-- x/bank/v1alpha1/bank.proto -/
def gen_x_bank_v1alpha1_bank : GenFile where
  path := b!"x/bank/v1alpha1/bank"
  goImportPath := b!"github.com/fdymylja/tmos/x/bank/v1alpha1"
  package := b!"tmos.x.bank.v1alpha1"
  messages := [
   { name := b!"MsgSendCoins", goName := b!"MsgSendCoins",
     fields := [⟨b!"fromAddress", .string, .single, []⟩, ⟨b!"toAddress", .string, .single, []⟩, ⟨b!"amount", .message, .list, b!"tmos.core.coin.v1alpha1.Coin"⟩],
     transition := true },
   { name := b!"MsgSetBalance", goName := b!"MsgSetBalance",
     fields := [⟨b!"address", .string, .single, []⟩, ⟨b!"amount", .message, .list, b!"tmos.core.coin.v1alpha1.Coin"⟩],
     transition := true },
   { name := b!"Balance", goName := b!"Balance",
     fields := [⟨b!"address", .string, .single, []⟩, ⟨b!"balance", .message, .list, b!"tmos.core.coin.v1alpha1.Coin"⟩],
     object := some { primaryKey := b!"address" } },
   { name := b!"GenesisState", goName := b!"GenesisState",
     fields := [⟨b!"params", .message, .single, b!"tmos.x.bank.v1alpha1.Params"⟩, ⟨b!"balances", .message, .list, b!"tmos.x.bank.v1alpha1.Balance"⟩, ⟨b!"balance", .message, .list, b!"tmos.core.coin.v1alpha1.Coin"⟩, ⟨b!"denomMetadata", .message, .list, b!"tmos.x.bank.v1alpha1.Metadata"⟩] },
   { name := b!"Params", goName := b!"Params",
     fields := [⟨b!"sendEnabled", .message, .list, b!"tmos.x.bank.v1alpha1.SendEnabled"⟩, ⟨b!"defaultSendEnabled", .bool, .single, []⟩] },
   { name := b!"SendEnabled", goName := b!"SendEnabled",
     fields := [⟨b!"denom", .string, .single, []⟩, ⟨b!"enabled", .bool, .single, []⟩] },
   { name := b!"Metadata", goName := b!"Metadata",
     fields := [⟨b!"description", .string, .single, []⟩, ⟨b!"denomUnits", .message, .list, b!"tmos.x.bank.v1alpha1.DenomUnit"⟩, ⟨b!"base", .string, .single, []⟩, ⟨b!"display", .string, .single, []⟩, ⟨b!"name", .string, .single, []⟩, ⟨b!"symbol", .string, .single, []⟩] },
   { name := b!"DenomUnit", goName := b!"DenomUnit",
     fields := [⟨b!"denom", .string, .single, []⟩, ⟨b!"exponent", .uint32, .single, []⟩, ⟨b!"aliases", .string, .list, []⟩] }]

/-- x/crisis/v1alpha1/crisis.proto -/
def gen_x_crisis_v1alpha1_crisis : GenFile where
  path := b!"x/crisis/v1alpha1/crisis"
  goImportPath := b!"github.com/fdymylja/tmos/x/crisis/v1alpha1"
  package := b!"tmos.x.crisis.v1alpha1"
  messages := [
   { name := b!"MsgRegisterInvariant", goName := b!"MsgRegisterInvariant",
     fields := [⟨b!"invariantStateTransition", .string, .single, []⟩, ⟨b!"invariantName", .string, .single, []⟩, ⟨b!"invariantModuleName", .string, .single, []⟩, ⟨b!"invariantRoute", .string, .single, []⟩] },
   { name := b!"MsgVerifyInvariantCosmosSDK", goName := b!"MsgVerifyInvariantCosmosSDK",
     fields := [⟨b!"sender", .string, .single, []⟩, ⟨b!"invariantModuleName", .string, .single, []⟩, ⟨b!"invariantRoute", .string, .single, []⟩] },
   { name := b!"MsgVerifyInvariant", goName := b!"MsgVerifyInvariant",
     fields := [⟨b!"sender", .string, .single, []⟩, ⟨b!"invariantHandler", .string, .single, []⟩] },
   { name := b!"InvariantHandler", goName := b!"InvariantHandler",
     fields := [⟨b!"stateTransition", .string, .single, []⟩, ⟨b!"module", .string, .single, []⟩, ⟨b!"route", .string, .single, []⟩],
     object := some { primaryKey := b!"stateTransition", secondaryKeys := [b!"module", b!"route"] } },
   { name := b!"Params", goName := b!"Params",
     fields := [⟨b!"constantFee", .message, .single, b!"tmos.core.coin.v1alpha1.Coin"⟩] }]

/-- testdata/testmodule/v1/testmodule.proto -/
def gen_testdata_testmodule_v1_testmodule : GenFile where
  path := b!"testdata/testmodule/v1/testmodule"
  goImportPath := b!"github.com/fdymylja/tmos/testdata/testmodule/v1"
  package := b!"testmodule.v1"
  messages := [
   { name := b!"MsgCreatePost", goName := b!"MsgCreatePost",
     fields := [⟨b!"creator", .string, .single, []⟩, ⟨b!"title", .string, .single, []⟩, ⟨b!"text", .string, .single, []⟩],
     transition := true },
   { name := b!"Post", goName := b!"Post",
     fields := [⟨b!"id", .string, .single, []⟩, ⟨b!"creator", .string, .single, []⟩, ⟨b!"title", .string, .single, []⟩, ⟨b!"text", .string, .single, []⟩],
     object := some { primaryKey := b!"id", secondaryKeys := [b!"creator"] } },
   { name := b!"Params", goName := b!"Params",
     fields := [⟨b!"lastPostNumber", .uint64, .single, []⟩],
     object := some { singleton := true } }]

/-- All annotated files. -/
def genFiles : List GenFile := [gen_core_runtime_v1alpha1_module, gen_core_abci_v1alpha1_abci, gen_x_authn_v1alpha1_authn, gen_core_rbac_v1alpha1_rbac, gen_x_bank_v1alpha1_bank, gen_x_crisis_v1alpha1_crisis, gen_testdata_testmodule_v1_testmodule]

end Verif
