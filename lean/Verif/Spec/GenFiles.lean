import Verif.Model.Schema
/-!
# The declarations in the generated code of the repository

The names declared in the .starport.go files, in order: types, functions and variables, and methods
with the types of their receivers; the API definitions with the type they are of and whether they are
of a transition; the schema definitions.
-/

namespace Verif.Spec

/-- core/runtime/v1alpha1/module.starport.go -/
def apis_core_runtime_v1alpha1_module : List (Bytes × Bytes × Bytes × Bool) := [
   (b!"ModuleDescriptors", b!"tmos.runtime.v1alpha1", b!"ModuleDescriptors", false),
   (b!"CreateModuleDescriptors", b!"tmos.runtime.v1alpha1", b!"CreateModuleDescriptors", true)]

def schemas_core_runtime_v1alpha1_module : List (Bytes × SchemaDef) := [
   (b!"ModuleDescriptorsSchema", { singleton := true })]

def idents_core_runtime_v1alpha1_module : List Bytes := [
   b!"ModuleDescriptorsClient", b!"moduleDescriptorsClient", b!"ModuleDescriptorsSchema", b!"ClientSet",
   b!"NewClientSet", b!"clientSet"]

def methods_core_runtime_v1alpha1_module : List (Bytes × Bytes) := [
   (b!"ModuleDescriptors", b!"APIDefinition"), (b!"ModuleDescriptors", b!"NewStateObject"),
   (b!"moduleDescriptorsClient", b!"Get"), (b!"moduleDescriptorsClient", b!"Create"),
   (b!"moduleDescriptorsClient", b!"Delete"), (b!"moduleDescriptorsClient", b!"Update"),
   (b!"CreateModuleDescriptors", b!"APIDefinition"),
   (b!"CreateModuleDescriptors", b!"NewStateTransition"), (b!"clientSet", b!"ModuleDescriptors"),
   (b!"clientSet", b!"ExecCreateModuleDescriptors")]

/-- core/abci/v1alpha1/abci.starport.go -/
def apis_core_abci_v1alpha1_abci : List (Bytes × Bytes × Bytes × Bool) := [
   (b!"CurrentBlock", b!"tmos.abci.v1alpha1", b!"CurrentBlock", false),
   (b!"Stage", b!"tmos.abci.v1alpha1", b!"Stage", false),
   (b!"InitChainInfo", b!"tmos.abci.v1alpha1", b!"InitChainInfo", false),
   (b!"BeginBlockState", b!"tmos.abci.v1alpha1", b!"BeginBlockState", false),
   (b!"CheckTxState", b!"tmos.abci.v1alpha1", b!"CheckTxState", false),
   (b!"DeliverTxState", b!"tmos.abci.v1alpha1", b!"DeliverTxState", false),
   (b!"ValidatorUpdates", b!"tmos.abci.v1alpha1", b!"ValidatorUpdates", false),
   (b!"EndBlockState", b!"tmos.abci.v1alpha1", b!"EndBlockState", false),
   (b!"MsgSetBeginBlockState", b!"tmos.abci.v1alpha1", b!"MsgSetBeginBlockState", true),
   (b!"MsgSetCheckTxState", b!"tmos.abci.v1alpha1", b!"MsgSetCheckTxState", true),
   (b!"MsgSetDeliverTxState", b!"tmos.abci.v1alpha1", b!"MsgSetDeliverTxState", true),
   (b!"MsgSetEndBlockState", b!"tmos.abci.v1alpha1", b!"MsgSetEndBlockState", true),
   (b!"MsgSetInitChain", b!"tmos.abci.v1alpha1", b!"MsgSetInitChain", true),
   (b!"MsgSetValidatorUpdates", b!"tmos.abci.v1alpha1", b!"MsgSetValidatorUpdates", true)]

def schemas_core_abci_v1alpha1_abci : List (Bytes × SchemaDef) := [
   (b!"CurrentBlockSchema", { singleton := true }),
   (b!"StageSchema", { singleton := true }),
   (b!"InitChainInfoSchema", { singleton := true }),
   (b!"BeginBlockStateSchema", { singleton := true }),
   (b!"CheckTxStateSchema", { singleton := true }),
   (b!"DeliverTxStateSchema", { singleton := true }),
   (b!"ValidatorUpdatesSchema", { singleton := true }),
   (b!"EndBlockStateSchema", { singleton := true })]

def idents_core_abci_v1alpha1_abci : List Bytes := [
   b!"CurrentBlockClient", b!"currentBlockClient", b!"StageClient", b!"stageClient",
   b!"InitChainInfoClient", b!"initChainInfoClient", b!"BeginBlockStateClient",
   b!"beginBlockStateClient", b!"CheckTxStateClient", b!"checkTxStateClient", b!"DeliverTxStateClient",
   b!"deliverTxStateClient", b!"ValidatorUpdatesClient", b!"validatorUpdatesClient",
   b!"EndBlockStateClient", b!"endBlockStateClient", b!"CurrentBlockSchema", b!"StageSchema",
   b!"InitChainInfoSchema", b!"BeginBlockStateSchema", b!"CheckTxStateSchema", b!"DeliverTxStateSchema",
   b!"ValidatorUpdatesSchema", b!"EndBlockStateSchema", b!"ClientSet", b!"NewClientSet", b!"clientSet"]

def methods_core_abci_v1alpha1_abci : List (Bytes × Bytes) := [
   (b!"CurrentBlock", b!"APIDefinition"), (b!"CurrentBlock", b!"NewStateObject"),
   (b!"currentBlockClient", b!"Get"), (b!"currentBlockClient", b!"Create"),
   (b!"currentBlockClient", b!"Delete"), (b!"currentBlockClient", b!"Update"),
   (b!"Stage", b!"APIDefinition"), (b!"Stage", b!"NewStateObject"), (b!"stageClient", b!"Get"),
   (b!"stageClient", b!"Create"), (b!"stageClient", b!"Delete"), (b!"stageClient", b!"Update"),
   (b!"InitChainInfo", b!"APIDefinition"), (b!"InitChainInfo", b!"NewStateObject"),
   (b!"initChainInfoClient", b!"Get"), (b!"initChainInfoClient", b!"Create"),
   (b!"initChainInfoClient", b!"Delete"), (b!"initChainInfoClient", b!"Update"),
   (b!"BeginBlockState", b!"APIDefinition"), (b!"BeginBlockState", b!"NewStateObject"),
   (b!"beginBlockStateClient", b!"Get"), (b!"beginBlockStateClient", b!"Create"),
   (b!"beginBlockStateClient", b!"Delete"), (b!"beginBlockStateClient", b!"Update"),
   (b!"CheckTxState", b!"APIDefinition"), (b!"CheckTxState", b!"NewStateObject"),
   (b!"checkTxStateClient", b!"Get"), (b!"checkTxStateClient", b!"Create"),
   (b!"checkTxStateClient", b!"Delete"), (b!"checkTxStateClient", b!"Update"),
   (b!"DeliverTxState", b!"APIDefinition"), (b!"DeliverTxState", b!"NewStateObject"),
   (b!"deliverTxStateClient", b!"Get"), (b!"deliverTxStateClient", b!"Create"),
   (b!"deliverTxStateClient", b!"Delete"), (b!"deliverTxStateClient", b!"Update"),
   (b!"ValidatorUpdates", b!"APIDefinition"), (b!"ValidatorUpdates", b!"NewStateObject"),
   (b!"validatorUpdatesClient", b!"Get"), (b!"validatorUpdatesClient", b!"Create"),
   (b!"validatorUpdatesClient", b!"Delete"), (b!"validatorUpdatesClient", b!"Update"),
   (b!"EndBlockState", b!"APIDefinition"), (b!"EndBlockState", b!"NewStateObject"),
   (b!"endBlockStateClient", b!"Get"), (b!"endBlockStateClient", b!"Create"),
   (b!"endBlockStateClient", b!"Delete"), (b!"endBlockStateClient", b!"Update"),
   (b!"MsgSetBeginBlockState", b!"APIDefinition"), (b!"MsgSetBeginBlockState", b!"NewStateTransition"),
   (b!"MsgSetCheckTxState", b!"APIDefinition"), (b!"MsgSetCheckTxState", b!"NewStateTransition"),
   (b!"MsgSetDeliverTxState", b!"APIDefinition"), (b!"MsgSetDeliverTxState", b!"NewStateTransition"),
   (b!"MsgSetEndBlockState", b!"APIDefinition"), (b!"MsgSetEndBlockState", b!"NewStateTransition"),
   (b!"MsgSetInitChain", b!"APIDefinition"), (b!"MsgSetInitChain", b!"NewStateTransition"),
   (b!"MsgSetValidatorUpdates", b!"APIDefinition"),
   (b!"MsgSetValidatorUpdates", b!"NewStateTransition"), (b!"clientSet", b!"CurrentBlock"),
   (b!"clientSet", b!"Stage"), (b!"clientSet", b!"InitChainInfo"), (b!"clientSet", b!"BeginBlockState"),
   (b!"clientSet", b!"CheckTxState"), (b!"clientSet", b!"DeliverTxState"),
   (b!"clientSet", b!"ValidatorUpdates"), (b!"clientSet", b!"EndBlockState"),
   (b!"clientSet", b!"ExecMsgSetBeginBlockState"), (b!"clientSet", b!"ExecMsgSetCheckTxState"),
   (b!"clientSet", b!"ExecMsgSetDeliverTxState"), (b!"clientSet", b!"ExecMsgSetEndBlockState"),
   (b!"clientSet", b!"ExecMsgSetInitChain"), (b!"clientSet", b!"ExecMsgSetValidatorUpdates")]

/-- x/authn/v1alpha1/authn.starport.go -/
def apis_x_authn_v1alpha1_authn : List (Bytes × Bytes × Bytes × Bool) := [
   (b!"MsgCreateAccount", b!"tmos.x.authn.v1alpha1", b!"MsgCreateAccount", true),
   (b!"MsgUpdateAccount", b!"tmos.x.authn.v1alpha1", b!"MsgUpdateAccount", true),
   (b!"MsgDeleteAccount", b!"tmos.x.authn.v1alpha1", b!"MsgDeleteAccount", true),
   (b!"Account", b!"tmos.x.authn.v1alpha1", b!"Account", false),
   (b!"CurrentAccountNumber", b!"tmos.x.authn.v1alpha1", b!"CurrentAccountNumber", false),
   (b!"Params", b!"tmos.x.authn.v1alpha1", b!"Params", false)]

def schemas_x_authn_v1alpha1_authn : List (Bytes × SchemaDef) := [
   (b!"AccountSchema", { primaryKey := b!"address", secondaryKeys := [b!"accountNumber"] }),
   (b!"CurrentAccountNumberSchema", { singleton := true }),
   (b!"ParamsSchema", { singleton := true })]

def idents_x_authn_v1alpha1_authn : List Bytes := [
   b!"AccountClient", b!"accountClient", b!"AccountIterator", b!"accountIterator",
   b!"CurrentAccountNumberClient", b!"currentAccountNumberClient", b!"ParamsClient", b!"paramsClient",
   b!"AccountSchema", b!"CurrentAccountNumberSchema", b!"ParamsSchema", b!"ClientSet", b!"NewClientSet",
   b!"clientSet"]

def methods_x_authn_v1alpha1_authn : List (Bytes × Bytes) := [
   (b!"MsgCreateAccount", b!"APIDefinition"), (b!"MsgCreateAccount", b!"NewStateTransition"),
   (b!"MsgUpdateAccount", b!"APIDefinition"), (b!"MsgUpdateAccount", b!"NewStateTransition"),
   (b!"MsgDeleteAccount", b!"APIDefinition"), (b!"MsgDeleteAccount", b!"NewStateTransition"),
   (b!"Account", b!"APIDefinition"), (b!"Account", b!"NewStateObject"), (b!"accountClient", b!"Get"),
   (b!"accountClient", b!"List"), (b!"accountClient", b!"Create"), (b!"accountClient", b!"Delete"),
   (b!"accountClient", b!"Update"), (b!"accountIterator", b!"Get"), (b!"accountIterator", b!"Valid"),
   (b!"accountIterator", b!"Next"), (b!"CurrentAccountNumber", b!"APIDefinition"),
   (b!"CurrentAccountNumber", b!"NewStateObject"), (b!"currentAccountNumberClient", b!"Get"),
   (b!"currentAccountNumberClient", b!"Create"), (b!"currentAccountNumberClient", b!"Delete"),
   (b!"currentAccountNumberClient", b!"Update"), (b!"Params", b!"APIDefinition"),
   (b!"Params", b!"NewStateObject"), (b!"paramsClient", b!"Get"), (b!"paramsClient", b!"Create"),
   (b!"paramsClient", b!"Delete"), (b!"paramsClient", b!"Update"), (b!"clientSet", b!"Accounts"),
   (b!"clientSet", b!"CurrentAccountNumber"), (b!"clientSet", b!"Params"),
   (b!"clientSet", b!"ExecMsgCreateAccount"), (b!"clientSet", b!"ExecMsgUpdateAccount"),
   (b!"clientSet", b!"ExecMsgDeleteAccount")]

/-- core/rbac/v1alpha1/rbac.starport.go -/
def apis_core_rbac_v1alpha1_rbac : List (Bytes × Bytes × Bytes × Bool) := [
   (b!"Params", b!"tmos.core.rbac.v1alpha1", b!"Params", false),
   (b!"Role", b!"tmos.core.rbac.v1alpha1", b!"Role", false),
   (b!"RoleBinding", b!"tmos.core.rbac.v1alpha1", b!"RoleBinding", false),
   (b!"MsgCreateRole", b!"tmos.core.rbac.v1alpha1", b!"MsgCreateRole", true),
   (b!"MsgBindRole", b!"tmos.core.rbac.v1alpha1", b!"MsgBindRole", true)]

def schemas_core_rbac_v1alpha1_rbac : List (Bytes × SchemaDef) := [
   (b!"ParamsSchema", { singleton := true }),
   (b!"RoleSchema", { primaryKey := b!"id" }),
   (b!"RoleBindingSchema", { primaryKey := b!"subject", secondaryKeys := [b!"roleRef"] })]

def idents_core_rbac_v1alpha1_rbac : List Bytes := [
   b!"ParamsClient", b!"paramsClient", b!"RoleClient", b!"roleClient", b!"RoleIterator",
   b!"roleIterator", b!"RoleBindingClient", b!"roleBindingClient", b!"RoleBindingIterator",
   b!"roleBindingIterator", b!"ParamsSchema", b!"RoleSchema", b!"RoleBindingSchema", b!"ClientSet",
   b!"NewClientSet", b!"clientSet"]

def methods_core_rbac_v1alpha1_rbac : List (Bytes × Bytes) := [
   (b!"Params", b!"APIDefinition"), (b!"Params", b!"NewStateObject"), (b!"paramsClient", b!"Get"),
   (b!"paramsClient", b!"Create"), (b!"paramsClient", b!"Delete"), (b!"paramsClient", b!"Update"),
   (b!"Role", b!"APIDefinition"), (b!"Role", b!"NewStateObject"), (b!"roleClient", b!"Get"),
   (b!"roleClient", b!"List"), (b!"roleClient", b!"Create"), (b!"roleClient", b!"Delete"),
   (b!"roleClient", b!"Update"), (b!"roleIterator", b!"Get"), (b!"roleIterator", b!"Valid"),
   (b!"roleIterator", b!"Next"), (b!"RoleBinding", b!"APIDefinition"),
   (b!"RoleBinding", b!"NewStateObject"), (b!"roleBindingClient", b!"Get"),
   (b!"roleBindingClient", b!"List"), (b!"roleBindingClient", b!"Create"),
   (b!"roleBindingClient", b!"Delete"), (b!"roleBindingClient", b!"Update"),
   (b!"roleBindingIterator", b!"Get"), (b!"roleBindingIterator", b!"Valid"),
   (b!"roleBindingIterator", b!"Next"), (b!"MsgCreateRole", b!"APIDefinition"),
   (b!"MsgCreateRole", b!"NewStateTransition"), (b!"MsgBindRole", b!"APIDefinition"),
   (b!"MsgBindRole", b!"NewStateTransition"), (b!"clientSet", b!"Params"), (b!"clientSet", b!"Roles"),
   (b!"clientSet", b!"RoleBindings"), (b!"clientSet", b!"ExecMsgCreateRole"),
   (b!"clientSet", b!"ExecMsgBindRole")]

/-- x/bank/v1alpha1/bank.starport.go -/
def apis_x_bank_v1alpha1_bank : List (Bytes × Bytes × Bytes × Bool) := [
   (b!"MsgSendCoins", b!"tmos.x.bank.v1alpha1", b!"MsgSendCoins", true),
   (b!"MsgSetBalance", b!"tmos.x.bank.v1alpha1", b!"MsgSetBalance", true),
   (b!"Balance", b!"tmos.x.bank.v1alpha1", b!"Balance", false)]

def schemas_x_bank_v1alpha1_bank : List (Bytes × SchemaDef) := [
   (b!"BalanceSchema", { primaryKey := b!"address" })]

def idents_x_bank_v1alpha1_bank : List Bytes := [
   b!"BalanceClient", b!"balanceClient", b!"BalanceIterator", b!"balanceIterator", b!"BalanceSchema",
   b!"ClientSet", b!"NewClientSet", b!"clientSet"]

def methods_x_bank_v1alpha1_bank : List (Bytes × Bytes) := [
   (b!"MsgSendCoins", b!"APIDefinition"), (b!"MsgSendCoins", b!"NewStateTransition"),
   (b!"MsgSetBalance", b!"APIDefinition"), (b!"MsgSetBalance", b!"NewStateTransition"),
   (b!"Balance", b!"APIDefinition"), (b!"Balance", b!"NewStateObject"), (b!"balanceClient", b!"Get"),
   (b!"balanceClient", b!"List"), (b!"balanceClient", b!"Create"), (b!"balanceClient", b!"Delete"),
   (b!"balanceClient", b!"Update"), (b!"balanceIterator", b!"Get"), (b!"balanceIterator", b!"Valid"),
   (b!"balanceIterator", b!"Next"), (b!"clientSet", b!"Balances"),
   (b!"clientSet", b!"ExecMsgSendCoins"), (b!"clientSet", b!"ExecMsgSetBalance")]

/-- x/crisis/v1alpha1/crisis.starport.go -/
def apis_x_crisis_v1alpha1_crisis : List (Bytes × Bytes × Bytes × Bool) := [
   (b!"InvariantHandler", b!"tmos.x.crisis.v1alpha1", b!"InvariantHandler", false)]

def schemas_x_crisis_v1alpha1_crisis : List (Bytes × SchemaDef) := [
   (b!"InvariantHandlerSchema", { primaryKey := b!"stateTransition", secondaryKeys := [b!"module", b!"route"] })]

def idents_x_crisis_v1alpha1_crisis : List Bytes := [
   b!"InvariantHandlerClient", b!"invariantHandlerClient", b!"InvariantHandlerIterator",
   b!"invariantHandlerIterator", b!"InvariantHandlerSchema", b!"ClientSet", b!"NewClientSet",
   b!"clientSet"]

def methods_x_crisis_v1alpha1_crisis : List (Bytes × Bytes) := [
   (b!"InvariantHandler", b!"APIDefinition"), (b!"InvariantHandler", b!"NewStateObject"),
   (b!"invariantHandlerClient", b!"Get"), (b!"invariantHandlerClient", b!"List"),
   (b!"invariantHandlerClient", b!"Create"), (b!"invariantHandlerClient", b!"Delete"),
   (b!"invariantHandlerClient", b!"Update"), (b!"invariantHandlerIterator", b!"Get"),
   (b!"invariantHandlerIterator", b!"Valid"), (b!"invariantHandlerIterator", b!"Next"),
   (b!"clientSet", b!"InvariantHandlers")]

/-- testdata/testmodule/v1/testmodule.starport.go -/
def apis_testdata_testmodule_v1_testmodule : List (Bytes × Bytes × Bytes × Bool) := [
   (b!"MsgCreatePost", b!"testmodule.v1", b!"MsgCreatePost", true),
   (b!"Post", b!"testmodule.v1", b!"Post", false),
   (b!"Params", b!"testmodule.v1", b!"Params", false)]

def schemas_testdata_testmodule_v1_testmodule : List (Bytes × SchemaDef) := [
   (b!"PostSchema", { primaryKey := b!"id", secondaryKeys := [b!"creator"] }),
   (b!"ParamsSchema", { singleton := true })]

def idents_testdata_testmodule_v1_testmodule : List Bytes := [
   b!"PostClient", b!"postClient", b!"PostIterator", b!"postIterator", b!"ParamsClient",
   b!"paramsClient", b!"PostSchema", b!"ParamsSchema", b!"ClientSet", b!"NewClientSet", b!"clientSet"]

def methods_testdata_testmodule_v1_testmodule : List (Bytes × Bytes) := [
   (b!"MsgCreatePost", b!"APIDefinition"), (b!"MsgCreatePost", b!"NewStateTransition"),
   (b!"Post", b!"APIDefinition"), (b!"Post", b!"NewStateObject"), (b!"postClient", b!"Get"),
   (b!"postClient", b!"List"), (b!"postClient", b!"Create"), (b!"postClient", b!"Delete"),
   (b!"postClient", b!"Update"), (b!"postIterator", b!"Get"), (b!"postIterator", b!"Valid"),
   (b!"postIterator", b!"Next"), (b!"Params", b!"APIDefinition"), (b!"Params", b!"NewStateObject"),
   (b!"paramsClient", b!"Get"), (b!"paramsClient", b!"Create"), (b!"paramsClient", b!"Delete"),
   (b!"paramsClient", b!"Update"), (b!"clientSet", b!"Posts"), (b!"clientSet", b!"Params"),
   (b!"clientSet", b!"ExecMsgCreatePost")]

/-- What a generated file declares. -/
structure Declared where
  idents : List Bytes
  methods : List (Bytes × Bytes)
  apis : List (Bytes × Bytes × Bytes × Bool)
  schemas : List (Bytes × SchemaDef)
  deriving DecidableEq

/-- Of all annotated files. -/
def declaredNames : List Declared := [
   ⟨idents_core_runtime_v1alpha1_module, methods_core_runtime_v1alpha1_module, apis_core_runtime_v1alpha1_module, schemas_core_runtime_v1alpha1_module⟩,
   ⟨idents_core_abci_v1alpha1_abci, methods_core_abci_v1alpha1_abci, apis_core_abci_v1alpha1_abci, schemas_core_abci_v1alpha1_abci⟩,
   ⟨idents_x_authn_v1alpha1_authn, methods_x_authn_v1alpha1_authn, apis_x_authn_v1alpha1_authn, schemas_x_authn_v1alpha1_authn⟩,
   ⟨idents_core_rbac_v1alpha1_rbac, methods_core_rbac_v1alpha1_rbac, apis_core_rbac_v1alpha1_rbac, schemas_core_rbac_v1alpha1_rbac⟩,
   ⟨idents_x_bank_v1alpha1_bank, methods_x_bank_v1alpha1_bank, apis_x_bank_v1alpha1_bank, schemas_x_bank_v1alpha1_bank⟩,
   ⟨idents_x_crisis_v1alpha1_crisis, methods_x_crisis_v1alpha1_crisis, apis_x_crisis_v1alpha1_crisis, schemas_x_crisis_v1alpha1_crisis⟩,
   ⟨idents_testdata_testmodule_v1_testmodule, methods_testdata_testmodule_v1_testmodule, apis_testdata_testmodule_v1_testmodule, schemas_testdata_testmodule_v1_testmodule⟩]

end Verif.Spec
