import Verif.Model.Desc
/-!
# The protobuf files of the state transitions

Copied from the .proto files of the repository (the generated Go code embeds their descriptors):
for each file its path, its package, its top-level messages in order with the `external` flag of the
`state_transition_acl` option (core/rbac/xt/rbac_extension.proto) where a message has it, and its
imports in order.
-/

namespace Verif

/-- third_party/proto/google/protobuf/descriptor.proto -/
def file_google_protobuf_descriptor : File := .mk b!"google/protobuf/descriptor.proto" { package := b!"google.protobuf", messages := [
   (b!"FileDescriptorSet", none),
   (b!"FileDescriptorProto", none),
   (b!"DescriptorProto", none),
   (b!"ExtensionRangeOptions", none),
   (b!"FieldDescriptorProto", none),
   (b!"OneofDescriptorProto", none),
   (b!"EnumDescriptorProto", none),
   (b!"EnumValueDescriptorProto", none),
   (b!"ServiceDescriptorProto", none),
   (b!"MethodDescriptorProto", none),
   (b!"FileOptions", none),
   (b!"MessageOptions", none),
   (b!"FieldOptions", none),
   (b!"OneofOptions", none),
   (b!"EnumOptions", none),
   (b!"EnumValueOptions", none),
   (b!"ServiceOptions", none),
   (b!"MethodOptions", none),
   (b!"UninterpretedOption", none),
   (b!"SourceCodeInfo", none),
   (b!"GeneratedCodeInfo", none)] }
  []

/-- core/modulegen/modulegen.proto -/
def file_core_modulegen_modulegen : File := .mk b!"core/modulegen/modulegen.proto" { package := b!"tmos.core.modulegen", messages := [
   (b!"StateTransitionDescriptor", none),
   (b!"StateObjectDescriptor", none)] }
  [file_google_protobuf_descriptor]

/-- core/meta/meta.proto -/
def file_core_meta_meta : File := .mk b!"core/meta/meta.proto" { package := b!"tmos.meta.v1alpha1", messages := [
   (b!"APIDefinition", none)] }
  []

/-- core/schema/schema.proto -/
def file_core_schema_schema : File := .mk b!"core/schema/schema.proto" { package := b!"tmos.core.schema.v1", messages := [
   (b!"Definition", none)] }
  []

/-- core/module/module.proto -/
def file_core_module_module : File := .mk b!"core/module/module.proto" { package := b!"tmos.core.module.v1", messages := [
   (b!"Descriptor", none),
   (b!"StateObject", none),
   (b!"StateTransition", none),
   (b!"Dependency", none)] }
  [file_core_meta_meta, file_core_schema_schema, file_google_protobuf_descriptor]

/-- core/rbac/xt/rbac_extension.proto -/
def file_core_rbac_xt_rbac_extension : File := .mk b!"core/rbac/xt/rbac_extension.proto" { package := b!"tmos.core.rbac.xt", messages := [
   (b!"StateTransitionAccessControl", none)] }
  [file_google_protobuf_descriptor]

/-- core/runtime/v1alpha1/module.proto -/
def file_core_runtime_v1alpha1_module : File := .mk b!"core/runtime/v1alpha1/module.proto" { package := b!"tmos.runtime.v1alpha1", messages := [
   (b!"ModuleDescriptors", none),
   (b!"CreateModuleDescriptors", some false)] }
  [file_core_modulegen_modulegen, file_core_module_module, file_core_rbac_xt_rbac_extension]

/-- core/abci/tendermint/crypto/proof.proto -/
def file_core_abci_tendermint_crypto_proof : File := .mk b!"core/abci/tendermint/crypto/proof.proto" { package := b!"tendermint.crypto", messages := [
   (b!"Proof", none),
   (b!"ValueOp", none),
   (b!"DominoOp", none),
   (b!"ProofOp", none),
   (b!"ProofOps", none)] }
  []

/-- third_party/proto/google/protobuf/timestamp.proto -/
def file_google_protobuf_timestamp : File := .mk b!"google/protobuf/timestamp.proto" { package := b!"google.protobuf", messages := [
   (b!"Timestamp", none)] }
  []

/-- core/abci/tendermint/version/types.proto -/
def file_core_abci_tendermint_version_types : File := .mk b!"core/abci/tendermint/version/types.proto" { package := b!"tendermint.version", messages := [
   (b!"Consensus", none)] }
  []

/-- core/abci/tendermint/crypto/keys.proto -/
def file_core_abci_tendermint_crypto_keys : File := .mk b!"core/abci/tendermint/crypto/keys.proto" { package := b!"tendermint.crypto", messages := [
   (b!"PublicKey", none)] }
  []

/-- core/abci/tendermint/types/types.proto -/
def file_core_abci_tendermint_types_types : File := .mk b!"core/abci/tendermint/types/types.proto" { package := b!"tendermint.types", messages := [
   (b!"PartSetHeader", none),
   (b!"Part", none),
   (b!"BlockID", none),
   (b!"Header", none),
   (b!"Data", none),
   (b!"Vote", none),
   (b!"Commit", none),
   (b!"CommitSig", none),
   (b!"Proposal", none),
   (b!"SignedHeader", none),
   (b!"LightBlock", none),
   (b!"BlockMeta", none),
   (b!"TxProof", none),
   (b!"ValidatorSet", none),
   (b!"Validator", none),
   (b!"SimpleValidator", none)] }
  [file_google_protobuf_timestamp, file_core_abci_tendermint_crypto_proof, file_core_abci_tendermint_version_types, file_core_abci_tendermint_crypto_keys]

/-- third_party/proto/google/protobuf/duration.proto -/
def file_google_protobuf_duration : File := .mk b!"google/protobuf/duration.proto" { package := b!"google.protobuf", messages := [
   (b!"Duration", none)] }
  []

/-- core/abci/tendermint/types/params.proto -/
def file_core_abci_tendermint_types_params : File := .mk b!"core/abci/tendermint/types/params.proto" { package := b!"tendermint.types", messages := [
   (b!"ConsensusParams", none),
   (b!"BlockParams", none),
   (b!"EvidenceParams", none),
   (b!"ValidatorParams", none),
   (b!"VersionParams", none),
   (b!"HashedParams", none)] }
  [file_google_protobuf_duration]

/-- core/abci/tendermint/abci/types.proto -/
def file_core_abci_tendermint_abci_types : File := .mk b!"core/abci/tendermint/abci/types.proto" { package := b!"tendermint.abci", messages := [
   (b!"Request", none),
   (b!"RequestEcho", none),
   (b!"RequestFlush", none),
   (b!"RequestInfo", none),
   (b!"RequestInitChain", none),
   (b!"RequestQuery", none),
   (b!"RequestBeginBlock", none),
   (b!"RequestCheckTx", none),
   (b!"RequestDeliverTx", none),
   (b!"RequestEndBlock", none),
   (b!"RequestCommit", none),
   (b!"RequestListSnapshots", none),
   (b!"RequestOfferSnapshot", none),
   (b!"RequestLoadSnapshotChunk", none),
   (b!"RequestApplySnapshotChunk", none),
   (b!"Response", none),
   (b!"ResponseException", none),
   (b!"ResponseEcho", none),
   (b!"ResponseFlush", none),
   (b!"ResponseInfo", none),
   (b!"ResponseInitChain", none),
   (b!"ResponseQuery", none),
   (b!"ResponseBeginBlock", none),
   (b!"ResponseCheckTx", none),
   (b!"ResponseDeliverTx", none),
   (b!"ResponseEndBlock", none),
   (b!"ResponseCommit", none),
   (b!"ResponseListSnapshots", none),
   (b!"ResponseOfferSnapshot", none),
   (b!"ResponseLoadSnapshotChunk", none),
   (b!"ResponseApplySnapshotChunk", none),
   (b!"LastCommitInfo", none),
   (b!"Event", none),
   (b!"EventAttribute", none),
   (b!"TxResult", none),
   (b!"Validator", none),
   (b!"ValidatorUpdate", none),
   (b!"VoteInfo", none),
   (b!"Evidence", none),
   (b!"Snapshot", none)] }
  [file_core_abci_tendermint_crypto_proof, file_core_abci_tendermint_types_types, file_core_abci_tendermint_crypto_keys, file_core_abci_tendermint_types_params, file_google_protobuf_timestamp]

/-- core/abci/v1alpha1/abci.proto -/
def file_core_abci_v1alpha1_abci : File := .mk b!"core/abci/v1alpha1/abci.proto" { package := b!"tmos.abci.v1alpha1", messages := [
   (b!"CurrentBlock", none),
   (b!"Stage", none),
   (b!"InitChainInfo", none),
   (b!"BeginBlockState", none),
   (b!"CheckTxState", none),
   (b!"DeliverTxState", none),
   (b!"ValidatorUpdates", none),
   (b!"EndBlockState", none),
   (b!"MsgSetBeginBlockState", some false),
   (b!"MsgSetCheckTxState", some false),
   (b!"MsgSetDeliverTxState", some false),
   (b!"MsgSetEndBlockState", some false),
   (b!"MsgSetInitChain", some false),
   (b!"MsgSetValidatorUpdates", some false)] }
  [file_core_abci_tendermint_abci_types, file_core_modulegen_modulegen, file_core_rbac_xt_rbac_extension]

/-- third_party/proto/google/protobuf/any.proto -/
def file_google_protobuf_any : File := .mk b!"google/protobuf/any.proto" { package := b!"google.protobuf", messages := [
   (b!"Any", none)] }
  []

/-- x/authn/v1alpha1/authn.proto -/
def file_x_authn_v1alpha1_authn : File := .mk b!"x/authn/v1alpha1/authn.proto" { package := b!"tmos.x.authn.v1alpha1", messages := [
   (b!"MsgCreateAccount", some true),
   (b!"MsgUpdateAccount", some false),
   (b!"MsgDeleteAccount", some false),
   (b!"Account", none),
   (b!"CurrentAccountNumber", none),
   (b!"Params", none)] }
  [file_google_protobuf_any, file_core_modulegen_modulegen, file_core_rbac_xt_rbac_extension]

/-- core/rbac/v1alpha1/rbac.proto -/
def file_core_rbac_v1alpha1_rbac : File := .mk b!"core/rbac/v1alpha1/rbac.proto" { package := b!"tmos.core.rbac.v1alpha1", messages := [
   (b!"Params", none),
   (b!"Role", none),
   (b!"RoleBinding", none),
   (b!"MsgCreateRole", some false),
   (b!"MsgBindRole", some false)] }
  [file_core_modulegen_modulegen, file_core_rbac_xt_rbac_extension]

/-- core/coin/v1alpha1/coin.proto -/
def file_core_coin_v1alpha1_coin : File := .mk b!"core/coin/v1alpha1/coin.proto" { package := b!"tmos.core.coin.v1alpha1", messages := [
   (b!"Coin", none),
   (b!"DecCoin", none)] }
  []

/-- x/bank/v1alpha1/bank.proto -/
def file_x_bank_v1alpha1_bank : File := .mk b!"x/bank/v1alpha1/bank.proto" { package := b!"tmos.x.bank.v1alpha1", messages := [
   (b!"MsgSendCoins", some true),
   (b!"MsgSetBalance", some false),
   (b!"Balance", none),
   (b!"GenesisState", none),
   (b!"Params", none),
   (b!"SendEnabled", none),
   (b!"Metadata", none),
   (b!"DenomUnit", none)] }
  [file_core_coin_v1alpha1_coin, file_core_modulegen_modulegen, file_core_rbac_xt_rbac_extension]

end Verif
