import Verif.Model.OpenApi
/-!
# The protobuf messages of the application

Copied from the .proto files of the repository: every message of the files in which the state objects
of the test application are declared and of the files these import, with the JSON names, kinds,
cardinalities and message types of its fields; the files with their top-level messages, services and
imports.  The file google/protobuf/descriptor.proto is that of third_party, which the generated code
takes from the protobuf library.
-/

namespace Verif

/-! ## third_party/proto/google/protobuf/descriptor.proto -/

def msg_google_protobuf_FileDescriptorSet : MsgDesc := ⟨b!"google.protobuf.FileDescriptorSet", [
   ⟨b!"file", .message, .list, b!"google.protobuf.FileDescriptorProto"⟩]⟩

def msg_google_protobuf_FileDescriptorProto : MsgDesc := ⟨b!"google.protobuf.FileDescriptorProto", [
   ⟨b!"name", .string, .single, []⟩,
   ⟨b!"package", .string, .single, []⟩,
   ⟨b!"dependency", .string, .list, []⟩,
   ⟨b!"publicDependency", .int32, .list, []⟩,
   ⟨b!"weakDependency", .int32, .list, []⟩,
   ⟨b!"messageType", .message, .list, b!"google.protobuf.DescriptorProto"⟩,
   ⟨b!"enumType", .message, .list, b!"google.protobuf.EnumDescriptorProto"⟩,
   ⟨b!"service", .message, .list, b!"google.protobuf.ServiceDescriptorProto"⟩,
   ⟨b!"extension", .message, .list, b!"google.protobuf.FieldDescriptorProto"⟩,
   ⟨b!"options", .message, .single, b!"google.protobuf.FileOptions"⟩,
   ⟨b!"sourceCodeInfo", .message, .single, b!"google.protobuf.SourceCodeInfo"⟩,
   ⟨b!"syntax", .string, .single, []⟩]⟩

def msg_google_protobuf_DescriptorProto : MsgDesc := ⟨b!"google.protobuf.DescriptorProto", [
   ⟨b!"name", .string, .single, []⟩,
   ⟨b!"field", .message, .list, b!"google.protobuf.FieldDescriptorProto"⟩,
   ⟨b!"extension", .message, .list, b!"google.protobuf.FieldDescriptorProto"⟩,
   ⟨b!"nestedType", .message, .list, b!"google.protobuf.DescriptorProto"⟩,
   ⟨b!"enumType", .message, .list, b!"google.protobuf.EnumDescriptorProto"⟩,
   ⟨b!"extensionRange", .message, .list, b!"google.protobuf.DescriptorProto.ExtensionRange"⟩,
   ⟨b!"oneofDecl", .message, .list, b!"google.protobuf.OneofDescriptorProto"⟩,
   ⟨b!"options", .message, .single, b!"google.protobuf.MessageOptions"⟩,
   ⟨b!"reservedRange", .message, .list, b!"google.protobuf.DescriptorProto.ReservedRange"⟩,
   ⟨b!"reservedName", .string, .list, []⟩]⟩

def msg_google_protobuf_DescriptorProto_ExtensionRange : MsgDesc := ⟨b!"google.protobuf.DescriptorProto.ExtensionRange", [
   ⟨b!"start", .int32, .single, []⟩,
   ⟨b!"end", .int32, .single, []⟩,
   ⟨b!"options", .message, .single, b!"google.protobuf.ExtensionRangeOptions"⟩]⟩

def msg_google_protobuf_DescriptorProto_ReservedRange : MsgDesc := ⟨b!"google.protobuf.DescriptorProto.ReservedRange", [
   ⟨b!"start", .int32, .single, []⟩,
   ⟨b!"end", .int32, .single, []⟩]⟩

def msg_google_protobuf_ExtensionRangeOptions : MsgDesc := ⟨b!"google.protobuf.ExtensionRangeOptions", [
   ⟨b!"uninterpretedOption", .message, .list, b!"google.protobuf.UninterpretedOption"⟩]⟩

def msg_google_protobuf_FieldDescriptorProto : MsgDesc := ⟨b!"google.protobuf.FieldDescriptorProto", [
   ⟨b!"name", .string, .single, []⟩,
   ⟨b!"number", .int32, .single, []⟩,
   ⟨b!"label", .enum, .single, []⟩,
   ⟨b!"type", .enum, .single, []⟩,
   ⟨b!"typeName", .string, .single, []⟩,
   ⟨b!"extendee", .string, .single, []⟩,
   ⟨b!"defaultValue", .string, .single, []⟩,
   ⟨b!"oneofIndex", .int32, .single, []⟩,
   ⟨b!"jsonName", .string, .single, []⟩,
   ⟨b!"options", .message, .single, b!"google.protobuf.FieldOptions"⟩,
   ⟨b!"proto3Optional", .bool, .single, []⟩]⟩

def msg_google_protobuf_OneofDescriptorProto : MsgDesc := ⟨b!"google.protobuf.OneofDescriptorProto", [
   ⟨b!"name", .string, .single, []⟩,
   ⟨b!"options", .message, .single, b!"google.protobuf.OneofOptions"⟩]⟩

def msg_google_protobuf_EnumDescriptorProto : MsgDesc := ⟨b!"google.protobuf.EnumDescriptorProto", [
   ⟨b!"name", .string, .single, []⟩,
   ⟨b!"value", .message, .list, b!"google.protobuf.EnumValueDescriptorProto"⟩,
   ⟨b!"options", .message, .single, b!"google.protobuf.EnumOptions"⟩,
   ⟨b!"reservedRange", .message, .list, b!"google.protobuf.EnumDescriptorProto.EnumReservedRange"⟩,
   ⟨b!"reservedName", .string, .list, []⟩]⟩

def msg_google_protobuf_EnumDescriptorProto_EnumReservedRange : MsgDesc := ⟨b!"google.protobuf.EnumDescriptorProto.EnumReservedRange", [
   ⟨b!"start", .int32, .single, []⟩,
   ⟨b!"end", .int32, .single, []⟩]⟩

def msg_google_protobuf_EnumValueDescriptorProto : MsgDesc := ⟨b!"google.protobuf.EnumValueDescriptorProto", [
   ⟨b!"name", .string, .single, []⟩,
   ⟨b!"number", .int32, .single, []⟩,
   ⟨b!"options", .message, .single, b!"google.protobuf.EnumValueOptions"⟩]⟩

def msg_google_protobuf_ServiceDescriptorProto : MsgDesc := ⟨b!"google.protobuf.ServiceDescriptorProto", [
   ⟨b!"name", .string, .single, []⟩,
   ⟨b!"method", .message, .list, b!"google.protobuf.MethodDescriptorProto"⟩,
   ⟨b!"options", .message, .single, b!"google.protobuf.ServiceOptions"⟩]⟩

def msg_google_protobuf_MethodDescriptorProto : MsgDesc := ⟨b!"google.protobuf.MethodDescriptorProto", [
   ⟨b!"name", .string, .single, []⟩,
   ⟨b!"inputType", .string, .single, []⟩,
   ⟨b!"outputType", .string, .single, []⟩,
   ⟨b!"options", .message, .single, b!"google.protobuf.MethodOptions"⟩,
   ⟨b!"clientStreaming", .bool, .single, []⟩,
   ⟨b!"serverStreaming", .bool, .single, []⟩]⟩

def msg_google_protobuf_FileOptions : MsgDesc := ⟨b!"google.protobuf.FileOptions", [
   ⟨b!"javaPackage", .string, .single, []⟩,
   ⟨b!"javaOuterClassname", .string, .single, []⟩,
   ⟨b!"javaMultipleFiles", .bool, .single, []⟩,
   ⟨b!"javaGenerateEqualsAndHash", .bool, .single, []⟩,
   ⟨b!"javaStringCheckUtf8", .bool, .single, []⟩,
   ⟨b!"optimizeFor", .enum, .single, []⟩,
   ⟨b!"goPackage", .string, .single, []⟩,
   ⟨b!"ccGenericServices", .bool, .single, []⟩,
   ⟨b!"javaGenericServices", .bool, .single, []⟩,
   ⟨b!"pyGenericServices", .bool, .single, []⟩,
   ⟨b!"phpGenericServices", .bool, .single, []⟩,
   ⟨b!"deprecated", .bool, .single, []⟩,
   ⟨b!"ccEnableArenas", .bool, .single, []⟩,
   ⟨b!"objcClassPrefix", .string, .single, []⟩,
   ⟨b!"csharpNamespace", .string, .single, []⟩,
   ⟨b!"swiftPrefix", .string, .single, []⟩,
   ⟨b!"phpClassPrefix", .string, .single, []⟩,
   ⟨b!"phpNamespace", .string, .single, []⟩,
   ⟨b!"phpMetadataNamespace", .string, .single, []⟩,
   ⟨b!"rubyPackage", .string, .single, []⟩,
   ⟨b!"uninterpretedOption", .message, .list, b!"google.protobuf.UninterpretedOption"⟩]⟩

def msg_google_protobuf_MessageOptions : MsgDesc := ⟨b!"google.protobuf.MessageOptions", [
   ⟨b!"messageSetWireFormat", .bool, .single, []⟩,
   ⟨b!"noStandardDescriptorAccessor", .bool, .single, []⟩,
   ⟨b!"deprecated", .bool, .single, []⟩,
   ⟨b!"mapEntry", .bool, .single, []⟩,
   ⟨b!"uninterpretedOption", .message, .list, b!"google.protobuf.UninterpretedOption"⟩]⟩

def msg_google_protobuf_FieldOptions : MsgDesc := ⟨b!"google.protobuf.FieldOptions", [
   ⟨b!"ctype", .enum, .single, []⟩,
   ⟨b!"packed", .bool, .single, []⟩,
   ⟨b!"jstype", .enum, .single, []⟩,
   ⟨b!"lazy", .bool, .single, []⟩,
   ⟨b!"deprecated", .bool, .single, []⟩,
   ⟨b!"weak", .bool, .single, []⟩,
   ⟨b!"uninterpretedOption", .message, .list, b!"google.protobuf.UninterpretedOption"⟩]⟩

def msg_google_protobuf_OneofOptions : MsgDesc := ⟨b!"google.protobuf.OneofOptions", [
   ⟨b!"uninterpretedOption", .message, .list, b!"google.protobuf.UninterpretedOption"⟩]⟩

def msg_google_protobuf_EnumOptions : MsgDesc := ⟨b!"google.protobuf.EnumOptions", [
   ⟨b!"allowAlias", .bool, .single, []⟩,
   ⟨b!"deprecated", .bool, .single, []⟩,
   ⟨b!"uninterpretedOption", .message, .list, b!"google.protobuf.UninterpretedOption"⟩]⟩

def msg_google_protobuf_EnumValueOptions : MsgDesc := ⟨b!"google.protobuf.EnumValueOptions", [
   ⟨b!"deprecated", .bool, .single, []⟩,
   ⟨b!"uninterpretedOption", .message, .list, b!"google.protobuf.UninterpretedOption"⟩]⟩

def msg_google_protobuf_ServiceOptions : MsgDesc := ⟨b!"google.protobuf.ServiceOptions", [
   ⟨b!"deprecated", .bool, .single, []⟩,
   ⟨b!"uninterpretedOption", .message, .list, b!"google.protobuf.UninterpretedOption"⟩]⟩

def msg_google_protobuf_MethodOptions : MsgDesc := ⟨b!"google.protobuf.MethodOptions", [
   ⟨b!"deprecated", .bool, .single, []⟩,
   ⟨b!"idempotencyLevel", .enum, .single, []⟩,
   ⟨b!"uninterpretedOption", .message, .list, b!"google.protobuf.UninterpretedOption"⟩]⟩

def msg_google_protobuf_UninterpretedOption : MsgDesc := ⟨b!"google.protobuf.UninterpretedOption", [
   ⟨b!"name", .message, .list, b!"google.protobuf.UninterpretedOption.NamePart"⟩,
   ⟨b!"identifierValue", .string, .single, []⟩,
   ⟨b!"positiveIntValue", .uint64, .single, []⟩,
   ⟨b!"negativeIntValue", .int64, .single, []⟩,
   ⟨b!"doubleValue", .double, .single, []⟩,
   ⟨b!"stringValue", .bytes, .single, []⟩,
   ⟨b!"aggregateValue", .string, .single, []⟩]⟩

def msg_google_protobuf_UninterpretedOption_NamePart : MsgDesc := ⟨b!"google.protobuf.UninterpretedOption.NamePart", [
   ⟨b!"namePart", .string, .single, []⟩,
   ⟨b!"isExtension", .bool, .single, []⟩]⟩

def msg_google_protobuf_SourceCodeInfo : MsgDesc := ⟨b!"google.protobuf.SourceCodeInfo", [
   ⟨b!"location", .message, .list, b!"google.protobuf.SourceCodeInfo.Location"⟩]⟩

def msg_google_protobuf_SourceCodeInfo_Location : MsgDesc := ⟨b!"google.protobuf.SourceCodeInfo.Location", [
   ⟨b!"path", .int32, .list, []⟩,
   ⟨b!"span", .int32, .list, []⟩,
   ⟨b!"leadingComments", .string, .single, []⟩,
   ⟨b!"trailingComments", .string, .single, []⟩,
   ⟨b!"leadingDetachedComments", .string, .list, []⟩]⟩

def msg_google_protobuf_GeneratedCodeInfo : MsgDesc := ⟨b!"google.protobuf.GeneratedCodeInfo", [
   ⟨b!"annotation", .message, .list, b!"google.protobuf.GeneratedCodeInfo.Annotation"⟩]⟩

def msg_google_protobuf_GeneratedCodeInfo_Annotation : MsgDesc := ⟨b!"google.protobuf.GeneratedCodeInfo.Annotation", [
   ⟨b!"path", .int32, .list, []⟩,
   ⟨b!"sourceFile", .string, .single, []⟩,
   ⟨b!"begin", .int32, .single, []⟩,
   ⟨b!"end", .int32, .single, []⟩]⟩

def doc_google_protobuf_descriptor : DocFile := .mk b!"google/protobuf/descriptor.proto" b!"google.protobuf" [
   (b!"FileDescriptorSet", msg_google_protobuf_FileDescriptorSet),
   (b!"FileDescriptorProto", msg_google_protobuf_FileDescriptorProto),
   (b!"DescriptorProto", msg_google_protobuf_DescriptorProto),
   (b!"ExtensionRangeOptions", msg_google_protobuf_ExtensionRangeOptions),
   (b!"FieldDescriptorProto", msg_google_protobuf_FieldDescriptorProto),
   (b!"OneofDescriptorProto", msg_google_protobuf_OneofDescriptorProto),
   (b!"EnumDescriptorProto", msg_google_protobuf_EnumDescriptorProto),
   (b!"EnumValueDescriptorProto", msg_google_protobuf_EnumValueDescriptorProto),
   (b!"ServiceDescriptorProto", msg_google_protobuf_ServiceDescriptorProto),
   (b!"MethodDescriptorProto", msg_google_protobuf_MethodDescriptorProto),
   (b!"FileOptions", msg_google_protobuf_FileOptions),
   (b!"MessageOptions", msg_google_protobuf_MessageOptions),
   (b!"FieldOptions", msg_google_protobuf_FieldOptions),
   (b!"OneofOptions", msg_google_protobuf_OneofOptions),
   (b!"EnumOptions", msg_google_protobuf_EnumOptions),
   (b!"EnumValueOptions", msg_google_protobuf_EnumValueOptions),
   (b!"ServiceOptions", msg_google_protobuf_ServiceOptions),
   (b!"MethodOptions", msg_google_protobuf_MethodOptions),
   (b!"UninterpretedOption", msg_google_protobuf_UninterpretedOption),
   (b!"SourceCodeInfo", msg_google_protobuf_SourceCodeInfo),
   (b!"GeneratedCodeInfo", msg_google_protobuf_GeneratedCodeInfo)]
  [] []

/-! ## core/modulegen/modulegen.proto -/

def msg_tmos_core_modulegen_StateTransitionDescriptor : MsgDesc := ⟨b!"tmos.core.modulegen.StateTransitionDescriptor", []⟩

def msg_tmos_core_modulegen_StateObjectDescriptor : MsgDesc := ⟨b!"tmos.core.modulegen.StateObjectDescriptor", [
   ⟨b!"singleton", .bool, .single, []⟩,
   ⟨b!"primaryKey", .string, .single, []⟩,
   ⟨b!"secondaryKeys", .string, .list, []⟩]⟩

def doc_core_modulegen_modulegen : DocFile := .mk b!"core/modulegen/modulegen.proto" b!"tmos.core.modulegen" [
   (b!"StateTransitionDescriptor", msg_tmos_core_modulegen_StateTransitionDescriptor),
   (b!"StateObjectDescriptor", msg_tmos_core_modulegen_StateObjectDescriptor)]
  [] [doc_google_protobuf_descriptor]

/-! ## core/meta/meta.proto -/

def msg_tmos_meta_v1alpha1_APIDefinition : MsgDesc := ⟨b!"tmos.meta.v1alpha1.APIDefinition", [
   ⟨b!"group", .string, .single, []⟩,
   ⟨b!"kind", .string, .single, []⟩,
   ⟨b!"apiType", .enum, .single, []⟩]⟩

def doc_core_meta_meta : DocFile := .mk b!"core/meta/meta.proto" b!"tmos.meta.v1alpha1" [
   (b!"APIDefinition", msg_tmos_meta_v1alpha1_APIDefinition)]
  [] []

/-! ## core/schema/schema.proto -/

def msg_tmos_core_schema_v1_Definition : MsgDesc := ⟨b!"tmos.core.schema.v1.Definition", [
   ⟨b!"singleton", .bool, .single, []⟩,
   ⟨b!"primaryKey", .string, .single, []⟩,
   ⟨b!"secondaryKeys", .string, .list, []⟩]⟩

def doc_core_schema_schema : DocFile := .mk b!"core/schema/schema.proto" b!"tmos.core.schema.v1" [
   (b!"Definition", msg_tmos_core_schema_v1_Definition)]
  [] []

/-! ## core/module/module.proto -/

def msg_tmos_core_module_v1_Descriptor : MsgDesc := ⟨b!"tmos.core.module.v1.Descriptor", [
   ⟨b!"name", .string, .single, []⟩,
   ⟨b!"stateObjects", .message, .list, b!"tmos.core.module.v1.StateObject"⟩,
   ⟨b!"stateTransitions", .message, .list, b!"tmos.core.module.v1.StateTransition"⟩,
   ⟨b!"requiredResources", .message, .list, b!"tmos.core.module.v1.Dependency"⟩]⟩

def msg_tmos_core_module_v1_StateObject : MsgDesc := ⟨b!"tmos.core.module.v1.StateObject", [
   ⟨b!"apiDefinition", .message, .single, b!"tmos.meta.v1alpha1.APIDefinition"⟩,
   ⟨b!"schemaDefinition", .message, .single, b!"tmos.core.schema.v1.Definition"⟩,
   ⟨b!"protobufFullname", .string, .single, []⟩,
   ⟨b!"protoDependencies", .message, .list, b!"google.protobuf.FileDescriptorProto"⟩]⟩

def msg_tmos_core_module_v1_StateTransition : MsgDesc := ⟨b!"tmos.core.module.v1.StateTransition", [
   ⟨b!"apiDefinition", .message, .single, b!"tmos.meta.v1alpha1.APIDefinition"⟩,
   ⟨b!"protobufFullname", .string, .single, []⟩,
   ⟨b!"protoDependencies", .message, .list, b!"google.protobuf.FileDescriptorProto"⟩]⟩

def msg_tmos_core_module_v1_Dependency : MsgDesc := ⟨b!"tmos.core.module.v1.Dependency", [
   ⟨b!"resource", .message, .single, b!"tmos.meta.v1alpha1.APIDefinition"⟩]⟩

def doc_core_module_module : DocFile := .mk b!"core/module/module.proto" b!"tmos.core.module.v1" [
   (b!"Descriptor", msg_tmos_core_module_v1_Descriptor),
   (b!"StateObject", msg_tmos_core_module_v1_StateObject),
   (b!"StateTransition", msg_tmos_core_module_v1_StateTransition),
   (b!"Dependency", msg_tmos_core_module_v1_Dependency)]
  [] [doc_core_meta_meta, doc_core_schema_schema, doc_google_protobuf_descriptor]

/-! ## core/rbac/xt/rbac_extension.proto -/

def msg_tmos_core_rbac_xt_StateTransitionAccessControl : MsgDesc := ⟨b!"tmos.core.rbac.xt.StateTransitionAccessControl", [
   ⟨b!"external", .bool, .single, []⟩]⟩

def doc_core_rbac_xt_rbac_extension : DocFile := .mk b!"core/rbac/xt/rbac_extension.proto" b!"tmos.core.rbac.xt" [
   (b!"StateTransitionAccessControl", msg_tmos_core_rbac_xt_StateTransitionAccessControl)]
  [] [doc_google_protobuf_descriptor]

/-! ## core/runtime/v1alpha1/module.proto -/

def msg_tmos_runtime_v1alpha1_ModuleDescriptors : MsgDesc := ⟨b!"tmos.runtime.v1alpha1.ModuleDescriptors", [
   ⟨b!"modules", .message, .list, b!"tmos.core.module.v1.Descriptor"⟩]⟩

def msg_tmos_runtime_v1alpha1_CreateModuleDescriptors : MsgDesc := ⟨b!"tmos.runtime.v1alpha1.CreateModuleDescriptors", [
   ⟨b!"modules", .message, .list, b!"tmos.core.module.v1.Descriptor"⟩]⟩

def doc_core_runtime_v1alpha1_module : DocFile := .mk b!"core/runtime/v1alpha1/module.proto" b!"tmos.runtime.v1alpha1" [
   (b!"ModuleDescriptors", msg_tmos_runtime_v1alpha1_ModuleDescriptors),
   (b!"CreateModuleDescriptors", msg_tmos_runtime_v1alpha1_CreateModuleDescriptors)]
  [] [doc_core_modulegen_modulegen, doc_core_module_module, doc_core_rbac_xt_rbac_extension]

/-! ## core/abci/tendermint/crypto/proof.proto -/

def msg_tendermint_crypto_Proof : MsgDesc := ⟨b!"tendermint.crypto.Proof", [
   ⟨b!"total", .int64, .single, []⟩,
   ⟨b!"index", .int64, .single, []⟩,
   ⟨b!"leafHash", .bytes, .single, []⟩,
   ⟨b!"aunts", .bytes, .list, []⟩]⟩

def msg_tendermint_crypto_ValueOp : MsgDesc := ⟨b!"tendermint.crypto.ValueOp", [
   ⟨b!"key", .bytes, .single, []⟩,
   ⟨b!"proof", .message, .single, b!"tendermint.crypto.Proof"⟩]⟩

def msg_tendermint_crypto_DominoOp : MsgDesc := ⟨b!"tendermint.crypto.DominoOp", [
   ⟨b!"key", .string, .single, []⟩,
   ⟨b!"input", .string, .single, []⟩,
   ⟨b!"output", .string, .single, []⟩]⟩

def msg_tendermint_crypto_ProofOp : MsgDesc := ⟨b!"tendermint.crypto.ProofOp", [
   ⟨b!"type", .string, .single, []⟩,
   ⟨b!"key", .bytes, .single, []⟩,
   ⟨b!"data", .bytes, .single, []⟩]⟩

def msg_tendermint_crypto_ProofOps : MsgDesc := ⟨b!"tendermint.crypto.ProofOps", [
   ⟨b!"ops", .message, .list, b!"tendermint.crypto.ProofOp"⟩]⟩

def doc_core_abci_tendermint_crypto_proof : DocFile := .mk b!"core/abci/tendermint/crypto/proof.proto" b!"tendermint.crypto" [
   (b!"Proof", msg_tendermint_crypto_Proof),
   (b!"ValueOp", msg_tendermint_crypto_ValueOp),
   (b!"DominoOp", msg_tendermint_crypto_DominoOp),
   (b!"ProofOp", msg_tendermint_crypto_ProofOp),
   (b!"ProofOps", msg_tendermint_crypto_ProofOps)]
  [] []

/-! ## third_party/proto/google/protobuf/timestamp.proto -/

def msg_google_protobuf_Timestamp : MsgDesc := ⟨b!"google.protobuf.Timestamp", [
   ⟨b!"seconds", .int64, .single, []⟩,
   ⟨b!"nanos", .int32, .single, []⟩]⟩

def doc_google_protobuf_timestamp : DocFile := .mk b!"google/protobuf/timestamp.proto" b!"google.protobuf" [
   (b!"Timestamp", msg_google_protobuf_Timestamp)]
  [] []

/-! ## core/abci/tendermint/version/types.proto -/

def msg_tendermint_version_Consensus : MsgDesc := ⟨b!"tendermint.version.Consensus", [
   ⟨b!"block", .uint64, .single, []⟩,
   ⟨b!"app", .uint64, .single, []⟩]⟩

def doc_core_abci_tendermint_version_types : DocFile := .mk b!"core/abci/tendermint/version/types.proto" b!"tendermint.version" [
   (b!"Consensus", msg_tendermint_version_Consensus)]
  [] []

/-! ## core/abci/tendermint/crypto/keys.proto -/

def msg_tendermint_crypto_PublicKey : MsgDesc := ⟨b!"tendermint.crypto.PublicKey", [
   ⟨b!"ed25519", .bytes, .single, []⟩,
   ⟨b!"secp256k1", .bytes, .single, []⟩,
   ⟨b!"sr25519", .bytes, .single, []⟩]⟩

def doc_core_abci_tendermint_crypto_keys : DocFile := .mk b!"core/abci/tendermint/crypto/keys.proto" b!"tendermint.crypto" [
   (b!"PublicKey", msg_tendermint_crypto_PublicKey)]
  [] []

/-! ## core/abci/tendermint/types/types.proto -/

def msg_tendermint_types_PartSetHeader : MsgDesc := ⟨b!"tendermint.types.PartSetHeader", [
   ⟨b!"total", .uint32, .single, []⟩,
   ⟨b!"hash", .bytes, .single, []⟩]⟩

def msg_tendermint_types_Part : MsgDesc := ⟨b!"tendermint.types.Part", [
   ⟨b!"index", .uint32, .single, []⟩,
   ⟨b!"bytes", .bytes, .single, []⟩,
   ⟨b!"proof", .message, .single, b!"tendermint.crypto.Proof"⟩]⟩

def msg_tendermint_types_BlockID : MsgDesc := ⟨b!"tendermint.types.BlockID", [
   ⟨b!"hash", .bytes, .single, []⟩,
   ⟨b!"partSetHeader", .message, .single, b!"tendermint.types.PartSetHeader"⟩]⟩

def msg_tendermint_types_Header : MsgDesc := ⟨b!"tendermint.types.Header", [
   ⟨b!"version", .message, .single, b!"tendermint.version.Consensus"⟩,
   ⟨b!"chainId", .string, .single, []⟩,
   ⟨b!"height", .int64, .single, []⟩,
   ⟨b!"time", .message, .single, b!"google.protobuf.Timestamp"⟩,
   ⟨b!"lastBlockId", .message, .single, b!"tendermint.types.BlockID"⟩,
   ⟨b!"lastCommitHash", .bytes, .single, []⟩,
   ⟨b!"dataHash", .bytes, .single, []⟩,
   ⟨b!"validatorsHash", .bytes, .single, []⟩,
   ⟨b!"nextValidatorsHash", .bytes, .single, []⟩,
   ⟨b!"consensusHash", .bytes, .single, []⟩,
   ⟨b!"appHash", .bytes, .single, []⟩,
   ⟨b!"lastResultsHash", .bytes, .single, []⟩,
   ⟨b!"evidenceHash", .bytes, .single, []⟩,
   ⟨b!"proposerAddress", .bytes, .single, []⟩]⟩

def msg_tendermint_types_Data : MsgDesc := ⟨b!"tendermint.types.Data", [
   ⟨b!"txs", .bytes, .list, []⟩]⟩

def msg_tendermint_types_Vote : MsgDesc := ⟨b!"tendermint.types.Vote", [
   ⟨b!"type", .enum, .single, []⟩,
   ⟨b!"height", .int64, .single, []⟩,
   ⟨b!"round", .int32, .single, []⟩,
   ⟨b!"blockId", .message, .single, b!"tendermint.types.BlockID"⟩,
   ⟨b!"timestamp", .message, .single, b!"google.protobuf.Timestamp"⟩,
   ⟨b!"validatorAddress", .bytes, .single, []⟩,
   ⟨b!"validatorIndex", .int32, .single, []⟩,
   ⟨b!"signature", .bytes, .single, []⟩]⟩

def msg_tendermint_types_Commit : MsgDesc := ⟨b!"tendermint.types.Commit", [
   ⟨b!"height", .int64, .single, []⟩,
   ⟨b!"round", .int32, .single, []⟩,
   ⟨b!"blockId", .message, .single, b!"tendermint.types.BlockID"⟩,
   ⟨b!"signatures", .message, .list, b!"tendermint.types.CommitSig"⟩]⟩

def msg_tendermint_types_CommitSig : MsgDesc := ⟨b!"tendermint.types.CommitSig", [
   ⟨b!"blockIdFlag", .enum, .single, []⟩,
   ⟨b!"validatorAddress", .bytes, .single, []⟩,
   ⟨b!"timestamp", .message, .single, b!"google.protobuf.Timestamp"⟩,
   ⟨b!"signature", .bytes, .single, []⟩]⟩

def msg_tendermint_types_Proposal : MsgDesc := ⟨b!"tendermint.types.Proposal", [
   ⟨b!"type", .enum, .single, []⟩,
   ⟨b!"height", .int64, .single, []⟩,
   ⟨b!"round", .int32, .single, []⟩,
   ⟨b!"polRound", .int32, .single, []⟩,
   ⟨b!"blockId", .message, .single, b!"tendermint.types.BlockID"⟩,
   ⟨b!"timestamp", .message, .single, b!"google.protobuf.Timestamp"⟩,
   ⟨b!"signature", .bytes, .single, []⟩]⟩

def msg_tendermint_types_SignedHeader : MsgDesc := ⟨b!"tendermint.types.SignedHeader", [
   ⟨b!"header", .message, .single, b!"tendermint.types.Header"⟩,
   ⟨b!"commit", .message, .single, b!"tendermint.types.Commit"⟩]⟩

def msg_tendermint_types_LightBlock : MsgDesc := ⟨b!"tendermint.types.LightBlock", [
   ⟨b!"signedHeader", .message, .single, b!"tendermint.types.SignedHeader"⟩,
   ⟨b!"validatorSet", .message, .single, b!"tendermint.types.ValidatorSet"⟩]⟩

def msg_tendermint_types_BlockMeta : MsgDesc := ⟨b!"tendermint.types.BlockMeta", [
   ⟨b!"blockId", .message, .single, b!"tendermint.types.BlockID"⟩,
   ⟨b!"blockSize", .int64, .single, []⟩,
   ⟨b!"header", .message, .single, b!"tendermint.types.Header"⟩,
   ⟨b!"numTxs", .int64, .single, []⟩]⟩

def msg_tendermint_types_TxProof : MsgDesc := ⟨b!"tendermint.types.TxProof", [
   ⟨b!"rootHash", .bytes, .single, []⟩,
   ⟨b!"data", .bytes, .single, []⟩,
   ⟨b!"proof", .message, .single, b!"tendermint.crypto.Proof"⟩]⟩

def msg_tendermint_types_ValidatorSet : MsgDesc := ⟨b!"tendermint.types.ValidatorSet", [
   ⟨b!"validators", .message, .list, b!"tendermint.types.Validator"⟩,
   ⟨b!"proposer", .message, .single, b!"tendermint.types.Validator"⟩,
   ⟨b!"totalVotingPower", .int64, .single, []⟩]⟩

def msg_tendermint_types_Validator : MsgDesc := ⟨b!"tendermint.types.Validator", [
   ⟨b!"address", .bytes, .single, []⟩,
   ⟨b!"pubKey", .message, .single, b!"tendermint.crypto.PublicKey"⟩,
   ⟨b!"votingPower", .int64, .single, []⟩,
   ⟨b!"proposerPriority", .int64, .single, []⟩]⟩

def msg_tendermint_types_SimpleValidator : MsgDesc := ⟨b!"tendermint.types.SimpleValidator", [
   ⟨b!"pubKey", .message, .single, b!"tendermint.crypto.PublicKey"⟩,
   ⟨b!"votingPower", .int64, .single, []⟩]⟩

def doc_core_abci_tendermint_types_types : DocFile := .mk b!"core/abci/tendermint/types/types.proto" b!"tendermint.types" [
   (b!"PartSetHeader", msg_tendermint_types_PartSetHeader),
   (b!"Part", msg_tendermint_types_Part),
   (b!"BlockID", msg_tendermint_types_BlockID),
   (b!"Header", msg_tendermint_types_Header),
   (b!"Data", msg_tendermint_types_Data),
   (b!"Vote", msg_tendermint_types_Vote),
   (b!"Commit", msg_tendermint_types_Commit),
   (b!"CommitSig", msg_tendermint_types_CommitSig),
   (b!"Proposal", msg_tendermint_types_Proposal),
   (b!"SignedHeader", msg_tendermint_types_SignedHeader),
   (b!"LightBlock", msg_tendermint_types_LightBlock),
   (b!"BlockMeta", msg_tendermint_types_BlockMeta),
   (b!"TxProof", msg_tendermint_types_TxProof),
   (b!"ValidatorSet", msg_tendermint_types_ValidatorSet),
   (b!"Validator", msg_tendermint_types_Validator),
   (b!"SimpleValidator", msg_tendermint_types_SimpleValidator)]
  [] [doc_google_protobuf_timestamp, doc_core_abci_tendermint_crypto_proof, doc_core_abci_tendermint_version_types, doc_core_abci_tendermint_crypto_keys]

/-! ## third_party/proto/google/protobuf/duration.proto -/

def msg_google_protobuf_Duration : MsgDesc := ⟨b!"google.protobuf.Duration", [
   ⟨b!"seconds", .int64, .single, []⟩,
   ⟨b!"nanos", .int32, .single, []⟩]⟩

def doc_google_protobuf_duration : DocFile := .mk b!"google/protobuf/duration.proto" b!"google.protobuf" [
   (b!"Duration", msg_google_protobuf_Duration)]
  [] []

/-! ## core/abci/tendermint/types/params.proto -/

def msg_tendermint_types_ConsensusParams : MsgDesc := ⟨b!"tendermint.types.ConsensusParams", [
   ⟨b!"block", .message, .single, b!"tendermint.types.BlockParams"⟩,
   ⟨b!"evidence", .message, .single, b!"tendermint.types.EvidenceParams"⟩,
   ⟨b!"validator", .message, .single, b!"tendermint.types.ValidatorParams"⟩,
   ⟨b!"version", .message, .single, b!"tendermint.types.VersionParams"⟩]⟩

def msg_tendermint_types_BlockParams : MsgDesc := ⟨b!"tendermint.types.BlockParams", [
   ⟨b!"maxBytes", .int64, .single, []⟩,
   ⟨b!"maxGas", .int64, .single, []⟩]⟩

def msg_tendermint_types_EvidenceParams : MsgDesc := ⟨b!"tendermint.types.EvidenceParams", [
   ⟨b!"maxAgeNumBlocks", .int64, .single, []⟩,
   ⟨b!"maxAgeDuration", .message, .single, b!"google.protobuf.Duration"⟩,
   ⟨b!"maxBytes", .int64, .single, []⟩]⟩

def msg_tendermint_types_ValidatorParams : MsgDesc := ⟨b!"tendermint.types.ValidatorParams", [
   ⟨b!"pubKeyTypes", .string, .list, []⟩]⟩

def msg_tendermint_types_VersionParams : MsgDesc := ⟨b!"tendermint.types.VersionParams", [
   ⟨b!"appVersion", .uint64, .single, []⟩]⟩

def msg_tendermint_types_HashedParams : MsgDesc := ⟨b!"tendermint.types.HashedParams", [
   ⟨b!"blockMaxBytes", .int64, .single, []⟩,
   ⟨b!"blockMaxGas", .int64, .single, []⟩]⟩

def doc_core_abci_tendermint_types_params : DocFile := .mk b!"core/abci/tendermint/types/params.proto" b!"tendermint.types" [
   (b!"ConsensusParams", msg_tendermint_types_ConsensusParams),
   (b!"BlockParams", msg_tendermint_types_BlockParams),
   (b!"EvidenceParams", msg_tendermint_types_EvidenceParams),
   (b!"ValidatorParams", msg_tendermint_types_ValidatorParams),
   (b!"VersionParams", msg_tendermint_types_VersionParams),
   (b!"HashedParams", msg_tendermint_types_HashedParams)]
  [] [doc_google_protobuf_duration]

/-! ## core/abci/tendermint/abci/types.proto -/

def msg_tendermint_abci_Request : MsgDesc := ⟨b!"tendermint.abci.Request", [
   ⟨b!"echo", .message, .single, b!"tendermint.abci.RequestEcho"⟩,
   ⟨b!"flush", .message, .single, b!"tendermint.abci.RequestFlush"⟩,
   ⟨b!"info", .message, .single, b!"tendermint.abci.RequestInfo"⟩,
   ⟨b!"initChain", .message, .single, b!"tendermint.abci.RequestInitChain"⟩,
   ⟨b!"query", .message, .single, b!"tendermint.abci.RequestQuery"⟩,
   ⟨b!"beginBlock", .message, .single, b!"tendermint.abci.RequestBeginBlock"⟩,
   ⟨b!"checkTx", .message, .single, b!"tendermint.abci.RequestCheckTx"⟩,
   ⟨b!"deliverTx", .message, .single, b!"tendermint.abci.RequestDeliverTx"⟩,
   ⟨b!"endBlock", .message, .single, b!"tendermint.abci.RequestEndBlock"⟩,
   ⟨b!"commit", .message, .single, b!"tendermint.abci.RequestCommit"⟩,
   ⟨b!"listSnapshots", .message, .single, b!"tendermint.abci.RequestListSnapshots"⟩,
   ⟨b!"offerSnapshot", .message, .single, b!"tendermint.abci.RequestOfferSnapshot"⟩,
   ⟨b!"loadSnapshotChunk", .message, .single, b!"tendermint.abci.RequestLoadSnapshotChunk"⟩,
   ⟨b!"applySnapshotChunk", .message, .single, b!"tendermint.abci.RequestApplySnapshotChunk"⟩]⟩

def msg_tendermint_abci_RequestEcho : MsgDesc := ⟨b!"tendermint.abci.RequestEcho", [
   ⟨b!"message", .string, .single, []⟩]⟩

def msg_tendermint_abci_RequestFlush : MsgDesc := ⟨b!"tendermint.abci.RequestFlush", []⟩

def msg_tendermint_abci_RequestInfo : MsgDesc := ⟨b!"tendermint.abci.RequestInfo", [
   ⟨b!"version", .string, .single, []⟩,
   ⟨b!"blockVersion", .uint64, .single, []⟩,
   ⟨b!"p2pVersion", .uint64, .single, []⟩,
   ⟨b!"abciVersion", .string, .single, []⟩]⟩

def msg_tendermint_abci_RequestInitChain : MsgDesc := ⟨b!"tendermint.abci.RequestInitChain", [
   ⟨b!"time", .message, .single, b!"google.protobuf.Timestamp"⟩,
   ⟨b!"chainId", .string, .single, []⟩,
   ⟨b!"consensusParams", .message, .single, b!"tendermint.types.ConsensusParams"⟩,
   ⟨b!"validators", .message, .list, b!"tendermint.abci.ValidatorUpdate"⟩,
   ⟨b!"appStateBytes", .bytes, .single, []⟩,
   ⟨b!"initialHeight", .int64, .single, []⟩]⟩

def msg_tendermint_abci_RequestQuery : MsgDesc := ⟨b!"tendermint.abci.RequestQuery", [
   ⟨b!"data", .bytes, .single, []⟩,
   ⟨b!"path", .string, .single, []⟩,
   ⟨b!"height", .int64, .single, []⟩,
   ⟨b!"prove", .bool, .single, []⟩]⟩

def msg_tendermint_abci_RequestBeginBlock : MsgDesc := ⟨b!"tendermint.abci.RequestBeginBlock", [
   ⟨b!"hash", .bytes, .single, []⟩,
   ⟨b!"header", .message, .single, b!"tendermint.types.Header"⟩,
   ⟨b!"lastCommitInfo", .message, .single, b!"tendermint.abci.LastCommitInfo"⟩,
   ⟨b!"byzantineValidators", .message, .list, b!"tendermint.abci.Evidence"⟩]⟩

def msg_tendermint_abci_RequestCheckTx : MsgDesc := ⟨b!"tendermint.abci.RequestCheckTx", [
   ⟨b!"tx", .bytes, .single, []⟩,
   ⟨b!"type", .enum, .single, []⟩]⟩

def msg_tendermint_abci_RequestDeliverTx : MsgDesc := ⟨b!"tendermint.abci.RequestDeliverTx", [
   ⟨b!"tx", .bytes, .single, []⟩]⟩

def msg_tendermint_abci_RequestEndBlock : MsgDesc := ⟨b!"tendermint.abci.RequestEndBlock", [
   ⟨b!"height", .int64, .single, []⟩]⟩

def msg_tendermint_abci_RequestCommit : MsgDesc := ⟨b!"tendermint.abci.RequestCommit", []⟩

def msg_tendermint_abci_RequestListSnapshots : MsgDesc := ⟨b!"tendermint.abci.RequestListSnapshots", []⟩

def msg_tendermint_abci_RequestOfferSnapshot : MsgDesc := ⟨b!"tendermint.abci.RequestOfferSnapshot", [
   ⟨b!"snapshot", .message, .single, b!"tendermint.abci.Snapshot"⟩,
   ⟨b!"appHash", .bytes, .single, []⟩]⟩

def msg_tendermint_abci_RequestLoadSnapshotChunk : MsgDesc := ⟨b!"tendermint.abci.RequestLoadSnapshotChunk", [
   ⟨b!"height", .uint64, .single, []⟩,
   ⟨b!"format", .uint32, .single, []⟩,
   ⟨b!"chunk", .uint32, .single, []⟩]⟩

def msg_tendermint_abci_RequestApplySnapshotChunk : MsgDesc := ⟨b!"tendermint.abci.RequestApplySnapshotChunk", [
   ⟨b!"index", .uint32, .single, []⟩,
   ⟨b!"chunk", .bytes, .single, []⟩,
   ⟨b!"sender", .string, .single, []⟩]⟩

def msg_tendermint_abci_Response : MsgDesc := ⟨b!"tendermint.abci.Response", [
   ⟨b!"exception", .message, .single, b!"tendermint.abci.ResponseException"⟩,
   ⟨b!"echo", .message, .single, b!"tendermint.abci.ResponseEcho"⟩,
   ⟨b!"flush", .message, .single, b!"tendermint.abci.ResponseFlush"⟩,
   ⟨b!"info", .message, .single, b!"tendermint.abci.ResponseInfo"⟩,
   ⟨b!"initChain", .message, .single, b!"tendermint.abci.ResponseInitChain"⟩,
   ⟨b!"query", .message, .single, b!"tendermint.abci.ResponseQuery"⟩,
   ⟨b!"beginBlock", .message, .single, b!"tendermint.abci.ResponseBeginBlock"⟩,
   ⟨b!"checkTx", .message, .single, b!"tendermint.abci.ResponseCheckTx"⟩,
   ⟨b!"deliverTx", .message, .single, b!"tendermint.abci.ResponseDeliverTx"⟩,
   ⟨b!"endBlock", .message, .single, b!"tendermint.abci.ResponseEndBlock"⟩,
   ⟨b!"commit", .message, .single, b!"tendermint.abci.ResponseCommit"⟩,
   ⟨b!"listSnapshots", .message, .single, b!"tendermint.abci.ResponseListSnapshots"⟩,
   ⟨b!"offerSnapshot", .message, .single, b!"tendermint.abci.ResponseOfferSnapshot"⟩,
   ⟨b!"loadSnapshotChunk", .message, .single, b!"tendermint.abci.ResponseLoadSnapshotChunk"⟩,
   ⟨b!"applySnapshotChunk", .message, .single, b!"tendermint.abci.ResponseApplySnapshotChunk"⟩]⟩

def msg_tendermint_abci_ResponseException : MsgDesc := ⟨b!"tendermint.abci.ResponseException", [
   ⟨b!"error", .string, .single, []⟩]⟩

def msg_tendermint_abci_ResponseEcho : MsgDesc := ⟨b!"tendermint.abci.ResponseEcho", [
   ⟨b!"message", .string, .single, []⟩]⟩

def msg_tendermint_abci_ResponseFlush : MsgDesc := ⟨b!"tendermint.abci.ResponseFlush", []⟩

def msg_tendermint_abci_ResponseInfo : MsgDesc := ⟨b!"tendermint.abci.ResponseInfo", [
   ⟨b!"data", .string, .single, []⟩,
   ⟨b!"version", .string, .single, []⟩,
   ⟨b!"appVersion", .uint64, .single, []⟩,
   ⟨b!"lastBlockHeight", .int64, .single, []⟩,
   ⟨b!"lastBlockAppHash", .bytes, .single, []⟩]⟩

def msg_tendermint_abci_ResponseInitChain : MsgDesc := ⟨b!"tendermint.abci.ResponseInitChain", [
   ⟨b!"consensusParams", .message, .single, b!"tendermint.types.ConsensusParams"⟩,
   ⟨b!"validators", .message, .list, b!"tendermint.abci.ValidatorUpdate"⟩,
   ⟨b!"appHash", .bytes, .single, []⟩]⟩

def msg_tendermint_abci_ResponseQuery : MsgDesc := ⟨b!"tendermint.abci.ResponseQuery", [
   ⟨b!"code", .uint32, .single, []⟩,
   ⟨b!"log", .string, .single, []⟩,
   ⟨b!"info", .string, .single, []⟩,
   ⟨b!"index", .int64, .single, []⟩,
   ⟨b!"key", .bytes, .single, []⟩,
   ⟨b!"value", .bytes, .single, []⟩,
   ⟨b!"proofOps", .message, .single, b!"tendermint.crypto.ProofOps"⟩,
   ⟨b!"height", .int64, .single, []⟩,
   ⟨b!"codespace", .string, .single, []⟩]⟩

def msg_tendermint_abci_ResponseBeginBlock : MsgDesc := ⟨b!"tendermint.abci.ResponseBeginBlock", [
   ⟨b!"events", .message, .list, b!"tendermint.abci.Event"⟩]⟩

def msg_tendermint_abci_ResponseCheckTx : MsgDesc := ⟨b!"tendermint.abci.ResponseCheckTx", [
   ⟨b!"code", .uint32, .single, []⟩,
   ⟨b!"data", .bytes, .single, []⟩,
   ⟨b!"log", .string, .single, []⟩,
   ⟨b!"info", .string, .single, []⟩,
   ⟨b!"gasWanted", .int64, .single, []⟩,
   ⟨b!"gasUsed", .int64, .single, []⟩,
   ⟨b!"events", .message, .list, b!"tendermint.abci.Event"⟩,
   ⟨b!"codespace", .string, .single, []⟩]⟩

def msg_tendermint_abci_ResponseDeliverTx : MsgDesc := ⟨b!"tendermint.abci.ResponseDeliverTx", [
   ⟨b!"code", .uint32, .single, []⟩,
   ⟨b!"data", .bytes, .single, []⟩,
   ⟨b!"log", .string, .single, []⟩,
   ⟨b!"info", .string, .single, []⟩,
   ⟨b!"gas_wanted", .int64, .single, []⟩,
   ⟨b!"gas_used", .int64, .single, []⟩,
   ⟨b!"events", .message, .list, b!"tendermint.abci.Event"⟩,
   ⟨b!"codespace", .string, .single, []⟩]⟩

def msg_tendermint_abci_ResponseEndBlock : MsgDesc := ⟨b!"tendermint.abci.ResponseEndBlock", [
   ⟨b!"validatorUpdates", .message, .list, b!"tendermint.abci.ValidatorUpdate"⟩,
   ⟨b!"consensusParamUpdates", .message, .single, b!"tendermint.types.ConsensusParams"⟩,
   ⟨b!"events", .message, .list, b!"tendermint.abci.Event"⟩]⟩

def msg_tendermint_abci_ResponseCommit : MsgDesc := ⟨b!"tendermint.abci.ResponseCommit", [
   ⟨b!"data", .bytes, .single, []⟩,
   ⟨b!"retainHeight", .int64, .single, []⟩]⟩

def msg_tendermint_abci_ResponseListSnapshots : MsgDesc := ⟨b!"tendermint.abci.ResponseListSnapshots", [
   ⟨b!"snapshots", .message, .list, b!"tendermint.abci.Snapshot"⟩]⟩

def msg_tendermint_abci_ResponseOfferSnapshot : MsgDesc := ⟨b!"tendermint.abci.ResponseOfferSnapshot", [
   ⟨b!"result", .enum, .single, []⟩]⟩

def msg_tendermint_abci_ResponseLoadSnapshotChunk : MsgDesc := ⟨b!"tendermint.abci.ResponseLoadSnapshotChunk", [
   ⟨b!"chunk", .bytes, .single, []⟩]⟩

def msg_tendermint_abci_ResponseApplySnapshotChunk : MsgDesc := ⟨b!"tendermint.abci.ResponseApplySnapshotChunk", [
   ⟨b!"result", .enum, .single, []⟩,
   ⟨b!"refetchChunks", .uint32, .list, []⟩,
   ⟨b!"rejectSenders", .string, .list, []⟩]⟩

def msg_tendermint_abci_LastCommitInfo : MsgDesc := ⟨b!"tendermint.abci.LastCommitInfo", [
   ⟨b!"round", .int32, .single, []⟩,
   ⟨b!"votes", .message, .list, b!"tendermint.abci.VoteInfo"⟩]⟩

def msg_tendermint_abci_Event : MsgDesc := ⟨b!"tendermint.abci.Event", [
   ⟨b!"type", .string, .single, []⟩,
   ⟨b!"attributes", .message, .list, b!"tendermint.abci.EventAttribute"⟩]⟩

def msg_tendermint_abci_EventAttribute : MsgDesc := ⟨b!"tendermint.abci.EventAttribute", [
   ⟨b!"key", .bytes, .single, []⟩,
   ⟨b!"value", .bytes, .single, []⟩,
   ⟨b!"index", .bool, .single, []⟩]⟩

def msg_tendermint_abci_TxResult : MsgDesc := ⟨b!"tendermint.abci.TxResult", [
   ⟨b!"height", .int64, .single, []⟩,
   ⟨b!"index", .uint32, .single, []⟩,
   ⟨b!"tx", .bytes, .single, []⟩,
   ⟨b!"result", .message, .single, b!"tendermint.abci.ResponseDeliverTx"⟩]⟩

def msg_tendermint_abci_Validator : MsgDesc := ⟨b!"tendermint.abci.Validator", [
   ⟨b!"address", .bytes, .single, []⟩,
   ⟨b!"power", .int64, .single, []⟩]⟩

def msg_tendermint_abci_ValidatorUpdate : MsgDesc := ⟨b!"tendermint.abci.ValidatorUpdate", [
   ⟨b!"pubKey", .message, .single, b!"tendermint.crypto.PublicKey"⟩,
   ⟨b!"power", .int64, .single, []⟩]⟩

def msg_tendermint_abci_VoteInfo : MsgDesc := ⟨b!"tendermint.abci.VoteInfo", [
   ⟨b!"validator", .message, .single, b!"tendermint.abci.Validator"⟩,
   ⟨b!"signedLastBlock", .bool, .single, []⟩]⟩

def msg_tendermint_abci_Evidence : MsgDesc := ⟨b!"tendermint.abci.Evidence", [
   ⟨b!"type", .enum, .single, []⟩,
   ⟨b!"validator", .message, .single, b!"tendermint.abci.Validator"⟩,
   ⟨b!"height", .int64, .single, []⟩,
   ⟨b!"time", .message, .single, b!"google.protobuf.Timestamp"⟩,
   ⟨b!"totalVotingPower", .int64, .single, []⟩]⟩

def msg_tendermint_abci_Snapshot : MsgDesc := ⟨b!"tendermint.abci.Snapshot", [
   ⟨b!"height", .uint64, .single, []⟩,
   ⟨b!"format", .uint32, .single, []⟩,
   ⟨b!"chunks", .uint32, .single, []⟩,
   ⟨b!"hash", .bytes, .single, []⟩,
   ⟨b!"metadata", .bytes, .single, []⟩]⟩

def doc_core_abci_tendermint_abci_types : DocFile := .mk b!"core/abci/tendermint/abci/types.proto" b!"tendermint.abci" [
   (b!"Request", msg_tendermint_abci_Request),
   (b!"RequestEcho", msg_tendermint_abci_RequestEcho),
   (b!"RequestFlush", msg_tendermint_abci_RequestFlush),
   (b!"RequestInfo", msg_tendermint_abci_RequestInfo),
   (b!"RequestInitChain", msg_tendermint_abci_RequestInitChain),
   (b!"RequestQuery", msg_tendermint_abci_RequestQuery),
   (b!"RequestBeginBlock", msg_tendermint_abci_RequestBeginBlock),
   (b!"RequestCheckTx", msg_tendermint_abci_RequestCheckTx),
   (b!"RequestDeliverTx", msg_tendermint_abci_RequestDeliverTx),
   (b!"RequestEndBlock", msg_tendermint_abci_RequestEndBlock),
   (b!"RequestCommit", msg_tendermint_abci_RequestCommit),
   (b!"RequestListSnapshots", msg_tendermint_abci_RequestListSnapshots),
   (b!"RequestOfferSnapshot", msg_tendermint_abci_RequestOfferSnapshot),
   (b!"RequestLoadSnapshotChunk", msg_tendermint_abci_RequestLoadSnapshotChunk),
   (b!"RequestApplySnapshotChunk", msg_tendermint_abci_RequestApplySnapshotChunk),
   (b!"Response", msg_tendermint_abci_Response),
   (b!"ResponseException", msg_tendermint_abci_ResponseException),
   (b!"ResponseEcho", msg_tendermint_abci_ResponseEcho),
   (b!"ResponseFlush", msg_tendermint_abci_ResponseFlush),
   (b!"ResponseInfo", msg_tendermint_abci_ResponseInfo),
   (b!"ResponseInitChain", msg_tendermint_abci_ResponseInitChain),
   (b!"ResponseQuery", msg_tendermint_abci_ResponseQuery),
   (b!"ResponseBeginBlock", msg_tendermint_abci_ResponseBeginBlock),
   (b!"ResponseCheckTx", msg_tendermint_abci_ResponseCheckTx),
   (b!"ResponseDeliverTx", msg_tendermint_abci_ResponseDeliverTx),
   (b!"ResponseEndBlock", msg_tendermint_abci_ResponseEndBlock),
   (b!"ResponseCommit", msg_tendermint_abci_ResponseCommit),
   (b!"ResponseListSnapshots", msg_tendermint_abci_ResponseListSnapshots),
   (b!"ResponseOfferSnapshot", msg_tendermint_abci_ResponseOfferSnapshot),
   (b!"ResponseLoadSnapshotChunk", msg_tendermint_abci_ResponseLoadSnapshotChunk),
   (b!"ResponseApplySnapshotChunk", msg_tendermint_abci_ResponseApplySnapshotChunk),
   (b!"LastCommitInfo", msg_tendermint_abci_LastCommitInfo),
   (b!"Event", msg_tendermint_abci_Event),
   (b!"EventAttribute", msg_tendermint_abci_EventAttribute),
   (b!"TxResult", msg_tendermint_abci_TxResult),
   (b!"Validator", msg_tendermint_abci_Validator),
   (b!"ValidatorUpdate", msg_tendermint_abci_ValidatorUpdate),
   (b!"VoteInfo", msg_tendermint_abci_VoteInfo),
   (b!"Evidence", msg_tendermint_abci_Evidence),
   (b!"Snapshot", msg_tendermint_abci_Snapshot)]
  [b!"ABCIApplication"] [doc_core_abci_tendermint_crypto_proof, doc_core_abci_tendermint_types_types, doc_core_abci_tendermint_crypto_keys, doc_core_abci_tendermint_types_params, doc_google_protobuf_timestamp]

/-! ## core/abci/v1alpha1/abci.proto -/

def msg_tmos_abci_v1alpha1_CurrentBlock : MsgDesc := ⟨b!"tmos.abci.v1alpha1.CurrentBlock", [
   ⟨b!"blockNumber", .uint64, .single, []⟩]⟩

def msg_tmos_abci_v1alpha1_Stage : MsgDesc := ⟨b!"tmos.abci.v1alpha1.Stage", [
   ⟨b!"stage", .enum, .single, []⟩]⟩

def msg_tmos_abci_v1alpha1_InitChainInfo : MsgDesc := ⟨b!"tmos.abci.v1alpha1.InitChainInfo", [
   ⟨b!"chainId", .string, .single, []⟩]⟩

def msg_tmos_abci_v1alpha1_BeginBlockState : MsgDesc := ⟨b!"tmos.abci.v1alpha1.BeginBlockState", [
   ⟨b!"beginBlock", .message, .single, b!"tendermint.abci.RequestBeginBlock"⟩]⟩

def msg_tmos_abci_v1alpha1_CheckTxState : MsgDesc := ⟨b!"tmos.abci.v1alpha1.CheckTxState", [
   ⟨b!"checkTx", .message, .single, b!"tendermint.abci.RequestCheckTx"⟩]⟩

def msg_tmos_abci_v1alpha1_DeliverTxState : MsgDesc := ⟨b!"tmos.abci.v1alpha1.DeliverTxState", [
   ⟨b!"deliverTx", .message, .single, b!"tendermint.abci.RequestDeliverTx"⟩]⟩

def msg_tmos_abci_v1alpha1_ValidatorUpdates : MsgDesc := ⟨b!"tmos.abci.v1alpha1.ValidatorUpdates", [
   ⟨b!"validatorUpdates", .message, .list, b!"tendermint.abci.ValidatorUpdate"⟩]⟩

def msg_tmos_abci_v1alpha1_EndBlockState : MsgDesc := ⟨b!"tmos.abci.v1alpha1.EndBlockState", [
   ⟨b!"endBlock", .message, .single, b!"tendermint.abci.RequestEndBlock"⟩]⟩

def msg_tmos_abci_v1alpha1_MsgSetBeginBlockState : MsgDesc := ⟨b!"tmos.abci.v1alpha1.MsgSetBeginBlockState", [
   ⟨b!"beginBlock", .message, .single, b!"tendermint.abci.RequestBeginBlock"⟩]⟩

def msg_tmos_abci_v1alpha1_MsgSetCheckTxState : MsgDesc := ⟨b!"tmos.abci.v1alpha1.MsgSetCheckTxState", [
   ⟨b!"checkTx", .message, .single, b!"tendermint.abci.RequestCheckTx"⟩]⟩

def msg_tmos_abci_v1alpha1_MsgSetDeliverTxState : MsgDesc := ⟨b!"tmos.abci.v1alpha1.MsgSetDeliverTxState", [
   ⟨b!"deliverTx", .message, .single, b!"tendermint.abci.RequestDeliverTx"⟩]⟩

def msg_tmos_abci_v1alpha1_MsgSetEndBlockState : MsgDesc := ⟨b!"tmos.abci.v1alpha1.MsgSetEndBlockState", [
   ⟨b!"endBlock", .message, .single, b!"tendermint.abci.RequestEndBlock"⟩]⟩

def msg_tmos_abci_v1alpha1_MsgSetInitChain : MsgDesc := ⟨b!"tmos.abci.v1alpha1.MsgSetInitChain", [
   ⟨b!"initChainInfo", .message, .single, b!"tmos.abci.v1alpha1.InitChainInfo"⟩]⟩

def msg_tmos_abci_v1alpha1_MsgSetValidatorUpdates : MsgDesc := ⟨b!"tmos.abci.v1alpha1.MsgSetValidatorUpdates", [
   ⟨b!"validatorUpdates", .message, .list, b!"tendermint.abci.ValidatorUpdate"⟩]⟩

def doc_core_abci_v1alpha1_abci : DocFile := .mk b!"core/abci/v1alpha1/abci.proto" b!"tmos.abci.v1alpha1" [
   (b!"CurrentBlock", msg_tmos_abci_v1alpha1_CurrentBlock),
   (b!"Stage", msg_tmos_abci_v1alpha1_Stage),
   (b!"InitChainInfo", msg_tmos_abci_v1alpha1_InitChainInfo),
   (b!"BeginBlockState", msg_tmos_abci_v1alpha1_BeginBlockState),
   (b!"CheckTxState", msg_tmos_abci_v1alpha1_CheckTxState),
   (b!"DeliverTxState", msg_tmos_abci_v1alpha1_DeliverTxState),
   (b!"ValidatorUpdates", msg_tmos_abci_v1alpha1_ValidatorUpdates),
   (b!"EndBlockState", msg_tmos_abci_v1alpha1_EndBlockState),
   (b!"MsgSetBeginBlockState", msg_tmos_abci_v1alpha1_MsgSetBeginBlockState),
   (b!"MsgSetCheckTxState", msg_tmos_abci_v1alpha1_MsgSetCheckTxState),
   (b!"MsgSetDeliverTxState", msg_tmos_abci_v1alpha1_MsgSetDeliverTxState),
   (b!"MsgSetEndBlockState", msg_tmos_abci_v1alpha1_MsgSetEndBlockState),
   (b!"MsgSetInitChain", msg_tmos_abci_v1alpha1_MsgSetInitChain),
   (b!"MsgSetValidatorUpdates", msg_tmos_abci_v1alpha1_MsgSetValidatorUpdates)]
  [] [doc_core_abci_tendermint_abci_types, doc_core_modulegen_modulegen, doc_core_rbac_xt_rbac_extension]

/-! ## third_party/proto/google/protobuf/any.proto -/

def msg_google_protobuf_Any : MsgDesc := ⟨b!"google.protobuf.Any", [
   ⟨b!"typeUrl", .string, .single, []⟩,
   ⟨b!"value", .bytes, .single, []⟩]⟩

def doc_google_protobuf_any : DocFile := .mk b!"google/protobuf/any.proto" b!"google.protobuf" [
   (b!"Any", msg_google_protobuf_Any)]
  [] []

/-! ## x/authn/v1alpha1/authn.proto -/

def msg_tmos_x_authn_v1alpha1_MsgCreateAccount : MsgDesc := ⟨b!"tmos.x.authn.v1alpha1.MsgCreateAccount", [
   ⟨b!"account", .message, .single, b!"tmos.x.authn.v1alpha1.Account"⟩]⟩

def msg_tmos_x_authn_v1alpha1_MsgUpdateAccount : MsgDesc := ⟨b!"tmos.x.authn.v1alpha1.MsgUpdateAccount", [
   ⟨b!"account", .message, .single, b!"tmos.x.authn.v1alpha1.Account"⟩]⟩

def msg_tmos_x_authn_v1alpha1_MsgDeleteAccount : MsgDesc := ⟨b!"tmos.x.authn.v1alpha1.MsgDeleteAccount", [
   ⟨b!"account", .message, .single, b!"tmos.x.authn.v1alpha1.Account"⟩]⟩

def msg_tmos_x_authn_v1alpha1_Account : MsgDesc := ⟨b!"tmos.x.authn.v1alpha1.Account", [
   ⟨b!"address", .string, .single, []⟩,
   ⟨b!"pubKey", .message, .single, b!"google.protobuf.Any"⟩,
   ⟨b!"accountNumber", .uint64, .single, []⟩,
   ⟨b!"sequence", .uint64, .single, []⟩]⟩

def msg_tmos_x_authn_v1alpha1_CurrentAccountNumber : MsgDesc := ⟨b!"tmos.x.authn.v1alpha1.CurrentAccountNumber", [
   ⟨b!"number", .uint64, .single, []⟩]⟩

def msg_tmos_x_authn_v1alpha1_Params : MsgDesc := ⟨b!"tmos.x.authn.v1alpha1.Params", [
   ⟨b!"maxMemoCharacters", .uint64, .single, []⟩,
   ⟨b!"txSigLimit", .uint64, .single, []⟩,
   ⟨b!"txSizeCostPerByte", .uint64, .single, []⟩,
   ⟨b!"sigVerifyCostEd25519", .uint64, .single, []⟩,
   ⟨b!"sigVerifyCostSecp256k1", .uint64, .single, []⟩]⟩

def doc_x_authn_v1alpha1_authn : DocFile := .mk b!"x/authn/v1alpha1/authn.proto" b!"tmos.x.authn.v1alpha1" [
   (b!"MsgCreateAccount", msg_tmos_x_authn_v1alpha1_MsgCreateAccount),
   (b!"MsgUpdateAccount", msg_tmos_x_authn_v1alpha1_MsgUpdateAccount),
   (b!"MsgDeleteAccount", msg_tmos_x_authn_v1alpha1_MsgDeleteAccount),
   (b!"Account", msg_tmos_x_authn_v1alpha1_Account),
   (b!"CurrentAccountNumber", msg_tmos_x_authn_v1alpha1_CurrentAccountNumber),
   (b!"Params", msg_tmos_x_authn_v1alpha1_Params)]
  [] [doc_google_protobuf_any, doc_core_modulegen_modulegen, doc_core_rbac_xt_rbac_extension]

/-! ## core/rbac/v1alpha1/rbac.proto -/

def msg_tmos_core_rbac_v1alpha1_Params : MsgDesc := ⟨b!"tmos.core.rbac.v1alpha1.Params", []⟩

def msg_tmos_core_rbac_v1alpha1_Role : MsgDesc := ⟨b!"tmos.core.rbac.v1alpha1.Role", [
   ⟨b!"id", .string, .single, []⟩,
   ⟨b!"gets", .string, .list, []⟩,
   ⟨b!"lists", .string, .list, []⟩,
   ⟨b!"creates", .string, .list, []⟩,
   ⟨b!"updates", .string, .list, []⟩,
   ⟨b!"deletes", .string, .list, []⟩,
   ⟨b!"delivers", .string, .list, []⟩]⟩

def msg_tmos_core_rbac_v1alpha1_RoleBinding : MsgDesc := ⟨b!"tmos.core.rbac.v1alpha1.RoleBinding", [
   ⟨b!"subject", .string, .single, []⟩,
   ⟨b!"roleRef", .string, .single, []⟩]⟩

def msg_tmos_core_rbac_v1alpha1_MsgCreateRole : MsgDesc := ⟨b!"tmos.core.rbac.v1alpha1.MsgCreateRole", [
   ⟨b!"newRole", .message, .single, b!"tmos.core.rbac.v1alpha1.Role"⟩]⟩

def msg_tmos_core_rbac_v1alpha1_MsgBindRole : MsgDesc := ⟨b!"tmos.core.rbac.v1alpha1.MsgBindRole", [
   ⟨b!"roleId", .string, .single, []⟩,
   ⟨b!"subject", .string, .single, []⟩]⟩

def doc_core_rbac_v1alpha1_rbac : DocFile := .mk b!"core/rbac/v1alpha1/rbac.proto" b!"tmos.core.rbac.v1alpha1" [
   (b!"Params", msg_tmos_core_rbac_v1alpha1_Params),
   (b!"Role", msg_tmos_core_rbac_v1alpha1_Role),
   (b!"RoleBinding", msg_tmos_core_rbac_v1alpha1_RoleBinding),
   (b!"MsgCreateRole", msg_tmos_core_rbac_v1alpha1_MsgCreateRole),
   (b!"MsgBindRole", msg_tmos_core_rbac_v1alpha1_MsgBindRole)]
  [] [doc_core_modulegen_modulegen, doc_core_rbac_xt_rbac_extension]

/-! ## core/coin/v1alpha1/coin.proto -/

def msg_tmos_core_coin_v1alpha1_Coin : MsgDesc := ⟨b!"tmos.core.coin.v1alpha1.Coin", [
   ⟨b!"denom", .string, .single, []⟩,
   ⟨b!"amount", .string, .single, []⟩]⟩

def msg_tmos_core_coin_v1alpha1_DecCoin : MsgDesc := ⟨b!"tmos.core.coin.v1alpha1.DecCoin", [
   ⟨b!"denom", .string, .single, []⟩,
   ⟨b!"amount", .string, .single, []⟩]⟩

def doc_core_coin_v1alpha1_coin : DocFile := .mk b!"core/coin/v1alpha1/coin.proto" b!"tmos.core.coin.v1alpha1" [
   (b!"Coin", msg_tmos_core_coin_v1alpha1_Coin),
   (b!"DecCoin", msg_tmos_core_coin_v1alpha1_DecCoin)]
  [] []

/-! ## x/bank/v1alpha1/bank.proto -/

def msg_tmos_x_bank_v1alpha1_MsgSendCoins : MsgDesc := ⟨b!"tmos.x.bank.v1alpha1.MsgSendCoins", [
   ⟨b!"fromAddress", .string, .single, []⟩,
   ⟨b!"toAddress", .string, .single, []⟩,
   ⟨b!"amount", .message, .list, b!"tmos.core.coin.v1alpha1.Coin"⟩]⟩

def msg_tmos_x_bank_v1alpha1_MsgSetBalance : MsgDesc := ⟨b!"tmos.x.bank.v1alpha1.MsgSetBalance", [
   ⟨b!"address", .string, .single, []⟩,
   ⟨b!"amount", .message, .list, b!"tmos.core.coin.v1alpha1.Coin"⟩]⟩

def msg_tmos_x_bank_v1alpha1_Balance : MsgDesc := ⟨b!"tmos.x.bank.v1alpha1.Balance", [
   ⟨b!"address", .string, .single, []⟩,
   ⟨b!"balance", .message, .list, b!"tmos.core.coin.v1alpha1.Coin"⟩]⟩

def msg_tmos_x_bank_v1alpha1_GenesisState : MsgDesc := ⟨b!"tmos.x.bank.v1alpha1.GenesisState", [
   ⟨b!"params", .message, .single, b!"tmos.x.bank.v1alpha1.Params"⟩,
   ⟨b!"balances", .message, .list, b!"tmos.x.bank.v1alpha1.Balance"⟩,
   ⟨b!"balance", .message, .list, b!"tmos.core.coin.v1alpha1.Coin"⟩,
   ⟨b!"denomMetadata", .message, .list, b!"tmos.x.bank.v1alpha1.Metadata"⟩]⟩

def msg_tmos_x_bank_v1alpha1_Params : MsgDesc := ⟨b!"tmos.x.bank.v1alpha1.Params", [
   ⟨b!"sendEnabled", .message, .list, b!"tmos.x.bank.v1alpha1.SendEnabled"⟩,
   ⟨b!"defaultSendEnabled", .bool, .single, []⟩]⟩

def msg_tmos_x_bank_v1alpha1_SendEnabled : MsgDesc := ⟨b!"tmos.x.bank.v1alpha1.SendEnabled", [
   ⟨b!"denom", .string, .single, []⟩,
   ⟨b!"enabled", .bool, .single, []⟩]⟩

def msg_tmos_x_bank_v1alpha1_Metadata : MsgDesc := ⟨b!"tmos.x.bank.v1alpha1.Metadata", [
   ⟨b!"description", .string, .single, []⟩,
   ⟨b!"denomUnits", .message, .list, b!"tmos.x.bank.v1alpha1.DenomUnit"⟩,
   ⟨b!"base", .string, .single, []⟩,
   ⟨b!"display", .string, .single, []⟩,
   ⟨b!"name", .string, .single, []⟩,
   ⟨b!"symbol", .string, .single, []⟩]⟩

def msg_tmos_x_bank_v1alpha1_DenomUnit : MsgDesc := ⟨b!"tmos.x.bank.v1alpha1.DenomUnit", [
   ⟨b!"denom", .string, .single, []⟩,
   ⟨b!"exponent", .uint32, .single, []⟩,
   ⟨b!"aliases", .string, .list, []⟩]⟩

def doc_x_bank_v1alpha1_bank : DocFile := .mk b!"x/bank/v1alpha1/bank.proto" b!"tmos.x.bank.v1alpha1" [
   (b!"MsgSendCoins", msg_tmos_x_bank_v1alpha1_MsgSendCoins),
   (b!"MsgSetBalance", msg_tmos_x_bank_v1alpha1_MsgSetBalance),
   (b!"Balance", msg_tmos_x_bank_v1alpha1_Balance),
   (b!"GenesisState", msg_tmos_x_bank_v1alpha1_GenesisState),
   (b!"Params", msg_tmos_x_bank_v1alpha1_Params),
   (b!"SendEnabled", msg_tmos_x_bank_v1alpha1_SendEnabled),
   (b!"Metadata", msg_tmos_x_bank_v1alpha1_Metadata),
   (b!"DenomUnit", msg_tmos_x_bank_v1alpha1_DenomUnit)]
  [] [doc_core_coin_v1alpha1_coin, doc_core_modulegen_modulegen, doc_core_rbac_xt_rbac_extension]
/-! ## All messages -/

/-- Every message of the files above, those declared inside other messages included. -/
def docMessages : List MsgOf := [
   ⟨b!"FileDescriptorSet", msg_google_protobuf_FileDescriptorSet, doc_google_protobuf_descriptor⟩,
   ⟨b!"FileDescriptorProto", msg_google_protobuf_FileDescriptorProto, doc_google_protobuf_descriptor⟩,
   ⟨b!"DescriptorProto", msg_google_protobuf_DescriptorProto, doc_google_protobuf_descriptor⟩,
   ⟨b!"ExtensionRange", msg_google_protobuf_DescriptorProto_ExtensionRange, doc_google_protobuf_descriptor⟩,
   ⟨b!"ReservedRange", msg_google_protobuf_DescriptorProto_ReservedRange, doc_google_protobuf_descriptor⟩,
   ⟨b!"ExtensionRangeOptions", msg_google_protobuf_ExtensionRangeOptions, doc_google_protobuf_descriptor⟩,
   ⟨b!"FieldDescriptorProto", msg_google_protobuf_FieldDescriptorProto, doc_google_protobuf_descriptor⟩,
   ⟨b!"OneofDescriptorProto", msg_google_protobuf_OneofDescriptorProto, doc_google_protobuf_descriptor⟩,
   ⟨b!"EnumDescriptorProto", msg_google_protobuf_EnumDescriptorProto, doc_google_protobuf_descriptor⟩,
   ⟨b!"EnumReservedRange", msg_google_protobuf_EnumDescriptorProto_EnumReservedRange, doc_google_protobuf_descriptor⟩,
   ⟨b!"EnumValueDescriptorProto", msg_google_protobuf_EnumValueDescriptorProto, doc_google_protobuf_descriptor⟩,
   ⟨b!"ServiceDescriptorProto", msg_google_protobuf_ServiceDescriptorProto, doc_google_protobuf_descriptor⟩,
   ⟨b!"MethodDescriptorProto", msg_google_protobuf_MethodDescriptorProto, doc_google_protobuf_descriptor⟩,
   ⟨b!"FileOptions", msg_google_protobuf_FileOptions, doc_google_protobuf_descriptor⟩,
   ⟨b!"MessageOptions", msg_google_protobuf_MessageOptions, doc_google_protobuf_descriptor⟩,
   ⟨b!"FieldOptions", msg_google_protobuf_FieldOptions, doc_google_protobuf_descriptor⟩,
   ⟨b!"OneofOptions", msg_google_protobuf_OneofOptions, doc_google_protobuf_descriptor⟩,
   ⟨b!"EnumOptions", msg_google_protobuf_EnumOptions, doc_google_protobuf_descriptor⟩,
   ⟨b!"EnumValueOptions", msg_google_protobuf_EnumValueOptions, doc_google_protobuf_descriptor⟩,
   ⟨b!"ServiceOptions", msg_google_protobuf_ServiceOptions, doc_google_protobuf_descriptor⟩,
   ⟨b!"MethodOptions", msg_google_protobuf_MethodOptions, doc_google_protobuf_descriptor⟩,
   ⟨b!"UninterpretedOption", msg_google_protobuf_UninterpretedOption, doc_google_protobuf_descriptor⟩,
   ⟨b!"NamePart", msg_google_protobuf_UninterpretedOption_NamePart, doc_google_protobuf_descriptor⟩,
   ⟨b!"SourceCodeInfo", msg_google_protobuf_SourceCodeInfo, doc_google_protobuf_descriptor⟩,
   ⟨b!"Location", msg_google_protobuf_SourceCodeInfo_Location, doc_google_protobuf_descriptor⟩,
   ⟨b!"GeneratedCodeInfo", msg_google_protobuf_GeneratedCodeInfo, doc_google_protobuf_descriptor⟩,
   ⟨b!"Annotation", msg_google_protobuf_GeneratedCodeInfo_Annotation, doc_google_protobuf_descriptor⟩,
   ⟨b!"StateTransitionDescriptor", msg_tmos_core_modulegen_StateTransitionDescriptor, doc_core_modulegen_modulegen⟩,
   ⟨b!"StateObjectDescriptor", msg_tmos_core_modulegen_StateObjectDescriptor, doc_core_modulegen_modulegen⟩,
   ⟨b!"APIDefinition", msg_tmos_meta_v1alpha1_APIDefinition, doc_core_meta_meta⟩,
   ⟨b!"Definition", msg_tmos_core_schema_v1_Definition, doc_core_schema_schema⟩,
   ⟨b!"Descriptor", msg_tmos_core_module_v1_Descriptor, doc_core_module_module⟩,
   ⟨b!"StateObject", msg_tmos_core_module_v1_StateObject, doc_core_module_module⟩,
   ⟨b!"StateTransition", msg_tmos_core_module_v1_StateTransition, doc_core_module_module⟩,
   ⟨b!"Dependency", msg_tmos_core_module_v1_Dependency, doc_core_module_module⟩,
   ⟨b!"StateTransitionAccessControl", msg_tmos_core_rbac_xt_StateTransitionAccessControl, doc_core_rbac_xt_rbac_extension⟩,
   ⟨b!"ModuleDescriptors", msg_tmos_runtime_v1alpha1_ModuleDescriptors, doc_core_runtime_v1alpha1_module⟩,
   ⟨b!"CreateModuleDescriptors", msg_tmos_runtime_v1alpha1_CreateModuleDescriptors, doc_core_runtime_v1alpha1_module⟩,
   ⟨b!"Proof", msg_tendermint_crypto_Proof, doc_core_abci_tendermint_crypto_proof⟩,
   ⟨b!"ValueOp", msg_tendermint_crypto_ValueOp, doc_core_abci_tendermint_crypto_proof⟩,
   ⟨b!"DominoOp", msg_tendermint_crypto_DominoOp, doc_core_abci_tendermint_crypto_proof⟩,
   ⟨b!"ProofOp", msg_tendermint_crypto_ProofOp, doc_core_abci_tendermint_crypto_proof⟩,
   ⟨b!"ProofOps", msg_tendermint_crypto_ProofOps, doc_core_abci_tendermint_crypto_proof⟩,
   ⟨b!"Timestamp", msg_google_protobuf_Timestamp, doc_google_protobuf_timestamp⟩,
   ⟨b!"Consensus", msg_tendermint_version_Consensus, doc_core_abci_tendermint_version_types⟩,
   ⟨b!"PublicKey", msg_tendermint_crypto_PublicKey, doc_core_abci_tendermint_crypto_keys⟩,
   ⟨b!"PartSetHeader", msg_tendermint_types_PartSetHeader, doc_core_abci_tendermint_types_types⟩,
   ⟨b!"Part", msg_tendermint_types_Part, doc_core_abci_tendermint_types_types⟩,
   ⟨b!"BlockID", msg_tendermint_types_BlockID, doc_core_abci_tendermint_types_types⟩,
   ⟨b!"Header", msg_tendermint_types_Header, doc_core_abci_tendermint_types_types⟩,
   ⟨b!"Data", msg_tendermint_types_Data, doc_core_abci_tendermint_types_types⟩,
   ⟨b!"Vote", msg_tendermint_types_Vote, doc_core_abci_tendermint_types_types⟩,
   ⟨b!"Commit", msg_tendermint_types_Commit, doc_core_abci_tendermint_types_types⟩,
   ⟨b!"CommitSig", msg_tendermint_types_CommitSig, doc_core_abci_tendermint_types_types⟩,
   ⟨b!"Proposal", msg_tendermint_types_Proposal, doc_core_abci_tendermint_types_types⟩,
   ⟨b!"SignedHeader", msg_tendermint_types_SignedHeader, doc_core_abci_tendermint_types_types⟩,
   ⟨b!"LightBlock", msg_tendermint_types_LightBlock, doc_core_abci_tendermint_types_types⟩,
   ⟨b!"BlockMeta", msg_tendermint_types_BlockMeta, doc_core_abci_tendermint_types_types⟩,
   ⟨b!"TxProof", msg_tendermint_types_TxProof, doc_core_abci_tendermint_types_types⟩,
   ⟨b!"ValidatorSet", msg_tendermint_types_ValidatorSet, doc_core_abci_tendermint_types_types⟩,
   ⟨b!"Validator", msg_tendermint_types_Validator, doc_core_abci_tendermint_types_types⟩,
   ⟨b!"SimpleValidator", msg_tendermint_types_SimpleValidator, doc_core_abci_tendermint_types_types⟩,
   ⟨b!"Duration", msg_google_protobuf_Duration, doc_google_protobuf_duration⟩,
   ⟨b!"ConsensusParams", msg_tendermint_types_ConsensusParams, doc_core_abci_tendermint_types_params⟩,
   ⟨b!"BlockParams", msg_tendermint_types_BlockParams, doc_core_abci_tendermint_types_params⟩,
   ⟨b!"EvidenceParams", msg_tendermint_types_EvidenceParams, doc_core_abci_tendermint_types_params⟩,
   ⟨b!"ValidatorParams", msg_tendermint_types_ValidatorParams, doc_core_abci_tendermint_types_params⟩,
   ⟨b!"VersionParams", msg_tendermint_types_VersionParams, doc_core_abci_tendermint_types_params⟩,
   ⟨b!"HashedParams", msg_tendermint_types_HashedParams, doc_core_abci_tendermint_types_params⟩,
   ⟨b!"Request", msg_tendermint_abci_Request, doc_core_abci_tendermint_abci_types⟩,
   ⟨b!"RequestEcho", msg_tendermint_abci_RequestEcho, doc_core_abci_tendermint_abci_types⟩,
   ⟨b!"RequestFlush", msg_tendermint_abci_RequestFlush, doc_core_abci_tendermint_abci_types⟩,
   ⟨b!"RequestInfo", msg_tendermint_abci_RequestInfo, doc_core_abci_tendermint_abci_types⟩,
   ⟨b!"RequestInitChain", msg_tendermint_abci_RequestInitChain, doc_core_abci_tendermint_abci_types⟩,
   ⟨b!"RequestQuery", msg_tendermint_abci_RequestQuery, doc_core_abci_tendermint_abci_types⟩,
   ⟨b!"RequestBeginBlock", msg_tendermint_abci_RequestBeginBlock, doc_core_abci_tendermint_abci_types⟩,
   ⟨b!"RequestCheckTx", msg_tendermint_abci_RequestCheckTx, doc_core_abci_tendermint_abci_types⟩,
   ⟨b!"RequestDeliverTx", msg_tendermint_abci_RequestDeliverTx, doc_core_abci_tendermint_abci_types⟩,
   ⟨b!"RequestEndBlock", msg_tendermint_abci_RequestEndBlock, doc_core_abci_tendermint_abci_types⟩,
   ⟨b!"RequestCommit", msg_tendermint_abci_RequestCommit, doc_core_abci_tendermint_abci_types⟩,
   ⟨b!"RequestListSnapshots", msg_tendermint_abci_RequestListSnapshots, doc_core_abci_tendermint_abci_types⟩,
   ⟨b!"RequestOfferSnapshot", msg_tendermint_abci_RequestOfferSnapshot, doc_core_abci_tendermint_abci_types⟩,
   ⟨b!"RequestLoadSnapshotChunk", msg_tendermint_abci_RequestLoadSnapshotChunk, doc_core_abci_tendermint_abci_types⟩,
   ⟨b!"RequestApplySnapshotChunk", msg_tendermint_abci_RequestApplySnapshotChunk, doc_core_abci_tendermint_abci_types⟩,
   ⟨b!"Response", msg_tendermint_abci_Response, doc_core_abci_tendermint_abci_types⟩,
   ⟨b!"ResponseException", msg_tendermint_abci_ResponseException, doc_core_abci_tendermint_abci_types⟩,
   ⟨b!"ResponseEcho", msg_tendermint_abci_ResponseEcho, doc_core_abci_tendermint_abci_types⟩,
   ⟨b!"ResponseFlush", msg_tendermint_abci_ResponseFlush, doc_core_abci_tendermint_abci_types⟩,
   ⟨b!"ResponseInfo", msg_tendermint_abci_ResponseInfo, doc_core_abci_tendermint_abci_types⟩,
   ⟨b!"ResponseInitChain", msg_tendermint_abci_ResponseInitChain, doc_core_abci_tendermint_abci_types⟩,
   ⟨b!"ResponseQuery", msg_tendermint_abci_ResponseQuery, doc_core_abci_tendermint_abci_types⟩,
   ⟨b!"ResponseBeginBlock", msg_tendermint_abci_ResponseBeginBlock, doc_core_abci_tendermint_abci_types⟩,
   ⟨b!"ResponseCheckTx", msg_tendermint_abci_ResponseCheckTx, doc_core_abci_tendermint_abci_types⟩,
   ⟨b!"ResponseDeliverTx", msg_tendermint_abci_ResponseDeliverTx, doc_core_abci_tendermint_abci_types⟩,
   ⟨b!"ResponseEndBlock", msg_tendermint_abci_ResponseEndBlock, doc_core_abci_tendermint_abci_types⟩,
   ⟨b!"ResponseCommit", msg_tendermint_abci_ResponseCommit, doc_core_abci_tendermint_abci_types⟩,
   ⟨b!"ResponseListSnapshots", msg_tendermint_abci_ResponseListSnapshots, doc_core_abci_tendermint_abci_types⟩,
   ⟨b!"ResponseOfferSnapshot", msg_tendermint_abci_ResponseOfferSnapshot, doc_core_abci_tendermint_abci_types⟩,
   ⟨b!"ResponseLoadSnapshotChunk", msg_tendermint_abci_ResponseLoadSnapshotChunk, doc_core_abci_tendermint_abci_types⟩,
   ⟨b!"ResponseApplySnapshotChunk", msg_tendermint_abci_ResponseApplySnapshotChunk, doc_core_abci_tendermint_abci_types⟩,
   ⟨b!"LastCommitInfo", msg_tendermint_abci_LastCommitInfo, doc_core_abci_tendermint_abci_types⟩,
   ⟨b!"Event", msg_tendermint_abci_Event, doc_core_abci_tendermint_abci_types⟩,
   ⟨b!"EventAttribute", msg_tendermint_abci_EventAttribute, doc_core_abci_tendermint_abci_types⟩,
   ⟨b!"TxResult", msg_tendermint_abci_TxResult, doc_core_abci_tendermint_abci_types⟩,
   ⟨b!"Validator", msg_tendermint_abci_Validator, doc_core_abci_tendermint_abci_types⟩,
   ⟨b!"ValidatorUpdate", msg_tendermint_abci_ValidatorUpdate, doc_core_abci_tendermint_abci_types⟩,
   ⟨b!"VoteInfo", msg_tendermint_abci_VoteInfo, doc_core_abci_tendermint_abci_types⟩,
   ⟨b!"Evidence", msg_tendermint_abci_Evidence, doc_core_abci_tendermint_abci_types⟩,
   ⟨b!"Snapshot", msg_tendermint_abci_Snapshot, doc_core_abci_tendermint_abci_types⟩,
   ⟨b!"CurrentBlock", msg_tmos_abci_v1alpha1_CurrentBlock, doc_core_abci_v1alpha1_abci⟩,
   ⟨b!"Stage", msg_tmos_abci_v1alpha1_Stage, doc_core_abci_v1alpha1_abci⟩,
   ⟨b!"InitChainInfo", msg_tmos_abci_v1alpha1_InitChainInfo, doc_core_abci_v1alpha1_abci⟩,
   ⟨b!"BeginBlockState", msg_tmos_abci_v1alpha1_BeginBlockState, doc_core_abci_v1alpha1_abci⟩,
   ⟨b!"CheckTxState", msg_tmos_abci_v1alpha1_CheckTxState, doc_core_abci_v1alpha1_abci⟩,
   ⟨b!"DeliverTxState", msg_tmos_abci_v1alpha1_DeliverTxState, doc_core_abci_v1alpha1_abci⟩,
   ⟨b!"ValidatorUpdates", msg_tmos_abci_v1alpha1_ValidatorUpdates, doc_core_abci_v1alpha1_abci⟩,
   ⟨b!"EndBlockState", msg_tmos_abci_v1alpha1_EndBlockState, doc_core_abci_v1alpha1_abci⟩,
   ⟨b!"MsgSetBeginBlockState", msg_tmos_abci_v1alpha1_MsgSetBeginBlockState, doc_core_abci_v1alpha1_abci⟩,
   ⟨b!"MsgSetCheckTxState", msg_tmos_abci_v1alpha1_MsgSetCheckTxState, doc_core_abci_v1alpha1_abci⟩,
   ⟨b!"MsgSetDeliverTxState", msg_tmos_abci_v1alpha1_MsgSetDeliverTxState, doc_core_abci_v1alpha1_abci⟩,
   ⟨b!"MsgSetEndBlockState", msg_tmos_abci_v1alpha1_MsgSetEndBlockState, doc_core_abci_v1alpha1_abci⟩,
   ⟨b!"MsgSetInitChain", msg_tmos_abci_v1alpha1_MsgSetInitChain, doc_core_abci_v1alpha1_abci⟩,
   ⟨b!"MsgSetValidatorUpdates", msg_tmos_abci_v1alpha1_MsgSetValidatorUpdates, doc_core_abci_v1alpha1_abci⟩,
   ⟨b!"Any", msg_google_protobuf_Any, doc_google_protobuf_any⟩,
   ⟨b!"MsgCreateAccount", msg_tmos_x_authn_v1alpha1_MsgCreateAccount, doc_x_authn_v1alpha1_authn⟩,
   ⟨b!"MsgUpdateAccount", msg_tmos_x_authn_v1alpha1_MsgUpdateAccount, doc_x_authn_v1alpha1_authn⟩,
   ⟨b!"MsgDeleteAccount", msg_tmos_x_authn_v1alpha1_MsgDeleteAccount, doc_x_authn_v1alpha1_authn⟩,
   ⟨b!"Account", msg_tmos_x_authn_v1alpha1_Account, doc_x_authn_v1alpha1_authn⟩,
   ⟨b!"CurrentAccountNumber", msg_tmos_x_authn_v1alpha1_CurrentAccountNumber, doc_x_authn_v1alpha1_authn⟩,
   ⟨b!"Params", msg_tmos_x_authn_v1alpha1_Params, doc_x_authn_v1alpha1_authn⟩,
   ⟨b!"Params", msg_tmos_core_rbac_v1alpha1_Params, doc_core_rbac_v1alpha1_rbac⟩,
   ⟨b!"Role", msg_tmos_core_rbac_v1alpha1_Role, doc_core_rbac_v1alpha1_rbac⟩,
   ⟨b!"RoleBinding", msg_tmos_core_rbac_v1alpha1_RoleBinding, doc_core_rbac_v1alpha1_rbac⟩,
   ⟨b!"MsgCreateRole", msg_tmos_core_rbac_v1alpha1_MsgCreateRole, doc_core_rbac_v1alpha1_rbac⟩,
   ⟨b!"MsgBindRole", msg_tmos_core_rbac_v1alpha1_MsgBindRole, doc_core_rbac_v1alpha1_rbac⟩,
   ⟨b!"Coin", msg_tmos_core_coin_v1alpha1_Coin, doc_core_coin_v1alpha1_coin⟩,
   ⟨b!"DecCoin", msg_tmos_core_coin_v1alpha1_DecCoin, doc_core_coin_v1alpha1_coin⟩,
   ⟨b!"MsgSendCoins", msg_tmos_x_bank_v1alpha1_MsgSendCoins, doc_x_bank_v1alpha1_bank⟩,
   ⟨b!"MsgSetBalance", msg_tmos_x_bank_v1alpha1_MsgSetBalance, doc_x_bank_v1alpha1_bank⟩,
   ⟨b!"Balance", msg_tmos_x_bank_v1alpha1_Balance, doc_x_bank_v1alpha1_bank⟩,
   ⟨b!"GenesisState", msg_tmos_x_bank_v1alpha1_GenesisState, doc_x_bank_v1alpha1_bank⟩,
   ⟨b!"Params", msg_tmos_x_bank_v1alpha1_Params, doc_x_bank_v1alpha1_bank⟩,
   ⟨b!"SendEnabled", msg_tmos_x_bank_v1alpha1_SendEnabled, doc_x_bank_v1alpha1_bank⟩,
   ⟨b!"Metadata", msg_tmos_x_bank_v1alpha1_Metadata, doc_x_bank_v1alpha1_bank⟩,
   ⟨b!"DenomUnit", msg_tmos_x_bank_v1alpha1_DenomUnit, doc_x_bank_v1alpha1_bank⟩]

/-- The messages by full name. -/
def docEnv : DocEnv := fun n =>
  (docMessages.find? fun m => m.desc.fullName = n).getD ⟨[], ⟨n, []⟩, .mk [] [] [] [] []⟩

end Verif
