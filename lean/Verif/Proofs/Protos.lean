import Verif.Model.Protos
import Verif.Spec.OpenApi
import Mathlib.Data.List.Nodup
/-!
# Facts about the protobuf files of the application
-/

namespace Verif

open Spec

/-- The files. -/
def docFiles : List DocFile := [
  doc_google_protobuf_descriptor,
  doc_core_modulegen_modulegen,
  doc_core_meta_meta,
  doc_core_schema_schema,
  doc_core_module_module,
  doc_core_rbac_xt_rbac_extension,
  doc_core_runtime_v1alpha1_module,
  doc_core_abci_tendermint_crypto_proof,
  doc_google_protobuf_timestamp,
  doc_core_abci_tendermint_version_types,
  doc_core_abci_tendermint_crypto_keys,
  doc_core_abci_tendermint_types_types,
  doc_google_protobuf_duration,
  doc_core_abci_tendermint_types_params,
  doc_core_abci_tendermint_abci_types,
  doc_core_abci_v1alpha1_abci,
  doc_google_protobuf_any,
  doc_x_authn_v1alpha1_authn,
  doc_core_rbac_v1alpha1_rbac,
  doc_core_coin_v1alpha1_coin,
  doc_x_bank_v1alpha1_bank]

theorem docFiles_closed : ∀ f ∈ docFiles, ∀ i ∈ f.imports, i ∈ docFiles := by
  unfold docFiles
  simp only [List.forall_mem_cons]
  refine ⟨?_, ?_, ?_, ?_, ?_, ?_, ?_, ?_, ?_, ?_, ?_, ?_, ?_, ?_, ?_, ?_, ?_, ?_, ?_, ?_, ?_, by simp⟩
  · show ∀ i ∈ ([] : List DocFile), _; simp only [List.not_mem_nil, false_imp_iff, implies_true]
  · show ∀ i ∈ [doc_google_protobuf_descriptor], i ∈ docFiles
    simp only [List.forall_mem_cons]
    exact ⟨List.mem_of_getElem? (i := 0) rfl, by simp⟩
  · show ∀ i ∈ ([] : List DocFile), _; simp only [List.not_mem_nil, false_imp_iff, implies_true]
  · show ∀ i ∈ ([] : List DocFile), _; simp only [List.not_mem_nil, false_imp_iff, implies_true]
  · show ∀ i ∈ [doc_core_meta_meta, doc_core_schema_schema, doc_google_protobuf_descriptor], i ∈ docFiles
    simp only [List.forall_mem_cons]
    exact ⟨List.mem_of_getElem? (i := 2) rfl, List.mem_of_getElem? (i := 3) rfl, List.mem_of_getElem? (i := 0) rfl, by simp⟩
  · show ∀ i ∈ [doc_google_protobuf_descriptor], i ∈ docFiles
    simp only [List.forall_mem_cons]
    exact ⟨List.mem_of_getElem? (i := 0) rfl, by simp⟩
  · show ∀ i ∈ [doc_core_modulegen_modulegen, doc_core_module_module, doc_core_rbac_xt_rbac_extension], i ∈ docFiles
    simp only [List.forall_mem_cons]
    exact ⟨List.mem_of_getElem? (i := 1) rfl, List.mem_of_getElem? (i := 4) rfl, List.mem_of_getElem? (i := 5) rfl, by simp⟩
  · show ∀ i ∈ ([] : List DocFile), _; simp only [List.not_mem_nil, false_imp_iff, implies_true]
  · show ∀ i ∈ ([] : List DocFile), _; simp only [List.not_mem_nil, false_imp_iff, implies_true]
  · show ∀ i ∈ ([] : List DocFile), _; simp only [List.not_mem_nil, false_imp_iff, implies_true]
  · show ∀ i ∈ ([] : List DocFile), _; simp only [List.not_mem_nil, false_imp_iff, implies_true]
  · show ∀ i ∈ [doc_google_protobuf_timestamp, doc_core_abci_tendermint_crypto_proof, doc_core_abci_tendermint_version_types, doc_core_abci_tendermint_crypto_keys], i ∈ docFiles
    simp only [List.forall_mem_cons]
    exact ⟨List.mem_of_getElem? (i := 8) rfl, List.mem_of_getElem? (i := 7) rfl, List.mem_of_getElem? (i := 9) rfl, List.mem_of_getElem? (i := 10) rfl, by simp⟩
  · show ∀ i ∈ ([] : List DocFile), _; simp only [List.not_mem_nil, false_imp_iff, implies_true]
  · show ∀ i ∈ [doc_google_protobuf_duration], i ∈ docFiles
    simp only [List.forall_mem_cons]
    exact ⟨List.mem_of_getElem? (i := 12) rfl, by simp⟩
  · show ∀ i ∈ [doc_core_abci_tendermint_crypto_proof, doc_core_abci_tendermint_types_types, doc_core_abci_tendermint_crypto_keys, doc_core_abci_tendermint_types_params, doc_google_protobuf_timestamp], i ∈ docFiles
    simp only [List.forall_mem_cons]
    exact ⟨List.mem_of_getElem? (i := 7) rfl, List.mem_of_getElem? (i := 11) rfl, List.mem_of_getElem? (i := 10) rfl, List.mem_of_getElem? (i := 13) rfl, List.mem_of_getElem? (i := 8) rfl, by simp⟩
  · show ∀ i ∈ [doc_core_abci_tendermint_abci_types, doc_core_modulegen_modulegen, doc_core_rbac_xt_rbac_extension], i ∈ docFiles
    simp only [List.forall_mem_cons]
    exact ⟨List.mem_of_getElem? (i := 14) rfl, List.mem_of_getElem? (i := 1) rfl, List.mem_of_getElem? (i := 5) rfl, by simp⟩
  · show ∀ i ∈ ([] : List DocFile), _; simp only [List.not_mem_nil, false_imp_iff, implies_true]
  · show ∀ i ∈ [doc_google_protobuf_any, doc_core_modulegen_modulegen, doc_core_rbac_xt_rbac_extension], i ∈ docFiles
    simp only [List.forall_mem_cons]
    exact ⟨List.mem_of_getElem? (i := 16) rfl, List.mem_of_getElem? (i := 1) rfl, List.mem_of_getElem? (i := 5) rfl, by simp⟩
  · show ∀ i ∈ [doc_core_modulegen_modulegen, doc_core_rbac_xt_rbac_extension], i ∈ docFiles
    simp only [List.forall_mem_cons]
    exact ⟨List.mem_of_getElem? (i := 1) rfl, List.mem_of_getElem? (i := 5) rfl, by simp⟩
  · show ∀ i ∈ ([] : List DocFile), _; simp only [List.not_mem_nil, false_imp_iff, implies_true]
  · show ∀ i ∈ [doc_core_coin_v1alpha1_coin, doc_core_modulegen_modulegen, doc_core_rbac_xt_rbac_extension], i ∈ docFiles
    simp only [List.forall_mem_cons]
    exact ⟨List.mem_of_getElem? (i := 19) rfl, List.mem_of_getElem? (i := 1) rfl, List.mem_of_getElem? (i := 5) rfl, by simp⟩

theorem docMessages_files : ∀ m ∈ docMessages, m.file ∈ docFiles := by
  unfold docMessages
  simp only [List.forall_mem_cons]
  exact ⟨List.mem_of_getElem? (i := 0) rfl,
    List.mem_of_getElem? (i := 0) rfl,
    List.mem_of_getElem? (i := 0) rfl,
    List.mem_of_getElem? (i := 0) rfl,
    List.mem_of_getElem? (i := 0) rfl,
    List.mem_of_getElem? (i := 0) rfl,
    List.mem_of_getElem? (i := 0) rfl,
    List.mem_of_getElem? (i := 0) rfl,
    List.mem_of_getElem? (i := 0) rfl,
    List.mem_of_getElem? (i := 0) rfl,
    List.mem_of_getElem? (i := 0) rfl,
    List.mem_of_getElem? (i := 0) rfl,
    List.mem_of_getElem? (i := 0) rfl,
    List.mem_of_getElem? (i := 0) rfl,
    List.mem_of_getElem? (i := 0) rfl,
    List.mem_of_getElem? (i := 0) rfl,
    List.mem_of_getElem? (i := 0) rfl,
    List.mem_of_getElem? (i := 0) rfl,
    List.mem_of_getElem? (i := 0) rfl,
    List.mem_of_getElem? (i := 0) rfl,
    List.mem_of_getElem? (i := 0) rfl,
    List.mem_of_getElem? (i := 0) rfl,
    List.mem_of_getElem? (i := 0) rfl,
    List.mem_of_getElem? (i := 0) rfl,
    List.mem_of_getElem? (i := 0) rfl,
    List.mem_of_getElem? (i := 0) rfl,
    List.mem_of_getElem? (i := 0) rfl,
    List.mem_of_getElem? (i := 1) rfl,
    List.mem_of_getElem? (i := 1) rfl,
    List.mem_of_getElem? (i := 2) rfl,
    List.mem_of_getElem? (i := 3) rfl,
    List.mem_of_getElem? (i := 4) rfl,
    List.mem_of_getElem? (i := 4) rfl,
    List.mem_of_getElem? (i := 4) rfl,
    List.mem_of_getElem? (i := 4) rfl,
    List.mem_of_getElem? (i := 5) rfl,
    List.mem_of_getElem? (i := 6) rfl,
    List.mem_of_getElem? (i := 6) rfl,
    List.mem_of_getElem? (i := 7) rfl,
    List.mem_of_getElem? (i := 7) rfl,
    List.mem_of_getElem? (i := 7) rfl,
    List.mem_of_getElem? (i := 7) rfl,
    List.mem_of_getElem? (i := 7) rfl,
    List.mem_of_getElem? (i := 8) rfl,
    List.mem_of_getElem? (i := 9) rfl,
    List.mem_of_getElem? (i := 10) rfl,
    List.mem_of_getElem? (i := 11) rfl,
    List.mem_of_getElem? (i := 11) rfl,
    List.mem_of_getElem? (i := 11) rfl,
    List.mem_of_getElem? (i := 11) rfl,
    List.mem_of_getElem? (i := 11) rfl,
    List.mem_of_getElem? (i := 11) rfl,
    List.mem_of_getElem? (i := 11) rfl,
    List.mem_of_getElem? (i := 11) rfl,
    List.mem_of_getElem? (i := 11) rfl,
    List.mem_of_getElem? (i := 11) rfl,
    List.mem_of_getElem? (i := 11) rfl,
    List.mem_of_getElem? (i := 11) rfl,
    List.mem_of_getElem? (i := 11) rfl,
    List.mem_of_getElem? (i := 11) rfl,
    List.mem_of_getElem? (i := 11) rfl,
    List.mem_of_getElem? (i := 11) rfl,
    List.mem_of_getElem? (i := 12) rfl,
    List.mem_of_getElem? (i := 13) rfl,
    List.mem_of_getElem? (i := 13) rfl,
    List.mem_of_getElem? (i := 13) rfl,
    List.mem_of_getElem? (i := 13) rfl,
    List.mem_of_getElem? (i := 13) rfl,
    List.mem_of_getElem? (i := 13) rfl,
    List.mem_of_getElem? (i := 14) rfl,
    List.mem_of_getElem? (i := 14) rfl,
    List.mem_of_getElem? (i := 14) rfl,
    List.mem_of_getElem? (i := 14) rfl,
    List.mem_of_getElem? (i := 14) rfl,
    List.mem_of_getElem? (i := 14) rfl,
    List.mem_of_getElem? (i := 14) rfl,
    List.mem_of_getElem? (i := 14) rfl,
    List.mem_of_getElem? (i := 14) rfl,
    List.mem_of_getElem? (i := 14) rfl,
    List.mem_of_getElem? (i := 14) rfl,
    List.mem_of_getElem? (i := 14) rfl,
    List.mem_of_getElem? (i := 14) rfl,
    List.mem_of_getElem? (i := 14) rfl,
    List.mem_of_getElem? (i := 14) rfl,
    List.mem_of_getElem? (i := 14) rfl,
    List.mem_of_getElem? (i := 14) rfl,
    List.mem_of_getElem? (i := 14) rfl,
    List.mem_of_getElem? (i := 14) rfl,
    List.mem_of_getElem? (i := 14) rfl,
    List.mem_of_getElem? (i := 14) rfl,
    List.mem_of_getElem? (i := 14) rfl,
    List.mem_of_getElem? (i := 14) rfl,
    List.mem_of_getElem? (i := 14) rfl,
    List.mem_of_getElem? (i := 14) rfl,
    List.mem_of_getElem? (i := 14) rfl,
    List.mem_of_getElem? (i := 14) rfl,
    List.mem_of_getElem? (i := 14) rfl,
    List.mem_of_getElem? (i := 14) rfl,
    List.mem_of_getElem? (i := 14) rfl,
    List.mem_of_getElem? (i := 14) rfl,
    List.mem_of_getElem? (i := 14) rfl,
    List.mem_of_getElem? (i := 14) rfl,
    List.mem_of_getElem? (i := 14) rfl,
    List.mem_of_getElem? (i := 14) rfl,
    List.mem_of_getElem? (i := 14) rfl,
    List.mem_of_getElem? (i := 14) rfl,
    List.mem_of_getElem? (i := 14) rfl,
    List.mem_of_getElem? (i := 14) rfl,
    List.mem_of_getElem? (i := 14) rfl,
    List.mem_of_getElem? (i := 15) rfl,
    List.mem_of_getElem? (i := 15) rfl,
    List.mem_of_getElem? (i := 15) rfl,
    List.mem_of_getElem? (i := 15) rfl,
    List.mem_of_getElem? (i := 15) rfl,
    List.mem_of_getElem? (i := 15) rfl,
    List.mem_of_getElem? (i := 15) rfl,
    List.mem_of_getElem? (i := 15) rfl,
    List.mem_of_getElem? (i := 15) rfl,
    List.mem_of_getElem? (i := 15) rfl,
    List.mem_of_getElem? (i := 15) rfl,
    List.mem_of_getElem? (i := 15) rfl,
    List.mem_of_getElem? (i := 15) rfl,
    List.mem_of_getElem? (i := 15) rfl,
    List.mem_of_getElem? (i := 16) rfl,
    List.mem_of_getElem? (i := 17) rfl,
    List.mem_of_getElem? (i := 17) rfl,
    List.mem_of_getElem? (i := 17) rfl,
    List.mem_of_getElem? (i := 17) rfl,
    List.mem_of_getElem? (i := 17) rfl,
    List.mem_of_getElem? (i := 17) rfl,
    List.mem_of_getElem? (i := 18) rfl,
    List.mem_of_getElem? (i := 18) rfl,
    List.mem_of_getElem? (i := 18) rfl,
    List.mem_of_getElem? (i := 18) rfl,
    List.mem_of_getElem? (i := 18) rfl,
    List.mem_of_getElem? (i := 19) rfl,
    List.mem_of_getElem? (i := 19) rfl,
    List.mem_of_getElem? (i := 20) rfl,
    List.mem_of_getElem? (i := 20) rfl,
    List.mem_of_getElem? (i := 20) rfl,
    List.mem_of_getElem? (i := 20) rfl,
    List.mem_of_getElem? (i := 20) rfl,
    List.mem_of_getElem? (i := 20) rfl,
    List.mem_of_getElem? (i := 20) rfl,
    List.mem_of_getElem? (i := 20) rfl, by simp⟩


/-- The names differ. -/
theorem docMessages_names : (docMessages.map fun m => m.desc.fullName).Nodup := by decide +kernel

/-- The types of fields are messages of the files. -/
theorem docMessages_nested : ∀ m ∈ docMessages, ∀ n ∈ m.desc.nested,
    (docMessages.find? fun x => x.desc.fullName = n).isSome := by decide +kernel

/-- No name is one that `forge.List` makes up. -/
theorem docMessages_compiled : ∀ m ∈ docMessages, ¬ b!"dynamic." <+: m.desc.fullName ∧
    ¬ b!"dynamic." <+: topName m.file m.name := by decide +kernel

/-- What is looked for under the short name of a nested message is not declared. -/
theorem docMessages_top : ∀ m ∈ docMessages, m.desc.fullName = topName m.file m.name ∨
    ∀ x ∈ docMessages, x.desc.fullName ≠ topName m.file m.name := by decide +kernel

/-- The messages of the files. -/
theorem docFiles_messages : ∀ f ∈ docFiles, ∀ m ∈ f.messages, m.2.fullName = topName f m.1 ∧
    ∃ x ∈ docMessages, x.desc = m.2 := by decide +kernel

theorem docFiles_paths : (docFiles.map DocFile.path).Nodup := by decide +kernel

theorem docFiles_compiled : ∀ f ∈ docFiles, ¬ b!"dynamic/" <+: f.path := by decide +kernel

/-- Only abci.proto has a service. -/
theorem docFiles_services : ∀ f ∈ docFiles, f.services ≠ [] → f.path = b!"core/abci/tendermint/abci/types.proto" := by
  decide +kernel

end Verif
