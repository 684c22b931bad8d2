import Verif.Props.OpenApi
import Verif.Model.Files
import Verif.Spec.SampleApp
/-!
# The OpenAPI document of the application
-/

namespace Verif.Props

open Verif Spec

variable {ord : MapOrder}

/-! ## C84 -/

/-- The nesting of messages without end in `ModuleDescriptors`: a description of a protobuf message
contains descriptions of the messages declared in it. -/
def descriptorChain : Nat → Bytes
  | 0 => b!"tmos.runtime.v1alpha1.ModuleDescriptors"
  | 1 => b!"tmos.core.module.v1.Descriptor"
  | 2 => b!"tmos.core.module.v1.StateObject"
  | 3 => b!"google.protobuf.FileDescriptorProto"
  | _ + 4 => b!"google.protobuf.DescriptorProto"

theorem descriptorChain_mentions (i : Nat) :
    Mentions docEnv (docEnv (descriptorChain i)) (docEnv (descriptorChain (i + 1))) := by
  refine mentions_iff.2 ⟨descriptorChain (i + 1), ?_, rfl⟩
  match i with
  | 0 => decide +kernel
  | 1 => decide +kernel
  | 2 => decide +kernel
  | 3 => decide +kernel
  | _ + 4 => exact (by decide +kernel : b!"google.protobuf.DescriptorProto" ∈
      (docEnv b!"google.protobuf.DescriptorProto").desc.nested)

/-- C84, what fails in the application: the descriptors of the modules, which the API server serves as
any other state object, contain descriptions of protobuf files.  With some order of iteration the API
server never gets past them. -/
theorem C84_application_fails (lib : Libs) :
    ∃ ord, IsOrder ord ∧ ∀ fuel, apiDocument docEnv ord fuel (appApiObjects lib) = none := by
  refine ⟨chase fun i => docEnv (descriptorChain i), isOrder_chase _, fun fuel => ?_⟩
  have happ : ∃ rest, appApiObjects lib = ⟨docEnv (descriptorChain 0), Obj.api (.moduleDescriptors []),
      { singleton := true }⟩ :: rest := ⟨_, rfl⟩
  obtain ⟨rest, he⟩ := happ
  rw [he]
  have first : ∀ (o : ApiObject) (os : List ApiObject) (ord : MapOrder), o.schema.singleton = true →
      (∀ g : Gen, g.iterations = 0 → g.marked = [] → addRequired docEnv ord fuel g o.msg = none) →
      apiDocument docEnv ord fuel (o :: os) = none := by
    intro o os ord hs h
    unfold apiDocument
    rw [addApiObjects, addApiObject, if_pos hs, h _ rfl rfl]
    rfl
  exact first _ _ _ rfl fun g hi hm => chase_diverges docEnv_known
    (c := fun i => docEnv (descriptorChain i)) descriptorChain_mentions fuel 0 g hi hm

/-- ... with the order of the fields, it builds the document. -/
theorem C84_application_some_order (lib : Libs) :
    ∃ fuel d, apiDocument docEnv fieldOrder fuel (appApiObjects lib) = some d := by
  have h : (apiDocument docEnv fieldOrder 30 (appApiObjects (sampleLib []))).isSome = true := by decide +kernel
  obtain ⟨d, hd⟩ := Option.isSome_iff_exists.1 h
  exact ⟨30, d, hd⟩

/-! ## The two models of the files agree -/

/-- The messages of the state objects are those of the registry of the ORM. -/
theorem appApiObjects_descs (lib : Libs) : ∀ e ∈ (appModules lib).flatMap (·.objects),
    (docEnv e.desc.fullName).desc = e.desc := by
  have : ∀ e ∈ (appModules (sampleLib [])).flatMap (·.objects), (docEnv e.desc.fullName).desc = e.desc := by
    decide +kernel
  exact this

/-- Paths, packages, names of messages and imports are those of the files that the modules describe. -/
theorem docFiles_agree : docFiles.map (fun f => (f.path, f.package, f.messages.map (·.1), f.imports.map DocFile.path)) =
    [file_google_protobuf_descriptor,
      file_core_modulegen_modulegen,
      file_core_meta_meta,
      file_core_schema_schema,
      file_core_module_module,
      file_core_rbac_xt_rbac_extension,
      file_core_runtime_v1alpha1_module,
      file_core_abci_tendermint_crypto_proof,
      file_google_protobuf_timestamp,
      file_core_abci_tendermint_version_types,
      file_core_abci_tendermint_crypto_keys,
      file_core_abci_tendermint_types_types,
      file_google_protobuf_duration,
      file_core_abci_tendermint_types_params,
      file_core_abci_tendermint_abci_types,
      file_core_abci_v1alpha1_abci,
      file_google_protobuf_any,
      file_x_authn_v1alpha1_authn,
      file_core_rbac_v1alpha1_rbac,
      file_core_coin_v1alpha1_coin,
      file_x_bank_v1alpha1_bank].map (fun f => (f.path, f.content.package, f.content.messages.map (·.1), f.imports.map File.path)) := by
  decide +kernel

/-! ## C86 and C89 -/

theorem fromFiles_app (lib : Libs) : FromFiles (appApiObjects lib) := by
  have names : ∀ n ∈ ((appModules (sampleLib [])).flatMap (·.objects)).map (fun e => e.desc.fullName),
      (docMessages.find? fun x => x.desc.fullName = n).isSome ∧
        (docEnv n).desc.fullName = topName (docEnv n).file (docEnv n).name := by decide +kernel
  intro o ho
  obtain ⟨e, he, rfl⟩ := List.mem_map.1 ho
  obtain ⟨h1, h2⟩ := names e.desc.fullName (List.mem_map_of_mem he)
  refine ⟨?_, h2⟩
  obtain ⟨x, hx⟩ := Option.isSome_iff_exists.1 h1
  show docEnv e.desc.fullName ∈ docMessages
  unfold docEnv
  rw [hx]
  exact List.mem_of_find?_eq_some hx

/-- The references of the document of the application that do not resolve. -/
def danglingRefs : List Bytes := [
  b!"#/components/schemas/dynamic.tmos.core.rbac.v1alpha1.RoleBindingList",
  b!"#/components/schemas/google.protobuf.ExtensionRange",
  b!"#/components/schemas/google.protobuf.ReservedRange",
  b!"#/components/schemas/google.protobuf.EnumReservedRange",
  b!"#/components/schemas/google.protobuf.Location",
  b!"#/components/schemas/google.protobuf.NamePart"]

/-- The document of the application. -/
def appDocument : Document := ((apiDocument docEnv fieldOrder 30 (appApiObjects (sampleLib []))).getD ⟨[], [], []⟩)

theorem appDocument_eq (lib : Libs) (ho : IsOrder ord) {fuel : Nat} {d : Document}
    (h : apiDocument docEnv ord fuel (appApiObjects lib) = some d) : d = appDocument := by
  have h0 : ∃ d0, apiDocument docEnv fieldOrder 30 (appApiObjects (sampleLib [])) = some d0 :=
    Option.isSome_iff_exists.1 (by decide +kernel)
  obtain ⟨d0, h0⟩ := h0
  have : appDocument = d0 := by unfold appDocument; rw [h0]; rfl
  rw [this]
  exact C89_files ho isOrder_fieldOrder (fromFiles_app lib) h h0

theorem appDocument_dangling : (∀ r ∈ docRefs appDocument, r ∈ danglingRefs ∨
      ∃ s ∈ appDocument.schemas, r = b!"#/components/schemas/" ++ s.1) ∧
    ∀ r ∈ danglingRefs, r ∈ docRefs appDocument ∧
      ∀ s ∈ appDocument.schemas, r ≠ b!"#/components/schemas/" ++ s.1 := by decide +kernel

/-- C86, what fails in the application: whatever the order of iteration is, exactly six references of its
document do not resolve. -/
theorem C86_application_fails (lib : Libs) (ho : IsOrder ord) {fuel : Nat} {d : Document}
    (h : apiDocument docEnv ord fuel (appApiObjects lib) = some d) (r : Bytes) :
    (r ∈ docRefs d ∧ ¬ Resolves d r) ↔ r ∈ danglingRefs := by
  rw [appDocument_eq lib ho h]
  constructor
  · rintro ⟨hr, hno⟩
    rcases appDocument_dangling.1 r hr with h' | h'
    · exact h'
    · exact absurd h' hno
  · intro hr
    obtain ⟨h3, h4⟩ := appDocument_dangling.2 r hr
    exact ⟨h3, fun ⟨s, hs, he⟩ => h4 s hs he⟩

/-! ## C87 -/

/-- C87: the operations of the application have different paths. -/
theorem C87_application (lib : Libs) : (((appApiObjects lib).flatMap apiOps).map RawOp.path).Nodup := by
  have : (((appApiObjects (sampleLib [])).flatMap apiOps).map RawOp.path).Nodup := by decide +kernel
  exact this

/-- C87: the state objects of the document of the application are those of its router. -/
theorem C87_application_objects (lib : Libs) : SameObjects (appApiObjects lib) (appObjects lib) := by
  have : SameObjects (appApiObjects (sampleLib [])) (appObjects (sampleLib [])) := by
    unfold SameObjects
    decide +kernel
  exact this

/-- C87, what fails in the application: for example, the address of a balance. -/
theorem C87_application_fails (lib : Libs) (ho : IsOrder ord) {fuel : Nat} {d : Document}
    (h : apiDocument docEnv ord fuel (appApiObjects lib) = some d) :
    (b!"/tmos.x.bank.v1alpha1/balance/{address}", ⟨b!"get.tmos.x.bank.v1alpha1.Balance", [],
      .json b!"#/components/schemas/tmos.x.bank.v1alpha1.Balance"⟩) ∈ d.paths := by
  rw [appDocument_eq lib ho h]
  decide +kernel

/-! ## C88 -/

/-- C88, what fails in the application: the number of an account and the stage of a block are served as
strings; the document says that they are integers. -/
theorem C88_application_fails (lib : Libs) (ho : IsOrder ord) {fuel : Nat} {d : Document}
    (h : apiDocument docEnv ord fuel (appApiObjects lib) = some d) :
    (∃ s ∈ d.schemas, s.1 = b!"tmos.x.authn.v1alpha1.Account" ∧ (b!"accountNumber", .plain b!"integer" b!"uint64") ∈ s.2) ∧
    (∃ s ∈ d.schemas, s.1 = b!"tmos.abci.v1alpha1.Stage" ∧ (b!"stage", .plain b!"integer" b!"enum") ∈ s.2) := by
  rw [appDocument_eq lib ho h]
  decide +kernel

/-! ## Examples -/

/-- The object of the bank module. -/
def balanceObject : ApiObject :=
  ⟨docEnv b!"tmos.x.bank.v1alpha1.Balance", ⟨b!"tmos.x.bank.v1alpha1", b!"Balance"⟩, { primaryKey := b!"address" }⟩

theorem balance_fromFiles : FromFiles [balanceObject] := by
  have h : (docMessages.find? fun x => x.desc.fullName = b!"tmos.x.bank.v1alpha1.Balance").isSome := by decide +kernel
  have h' : (docEnv b!"tmos.x.bank.v1alpha1.Balance").desc.fullName =
      topName (docEnv b!"tmos.x.bank.v1alpha1.Balance").file (docEnv b!"tmos.x.bank.v1alpha1.Balance").name := by decide +kernel
  intro o ho
  obtain rfl := List.mem_singleton.1 ho
  refine ⟨?_, h'⟩
  obtain ⟨x, hx⟩ := Option.isSome_iff_exists.1 h
  show docEnv b!"tmos.x.bank.v1alpha1.Balance" ∈ docMessages
  unfold docEnv
  rw [hx]
  exact List.mem_of_find?_eq_some hx

/-- A balance and the coins in it. -/
theorem balance_answered {x : MsgOf} (hx : Answered docEnv [balanceObject] x) :
    (∃ n ∈ [b!"tmos.x.bank.v1alpha1.Balance", b!"tmos.core.coin.v1alpha1.Coin"], x = docEnv n) ∨
      x = forgeList balanceObject.msg := by
  have hc : ∀ n ∈ [b!"tmos.x.bank.v1alpha1.Balance", b!"tmos.core.coin.v1alpha1.Coin"],
      ∀ n' ∈ (docEnv n).desc.nested, n' ∈ [b!"tmos.x.bank.v1alpha1.Balance", b!"tmos.core.coin.v1alpha1.Coin"] := by
    decide +kernel
  rcases (answered_cases docEnv_known (fromFiles_names balance_fromFiles)).1 hx with ⟨o, ho, h⟩ | ⟨o, ho, _, rfl⟩
  · left
    obtain rfl := List.mem_singleton.1 ho
    induction h with
    | refl => exact ⟨_, List.mem_cons_self, rfl⟩
    | tail hb hm ih =>
      obtain ⟨n, hn, rfl⟩ := ih ((answered_cases docEnv_known (fromFiles_names balance_fromFiles)).2 (Or.inl ⟨_, ho, hb⟩))
      obtain ⟨n', hn', rfl⟩ := mentions_iff.1 hm
      exact ⟨n', hc n hn n' hn', rfl⟩
  · obtain rfl := List.mem_singleton.1 ho
    exact Or.inr rfl

theorem balance_topLevel : TopLevel docEnv [balanceObject] := by
  have hc : ∀ n ∈ [b!"tmos.x.bank.v1alpha1.Balance", b!"tmos.core.coin.v1alpha1.Coin"],
      ((docEnv n).name, (docEnv n).desc) ∈ (docEnv n).file.messages ∧
        (docEnv n).desc.fullName = topName (docEnv n).file (docEnv n).name := by decide +kernel
  intro x hx
  rcases balance_answered hx with ⟨n, hn, rfl⟩ | rfl
  · exact hc n hn
  · exact ⟨List.mem_singleton_self _, rfl⟩

theorem balance_paths : PathsUnique docEnv [balanceObject] := by
  intro g h hg hh he
  have hlist : (forgeList balanceObject.msg).file.path ∉ docFiles.map DocFile.path := by decide +kernel
  rcases fromFiles_needed balance_fromFiles hg with hg | ⟨o, ho, rfl⟩
  · rcases fromFiles_needed balance_fromFiles hh with hh | ⟨o', ho', rfl⟩
    · exact List.inj_on_of_nodup_map docFiles_paths hg hh he
    · obtain rfl := List.mem_singleton.1 ho'
      exact absurd (he ▸ List.mem_map_of_mem hg) hlist
  · obtain rfl := List.mem_singleton.1 ho
    rcases fromFiles_needed balance_fromFiles hh with hh | ⟨o', ho', rfl⟩
    · exact absurd (he ▸ List.mem_map_of_mem hh) hlist
    · obtain rfl := List.mem_singleton.1 ho'
      rfl

/-- C86 for the object of the bank module alone: there is a document, and all its references resolve. -/
example : ∃ d, apiDocument docEnv fieldOrder 5 [balanceObject] = some d ∧ d.schemas.length = 3 ∧
    ∀ r ∈ docRefs d, Resolves d r := by
  have h : (apiDocument docEnv fieldOrder 5 [balanceObject]).isSome ∧
      ((apiDocument docEnv fieldOrder 5 [balanceObject]).getD ⟨[], [], []⟩).schemas.length = 3 := by decide +kernel
  obtain ⟨d, hd⟩ := Option.isSome_iff_exists.1 h.1
  rw [hd] at h
  exact ⟨d, hd, h.2, C86_partial docEnv_known isOrder_fieldOrder (fromFiles_names balance_fromFiles) balance_topLevel
    balance_paths (fromFiles_declared balance_fromFiles) hd⟩

/-- C84: a message without fields is not endless. -/
example : ¬ Endless docEnv (plainMsg b!"Thing") := by
  rintro ⟨c, h0, h⟩
  obtain ⟨f, hf, _⟩ := h 0
  rw [h0] at hf
  cases hf

end Verif.Props
