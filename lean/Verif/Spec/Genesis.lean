import Verif.Spec.TestApp
import Verif.Spec.MapStore
/-!
# The state of the application after the chain was started with the default genesis

Written out as tables: the roles, their bindings, and all objects in the order in which genesis
writes them.
-/

namespace Verif.Spec

/-- A role that allows everything on the given objects and the delivery of the given
transitions. -/
def roleOf (id : Bytes) (objects : List Obj) (transitions : List Tr) : Role where
  id := id
  gets := objects.map fun o => o.api.name
  lists := objects.map fun o => o.api.name
  creates := objects.map fun o => o.api.name
  updates := objects.map fun o => o.api.name
  deletes := objects.map fun o => o.api.name
  delivers := transitions.map tname

/-- The role of external accounts. -/
def externalRole : Role :=
  roleOf externalRoleID [] [.createAccount none, .sendCoins [] [] []]

/-- The modules and their roles. -/
def moduleRoles : List (Bytes × Role) := [
  (userRuntime, roleOf b!"system:runtime-role" [.moduleDescriptors []] [.createModules []]),
  (userABCI, roleOf b!"system:abci-role"
    [.stage .unknown, .beginBlockState none, .deliverTxState none, .checkTxState none,
     .initChainInfo [], .endBlockState none, .currentBlock 0, .validatorUpdates []]
    [.setInitChain none, .setCheckTx none, .setBeginBlock none, .setDeliverTx none,
     .setEndBlock none, .setValidatorUpdates []]),
  (b!"authn", roleOf b!"authn-role"
    [.account ⟨[], none, 0, 0⟩, .authnParams ⟨0, 0⟩, .accountNumber 0]
    [.createAccount none, .bindRole [] []]),
  (b!"rbac", roleOf b!"rbac-role" [.role { id := [] }, .roleBinding [] [], .rbacParams]
    [.createRole none, .bindRole [] []]),
  (b!"bank", roleOf b!"bank-role" [.balance [] []]
    [.sendCoins [] [] [], .setBalance [] [], .createAccount none]),
  (b!"distribution", roleOf b!"distribution-role" [] [.sendCoins [] [] []]),
  (b!"testing", roleOf b!"testing-role" [] [.createAccount none]),
  (b!"apiserver", roleOf b!"apiserver-role" [] [])]

/-- The genesis account. -/
def genesisAccount : Account :=
  { address := genesisAddress, pubKey := some genesisKey, number := 0, sequence := 0 }

/-- All writes of genesis before the chain identifier is stored, in order: type, key, object. -/
def genesisBase (lib : Libs) : List (Bytes × Bytes × Obj) :=
  [(tyModuleDescriptors, singletonID, .moduleDescriptors ((appModules lib).map AppModule.raw))] ++
  (moduleRoles.flatMap fun e =>
    [(tyRole, e.2.id, .role e.2), (tyRoleBinding, e.1, .roleBinding e.1 e.2.id)]) ++ [
  (tyRole, externalRoleID, .role externalRole),
  (tyStage, singletonID, .stage .initChain),
  (Obj.api (.beginBlockState none) |>.name, singletonID, .beginBlockState none),
  (Obj.api (.checkTxState none) |>.name, singletonID, .checkTxState none),
  (Obj.api (.deliverTxState none) |>.name, singletonID, .deliverTxState none),
  (tyCurrentBlock, singletonID, .currentBlock 0),
  (tyInitChainInfo, singletonID, .initChainInfo []),
  (tyValidatorUpdates, singletonID, .validatorUpdates []),
  (Obj.api (.endBlockState none) |>.name, singletonID, .endBlockState none),
  (tyAuthnParams, singletonID, .authnParams ⟨1000000, 1000000⟩),
  (tyAccountNumber, singletonID, .accountNumber 0),
  (tyAccount, genesisAddress, .account genesisAccount),
  (tyAccountNumber, singletonID, .accountNumber 1),
  (tyRoleBinding, genesisAddress, .roleBinding genesisAddress externalRoleID),
  (tyBalance, genesisAddress, .balance genesisAddress genesisCoins)]

/-- All writes of genesis. -/
def genesisWrites (lib : Libs) (chainId : Bytes) : List (Bytes × Bytes × Obj) :=
  genesisBase lib ++ [
  (tyInitChainInfo, singletonID, .initChainInfo chainId),
  (tyStage, singletonID, .stage .initChain)]

/-- Put objects into a map, in order. -/
def fill (m : Contents Obj) (l : List (Bytes × Bytes × Obj)) : Contents Obj :=
  l.foldl (fun m e => m.put e.1 e.2.1 (some e.2.2)) m

/-- The application on a map. -/
noncomputable def mapApp (lib : Libs) : Config (Contents Obj) Obj Tr TxData BlockReq :=
  appConfig lib (mapOps appReg) (appBuilt lib)

end Verif.Spec
