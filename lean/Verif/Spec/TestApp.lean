import Verif.Model.TestApp
import Verif.Spec.Assumptions
/-!
# What the application of the repository is expected to consist of

Written out as plain tables: the registered schemas, the handlers of each transition in order,
and the services.
-/

namespace Verif.Spec

/-- The schema of an object of which there is at most one. -/
def singletonSchema (o : Obj) : Schema := ⟨o.api, none, []⟩

/-- The schemas of the application. -/
def appReg : Registry := [
  singletonSchema (.moduleDescriptors []),
  singletonSchema (.stage .unknown),
  singletonSchema (.beginBlockState none),
  singletonSchema (.deliverTxState none),
  singletonSchema (.checkTxState none),
  singletonSchema (.initChainInfo []),
  singletonSchema (.endBlockState none),
  singletonSchema (.currentBlock 0),
  singletonSchema (.validatorUpdates []),
  ⟨Obj.api (.account ⟨[], none, 0, 0⟩), some (b!"address", .string), [⟨b!"accountNumber", .uint64⟩]⟩,
  singletonSchema (.authnParams ⟨0, 0⟩),
  singletonSchema (.accountNumber 0),
  ⟨Obj.api (.role { id := [] }), some (b!"id", .string), []⟩,
  ⟨Obj.api (.roleBinding [] []), some (b!"subject", .string), [⟨b!"roleRef", .string⟩]⟩,
  singletonSchema .rbacParams,
  ⟨Obj.api (.balance [] []), some (b!"address", .string), []⟩]

/-- Who handles what. -/
def appRouter (lib : Libs) : Router Obj Tr TxData where
  authAdmission := [
    ⟨b!"authn", mempoolFee⟩, ⟨b!"authn", accountExists⟩, ⟨b!"authn", timeoutBlock⟩,
    ⟨b!"authn", validateMemo⟩, ⟨b!"authn", sigCount⟩, ⟨b!"authn", sigVerifier lib.verify⟩,
    ⟨b!"distribution", feeChecker lib.coins⟩]
  postAuth := [
    ⟨b!"authn", consumeGas⟩, ⟨b!"authn", setPubKeys⟩, ⟨b!"authn", increaseSequence⟩,
    ⟨b!"distribution", feeDeduction⟩]
  admission := [
    (tname (.createAccount none : Tr), ⟨b!"authn", createAccountAdmission⟩),
    (tname (.createRole none : Tr), ⟨b!"rbac", createRoleAdmission⟩),
    (tname (.bindRole [] [] : Tr), ⟨b!"rbac", bindRoleAdmission⟩)]
  pre := []
  exec := [
    (tname (.createModules [] : Tr), ⟨userRuntime, createModulesExec⟩),
    (tname (.setInitChain none : Tr), ⟨userABCI, setInitChainExec⟩),
    (tname (.setCheckTx none : Tr), ⟨userABCI, setCheckTxExec⟩),
    (tname (.setBeginBlock none : Tr), ⟨userABCI, setBeginBlockExec⟩),
    (tname (.setDeliverTx none : Tr), ⟨userABCI, setDeliverTxExec⟩),
    (tname (.setEndBlock none : Tr), ⟨userABCI, setEndBlockExec⟩),
    (tname (.setValidatorUpdates [] : Tr), ⟨userABCI, setValidatorUpdatesExec⟩),
    (tname (.createAccount none : Tr), ⟨b!"authn", createAccountExec⟩),
    (tname (.createRole none : Tr), ⟨b!"rbac", createRoleExec⟩),
    (tname (.bindRole [] [] : Tr), ⟨b!"rbac", bindRoleExec⟩),
    (tname (.sendCoins [] [] [] : Tr), ⟨b!"bank", sendCoinsExec lib.coins⟩),
    (tname (.setBalance [] [] : Tr), ⟨b!"bank", setBalanceExec⟩)]
  post := [(tname (.createModules [] : Tr), ⟨b!"rbac", roleCreator⟩)]

/-- All of it. -/
def appBuilt (lib : Libs) : Built Obj Tr TxData where
  reg := appReg
  router := appRouter lib
  services := [⟨b!"apiserver", b!"apiserver", .ok (), .ok ()⟩]
  authorizer := rbacAuthorizer

end Verif.Spec
