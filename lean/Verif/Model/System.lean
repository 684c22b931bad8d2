import Verif.Model.Universe
/-!
# The runtime module (core/runtime/module.go) and the abci module (core/abci)
-/

namespace Verif

/-- `newCreateModuleDescriptorsHandler` (core/runtime/module.go:23-28). -/
def createModulesExec : Users → Tr → Code
  | _, .createModules mods => .create (.moduleDescriptors mods) .ret
  | _, _ => .crash

/-- `setInitChainInfo` (core/abci/handlers.go:13-28).  A missing `InitChainInfo` panics. -/
def setInitChainExec : Users → Tr → Code
  | _, .setInitChain (some chainId) => .update (.initChainInfo chainId)
      (Prog.orReturn (.update (.stage .initChain) .ret))
  | _, _ => .crash

/-- `checkTxHandler` (handlers.go:30-50). -/
def setCheckTxExec : Users → Tr → Code
  | _, .setCheckTx (some c) => match c.type with
    | .new => .update (.stage .checkTx) (Prog.orReturn (.update (.checkTxState (some c)) .ret))
    | .recheck => .update (.stage .reCheckTx) (Prog.orReturn (.update (.checkTxState (some c)) .ret))
    | .unrecognized => .crash
  | _, _ => .crash

/-- `beginBlockHandler` (handlers.go:52-66).  The header is dereferenced last. -/
def setBeginBlockExec : Users → Tr → Code
  | _, .setBeginBlock b => .update (.stage .beginBlock)
      (Prog.orReturn (.update (.beginBlockState b)
        (Prog.orReturn (match b with
          | none => .crash
          | some b => match b.height with
            | none => .crash
            | some h => .update (.currentBlock h) .ret))))
  | _, _ => .crash

/-- `endBlockHandler` (handlers.go:68-83). -/
def setEndBlockExec : Users → Tr → Code
  | _, .setEndBlock h => .update (.stage .endBlock) (Prog.orReturn (.update (.endBlockState h) .ret))
  | _, _ => .crash

/-- `deliverTxHandler` (handlers.go:85-95). -/
def setDeliverTxExec : Users → Tr → Code
  | _, .setDeliverTx tx => .update (.stage .deliverTx)
      (Prog.orReturn (.update (.deliverTxState tx) .ret))
  | _, _ => .crash

/-- `validatorUpdatesHandler` (handlers.go:97-116). -/
def setValidatorUpdatesExec : Users → Tr → Code
  | _, .setValidatorUpdates l => getStage fun
    | .error e => .ret (.error e)
    | .ok s =>
      if s ≠ .initChain ∧ s ≠ .endBlock then .ret (.error .other)
      else .update (.validatorUpdates l) .ret
  | _, _ => .crash

/-- `ValidatorUpdate.ToLegacy` (core/abci/tendermint/abci/types.go:18-32): panics if the key is absent
(`x.PubKey` is nil) or has no value. -/
def StoredUpdate.toLegacy (u : StoredUpdate) : Out ValUpdate :=
  match u.pubKey with
  | none => .panic
  | some none => .panic
  | some (some (.ed25519 b)) => .ret ⟨.ed25519 b, u.power⟩
  | some (some (.secp256k1 b)) => .ret ⟨.secp256k1 b, u.power⟩

/-- The loop of EndBlock over the updates (runtime/abci.go:157-160). -/
def toLegacyAll : List StoredUpdate → Out (List ValUpdate)
  | [] => .ret []
  | u :: us => match u.toLegacy with
    | .panic => .panic
    | .ret v => match toLegacyAll us with
      | .panic => .panic
      | .ret vs => .ret (v :: vs)

/-- The updates of the stored object, converted.  What is stored under the type name of the updates
has that type, so the last branch is never taken. -/
def legacyUpdates : Obj → Out (List ValUpdate)
  | .validatorUpdates l => toLegacyAll l
  | _ => .panic

/-- `genesis.Default` and `Import` (core/abci/genesis.go:18-60). -/
def abciGenesis : Code × (Option Bytes → Code) :=
  (.create (.stage .initChain)
    (Prog.orReturn (.create (.beginBlockState none)
    (Prog.orReturn (.create (.checkTxState none)
    (Prog.orReturn (.create (.deliverTxState none)
    (Prog.orReturn (.create (.currentBlock 0)
    (Prog.orReturn (.create (.initChainInfo [])
    (Prog.orReturn (.create (.validatorUpdates [])
    (Prog.orReturn (.create (.endBlockState none) .ret)))))))))))))), fun _ => .ret (.ok ()))

end Verif
