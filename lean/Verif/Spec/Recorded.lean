import Verif.Spec.Chain
/-!
# What the abci module should have recorded
-/

namespace Verif.Spec

/-- The objects of the abci module, but for the validator updates (see `lastSet`). -/
structure Recorded where
  stage : Stage
  chainId : Bytes
  beginBlock : Option BeginReq
  height : BitVec 64
  endBlock : Option (BitVec 64)
  checkTx : Option CheckReq
  deliverTx : Option Bytes

/-- The objects stored are these. -/
structure Records (m : World) (r : Recorded) : Prop where
  stage : m (Obj.api (.stage .unknown)).name singletonID = some (.stage r.stage)
  chainId : m (Obj.api (.initChainInfo [])).name singletonID = some (.initChainInfo r.chainId)
  beginBlock : m (Obj.api (.beginBlockState none)).name singletonID = some (.beginBlockState r.beginBlock)
  height : m (Obj.api (.currentBlock 0)).name singletonID = some (.currentBlock r.height)
  endBlock : m (Obj.api (.endBlockState none)).name singletonID = some (.endBlockState r.endBlock)
  checkTx : m (Obj.api (.checkTxState none)).name singletonID = some (.checkTxState r.checkTx)
  deliverTx : m (Obj.api (.deliverTxState none)).name singletonID = some (.deliverTxState r.deliverTx)

/-- What BeginBlock and EndBlock record; the other requests record nothing. -/
def Recorded.next (r : Recorded) : Call BlockReq → Recorded
  | .beginBlock b => { r with stage := .beginBlock, beginBlock := some ⟨some b.height, b.chainId, b.rest⟩, height := b.height }
  | .endBlock h => { r with stage := .endBlock, endBlock := some (BitVec.ofInt 64 h) }
  | _ => r

/-- What is recorded at the start of the chain. -/
def Recorded.start (chainId : Bytes) : Recorded := ⟨.initChain, chainId, none, 0, none, none, none⟩

/-- What would be recorded if the transactions were, too. -/
def Recorded.nextAll (r : Recorded) : Call BlockReq → Recorded
  | .checkTx tx => { r with stage := .checkTx, checkTx := some ⟨.new, tx⟩ }
  | .deliverTx tx => { r with stage := .deliverTx, deliverTx := some tx }
  | c => r.next c

/-- What delivering a transition of the abci module records, if it is complete. -/
def recordTr (r : Recorded) : Tr → Option Recorded
  | .setCheckTx (some c) => match c.type with
    | .new => some { r with stage := .checkTx, checkTx := some c }
    | .recheck => some { r with stage := .reCheckTx, checkTx := some c }
    | .unrecognized => none
  | .setDeliverTx tx => some { r with stage := .deliverTx, deliverTx := tx }
  | _ => none

end Verif.Spec
