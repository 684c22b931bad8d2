import Verif.Spec.Chain
/-!
# Histories in which modules ask for validator updates between the requests of consensus
-/

namespace Verif.Spec

/-- Something that happened: a request of consensus and its response, or a request to set the
validator updates made through the client of a module, on behalf of some users, and its result. -/
inductive Happening where
  | call (c : Call BlockReq) (r : Resp Obj)
  | setUpdates (users : Users) (l : List StoredUpdate) (r : Except Err Unit)

/-- A history of the application on the object store. -/
inductive Happens (lib : Libs) : App (Store Obj) → List Happening → App (Store Obj) → Prop
  | nil (a : App (Store Obj)) : Happens lib a [] a
  | call {a a₁ a' : App (Store Obj)} {n : Nat} {c : Call BlockReq} {r : Resp Obj} {hs : List Happening} :
    (ormApp lib).step n a c = .done r a₁ → Happens lib a₁ hs a' → Happens lib a (.call c r :: hs) a'
  | setUpdates {a a' : App (Store Obj)} {s : Store Obj} {n : Nat} {skip : Bool} {users : Users}
    {l : List StoredUpdate} {r : Except Err Unit} {hs : List Happening} :
    (ormApp lib).deliver n a.enabled skip users (.setValidatorUpdates l) a.store = .done r s →
    Happens lib { a with store := s } hs a' → Happens lib a (.setUpdates users l r :: hs) a'

/-- The validator updates last set. -/
def lastSet : List StoredUpdate → List Happening → List StoredUpdate
  | l, [] => l
  | _, .setUpdates _ l (.ok ()) :: hs => lastSet l hs
  | l, _ :: hs => lastSet l hs

/-- The last request that was InitChain, BeginBlock or EndBlock. -/
def lastStage : Stage → List Happening → Stage
  | s, [] => s
  | _, .call (.initChain ..) _ :: hs => lastStage .initChain hs
  | _, .call (.beginBlock _) _ :: hs => lastStage .beginBlock hs
  | _, .call (.endBlock _) _ :: hs => lastStage .endBlock hs
  | s, _ :: hs => lastStage s hs

/-- The application before the first request. -/
def unstarted : App (Store Obj) := ⟨fresh appReg, false, false⟩

end Verif.Spec
