import Verif.Model.Services
/-!
# The ABCI application (runtime/abci.go) and genesis (runtime/runtime.go:57-119)

`Info` and `Commit` return constants and are included for completeness.  `SetOption` and the
snapshot calls panic unconditionally (abci.go:37-39, 177-191) and are left out.  Gas, logs and
events carry no information in this code base and are left out; a transaction response is its
code.
-/

namespace Verif

/-- `module.GenesisHandler` of a module (runtime/module/genesis.go): `Default` and `Import`. -/
structure Genesis (O T : Type) where
  owner : Bytes
  default : Prog O T (Except Err Unit)
  import_ : Option Bytes → Prog O T (Except Err Unit)

/-- A public key of tendermint (core/abci/tendermint/crypto/keys.proto, the `sum` of `PublicKey`). -/
inductive ValKey where
  | ed25519 (key : Bytes)
  | secp256k1 (key : Bytes)
  deriving DecidableEq, Repr

/-- A validator update as EndBlock returns it (tendermint's `types.ValidatorUpdate`). -/
structure ValUpdate where
  key : ValKey
  power : BitVec 64
  deriving DecidableEq, Repr

/-- Everything fixed when the application is built (runtime/runtime.go:32-47,
runtime/abci.go:12-25).  `B` is the content of a BeginBlock request.  The system transitions and
the identifiers of the validator updates are those of core/runtime and core/abci.
`decode = none` is a nil decoder (runtime/builder.go:85-90).  `parseGenesis` is
`json.Unmarshal` into a map (runtime.go:99-103).  `query` is the Querier (runtime/query.go),
which reads the store through `Get`; its answer is a code and possibly an object.
`setBeginBlock` includes the conversion of the request by `FromLegacyProto`
(core/abci/tendermint/abci/types.go:13-16, 34-42), which panics if it fails, and `toLegacy` is the
conversion of the updates read in EndBlock. -/
structure Config (S O T R B : Type) where
  ops : StoreOps S O
  authorizer : Authorizer O
  router : Router O T R
  decode : Option (Bytes → Out (Except Err (Tx T R)))
  genesis : List (Genesis O T)
  services : List Service
  parseGenesis : Bytes → Except Err (Bytes → Option Bytes)
  query : (read : Bytes → Bytes → Except OrmErr O) → (path : Bytes) → Out (Nat × Option O)
  createModules : T
  setInitChain : Bytes → T
  setBeginBlock : B → Out T
  setEndBlock : Int → T
  valUpdatesType : Bytes
  toLegacy : O → Out (List ValUpdate)
  singletonId : Bytes

/-- The mutable part of the application: the store and two flags of `Runtime`. -/
structure App (S : Type) where
  store : S
  enabled : Bool := false
  initialized : Bool := false

/-- `errors.ToABCIResponse` (runtime/errors/errors.go:39-60): the code of an error. -/
def errCode : Err → Nat
  | .badRequest => 400
  | .notFound => 404
  | .alreadyExists => 409
  | .conditionNotMet => 412
  | _ => 1

namespace Config
variable {S O T R B : Type} [StateObject O] [StateTransition T]

/-- The object-request part of the runtime with the given authorization flag. -/
def sys (c : Config S O T R B) (enabled : Bool) : Sys S O :=
  { ops := c.ops, authorizer := c.authorizer, enabled }

/-- `Runtime.Deliver` (runtime/runtime.go:157-159). -/
def deliver (c : Config S O T R B) (fuel : Nat) (enabled skip : Bool) (users : Users) (t : T)
    (s : S) : Res S (Except Err Unit) :=
  Verif.deliver (c.sys enabled) c.router fuel skip users t s

/-- Module code run by the runtime outside of a delivery (genesis). -/
def runAs (c : Config S O T R B) (fuel : Nat) (enabled : Bool) (owner : Bytes)
    (p : Prog O T (Except Err Unit)) (s : S) : Res S (Except Err Unit) :=
  p.run (c.sys enabled) (c.deliver fuel enabled false) (Users.ofNames [owner]) s

/-- `Runtime.InitGenesis` (runtime/runtime.go:58-96). -/
def initGenesis (c : Config S O T R B) (fuel : Nat) (a : App S) : Res (App S) (Except Err Unit) :=
  if a.initialized then .done (.error .other) a
  else match c.deliver fuel a.enabled false (Users.ofNames [userRuntime]) c.createModules a.store with
    | .panic => .panic
    | .diverge => .diverge
    | .done (.error e) s => .done (.error e) { a with store := s }
    | .done (.ok ()) s =>
      match runAll (fun (g : Genesis O T) s => c.runAs fuel a.enabled g.owner g.default s) id
          c.genesis s with
      | .panic => .panic
      | .diverge => .diverge
      | .done (.error e) s => .done (.error e) { a with store := s }
      | .done (.ok ()) s =>
        .done (startServices c.services).2 { a with store := s, initialized := true }

/-- `Runtime.Import` (runtime/runtime.go:98-119). -/
def importState (c : Config S O T R B) (fuel : Nat) (state : Bytes) (a : App S) :
    Res (App S) (Except Err Unit) :=
  match c.parseGenesis state with
  | .error e => .done (.error e) a
  | .ok data =>
    match runAll (fun (g : Genesis O T) s =>
        c.runAs fuel a.enabled g.owner (g.import_ (data g.owner)) s) id c.genesis a.store with
    | .panic => .panic
    | .diverge => .diverge
    | .done r s => .done r { a with store := s }

/-- `ABCIApplication.InitChain` (runtime/abci.go:66-93). -/
def initChain (c : Config S O T R B) (fuel : Nat) (chainId appState : Bytes) (a : App S) :
    Res (App S) Unit :=
  match (if appState.length = 0 then c.initGenesis fuel a else c.importState fuel appState a) with
  | .panic => .panic
  | .diverge => .diverge
  | .done (.error _) _ => .panic
  | .done (.ok ()) a =>
    match c.deliver fuel a.enabled false (Users.ofNames [userABCI]) (c.setInitChain chainId) a.store with
    | .panic => .panic
    | .diverge => .diverge
    | .done (.error _) _ => .panic
    | .done (.ok ()) s => .done () { a with store := s, enabled := true }

/-- `ABCIApplication.CheckTx` (runtime/abci.go:45-64): the response code. -/
def checkTx (c : Config S O T R B) (fuel : Nat) (bytes : Bytes) (a : App S) : Res (App S) Nat :=
  match c.decode with
  | none => .panic
  | some decode => match decode bytes with
    | .panic => .panic
    | .ret (.error e) => .done (errCode e) a
    | .ret (.ok tx) =>
      match txChain (c.sys a.enabled) c.router fuel c.router.authAdmission tx a.store with
      | .panic => .panic
      | .diverge => .diverge
      | .done (.error e) s => .done (errCode e) { a with store := s }
      | .done (.ok ()) s =>
        match runAll (fun t s => admissionChain c.router (fun h s =>
            c.runAs fuel a.enabled h.owner (h.code tx.users t) s) t s) id tx.transitions s with
        | .panic => .panic
        | .diverge => .diverge
        | .done (.error e) s => .done (errCode e) { a with store := s }
        | .done (.ok ()) s => .done 0 { a with store := s }

/-- `ABCIApplication.DeliverTx` (runtime/abci.go:108-136): the response code. -/
def deliverTx (c : Config S O T R B) (fuel : Nat) (bytes : Bytes) (a : App S) : Res (App S) Nat :=
  match c.decode with
  | none => .panic
  | some decode => match decode bytes with
    | .panic => .panic
    | .ret (.error e) => .done (errCode e) a
    | .ret (.ok tx) =>
      match txChain (c.sys a.enabled) c.router fuel c.router.authAdmission tx a.store with
      | .panic => .panic
      | .diverge => .diverge
      | .done (.error e) s => .done (errCode e) { a with store := s }
      | .done (.ok ()) s =>
        match txChain (c.sys a.enabled) c.router fuel c.router.postAuth tx s with
        | .panic => .panic
        | .diverge => .diverge
        | .done (.error e) s => .done (errCode e) { a with store := s }
        | .done (.ok ()) s =>
          match runAll (fun t s => c.deliver fuel a.enabled true tx.users t s) id
              tx.transitions s with
          | .panic => .panic
          | .diverge => .diverge
          | .done (.error e) s => .done (errCode e) { a with store := s }
          | .done (.ok ()) s => .done 0 { a with store := s }

/-- `ABCIApplication.BeginBlock` (runtime/abci.go:95-106). -/
def beginBlock (c : Config S O T R B) (fuel : Nat) (b : B) (a : App S) : Res (App S) Unit :=
  match c.setBeginBlock b with
  | .panic => .panic
  | .ret t => match c.deliver fuel a.enabled false (Users.ofNames [userABCI]) t a.store with
    | .panic => .panic
    | .diverge => .diverge
    | .done (.error _) _ => .panic
    | .done (.ok ()) s => .done () { a with store := s }

/-- `ABCIApplication.EndBlock` (runtime/abci.go:138-167): the validator updates read. -/
def endBlock (c : Config S O T R B) (fuel : Nat) (height : Int) (a : App S) : Res (App S) (List ValUpdate) :=
  match c.deliver fuel a.enabled false (Users.ofNames [userABCI]) (c.setEndBlock height) a.store with
  | .panic => .panic
  | .diverge => .diverge
  | .done (.error _) _ => .panic
  | .done (.ok ()) s => match (c.sys a.enabled).get s c.valUpdatesType c.singletonId with
    | .panic => .panic
    | .ret (.error _) => .panic
    | .ret (.ok o) => match c.toLegacy o with
      | .panic => .panic
      | .ret us => .done us { a with store := s }

end Config

/-- A request of the consensus engine. -/
inductive Call (B : Type) where
  | info
  | query (path : Bytes)
  | checkTx (tx : Bytes)
  | initChain (chainId appState : Bytes)
  | beginBlock (b : B)
  | deliverTx (tx : Bytes)
  | endBlock (height : Int)
  | commit

/-- A response. -/
inductive Resp (O : Type) where
  | none
  | code (n : Nat)
  | answer (code : Nat) (o : Option O)
  | updates (us : List ValUpdate)
  deriving DecidableEq

namespace Config
variable {S O T R B : Type} [StateObject O] [StateTransition T]

/-- Give the result of a call the common response type. -/
def mapRes {S α β : Type} (f : α → β) : Res S α → Res S β
  | .done a s => .done (f a) s
  | .panic => .panic
  | .diverge => .diverge

/-- One request (runtime/abci.go). -/
def step (c : Config S O T R B) (fuel : Nat) (a : App S) : Call B → Res (App S) (Resp O)
  | .info => .done .none a
  | .commit => .done .none a
  | .query path => match c.query (c.ops.get a.store) path with
    | .panic => .panic
    | .ret (n, o) => .done (.answer n o) a
  | .checkTx tx => mapRes .code (c.checkTx fuel tx a)
  | .deliverTx tx => mapRes .code (c.deliverTx fuel tx a)
  | .initChain id st => mapRes (fun _ => .none) (c.initChain fuel id st a)
  | .beginBlock b => mapRes (fun _ => .none) (c.beginBlock fuel b a)
  | .endBlock h => mapRes .updates (c.endBlock fuel h a)

/-- A history of requests: the responses in order and the final application state. -/
def steps (c : Config S O T R B) (fuel : Nat) : App S → List (Call B) → Res (App S) (List (Resp O))
  | a, [] => .done [] a
  | a, call :: calls => match c.step fuel a call with
    | .panic => .panic
    | .diverge => .diverge
    | .done r a => match c.steps fuel a calls with
      | .panic => .panic
      | .diverge => .diverge
      | .done rs a => .done (r :: rs) a

end Config
end Verif
