import Verif.Model.ORM
import Verif.Model.Users
/-!
# The runtime: clients, routing, authorization, delivery
(runtime/runtime.go, runtime/router.go, runtime/client.go)

Handlers of modules are arbitrary programs over the client interface (`Prog`).  The runtime is
generic over the store (`StoreOps`): it is instantiated with the modelled ORM store, and with
a plain map to relate the two.

Error values are represented by the class that `errors.Is` finds in them (`Err`).
-/

namespace Verif

/-- Error classes (runtime/errors/errors.go:15-21, runtime/router.go:12-13); `other` is every
error that wraps none of them. -/
inductive Err where
  | badRequest
  | notFound
  | alreadyExists
  | conditionNotMet
  | unauthorized
  | transitionNotFound
  | other
  deriving DecidableEq, Repr

/-- `runtimev1alpha1.Verb` (core/runtime/v1alpha1/runtime.proto). -/
inductive Verb where
  | unknown | get | list | create | update | delete | deliver
  deriving DecidableEq, Repr

/-- A `meta.StateTransition` (core/meta/meta.go:26-30): only its API definition matters to the
runtime. -/
class StateTransition (T : Type) where
  api : T → APIDef

/-- `meta.Name` of a transition (core/meta/meta.go:33-35). -/
def tname {T : Type} [StateTransition T] (t : T) : Bytes := (StateTransition.api t).name

/-- What the runtime uses of `orm.Store`. -/
structure StoreOps (S O : Type) where
  get : S → (ty id : Bytes) → Except OrmErr O
  list : S → (ty : Bytes) → ListOptions → Out (Except OrmErr (List (Except OrmErr O)))
  create : S → O → Out (Except OrmErr Unit × S)
  update : S → O → Out (Except OrmErr Unit × S)
  delete : S → O → Out (Except OrmErr Unit × S)

/-- The ORM store (runtime/orm/store.go). -/
def ormOps (O : Type) [StateObject O] : StoreOps (Store O) O where
  get := Store.get
  list := Store.list
  create := Store.create
  update := Store.update
  delete := Store.delete

/-- Outcome of running code against a state: it finished, it panicked, or the nesting depth
given was not enough (`diverge`: a Go program that recurses forever). -/
inductive Res (S α : Type) where
  | done (a : α) (s : S)
  | panic
  | diverge
  deriving DecidableEq, Repr

/-- Code of a module using its client (runtime/client/client.go:12-20): `get` reads the object
of type `ty` with the given identifier, `list` collects what the iterator yields, `deliver`
takes the users to impersonate.  `crash` is a panic raised by the module code itself. -/
inductive Prog (O T α : Type) where
  | ret (a : α)
  | crash
  | get (ty id : Bytes) (k : Except Err O → Prog O T α)
  | list (ty : Bytes) (opt : ListOptions)
      (k : Except Err (List (Except OrmErr O)) → Prog O T α)
  | create (o : O) (k : Except Err Unit → Prog O T α)
  | update (o : O) (k : Except Err Unit → Prog O T α)
  | delete (o : O) (k : Except Err Unit → Prog O T α)
  | deliver (t : T) (impersonate : Option Users) (k : Except Err Unit → Prog O T α)

/-- An authorizer (runtime/authorization/authorization.go:31-34): it may read the state through
`read`, and answers allow (`true`), deny, or an error. -/
abbrev Authorizer (O : Type) :=
  (read : Bytes → Bytes → Out (Except Err O)) → Verb → (resource : Bytes) → Users →
    Out (Except Err Bool)

/-- `AlwaysAllowAuthorizer` (runtime/authorization/default.go:16-20). -/
def alwaysAllow {O : Type} : Authorizer O := fun _ _ _ _ => .ret (.ok true)

/-- `AlwaysDenyAuthorizer` (runtime/authorization/default.go:26-30). -/
def alwaysDeny {O : Type} : Authorizer O := fun _ _ _ _ => .ret (.error .other)

/-- `convertStoreError` (runtime/runtime.go:276-286): only `orm.ErrNotFound` is converted, any
other error panics. -/
def convertStoreError {α : Type} : Except OrmErr α → Out (Except Err α)
  | .ok a => .ret (.ok a)
  | .error .notFound => .ret (.error .notFound)
  | .error _ => .panic

/-- The parts of `Runtime` that serve object requests (runtime/runtime.go:32-47). -/
structure Sys (S O : Type) where
  ops : StoreOps S O
  authorizer : Authorizer O
  enabled : Bool

namespace Sys
variable {S O : Type} (sys : Sys S O)

/-- `Runtime.Get` (runtime/runtime.go:121-123), reached through `ModuleClient.Get`
(runtime/client.go:24-33; heighted requests are refused and not modelled). -/
def get (s : S) (ty id : Bytes) : Out (Except Err O) := convertStoreError (sys.ops.get s ty id)

/-- `Runtime.List` (runtime/runtime.go:125-128), `ModuleClient.List` (runtime/client.go:59-69),
the iterator driven to its end. -/
def list (s : S) (ty : Bytes) (opt : ListOptions) :
    Out (Except Err (List (Except OrmErr O))) :=
  match sys.ops.list s ty opt with
  | .panic => .panic
  | .ret r => convertStoreError r

/-- `Runtime.authorized` (runtime/runtime.go:264-273). -/
def authorized (s : S) (v : Verb) (resource : Bytes) (users : Users) : Out (Except Err Unit) :=
  if !sys.enabled then .ret (.ok ())
  else match sys.authorizer (sys.get s) v resource users with
    | .panic => .panic
    | .ret (.ok true) => .ret (.ok ())
    | .ret _ => .ret (.error .unauthorized)

/-- The common shape of `Runtime.Create`, `Update` and `Delete` (runtime/runtime.go:130-155):
authorize, act on the store, convert the error. -/
def write (v : Verb) (resource : Bytes) (users : Users)
    (act : S → Out (Except OrmErr Unit × S)) (s : S) : Out (Except Err Unit × S) :=
  match sys.authorized s v resource users with
  | .panic => .panic
  | .ret (.error e) => .ret (.error e, s)
  | .ret (.ok ()) => match act s with
    | .panic => .panic
    | .ret (r, s) => match convertStoreError r with
      | .panic => .panic
      | .ret r => .ret (r, s)

variable [StateObject O]

/-- `Runtime.Create` (runtime/runtime.go:130-137). -/
def create (users : Users) (o : O) : S → Out (Except Err Unit × S) :=
  sys.write .create (StateObject.api o).name users fun s => sys.ops.create s o

/-- `Runtime.Update` (runtime/runtime.go:139-146). -/
def update (users : Users) (o : O) : S → Out (Except Err Unit × S) :=
  sys.write .update (StateObject.api o).name users fun s => sys.ops.update s o

/-- `Runtime.Delete` (runtime/runtime.go:148-155). -/
def delete (users : Users) (o : O) : S → Out (Except Err Unit × S) :=
  sys.write .delete (StateObject.api o).name users fun s => sys.ops.delete s o

end Sys

section run
variable {S O T α : Type} [StateObject O]

/-- Running module code with the module's client (runtime/client.go:18-73).  `me` are the users
of the client, `deliver` is `Runtime.Deliver`; a delivery acts as the union of `me` and the
impersonated users (runtime/client.go:47-57). -/
def Prog.run (sys : Sys S O) (deliver : Users → T → S → Res S (Except Err Unit)) (me : Users) :
    Prog O T α → S → Res S α
  | .ret a, s => .done a s
  | .crash, _ => .panic
  | .get ty id k, s => match sys.get s ty id with
    | .panic => .panic
    | .ret r => (k r).run sys deliver me s
  | .list ty opt k, s => match sys.list s ty opt with
    | .panic => .panic
    | .ret r => (k r).run sys deliver me s
  | .create o k, s => match sys.create me o s with
    | .panic => .panic
    | .ret (r, s) => (k r).run sys deliver me s
  | .update o k, s => match sys.update me o s with
    | .panic => .panic
    | .ret (r, s) => (k r).run sys deliver me s
  | .delete o k, s => match sys.delete me o s with
    | .panic => .panic
    | .ret (r, s) => (k r).run sys deliver me s
  | .deliver t imp k, s => match deliver (Users.union [some me, imp]) t s with
    | .panic => .panic
    | .diverge => .diverge
    | .done r s => (k r).run sys deliver me s

end run

/-- A handler of a state transition: the module it belongs to (whose client it uses,
runtime/builder.go:54-60) and its code, given the users and the transition of the request. -/
structure Handler (O T : Type) where
  owner : Bytes
  code : Users → T → Prog O T (Except Err Unit)

/-- An authenticated request (runtime/authentication/tx.go:17-35); `raw` holds whatever else
the authentication modules read. -/
structure Tx (T R : Type) where
  transitions : List T
  users : Users
  raw : R

/-- A transaction handler (runtime/authentication/handlers.go): admission or
post-authentication. -/
structure TxHandler (O T R : Type) where
  owner : Bytes
  code : Tx T R → Prog O T (Except Err Unit)

/-- A Go map from names to slices of handlers, as used by the router. -/
abbrev HandlerMap (H : Type) := List (Bytes × H)

/-- The values stored under a name, in the order in which they were added. -/
def HandlerMap.at {H : Type} (m : HandlerMap H) (name : Bytes) : List H :=
  (m.filter fun e => e.1 = name).map Prod.snd

/-- `Router` (runtime/router.go:27-35).  A map of slices is the list of (name, handler) pairs in
the order of the `append`s; `exec` holds one handler per name. -/
structure Router (O T R : Type) where
  authAdmission : List (TxHandler O T R) := []
  postAuth : List (TxHandler O T R) := []
  admission : HandlerMap (Handler O T) := []
  pre : HandlerMap (Handler O T) := []
  exec : HandlerMap (Handler O T) := []
  post : HandlerMap (Handler O T) := []

namespace Router
variable {O T R : Type}

/-- `NewRouter` (runtime/router.go:15-25). -/
def new : Router O T R := {}

/-- `knownStateTransition` (router.go:163-166). -/
def known (r : Router O T R) (name : Bytes) : Bool := (r.exec.find? fun e => e.1 = name).isSome

/-- `AddStateTransitionAdmissionHandler` (router.go:39-48): never fails. -/
def addAdmission (r : Router O T R) (name : Bytes) (h : Handler O T) : Router O T R :=
  { r with admission := r.admission ++ [(name, h)] }

/-- `GetStateTransitionAdmissionHandlers` (router.go:50-63). -/
def getAdmission (r : Router O T R) (name : Bytes) : Except Err (List (Handler O T)) :=
  if !r.known name then .error .transitionNotFound else .ok (r.admission.at name)

/-- `AddStateTransitionPreExecutionHandler` (router.go:67-79). -/
def addPre (r : Router O T R) (name : Bytes) (h : Handler O T) : Except Err (Router O T R) :=
  if !r.known name then .error .transitionNotFound
  else .ok { r with pre := r.pre ++ [(name, h)] }

/-- `GetStateTransitionPreExecutionHandlers` (router.go:81-91). -/
def getPre (r : Router O T R) (name : Bytes) : Except Err (List (Handler O T)) :=
  if !r.known name then .error .transitionNotFound else .ok (r.pre.at name)

/-- `AddStateTransitionExecutionHandler` (router.go:95-102); the error is
`ErrTransitionAlreadyRegistered`. -/
def addExec (r : Router O T R) (name : Bytes) (h : Handler O T) : Except Err (Router O T R) :=
  if r.known name then .error .other else .ok { r with exec := r.exec ++ [(name, h)] }

/-- `GetStateTransitionExecutionHandler` (router.go:104-111). -/
def getExec (r : Router O T R) (name : Bytes) : Except Err (Handler O T) :=
  match r.exec.find? fun e => e.1 = name with
  | none => .error .transitionNotFound
  | some e => .ok e.2

/-- `AddStateTransitionPostExecutionHandler` (router.go:115-125). -/
def addPost (r : Router O T R) (name : Bytes) (h : Handler O T) : Except Err (Router O T R) :=
  if !r.known name then .error .transitionNotFound
  else .ok { r with post := r.post ++ [(name, h)] }

/-- `GetStateTransitionPostExecutionHandlers` (router.go:127-137). -/
def getPost (r : Router O T R) (name : Bytes) : Except Err (List (Handler O T)) :=
  if !r.known name then .error .transitionNotFound else .ok (r.post.at name)

/-- `AddAuthAdmissionHandler` (router.go:143-145). -/
def addAuthAdmission (r : Router O T R) (h : TxHandler O T R) : Router O T R :=
  { r with authAdmission := r.authAdmission ++ [h] }

/-- `AddTransactionPostAuthenticationHandler` (router.go:151-153). -/
def addPostAuth (r : Router O T R) (h : TxHandler O T R) : Router O T R :=
  { r with postAuth := r.postAuth ++ [h] }

/-- `ListStateTransitions` (router.go:155-161), in an arbitrary but fixed order. -/
def listStateTransitions (r : Router O T R) : List Bytes := r.exec.map Prod.fst

end Router

section deliver
variable {S O T R : Type} [StateObject O] [StateTransition T]

/-- A `for` loop over handlers that stops at the first error; `wrap` is what the loop body does
to that error. -/
def runAll {H : Type} (run : H → S → Res S (Except Err Unit)) (wrap : Err → Err) :
    List H → S → Res S (Except Err Unit)
  | [], s => .done (.ok ()) s
  | h :: hs, s => match run h s with
    | .panic => .panic
    | .diverge => .diverge
    | .done (.error e) s => .done (.error (wrap e)) s
    | .done (.ok ()) s => runAll run wrap hs s

/-- `Runtime.runAdmissionChain` (runtime/runtime.go:224-239), the handlers run by `run`.  An
error of a handler becomes `ErrBadRequest`. -/
def admissionChain (router : Router O T R) (run : Handler O T → S → Res S (Except Err Unit))
    (t : T) (s : S) : Res S (Except Err Unit) :=
  match router.getAdmission (tname t) with
  | .error e => .done (.error e) s
  | .ok hs => runAll run (fun _ => .badRequest) hs s

/-- The part of `Runtime.deliver` after admission (runtime/runtime.go:174-219). -/
def deliverAdmitted (sys : Sys S O) (router : Router O T R)
    (run : Handler O T → S → Res S (Except Err Unit)) (users : Users) (t : T) (s : S) :
    Res S (Except Err Unit) :=
  match sys.authorized s .deliver (tname t) users with
  | .panic => .panic
  | .ret (.error e) => .done (.error e) s
  | .ret (.ok ()) =>
    -- the error of this lookup is ignored (runtime.go:180-181)
    let pres := match router.getPre (tname t) with
      | .error _ => []
      | .ok hs => hs
    match runAll run id pres s with
    | .panic => .panic
    | .diverge => .diverge
    | .done (.error e) s => .done (.error e) s
    | .done (.ok ()) s => match router.getExec (tname t) with
      | .error e => .done (.error e) s
      | .ok h => match run h s with
        | .panic => .panic
        | .diverge => .diverge
        | .done (.error e) s => .done (.error e) s
        | .done (.ok ()) s => match router.getPost (tname t) with
          | .error e => .done (.error e) s
          | .ok hs => runAll run id hs s

/-- `Runtime.deliver` (runtime/runtime.go:163-220).  The first argument bounds the nesting of
deliveries: handlers deliver through their client, without skipping admission
(runtime/client.go:56). -/
def deliver (sys : Sys S O) (router : Router O T R) :
    Nat → (skipAdmission : Bool) → Users → T → S → Res S (Except Err Unit)
  | 0, _, _, _, _ => .diverge
  | n + 1, skip, users, t, s =>
    let run : Handler O T → S → Res S (Except Err Unit) := fun h s =>
      (h.code users t).run sys (deliver sys router n false) (Users.ofNames [h.owner]) s
    if skip then deliverAdmitted sys router run users t s
    else match admissionChain router run t s with
      | .panic => .panic
      | .diverge => .diverge
      | .done (.error e) s => .done (.error e) s
      | .done (.ok ()) s => deliverAdmitted sys router run users t s

/-- `Runtime.runTxAdmissionChain` and `runTxPostAuthenticationChain`
(runtime/runtime.go:242-262): every error becomes `ErrBadRequest`. -/
def txChain (sys : Sys S O) (router : Router O T R) (fuel : Nat) (hs : List (TxHandler O T R))
    (tx : Tx T R) (s : S) : Res S (Except Err Unit) :=
  runAll (fun h s => (h.code tx).run sys (deliver sys router fuel false)
    (Users.ofNames [h.owner]) s) (fun _ => .badRequest) hs s

end deliver
end Verif
