import Verif.Spec.Sample
import Verif.Spec.Runtime
/-!
# A small application, used only to show that hypotheses of the runtime theorems can be met
-/

namespace Verif.Spec

/-- Transitions of the toy application. -/
inductive Toy where
  | put (id creator : Bytes)
  | sys (n : Nat)
  | unknown
  deriving DecidableEq, Repr

instance : StateTransition Toy where
  api
    | .put .. => ⟨b!"test", b!"Put"⟩
    | .sys _ => ⟨b!"test", b!"Sys"⟩
    | .unknown => ⟨b!"test", b!"Unknown"⟩

/-- Creates a post; its admission handler rejects the creator "eve". -/
def toyPut : Users → Toy → Prog Msg Toy (Except Err Unit)
  | _, .put id creator => .create (post id creator 0) fun r => .ret r
  | _, _ => .crash

/-- Refuses posts by "eve" and posts that exist. -/
def toyAdmit : Users → Toy → Prog Msg Toy (Except Err Unit)
  | _, .put id creator =>
    if creator = b!"eve" then .ret (.error .other)
    else .get postApi.name id fun
      | .ok _ => .ret (.error .alreadyExists)
      | .error _ => .ret (.ok ())
  | _, _ => .crash

/-- Does nothing. -/
def toySys : Users → Toy → Prog Msg Toy (Except Err Unit) := fun _ _ => .ret (.ok ())

/-- The module "blog" may do everything with posts; "ann" may put posts; the engine may do
anything. -/
def toyAuth : Authorizer Msg := fun _ v resource users =>
  if users = [userABCI] ∨ users = [b!"blog"] then .ret (.ok true)
  else if users = [b!"ann"] ∧ v = .deliver ∧ resource = b!"test.Put" then .ret (.ok true)
  else .ret (.error .other)

/-- Routing of the toy application. -/
def toyRouter : Router Msg Toy Unit where
  authAdmission := [⟨b!"blog", fun tx => if tx.users = [] then .ret (.error .other) else .ret (.ok ())⟩]
  postAuth := [⟨b!"blog", fun _ => .ret (.ok ())⟩]
  admission := [(b!"test.Put", ⟨b!"blog", toyAdmit⟩)]
  exec := [(b!"test.Put", ⟨b!"blog", toyPut⟩), (b!"test.Sys", ⟨b!"blog", toySys⟩)]

/-- The toy application: a transaction puts one post whose identifier is the transaction
itself; the author is "eve" if it starts with 'e', and it is signed by "ann" in any case.  If it starts with
'u' a second, unknown transition follows. -/
def toyApp : Config (Store Msg) Msg Toy Unit Unit where
  ops := ormOps Msg
  authorizer := toyAuth
  router := toyRouter
  decode := some fun b => if b = [] then .ret (.error .other) else
    .ret (.ok ⟨.put b (if b.head? = some 101 then b!"eve" else b!"ann") ::
      (if b.head? = some 117 then [.unknown] else []), [b!"ann"], ()⟩)
  genesis := []
  services := []
  parseGenesis := fun _ => .error .other
  query := fun _ _ => .ret (1, none)
  createModules := .sys 0
  setInitChain := fun _ => .sys 1
  setBeginBlock := fun _ => .ret (.sys 2)
  setEndBlock := fun _ => .sys 3
  valUpdatesType := postApi.name
  toLegacy := fun _ => .ret []
  singletonId := b!"unique"

end Verif.Spec
