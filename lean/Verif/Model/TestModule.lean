import Verif.Model.Builder
import Verif.Model.Universe
/-!
# The module of testdata/testmodule

A module of its own, with its own objects and its own transition: it is used by the tests of the
API server and is not part of the application.
-/

namespace Verif.TestModule

/-- `Post` and `Params` (testdata/testmodule/v1/testmodule.proto:21-39). -/
inductive Object where
  | post (id creator title text : Bytes)
  | params (lastPostNumber : BitVec 64)
  deriving DecidableEq, Repr

/-- `MsgCreatePost` (testmodule.proto:10-19). -/
structure CreatePost where
  creator : Bytes
  title : Bytes
  text : Bytes
  deriving DecidableEq, Repr

/-- `APIDefinition` of the two objects (testmodule.starport.go:21-27, 98-104). -/
def Object.api : Object → APIDef
  | .post .. => ⟨b!"testmodule.v1", b!"Post"⟩
  | .params _ => ⟨b!"testmodule.v1", b!"Params"⟩

instance : StateObject Object where
  api := Object.api
  field
    | .post id creator title text, f =>
      if f = b!"id" then .str id else if f = b!"creator" then .str creator
      else if f = b!"title" then .str title else if f = b!"text" then .str text else .unsupported []
    | .params n, f => if f = b!"lastPostNumber" then .uint64 n else .unsupported []
  marshalPanics
    | .post id creator title text => [id, creator, title, text].any fun s => !validUtf8 s
    | .params _ => false

/-- `APIDefinition` of `MsgCreatePost` (testmodule.starport.go:9-15). -/
instance : StateTransition CreatePost where
  api _ := ⟨b!"testmodule.v1", b!"MsgCreatePost"⟩

/-- `fmt.Sprintf("%d", n)`. -/
def printed (n : BitVec 64) : Bytes := (Nat.toDigits 10 n.toNat).map fun c => UInt8.ofNat c.toNat

/-- Code of the module. -/
abbrev PostCode := Prog Object CreatePost (Except Err Unit)

/-- `newMsgCreatePost` (testdata/testmodule/module.go:25-45).  An object of the wrong type can not be
read; an absent number is read as zero. -/
def createPostExec (_users : Users) (msg : CreatePost) : PostCode :=
  .get (Object.params 0).api.name singletonID fun
    | .error e => .ret (.error e)
    | .ok (.post ..) => .crash
    | .ok (.params n) => .create (.post (printed n) msg.creator msg.title msg.text) fun
      | .error e => .ret (.error e)
      | .ok () => .ret (.ok ())

/-- `newMsgCreatePostAdmission` (module.go:47-61). -/
def createPostAdmission (users : Users) (msg : CreatePost) : PostCode :=
  if !users.has [msg.creator] then .ret (.error .other)
  else if msg.title = [] then .ret (.error .other)
  else if msg.text = [] then .ret (.error .other)
  else .ret (.ok ())

/-- `genesis.Default` (module.go:67-69). -/
def genesisDefault : PostCode := .create (.params 1) .ret

/-- `genesis.Import` (module.go:71-73). -/
def genesisImport (_state : Option Bytes) : PostCode := .crash

/-- `Module.Initialize` (module.go:14-23), `PostSchema`, `ParamsSchema` (testmodule.starport.go:142-149). -/
def desc : ModuleDesc Object CreatePost Unit where
  name := b!"test"
  objects := [
    ⟨(Object.post [] [] [] []).api, ⟨b!"testmodule.v1.Post", [
        ⟨b!"id", .string, .single, []⟩, ⟨b!"creator", .string, .single, []⟩,
        ⟨b!"title", .string, .single, []⟩, ⟨b!"text", .string, .single, []⟩]⟩,
      { primaryKey := b!"id", secondaryKeys := [b!"creator"] }⟩,
    ⟨(Object.params 0).api, ⟨b!"testmodule.v1.Params", [⟨b!"lastPostNumber", .uint64, .single, []⟩]⟩,
      { singleton := true }⟩]
  exec := [(b!"testmodule.v1.MsgCreatePost", createPostExec)]
  admission := [(b!"testmodule.v1.MsgCreatePost", createPostAdmission)]
  genesis := some (genesisDefault, genesisImport)

/-- `crisis.Module.Initialize` (x/crisis/module.go:8-12). -/
def crisisDesc : ModuleDesc Object CreatePost Unit where
  name := b!"crisis"

end Verif.TestModule
