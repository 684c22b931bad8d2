import Verif.Model.ORM
/-!
# A concrete object type, used only to show that hypotheses can be met and to refute
-/

namespace Verif.Spec

/-- A dynamic message: its API definition and its fields by JSON name. -/
structure Msg where
  api : APIDef
  fields : List (Bytes × Val)
  deriving DecidableEq, Repr

instance : StateObject Msg where
  api m := m.api
  field m f := match m.fields.find? fun e => e.1 = f with
    | some e => e.2
    | none => .unsupported []
  marshalPanics _ := false

/-- API definition of the sample type. -/
def postApi : APIDef := ⟨b!"test", b!"Post"⟩

/-- Schema of the sample type: string primary key, a string and an integer secondary key
(as `Post` of testdata, with one key more). -/
def postSchema : Schema := ⟨postApi, some (b!"id", .string), [⟨b!"creator", .string⟩, ⟨b!"likes", .uint64⟩]⟩

/-- A post. -/
def post (id creator : Bytes) (likes : BitVec 64) : Msg :=
  ⟨postApi, [(b!"id", .str id), (b!"creator", .str creator), (b!"likes", .uint64 likes)]⟩

/-- API definition of a second sample type. -/
def noteApi : APIDef := ⟨b!"test", b!"Note"⟩

/-- Schema of a type without indexes. -/
def noteSchema : Schema := ⟨noteApi, some (b!"id", .uint32), []⟩

/-- A note. -/
def note (id : BitVec 32) (text : Bytes) : Msg := ⟨noteApi, [(b!"id", .uint32 id), (b!"text", .str text)]⟩

end Verif.Spec
