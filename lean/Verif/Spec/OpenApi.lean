import Verif.Model.Protos
import Verif.Spec.Http
import Mathlib.Logic.Relation
/-!
# What is expected of the OpenAPI document
-/

namespace Verif.Spec

open Verif

/-- An order of iteration visits every key once. -/
def IsOrder (ord : MapOrder) : Prop := ∀ n l, (ord n l).Perm l

/-- `m` has a field of the message type `m'`. -/
def Mentions (env : DocEnv) (m m' : MsgOf) : Prop :=
  ∃ f ∈ m.desc.fields, (f.kind = .message ∨ f.kind = .group) ∧ m' = env f.msg

/-- `m'` is `m` or occurs somewhere inside of it. -/
def Reaches (env : DocEnv) : MsgOf → MsgOf → Prop := Relation.ReflTransGen (Mentions env)

/-- Messages are found under their full names. -/
def NamesKnown (env : DocEnv) : Prop := ∀ n, (env n).desc.fullName = n

/-- `AddRequiredMessage`, called with the message on a new generator, returns. -/
def Terminates (env : DocEnv) (ord : MapOrder) (m : MsgOf) : Prop :=
  ∃ fuel, (addRequired env ord fuel {} m).isSome

/-- Messages of the type can be nested without end. -/
def Endless (env : DocEnv) (m : MsgOf) : Prop :=
  ∃ c : Nat → MsgOf, c 0 = m ∧ ∀ i, Mentions env (c i) (c (i + 1))

/-- The message has no fields of message types. -/
def Flat (m : MsgOf) : Prop := ∀ f ∈ m.desc.fields, f.kind ≠ .message ∧ f.kind ≠ .group

/-- There are only finitely many messages in `m`. -/
def FinitelyMany (env : DocEnv) (m : MsgOf) : Prop :=
  ∃ names : List Bytes, ∀ x, Reaches env m x → x.desc.fullName ∈ names

/-- `h` is `f` or is imported by it, directly or not. -/
inductive Within : DocFile → DocFile → Prop where
  | refl (f : DocFile) : Within f f
  | step {f g h : DocFile} (hi : g ∈ f.imports) (hw : Within g h) : Within f h

/-- The messages that answer the operations of a state object. -/
def answers (o : ApiObject) : List MsgOf :=
  if o.schema.singleton then [o.msg] else [o.msg, forgeList o.msg]

/-- `m` occurs in an answer of the API. -/
def Answered (env : DocEnv) (objs : List ApiObject) (m : MsgOf) : Prop :=
  ∃ o ∈ objs, ∃ r ∈ answers o, Reaches env r m

/-- A full name is the name of one message only. -/
def NamesUnique (env : DocEnv) (objs : List ApiObject) : Prop :=
  ∀ x y, Answered env objs x → Answered env objs y → x.desc.fullName = y.desc.fullName → x = y

/-- The references in an operation. -/
def Operation.refs (op : Operation) : List Bytes := match op.response with
  | .json r => [r]
  | _ => []

/-- The references in the schema of a field. -/
def FieldSchema.refs : FieldSchema → List Bytes
  | .ref r => [r]
  | .arrayRef r => [r]
  | _ => []

/-- The references in a document. -/
def docRefs (d : Document) : List Bytes :=
  d.paths.flatMap (fun p => Operation.refs p.2) ++ d.schemas.flatMap fun s => s.2.flatMap fun p => FieldSchema.refs p.2

/-- The reference names a schema of the document. -/
def Resolves (d : Document) (r : Bytes) : Prop :=
  ∃ s ∈ d.schemas, r = b!"#/components/schemas/" ++ s.1

/-- The full name of a message declared at the top level of a file. -/
def topName (f : DocFile) (name : Bytes) : Bytes := f.package ++ 46 :: name

/-- A message that occurs in an answer is declared at the top level of its file. -/
def TopLevel (env : DocEnv) (objs : List ApiObject) : Prop :=
  ∀ x, Answered env objs x → (x.name, x.desc) ∈ x.file.messages ∧ x.desc.fullName = topName x.file x.name

/-- The file declares the message that occurs in an answer, or one imported by it does. -/
def Needed (env : DocEnv) (objs : List ApiObject) (h : DocFile) : Prop :=
  ∃ x, Answered env objs x ∧ Within x.file h

/-- A path is the path of one file only. -/
def PathsUnique (env : DocEnv) (objs : List ApiObject) : Prop :=
  ∀ g h, Needed env objs g → Needed env objs h → g.path = h.path → g = h

/-- Every declaration of the name of a message that occurs in an answer is that of the message. -/
def DeclaredOnce (env : DocEnv) (objs : List ApiObject) : Prop :=
  ∀ x, Answered env objs x → ∀ h, Needed env objs h → ∀ m ∈ h.messages, topName h m.1 = topName x.file x.name →
    m.2 = x.desc

/-- The file declares a message that occurs in a state object, or one imported by it does. -/
def Compiled (env : DocEnv) (objs : List ApiObject) (h : DocFile) : Prop :=
  ∃ o ∈ objs, ∃ x, Reaches env o.msg x ∧ Within x.file h

/-- The files of the state objects: a path is the path of one file only, neither paths nor names are of
those that `forge.List` makes up, one of the files has services at most. -/
structure FilesOk (env : DocEnv) (objs : List ApiObject) : Prop where
  unique : ∀ g h, Compiled env objs g → Compiled env objs h → g.path = h.path → g = h
  compiled : ∀ h, Compiled env objs h → ¬ b!"dynamic/" <+: h.path
  declares : ∀ h, Compiled env objs h → ∀ m ∈ h.messages, ¬ b!"dynamic." <+: topName h m.1
  service : ∀ g h, Compiled env objs g → Compiled env objs h → g.services ≠ [] → h.services ≠ [] → g = h

/-- No earlier object with a list is declared in the same file. -/
def FirstOfFile (objs : List ApiObject) (o : ApiObject) : Prop :=
  ∃ pre post, objs = pre ++ o :: post ∧ o.schema.singleton = false ∧
    ∀ o' ∈ pre, o'.schema.singleton = false → o'.msg.file.path ≠ o.msg.file.path

/-- The operation that was registered last for its path. -/
def LastOf (ops : List RawOp) (r : RawOp) : Prop :=
  ∃ pre post, ops = pre ++ r :: post ∧ ∀ r' ∈ post, r'.path ≠ r.path

/-- The type of the JSON value of a field that is not a message, by the JSON mapping of protobuf 3
(https://developers.google.com/protocol-buffers/docs/proto3#json): integers of 64 bits are strings, so
are enums (their names). -/
def jsonTypeOf : Kind → Bytes
  | .bool => b!"boolean"
  | .int32 | .sint32 | .uint32 | .sfixed32 | .fixed32 => b!"integer"
  | .int64 | .sint64 | .uint64 | .sfixed64 | .fixed64 => b!"string"
  | .float | .double => b!"number"
  | .string | .bytes | .enum => b!"string"
  | .message | .group => b!"object"

/-- ... of a message with the full name: some types are strings.  Wrappers and the types of
google/protobuf/struct.proto, which have mappings of their own, are left out. -/
def jsonTypeOfMessage (fullName : Bytes) : Bytes :=
  if fullName = b!"google.protobuf.Timestamp" ∨ fullName = b!"google.protobuf.Duration" ∨
    fullName = b!"google.protobuf.FieldMask" then b!"string" else b!"object"

/-- ... of a field. -/
def jsonTypeOfField (f : FieldDesc) : Bytes := match f.card with
  | .list => b!"array"
  | .map _ _ _ => b!"object"
  | .single => if f.kind = .message then jsonTypeOfMessage f.msg else jsonTypeOf f.kind

/-- ... of the elements of a field that is a list. -/
def jsonTypeOfItems (f : FieldDesc) : Bytes :=
  if f.kind = .message then jsonTypeOfMessage f.msg else jsonTypeOf f.kind

/-- The type in the schema of a field; references are to schemas of type "object". -/
def documentedType : FieldSchema → Bytes
  | .ref _ => b!"object"
  | .plain t _ => t
  | .array _ | .arrayRef _ => b!"array"

/-- The type of the elements in the schema of a list. -/
def documentedItems : FieldSchema → Bytes
  | .array t => t
  | .arrayRef _ => b!"object"
  | _ => []

/-- The kind is one of the integers of 64 bits. -/
def Wide (k : Kind) : Prop := k ∈ [Kind.int64, .sint64, .uint64, .sfixed64, .fixed64]

instance (k : Kind) : Decidable (Wide k) := by unfold Wide; infer_instance

/-- The template of a path. -/
def template (segs : List Seg) : Bytes := segs.flatMap fun
  | .lit l => 47 :: l
  | .var v => 47 :: 123 :: (v ++ [125])

/-- The state objects of the document are those of the router. -/
def SameObjects (objs : List ApiObject) (routed : List (Schema × SchemaDef)) : Prop :=
  objs.map (fun o => (o.api, o.schema)) = routed.map fun e => (e.1.api, e.2)

/-- The state objects are messages of the files of the application, declared at the top level. -/
def FromFiles (objs : List ApiObject) : Prop :=
  ∀ o ∈ objs, o.msg ∈ docMessages ∧ o.msg.desc.fullName = topName o.msg.file o.msg.name

/-- The state objects of the application, as `apiServer.Start` finds them
(core/apiserver/module.go:48-63). -/
def appApiObjects (lib : Libs) : List ApiObject :=
  ((appModules lib).flatMap (·.objects)).map fun e => ⟨docEnv e.desc.fullName, e.api, e.schema⟩

end Verif.Spec
