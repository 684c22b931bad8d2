import Verif.Model.Schema
import Verif.Model.Out
/-!
# The code generator of modules (pkg/modulecodegen, cmd/protoc-gen-starport)

The generator writes Go declarations for the annotated messages of protobuf files.  The model gives
the declarations with the names and expressions in them, in the order in which they are written;
comments, the package clause, imports and layout are left out.  `protogen` is described as it is
documented: an error reported by `Plugin.Error` makes the whole run fail without output, and the
Go name of a message is given.
-/

namespace Verif

/-- A top-level message as the generator sees it (`protogen.Message`): its name, the Go name
(`GoIdent.GoName`), its fields, and its options `state_object` and `state_transition`
(core/modulegen/modulegen.proto).  A state object descriptor has the fields of `SchemaDef`. -/
structure GenMsg where
  name : Bytes
  goName : Bytes
  fields : List FieldDesc
  object : Option SchemaDef := none
  transition : Bool := false
  deriving DecidableEq, Repr

/-- `protogen.File`: the path without ".proto" (`GeneratedFilenamePrefix`), the Go import path, the
protobuf package, the top-level messages, and whether code for the file is asked for (`Generate`). -/
structure GenFile where
  path : Bytes
  goImportPath : Bytes
  package : Bytes
  messages : List GenMsg
  generate : Bool := true
  deriving DecidableEq, Repr

/-- A generated declaration.  `recv` is the receiver's type without the star. -/
inductive Decl where
  /-- `func (x *recv) APIDefinition()` returning the group, the kind and the api type. -/
  | apiDefinition (recv group kind : Bytes) (transition : Bool)
  | newStateObject (recv : Bytes)
  | newStateTransition (recv : Bytes)
  /-- `type name interface`, with the parameter of `Get` and its type if there is one. -/
  | clientInterface (name object : Bytes) (key : Option (Bytes × Bytes))
  | clientStruct (name : Bytes)
  /-- `Get` of a singleton: asks for `meta.SingletonID`. -/
  | getSingleton (recv object : Bytes)
  /-- `Get(param type, opts...)`: asks for `meta.constructor(param)`. -/
  | getByKey (recv object param type constructor : Bytes)
  | list (recv object iterator : Bytes)
  /-- `Create`, `Delete` and `Update` with the parameter `param *object`. -/
  | create (recv object param : Bytes)
  | delete (recv object param : Bytes)
  | update (recv object param : Bytes)
  | iteratorInterface (name object : Bytes)
  | iteratorStruct (name : Bytes)
  | iteratorGet (recv object : Bytes)
  | iteratorValid (recv : Bytes)
  | iteratorNext (recv : Bytes)
  /-- `var name = &schema.Definition{...}`. -/
  | schema (name : Bytes) (definition : SchemaDef)
  /-- `type ClientSet interface` with its methods for objects (name and type) and transitions. -/
  | clientSetInterface (objects : List (Bytes × Bytes)) (transitions : List (Bytes × Bytes))
  /-- `func NewClientSet` with the fields set, each to a new client of the type of the same name. -/
  | newClientSet (fields : List Bytes)
  | clientSetStruct (fields : List (Bytes × Bytes))
  /-- `func (x *clientSet) name() type`, returning a field. -/
  | accessor (name type field : Bytes)
  /-- `func (x *clientSet) name(msg *message) error`. -/
  | exec (name message : Bytes)
  deriving DecidableEq, Repr

/-- `toLowerCamelCase` (util.go:9-13): the first byte in lower case; the names are ASCII. -/
def lowerFirst : Bytes → Bytes
  | [] => []
  | c :: r => (if 65 ≤ c ∧ c ≤ 90 then c + 32 else c) :: r

/-- `protoKindToGoType` (codegen.go:361-371). -/
def goTypeOf : Kind → Option Bytes
  | .bool => some b!"bool"
  | .string => some b!"string"
  | .bytes => some b!"[]byte"
  | .double => some b!"float64"
  | .uint64 => some b!"uint64"
  | .uint32 => some b!"uint32"
  | .int32 => some b!"int32"
  | .int64 => some b!"int64"
  | _ => none

/-- `metaIDConstructor` (codegen.go:373-377); looking up another type gives the empty string. -/
def metaIDConstructor (goType : Bytes) : Bytes :=
  if goType = b!"string" then b!"NewStringID"
  else if goType = b!"[]byte" then b!"NewBytesID"
  else []

/-- `parseSaveInfo` (codegen.go:327-350): nothing for a singleton, else the JSON name of the primary
key and its Go type; the outer `none` is an error. -/
def parseSaveInfo (m : GenMsg) (d : SchemaDef) : Option (Option (Bytes × Bytes)) :=
  if d.singleton then some none
  else if d.primaryKey = [] then none
  else match m.fields.find? fun f => f.json = d.primaryKey with
    | none => none
    | some f => match goTypeOf f.kind with
      | none => none
      | some t => some (some (d.primaryKey, t))

/-- Names made from the Go name of an object (codegen.go:223, 238, 295, 303; schema.go:28). -/
def GenMsg.client (m : GenMsg) : Bytes := m.goName ++ b!"Client"
def GenMsg.lowerClient (m : GenMsg) : Bytes := lowerFirst m.goName ++ b!"Client"
def GenMsg.iterator (m : GenMsg) : Bytes := m.goName ++ b!"Iterator"
def GenMsg.lowerIterator (m : GenMsg) : Bytes := lowerFirst m.goName ++ b!"Iterator"
def GenMsg.schemaVar (m : GenMsg) : Bytes := m.goName ++ b!"Schema"

/-- `genStateObjectClient` (codegen.go:218-325) after `parseSaveInfo`. -/
def objectClient (m : GenMsg) (key : Option (Bytes × Bytes)) : List Decl :=
  [.clientInterface m.client m.goName key, .clientStruct m.lowerClient] ++
  (match key with
    | none => [.getSingleton m.lowerClient m.goName]
    | some (k, t) => [.getByKey m.lowerClient m.goName k t (metaIDConstructor t),
        .list m.lowerClient m.goName m.lowerIterator]) ++
  [.create m.lowerClient m.goName (lowerFirst m.goName), .delete m.lowerClient m.goName (lowerFirst m.goName),
   .update m.lowerClient m.goName (lowerFirst m.goName)] ++
  (match key with
    | none => []
    | some _ => [.iteratorInterface m.iterator m.goName, .iteratorStruct m.lowerIterator,
        .iteratorGet m.lowerIterator m.goName, .iteratorValid m.lowerIterator, .iteratorNext m.lowerIterator])

/-- One step of the generator: it panics, reports an error, or writes declarations. -/
abbrev GenStep := Out (Option (List Decl))

/-- First one step, then another: an error does not stop the generator (codegen.go:59-62, 68-75,
80-83), a panic does; with an error there is no output. -/
def GenStep.andThen (a b : GenStep) : GenStep :=
  match a with
  | .panic => .panic
  | .ret none => match b with
    | .panic => .panic
    | .ret _ => .ret none
  | .ret (some x) => match b with
    | .panic => .panic
    | .ret none => .ret none
    | .ret (some y) => .ret (some (x ++ y))

/-- All steps of a list in order. -/
def GenStep.all : List GenStep → GenStep
  | [] => .ret (some [])
  | a :: rest => GenStep.andThen a (GenStep.all rest)

/-- `genStateObject` (codegen.go:204-216) with `genAPIDefinition` (api_definition.go:14-48).  For a
message at the top level `FullName().Parent()` is the package. -/
def genStateObject (f : GenFile) (m : GenMsg) (d : SchemaDef) : GenStep :=
  if f.package = [] then .ret none
  else if m.transition then .ret none
  else match parseSaveInfo m d with
    | none => .panic
    | some key => .ret (some ([.apiDefinition m.goName f.package m.name false, .newStateObject m.goName] ++
        objectClient m key))

/-- `genStateTransition` (codegen.go:190-202) with `genAPIDefinition`; before it `genFile` reports an
error if the message is a state object too (68-70). -/
def genStateTransition (f : GenFile) (m : GenMsg) : GenStep :=
  if f.package = [] then .ret none
  else if m.object.isSome then .ret none
  else .ret (some [.apiDefinition m.goName f.package m.name true, .newStateTransition m.goName])

/-- The first loop of `genFile` (codegen.go:52-77), for one message. -/
def genMessage (f : GenFile) (m : GenMsg) : GenStep :=
  GenStep.andThen
    (match m.object with
      | none => .ret (some [])
      | some d => genStateObject f m d)
    (if m.transition then genStateTransition f m else .ret (some []))

/-- `genSchema` (schema.go:15-41). -/
def genSchema (m : GenMsg) (d : SchemaDef) : GenStep :=
  if d.primaryKey = [] ∧ d.singleton = false then .ret none
  else .ret (some [.schema m.schemaVar d])

/-- The name of the method of the client set for an object (codegen.go:93-101, 137-152): the plural,
unless the name ends in "s" or the object is a singleton. -/
def accessorName (m : GenMsg) (d : SchemaDef) : Bytes :=
  if m.goName.getLast? = some 115 ∨ d.singleton = true then m.goName else m.goName ++ b!"s"

/-- The state objects of a file, with their descriptors (codegen.go:64). -/
def GenFile.objects (f : GenFile) : List (GenMsg × SchemaDef) :=
  f.messages.filterMap fun m => m.object.map fun d => (m, d)

/-- The state transitions of a file (codegen.go:75). -/
def GenFile.transitions (f : GenFile) : List GenMsg := f.messages.filter fun m => m.transition

/-- `genClientSet` (codegen.go:89-162). -/
def genClientSet (f : GenFile) : List Decl :=
  [.clientSetInterface (f.objects.map fun o => (accessorName o.1 o.2, o.1.client))
      (f.transitions.map fun t => (b!"Exec" ++ t.goName, t.goName)),
   .newClientSet (f.objects.map fun o => o.1.lowerClient),
   .clientSetStruct (f.objects.map fun o => (o.1.lowerClient, o.1.client))] ++
  (f.objects.map fun o => .accessor (accessorName o.1 o.2) o.1.client o.1.lowerClient) ++
  (f.transitions.map fun t => .exec (b!"Exec" ++ t.goName) t.goName)

/-- `meetsRequirements` (codegen.go:173-188). -/
def GenFile.annotated (f : GenFile) : Bool := f.messages.any fun m => m.object.isSome || m.transition

/-- `genFile` (codegen.go:40-87) for a file that meets the requirements. -/
def genFile (f : GenFile) : GenStep :=
  GenStep.andThen (GenStep.all (f.messages.map (genMessage f)))
    (GenStep.andThen (GenStep.all (f.objects.map fun o => genSchema o.1 o.2)) (.ret (some (genClientSet f))))

/-- `PluginRunner` (codegen.go:18-38): the names of the files written with their declarations.  The
files are grouped by import path in a map and the groups are visited in any order; here `files` are
all files given to the plugin in the order of this visit. -/
def runPlugin : List GenFile → Out (Option (List (Bytes × List Decl)))
  | [] => .ret (some [])
  | f :: rest =>
    if f.annotated then
      match genFile f with
      | .panic => .panic
      | .ret a => match runPlugin rest with
        | .panic => .panic
        | .ret b => match a, b with
          | some x, some y => .ret (some ((f.path ++ b!".starport.go", x) :: y))
          | _, _ => .ret none
    else runPlugin rest

end Verif
