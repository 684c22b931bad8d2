import Verif.Model.Http
import Mathlib.Data.List.Dedup
/-!
# The OpenAPI document of the HTTP API
(core/apiserver/router/openapi.go, pkg/protoutils/oas3schema/oas3schema.go,
pkg/protoutils/forge/list.go)

Comments, descriptions and the constant parts of the document are left out, and so are the HTTP
annotations of service methods, which no service of the repository has (oas3schema.go:166-205).
`protogen.Options.New` (a library) is taken to succeed and to give the files it was given in their
order; `protodesc.NewFile` is taken to succeed on the files that `forge.List` makes, for which the
package of the listed message must not be empty and its file must have a `go_package`.

Go iterates over a map in an order that changes from one iteration to the next; `MapOrder` stands
for all orders it may choose.
-/

namespace Verif

/-- A protobuf file, as far as the generator looks at it: path, package, top-level messages with
their short names, Go names of its services, imports. -/
inductive DocFile where
  | mk (path package : Bytes) (messages : List (Bytes × MsgDesc)) (services : List Bytes)
      (imports : List DocFile)

def DocFile.path : DocFile → Bytes
  | .mk p _ _ _ _ => p

def DocFile.package : DocFile → Bytes
  | .mk _ p _ _ _ => p

def DocFile.messages : DocFile → List (Bytes × MsgDesc)
  | .mk _ _ ms _ _ => ms

def DocFile.services : DocFile → List Bytes
  | .mk _ _ _ ss _ => ss

def DocFile.imports : DocFile → List DocFile
  | .mk _ _ _ _ is => is

/-- `protoreflect.MessageDescriptor`: short name, descriptor, `ParentFile`. -/
structure MsgOf where
  name : Bytes
  desc : MsgDesc
  file : DocFile

/-- All message types by full name. -/
abbrev DocEnv := Bytes → MsgOf

/-- The orders in which Go iterates over maps: the order of the `n`-th iteration over a map with the
keys `l`. -/
abbrev MapOrder := Nat → List Bytes → List Bytes

/-- `rawOperation` (oas3schema.go:37-41): operation id, path, parameters with their types, response;
the method is always GET. -/
structure RawOp where
  id : Bytes
  path : Bytes
  params : List (Bytes × Bytes)
  response : MsgOf

/-- `OpenAPIv3Generator` (oas3schema.go:44-59) before `Build`: the number of maps iterated over so
far, `requiredObjectsSet`, `requiredObjects`, `requiredSchemas`, `rawOperations`. -/
structure Gen where
  iterations : Nat := 0
  marked : List Bytes := []
  objects : List MsgOf := []
  schemas : List Bytes := []
  ops : List RawOp := []

/-- `fullMessageTypeName` (oas3schema.go:461-463): the package and the short name, also for messages
declared inside other messages. -/
def MsgOf.typeName (m : MsgOf) : Bytes := 46 :: (m.file.package ++ 46 :: m.name)

/-- The keys of `nestedMsgs` (oas3schema.go:79-85). -/
def MsgDesc.nested (d : MsgDesc) : List Bytes :=
  ((d.fields.filter fun f => f.kind = .message ∨ f.kind = .group).map FieldDesc.msg).dedup

/-- The loop of `AddRequiredMessage` (oas3schema.go:86-92): the message itself is marked after each
of the calls. -/
def requireNested (rec : Gen → MsgOf → Option Gen) (env : DocEnv) (self : Bytes) :
    Gen → List Bytes → Option Gen
  | g, [] => some g
  | g, n :: ns => match rec g (env n) with
    | none => none
    | some g' => requireNested rec env self { g' with marked := self :: g'.marked } ns

/-- `AddRequiredMessage` (oas3schema.go:73-97).  `fuel` bounds the depth of the recursion; `none`
means that it was not enough. -/
def addRequired (env : DocEnv) (ord : MapOrder) : Nat → Gen → MsgOf → Option Gen
  | 0, _, _ => none
  | fuel + 1, g, m =>
    if m.desc.fullName ∈ g.marked then some g
    else match requireNested (addRequired env ord fuel) env m.desc.fullName
        { g with iterations := g.iterations + 1 } (ord g.iterations m.desc.nested) with
      | none => none
      | some g' => some { g' with
          marked := m.desc.fullName :: g'.marked
          objects := g'.objects ++ [m]
          schemas := g'.schemas ++ [m.typeName] }

/-- `AddRawOperation` (oas3schema.go:219-232). -/
def Gen.addOp (g : Gen) (op : RawOp) : Gen := { g with ops := g.ops ++ [op] }

/-- `forge.List` (pkg/protoutils/forge/list.go:23-61): a file of its own that contains the message
with the repeated field "list". -/
def forgeList (m : MsgOf) : MsgOf :=
  let name := m.name ++ b!"List"
  let package := b!"dynamic." ++ m.file.package
  let desc : MsgDesc := ⟨package ++ 46 :: name, [⟨b!"list", .message, .list, m.desc.fullName⟩]⟩
  ⟨name, desc, .mk (b!"dynamic/" ++ m.file.path) package [(name, desc)] [] [m.file]⟩

/-- A state object registered with the API server: its message, API definition and schema
definition. -/
structure ApiObject where
  msg : MsgOf
  api : APIDef
  schema : SchemaDef

/-- The path of a singleton (core/apiserver/router/server.go:66-68). -/
def singletonPath (api : APIDef) : Bytes := toLower (47 :: (api.group ++ 47 :: api.kind))

/-- The path of one instance (server.go:82-84). -/
def instancePath (api : APIDef) (pk : Bytes) : Bytes :=
  toLower (47 :: (api.group ++ 47 :: (api.kind ++ 47 :: 123 :: (pk ++ [125]))))

/-- The path of the list (server.go:85-87). -/
def listPath (api : APIDef) : Bytes := toLower (47 :: (api.group ++ 47 :: (api.kind ++ b!"s")))

/-- `newListParameters` (openapi.go:32-74) with the constants of core/apiserver/router/types.go. -/
def listParameters : List (Bytes × Bytes) :=
  [(b!"selectField", b!"string"), (b!"start", b!"integer"), (b!"end", b!"integer")]

/-- `openAPI.AddSingleton` and `openAPI.AddObject` (openapi.go:76-119), as called by
`CreateStateObjectHandler` (server.go:63-102). -/
def addApiObject (env : DocEnv) (ord : MapOrder) (fuel : Nat) (g : Gen) (o : ApiObject) : Option Gen :=
  if o.schema.singleton then
    addRequired env ord fuel
      (g.addOp ⟨b!"singleton." ++ o.api.name, singletonPath o.api, [], o.msg⟩) o.msg
  else
    match addRequired env ord fuel
        (g.addOp ⟨b!"get." ++ o.api.name, instancePath o.api o.schema.primaryKey, [], o.msg⟩) o.msg with
    | none => none
    | some g' => addRequired env ord fuel
        (g'.addOp ⟨b!"list." ++ o.api.name, listPath o.api, listParameters, forgeList o.msg⟩)
        (forgeList o.msg)

/-- The loops of `apiServer.Start` (core/apiserver/module.go:52-64). -/
def addApiObjects (env : DocEnv) (ord : MapOrder) (fuel : Nat) : Gen → List ApiObject → Option Gen
  | g, [] => some g
  | g, o :: os => match addApiObject env ord fuel g o with
    | none => none
    | some g' => addApiObjects env ord fuel g' os

/-! ## The files -/

mutual
/-- `recursiveRegistryBuilder.addDep` (oas3schema.go:705-717): the files so far (`dpb`), whose paths
are `parsedFiles`. -/
def addDep (files : List DocFile) : DocFile → List DocFile
  | .mk path package messages services imports =>
    if path ∈ files.map DocFile.path then files
    else addDeps files imports ++ [.mk path package messages services imports]

/-- The loop over the imports (oas3schema.go:711-714). -/
def addDeps (files : List DocFile) : List DocFile → List DocFile
  | [] => files
  | f :: fs => addDeps (addDep files f) fs
end

/-- The files of the plugin (oas3schema.go:675-698). -/
def Gen.files (g : Gen) : List DocFile := addDeps [] (g.objects.map MsgOf.file)

/-! ## The document -/

/-- The schema of a field: a reference, a type with a format, an array of a type (`[]` for the
unsupported ones) or an array of references. -/
inductive FieldSchema where
  | ref (target : Bytes)
  | plain (type format : Bytes)
  | array (type : Bytes)
  | arrayRef (target : Bytes)
  deriving DecidableEq, Repr

/-- The content of the response of an operation (oas3schema.go:465-499). -/
inductive DocResponse where
  | empty
  | octets
  | json (ref : Bytes)
  deriving DecidableEq, Repr

/-- `v3.Operation` (oas3schema.go:338-343); the response is that of code 200. -/
structure Operation where
  id : Bytes
  params : List (Bytes × Bytes)
  response : DocResponse
  deriving DecidableEq, Repr

/-- `v3.Document`: title, paths with the operation of method GET, schemas with their properties. -/
structure Document where
  title : Bytes
  paths : List (Bytes × Operation)
  schemas : List (Bytes × List (Bytes × FieldSchema))
  deriving DecidableEq, Repr

/-- `schemaReferenceForTypeName` (oas3schema.go:437-442): the reference. -/
def schemaRef (typeName : Bytes) : Bytes := b!"#/components/schemas/" ++ typeName.drop 1

/-- `schemaReferenceForTypeName` (oas3schema.go:437-442): `requiredSchemas` afterwards. -/
def require (required : List Bytes) (typeName : Bytes) : List Bytes :=
  if typeName ∈ required then required else required ++ [typeName]

/-- `responseContentForMessage` (oas3schema.go:465-499) and the type name it requires. -/
def responseContent (m : MsgOf) : DocResponse × Option Bytes :=
  if m.typeName = b!".google.protobuf.Empty" then (.empty, none)
  else if m.typeName = b!".google.api.HttpBody" then (.octets, none)
  else (.json (schemaRef m.typeName), some m.typeName)

/-- `addOperationV3` (oas3schema.go:408-434) for the method GET. -/
def addOperation (op : Operation) (path : Bytes) :
    List (Bytes × Operation) → List (Bytes × Operation)
  | [] => [(path, op)]
  | (p, o) :: rest => if p = path then (p, op) :: rest else (p, o) :: addOperation op path rest

/-- `buildOperationV3` (oas3schema.go:235-405) on a path without "=": the pattern `{(.*)=(.*)}` does
not match, so that no path parameter is added. -/
def RawOp.operation (r : RawOp) : Operation := ⟨r.id, r.params, (responseContent r.response).1⟩

/-- The second loop of `addPathsToDocumentV3` (oas3schema.go:208-216). -/
def addRawOps (paths : List (Bytes × Operation)) (ops : List RawOp) : List (Bytes × Operation) :=
  ops.foldl (fun ps r => addOperation r.operation r.path ps) paths

/-- What the loop requires. -/
def requireResponses (required : List Bytes) (ops : List RawOp) : List Bytes :=
  ops.foldl (fun rs r => match (responseContent r.response).2 with
    | none => rs
    | some t => require rs t) required

/-- `protoreflect.Kind.String` (library) for the kinds whose name is used as a format. -/
def Kind.text : Kind → Bytes
  | .int32 => b!"int32" | .sint32 => b!"sint32" | .uint32 => b!"uint32"
  | .int64 => b!"int64" | .sint64 => b!"sint64" | .uint64 => b!"uint64"
  | .sfixed32 => b!"sfixed32" | .fixed32 => b!"fixed32"
  | .sfixed64 => b!"sfixed64" | .fixed64 => b!"fixed64"
  | .float => b!"float" | .double => b!"double"
  | .bool => b!"bool" | .enum => b!"enum" | .string => b!"string" | .bytes => b!"bytes"
  | .message => b!"message" | .group => b!"group"

/-- The type of an element of an array (oas3schema.go:551-574). -/
def Kind.itemType : Kind → Bytes
  | .string | .bytes => b!"string"
  | .bool => b!"boolean"
  | .float | .double => b!"number"
  | .message | .group => []
  | _ => b!"integer"

/-- The type and format of a field that is not an array (oas3schema.go:601-628). -/
def Kind.plainSchema : Kind → FieldSchema
  | .string => .plain b!"string" []
  | .bytes => .plain b!"string" b!"bytes"
  | .bool => .plain b!"boolean" []
  | .enum => .plain b!"integer" b!"enum"
  | .float => .plain b!"number" b!"float"
  | .double => .plain b!"number" b!"double"
  | .message | .group => .plain [] []
  | k => .plain b!"integer" k.text

/-- The schema of a message field that is not an array (oas3schema.go:582-600). -/
def messageSchema (typeName : Bytes) : FieldSchema × Option Bytes :=
  if typeName = b!".google.protobuf.Timestamp" then (.plain b!"string" b!"RFC3339", none)
  else if typeName = b!".google.type.Date" then (.plain b!"string" b!"date", none)
  else if typeName = b!".google.type.DateTime" then (.plain b!"string" b!"date-time", none)
  else (.ref (schemaRef typeName), some typeName)

/-- The schema of a field (oas3schema.go:537-645) and the type name it requires. -/
def fieldSchema (env : DocEnv) (f : FieldDesc) : FieldSchema × Option Bytes :=
  match f.card with
  | .list =>
    if f.kind = .message then (.arrayRef (schemaRef (env f.msg).typeName), some (env f.msg).typeName)
    else (.array f.kind.itemType, none)
  | .map k v _ =>
    if k = .string ∧ v = .string then (.plain b!"object" [], none)
    else if f.kind = .message then messageSchema (env f.msg).typeName
    else (f.kind.plainSchema, none)
  | .single =>
    if f.kind = .message then messageSchema (env f.msg).typeName
    else (f.kind.plainSchema, none)

/-- The loop over the fields of a message (oas3schema.go:518-657): the properties, and
`requiredSchemas` afterwards. -/
def properties (env : DocEnv) : List Bytes → List FieldDesc → List (Bytes × FieldSchema) × List Bytes
  | required, [] => ([], required)
  | required, f :: fs =>
    let r := fieldSchema env f
    let required' := match r.2 with
      | none => required
      | some t => require required t
    let rest := properties env required' fs
    ((f.json, r.1) :: rest.1, rest.2)

/-- The state while schemas are generated: `requiredSchemas`, `generatedSchemas`, the schemas of the
document. -/
structure SchemaState where
  required : List Bytes
  generated : List Bytes := []
  schemas : List (Bytes × List (Bytes × FieldSchema)) := []

/-- The body of the loop of `addSchemasToDocumentV3` (oas3schema.go:504-672). -/
def addSchema (env : DocEnv) (package : Bytes) (s : SchemaState) (m : Bytes × MsgDesc) : SchemaState :=
  let typeName := 46 :: (package ++ 46 :: m.1)
  if typeName ∉ s.required ∨ typeName ∈ s.generated then s
  else
    let r := properties env s.required m.2.fields
    ⟨r.2, s.generated ++ [typeName], s.schemas ++ [(m.2.fullName, r.1)]⟩

/-- `addSchemasToDocumentV3` (oas3schema.go:502-673). -/
def addFileSchemas (env : DocEnv) (s : SchemaState) (f : DocFile) : SchemaState :=
  f.messages.foldl (addSchema env f.package) s

/-- Insertion by name. -/
def insertNamed {α : Type} (a : Bytes × α) : List (Bytes × α) → List (Bytes × α)
  | [] => [a]
  | b :: rest => if Bytes.lt b.1 a.1 then b :: insertNamed a rest else a :: b :: rest

/-- `sort.Slice` by name (oas3schema.go:133-148); equal names do not occur. -/
def sortNamed {α : Type} (l : List (Bytes × α)) : List (Bytes × α) := l.foldr insertNamed []

/-- `d.Info.Title` (oas3schema.go:115, 164): the name of the last service. -/
def docTitle (files : List DocFile) : Bytes := (files.flatMap DocFile.services).getLastD []

/-- `Build` and `buildDocumentV3` (oas3schema.go:100-150). -/
def Gen.build (env : DocEnv) (g : Gen) : Document :=
  let files := g.files
  let paths := files.foldl (fun ps _ => addRawOps ps g.ops) []
  let required := files.foldl (fun rs _ => requireResponses rs g.ops) g.schemas
  let s := files.foldl (addFileSchemas env) { required := required }
  ⟨docTitle files, sortNamed paths, sortNamed s.schemas⟩

/-- The document served by the API server for the given state objects: `none` if the fuel is not
enough (core/apiserver/module.go:46-69, server.go:107-121). -/
def apiDocument (env : DocEnv) (ord : MapOrder) (fuel : Nat) (objs : List ApiObject) : Option Document :=
  (addApiObjects env ord fuel {} objs).map (Gen.build env)

end Verif
