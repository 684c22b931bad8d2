import Verif.Model.Kind
/-!
# Object descriptors and schemas
(pkg/protoutils/desc/desc.go, core/schema/schema.go, runtime/orm/schema/*.go, core/meta/*.go)
-/

namespace Verif

/-- `meta.APIDefinition` (core/meta; the api type is not used by the modelled code). -/
structure APIDef where
  group : Bytes
  kind : Bytes
  deriving DecidableEq, Repr

/-- `APIDefinition.Name` / `meta.Name` (core/meta/meta.go:9-11, 33-35): "group.kind". -/
def APIDef.name (d : APIDef) : Bytes := d.group ++ 46 :: d.kind

/-- What the ORM needs from a `meta.StateObject` (core/meta/meta.go:20-24): its API
definition, the value of each field by JSON name (`ProtoReflect().Get(fd)`), and whether
`objects.marshal` panics on it (unknown fields, objects/store.go:20-22, or a marshalling
error such as invalid UTF-8, 23-26). -/
class StateObject (O : Type) where
  api : O → APIDef
  field : O → Bytes → Val
  marshalPanics : O → Bool

/-! ## Descriptors -/

/-- Cardinality of a field. -/
inductive Card where
  | single
  | list
  | map (key value : Kind) (valueMsg : Bytes)
  deriving DecidableEq, Repr

/-- `protoreflect.FieldDescriptor`: JSON name, kind, cardinality, and the full name of the
message type for message fields. -/
structure FieldDesc where
  json : Bytes
  kind : Kind
  card : Card := .single
  msg : Bytes := []
  deriving DecidableEq, Repr

/-- `protoreflect.MessageDescriptor`. -/
structure MsgDesc where
  fullName : Bytes
  fields : List FieldDesc
  deriving DecidableEq, Repr

/-- All message types by full name (the descriptor graph; types may refer to each other
recursively). -/
abbrev DescEnv := Bytes → MsgDesc

/-- `desc.HasKind` (desc.go:18-39).  Recurses only into the message values of map fields.
`fuel` bounds the recursion depth; `none` means it ran out. -/
def hasKind (env : DescEnv) (k : Kind) : Nat → MsgDesc → Option Bool
  | 0, _ => none
  | fuel + 1, d => go fuel d.fields
where
  go (fuel : Nat) : List FieldDesc → Option Bool
    | [] => some false
    | f :: fs => match f.card with
      | .map kk vk vm =>
        if kk = k ∨ vk = k then some true
        else if vk = .message then
          match hasKind env k fuel (env vm) with
          | some true => some true
          | some false => go fuel fs
          | none => none
        else go fuel fs
      | _ => if f.kind = k then some true else go fuel fs

/-- `desc.HasKinds` (desc.go:8-15). -/
def hasKinds (env : DescEnv) (fuel : Nat) (d : MsgDesc) : List Kind → Option Bool
  | [] => some false
  | k :: ks => match hasKind env k fuel d with
    | some true => some true
    | some false => hasKinds env fuel d ks
    | none => none

/-- `fd.IsMap()`. -/
def FieldDesc.isMap (f : FieldDesc) : Bool :=
  match f.card with
  | .map .. => true
  | _ => false

/-- `desc.hasMap` (desc.go:47-76): first pass over the fields (51-61), then mark the message
itself as inspected (63), then inspect the message fields, each guarded by the test of line
66 which looks up the *outer* message.  Returns the answer and the updated set. -/
def hasMapAux (env : DescEnv) : Nat → List Bytes → MsgDesc → Option (Bool × List Bytes)
  | 0, _, _ => none
  | fuel + 1, inspected, d =>
    if d.fields.any FieldDesc.isMap then some (true, inspected)
    else
      let toInspect := (d.fields.filter fun f => f.kind = .message).map fun f => env f.msg
      let rec loop : List Bytes → List MsgDesc → Option (Bool × List Bytes)
        | insp, [] => some (false, insp)
        | insp, m :: ms =>
          if d.fullName ∈ insp then loop insp ms
          else match hasMapAux env fuel insp m with
            | none => none
            | some (true, insp') => some (true, insp')
            | some (false, insp') => loop (m.fullName :: insp') ms
      loop (d.fullName :: inspected) toInspect

/-- `desc.HasMap` (desc.go:43-45). -/
def hasMap (env : DescEnv) (fuel : Nat) (d : MsgDesc) : Option Bool :=
  (hasMapAux env fuel [] d).map (·.1)

/-! ## Schemas -/

/-- `schema.Definition` (core/schema, generated). -/
structure SchemaDef where
  singleton : Bool := false
  primaryKey : Bytes := []
  secondaryKeys : List Bytes := []
  deriving DecidableEq, Repr

/-- `Definition.Validate` (core/schema/schema.go:6-17); `true` means no error. -/
def SchemaDef.validate (d : SchemaDef) : Bool :=
  if d.singleton && d.primaryKey ≠ [] then false
  else if d.singleton && d.secondaryKeys.length ≠ 0 then false
  else if !d.singleton && d.primaryKey = [] then false
  else true

/-- `schema.UnsupportedKinds` (runtime/orm/schema/schema.go:13-23). -/
def unsupportedKinds : List Kind :=
  [.sint32, .sint64, .sfixed32, .fixed32, .float, .sfixed64, .fixed64, .double, .group]

/-- `schema.Indexer` (runtime/orm/schema/indexer.go:30-35): the field (by JSON name, which is
also the prefix) and its encoder. -/
structure Indexer where
  name : Bytes
  kind : Kind
  deriving DecidableEq, Repr

/-- `schema.Schema` (runtime/orm/schema/schema.go:29-40).  `pk = none` for singletons. -/
structure Schema where
  api : APIDef
  pk : Option (Bytes × Kind)
  indexes : List Indexer
  deriving DecidableEq, Repr

/-- `Schema.Name` and `Schema.TypePrefix` (schema.go:50-56, 128-129). -/
def Schema.name (s : Schema) : Bytes := s.api.name

/-- `Schema.HasIndexes` (schema.go:46-48, 131-132, 150). -/
def Schema.hasIndexes (s : Schema) : Bool := s.indexes ≠ []

/-- Errors of schema parsing and registration (runtime/orm/schema/errors.go). -/
inductive SchemaErr where
  | badDefinition
  | alreadyExists
  deriving DecidableEq, Repr

/-- `NewIndexer` (runtime/orm/schema/indexer.go:11-28). -/
def newIndexer (d : MsgDesc) (jsonName : Bytes) : Except SchemaErr Indexer :=
  match d.fields.find? (fun f => f.json = jsonName) with
  | none => .error .badDefinition
  | some f => if f.kind.hasEncoder then .ok { name := jsonName, kind := f.kind }
    else .error .badDefinition

/-- The secondary key loop of `parseObjectSchema` (schema.go:141-149). -/
def newIndexers (d : MsgDesc) : List Bytes → Except SchemaErr (List Indexer)
  | [] => .ok []
  | n :: ns => match newIndexer d n with
    | .error e => .error e
    | .ok i => match newIndexers d ns with
      | .error e => .error e
      | .ok is => .ok (i :: is)

/-- `parseObjectSchema` (runtime/orm/schema/schema.go:95-152).  The fuel bounds the descent
into the descriptor graph; running out of it (Go: unbounded recursion) yields `none`. -/
def parseObjectSchema (env : DescEnv) (fuel : Nat) (api : APIDef) (d : MsgDesc) (o : SchemaDef) :
    Option (Except SchemaErr Schema) :=
  if !o.validate then some (.error .badDefinition)
  else match hasMap env fuel d with
    | none => none
    | some true => some (.error .badDefinition)
    | some false => match hasKinds env fuel d unsupportedKinds with
      | none => none
      | some true => some (.error .badDefinition)
      | some false =>
        let pk : Except SchemaErr (Option (Bytes × Kind)) :=
          if o.singleton then
            if o.primaryKey ≠ [] then .error .badDefinition else .ok none
          else match d.fields.find? (fun f => f.json = o.primaryKey) with
            | none => .error .badDefinition
            | some f => if f.kind.hasEncoder then .ok (some (o.primaryKey, f.kind))
              else .error .badDefinition
        match pk with
        | .error e => some (.error e)
        | .ok pk =>
          if o.secondaryKeys = [] then some (.ok { api, pk, indexes := [] })
          else if o.singleton then some (.error .badDefinition)
          else match newIndexers d o.secondaryKeys with
            | .error e => some (.error e)
            | .ok is => some (.ok { api, pk, indexes := is })

/-- Encode the value obtained by `EncodeString`/`EncodeInterface`, passing on errors and
panics (the common tail of schema.go:72-76, indexer.go:51-55 and 59-63). -/
def Out.encoded (k : Kind) : Out (Option Val) → Out (Option Bytes)
  | .panic => .panic
  | .ret none => .ret none
  | .ret (some v) => match k.encodeValue v with
    | .panic => .panic
    | .ret b => .ret (some b)

/-- `Schema.EncodePrimaryKey` (schema.go:60-66). -/
def Schema.encodePrimaryKey {O : Type} [StateObject O] (s : Schema) (o : O) : Out Bytes :=
  match s.pk with
  | none => .ret b!"unique"
  | some (f, k) => k.encodeValue (StateObject.field o f)

/-- `Schema.EncodePrimaryKeyString` (schema.go:68-77); `none` inside is an error. -/
def Schema.encodePrimaryKeyString (s : Schema) (str : Bytes) : Out (Option Bytes) :=
  match s.pk with
  | none => .ret none
  | some (_, k) => (k.encodeString str).encoded k

/-- `Schema.Indexer` (schema.go:79-85). -/
def Schema.indexer (s : Schema) (f : Bytes) : Option Indexer := s.indexes.find? fun i => i.name = f

/-- `Indexer.MustEncodeFromObject` (indexer.go:45-48). -/
def Indexer.encodeFromObject {O : Type} [StateObject O] (i : Indexer) (o : O) : Out Bytes :=
  i.kind.encodeValue (StateObject.field o i.name)

/-- `Indexer.EncodeInterface` (indexer.go:50-56); `none` inside is an error. -/
def Indexer.encodeInterface (i : Indexer) (a : Arg) : Out (Option Bytes) :=
  (i.kind.encodeInterface a).encoded i.kind

/-- `Indexer.EncodeString` (indexer.go:58-64). -/
def Indexer.encodeString (i : Indexer) (s : Bytes) : Out (Option Bytes) :=
  (i.kind.encodeString s).encoded i.kind

/-! ## Registry -/

/-- `schema.Registry` (runtime/orm/schema/registry.go:17-21): the schemas in registration
order; the three Go maps are views of it. -/
abbrev Registry := List Schema

/-- Lookup by name, as in `Registry.Get` (registry.go:49-55). -/
def Registry.get (r : Registry) (name : Bytes) : Option Schema := r.find? fun s => s.name = name

/-- `Registry.Add` (registry.go:23-39). -/
def Registry.add (r : Registry) (s : Schema) : Except SchemaErr Registry :=
  match r.get s.name with
  | some _ => .error .alreadyExists
  | none => .ok (r ++ [s])

/-- `Registry.GetByAPIDefinition` (registry.go:81-91); a later registration with the same
group and kind would overwrite, hence the search from the end. -/
def Registry.getByAPI (r : Registry) (group kind : Bytes) : Option Schema :=
  r.reverse.find? fun s => s.api.group = group ∧ s.api.kind = kind

/-- `Registry.ListKindsInGroup` (registry.go:73-79); `none` is the error. -/
def Registry.kindsInGroup (r : Registry) (group : Bytes) : Option (List Bytes) :=
  match (r.filter fun s => s.api.group = group).map fun s => s.api.kind with
  | [] => none
  | ks => some ks

end Verif
