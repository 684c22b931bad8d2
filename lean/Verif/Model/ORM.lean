import Verif.Model.Index
/-!
# The object store and the ORM store (runtime/orm/objects/store.go, runtime/orm/store.go)

Objects are kept in the key-value store as they are: that `proto.Marshal` followed by
`proto.Unmarshal` gives the object back is part of the trusted base.  A marshalling panic
(objects/store.go:19-28) is modelled through `StateObject.marshalPanics`.
-/

namespace Verif
variable {O : Type} [StateObject O]

/-- `saveKeyRaw` (runtime/orm/objects/store.go:112-121). -/
def saveKeyRaw (sch : Schema) (key : Bytes) : Except OrmErr Bytes :=
  if key.length = 0 then .error .emptyKey
  else .ok (sch.name ++ 47 :: key)

/-- `saveKey` (objects/store.go:106-110). -/
def saveKey (sch : Schema) (o : O) : Out (Except OrmErr Bytes) :=
  match sch.encodePrimaryKey o with
  | .panic => .panic
  | .ret pk => .ret (saveKeyRaw sch pk)

/-- `objects.Store.Create` (objects/store.go:50-63). -/
def objCreate (kv : KV O) (sch : Schema) (o : O) : Out (Except OrmErr Unit × KV O) :=
  match saveKey sch o with
  | .panic => .panic
  | .ret (.error e) => .ret (.error e, kv)
  | .ret (.ok key) =>
    if kv.has key then .ret (.error .alreadyExists, kv)
    else if StateObject.marshalPanics o then .panic
    else .ret (.ok (), kv.set key o)

/-- `objects.Store.Get` (objects/store.go:65-77). -/
def objGet (kv : KV O) (sch : Schema) (id : Bytes) : Except OrmErr O :=
  match saveKeyRaw sch id with
  | .error e => .error e
  | .ok key => match kv.get key with
    | none => .error .notFound
    | some o => .ok o

/-- `objects.Store.Update` (objects/store.go:79-92). -/
def objUpdate (kv : KV O) (sch : Schema) (o : O) : Out (Except OrmErr Unit × KV O) :=
  match saveKey sch o with
  | .panic => .panic
  | .ret (.error e) => .ret (.error e, kv)
  | .ret (.ok key) =>
    if !kv.has key then .ret (.error .notFound, kv)
    else if StateObject.marshalPanics o then .panic
    else .ret (.ok (), kv.set key o)

/-- `objects.Store.Delete` (objects/store.go:94-104). -/
def objDelete (kv : KV O) (sch : Schema) (o : O) : Out (Except OrmErr Unit × KV O) :=
  match saveKey sch o with
  | .panic => .panic
  | .ret (.error e) => .ret (.error e, kv)
  | .ret (.ok key) =>
    if !kv.has key then .ret (.error .notFound, kv)
    else .ret (.ok (), (kv.delete key).2)

/-- `orm.Store` (runtime/orm/store.go:42-46): two separate databases and the registry. -/
structure Store (O : Type) where
  objects : KV O
  index : KV Bytes
  reg : Registry

namespace Store

/-- `orm.NewStore` with fresh databases (runtime/orm/store.go:34-40, runtime/builder.go:286-295). -/
def new : Store O := { objects := KV.empty, index := KV.empty, reg := [] }

/-- `Store.RegisterObject` (runtime/orm/store.go:48-55, schema/registry.go:41-47). -/
def registerObject (s : Store O) (env : DescEnv) (fuel : Nat) (api : APIDef) (d : MsgDesc)
    (def_ : SchemaDef) : Option (Except SchemaErr (Store O)) :=
  match parseObjectSchema env fuel api d def_ with
  | none => none
  | some (.error e) => some (.error e)
  | some (.ok sch) => match s.reg.add sch with
    | .error e => some (.error e)
    | .ok reg => some (.ok { s with reg })

/-- `Store.Create` (runtime/orm/store.go:57-73). -/
def create (s : Store O) (o : O) : Out (Except OrmErr Unit × Store O) :=
  match s.reg.get (StateObject.api o).name with
  | none => .ret (.error .schemaNotFound, s)
  | some sch => match objCreate s.objects sch o with
    | .panic => .panic
    | .ret (.error e, objects) => .ret (.error e, { s with objects })
    | .ret (.ok (), objects) => match indexObject s.index sch o with
      | .panic => .panic
      | .ret (r, index) => .ret (r, { s with objects, index })

/-- `Store.Get` (runtime/orm/store.go:75-81); `ty` is the name of the object passed in. -/
def get (s : Store O) (ty : Bytes) (id : Bytes) : Except OrmErr O :=
  match s.reg.get ty with
  | none => .error .schemaNotFound
  | some sch => objGet s.objects sch id

/-- `Store.Update` (runtime/orm/store.go:83-105). -/
def update (s : Store O) (o : O) : Out (Except OrmErr Unit × Store O) :=
  match s.reg.get (StateObject.api o).name with
  | none => .ret (.error .schemaNotFound, s)
  | some sch => match objUpdate s.objects sch o with
    | .panic => .panic
    | .ret (.error e, objects) => .ret (.error e, { s with objects })
    | .ret (.ok (), objects) => match clearIndexes s.index sch o with
      | .panic => .panic
      | .ret (.error e, index) => .ret (.error e, { s with objects, index })
      | .ret (.ok (), index) => match indexObject index sch o with
        | .panic => .panic
        | .ret (r, index) => .ret (r, { s with objects, index })

/-- `Store.Delete` (runtime/orm/store.go:107-123). -/
def delete (s : Store O) (o : O) : Out (Except OrmErr Unit × Store O) :=
  match s.reg.get (StateObject.api o).name with
  | none => .ret (.error .schemaNotFound, s)
  | some sch => match objDelete s.objects sch o with
    | .panic => .panic
    | .ret (.error e, objects) => .ret (.error e, { s with objects })
    | .ret (.ok (), objects) => match clearIndexes s.index sch o with
      | .panic => .panic
      | .ret (r, index) => .ret (r, { s with objects, index })

/-- `Store.List` (runtime/orm/store.go:151-164) with its iterator driven to the end
(runtime/orm/iterator.go:15-30): the primary keys found, in order. -/
def listKeys (s : Store O) (ty : Bytes) (opt : ListOptions) : Out (Except OrmErr (List Bytes)) :=
  match s.reg.get ty with
  | none => .ret (.error .schemaNotFound)
  | some sch => listIndex s.index sch opt

/-- The objects a caller collects: `List`, then `iter.Get` at each position
(runtime/orm/iterator.go:15-18). -/
def list (s : Store O) (ty : Bytes) (opt : ListOptions) :
    Out (Except OrmErr (List (Except OrmErr O))) :=
  match s.listKeys ty opt with
  | .panic => .panic
  | .ret (.error e) => .ret (.error e)
  | .ret (.ok ks) => .ret (.ok (ks.map fun k => s.get ty k))

end Store
end Verif
