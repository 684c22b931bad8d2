import Verif.Spec.Assumptions
import Verif.Spec.Runtime
import Verif.Spec.Text
/-!
# A store that is just a map

The same interface as the ORM store, on `Contents`: no databases, no index.  Used to state that
an application running on the ORM store behaves as one running on a map.
-/

namespace Verif.Spec
variable {O : Type} [StateObject O]

/-- The primary keys of the stored objects of type `ty` whose field indexed by `i` encodes to
`b`. -/
def Matches (m : Contents O) (ty : Bytes) (i : Indexer) (b pk : Bytes) : Prop :=
  ∃ o, m ty pk = some o ∧ i.encodeFromObject o = .ret b

open Classical in
/-- The increasing list of the keys satisfying `P`; empty if there is no such finite list. -/
noncomputable def keysWhere (P : Bytes → Prop) : List Bytes :=
  if h : ∃ l : List Bytes, (l.Pairwise fun a b => Bytes.lt a b = true) ∧ ∀ k, k ∈ l ↔ P k
  then h.choose else []

/-- The listing of the map: the conditions are turned into field and value as the code does, and
the objects satisfying the first one are returned in increasing key order. -/
noncomputable def mapListKeys (reg : Registry) (m : Contents O) (ty : Bytes) (opt : ListOptions) :
    Out (Except OrmErr (List Bytes)) :=
  match reg.get ty with
  | none => .ret (.error .schemaNotFound)
  | some sch => match prefixesToScan sch opt with
    | .panic => .panic
    | .ret (.error e) => .ret (.error e)
    | .ret (.ok []) => .ret (.error .noConditions)
    | .ret (.ok (p :: _)) =>
      if 25 + ty.length + p.indexPrefix.length + p.secondaryKeyValue.length < maxLen then
        match keysWhere fun pk => ∃ i ∈ sch.indexes, i.name = p.indexPrefix ∧
            Matches m ty i p.secondaryKeyValue pk with
        | [] => .ret (.error .noResults)
        | ks => .ret (.ok ks)
      else .panic

/-- Reading one object. -/
def mapGet (reg : Registry) (m : Contents O) (ty id : Bytes) : Except OrmErr O :=
  match reg.get ty with
  | none => .error .schemaNotFound
  | some _ => if id = [] then .error .emptyKey else match m ty id with
    | none => .error .notFound
    | some o => .ok o

/-- The fields of an object that are indexed can be encoded, and (together with the primary key)
fit into memory. -/
def indexable (sch : Schema) (pk : Bytes) (o : O) : Bool :=
  sch.indexes.all fun i => match i.encodeFromObject o with
    | .panic => false
    | .ret v => 25 + sch.name.length + i.name.length + v.length + pk.length < maxLen

/-- The object can be written: it can be marshalled and indexed. -/
def storable (reg : Registry) (o : O) : Bool :=
  !StateObject.marshalPanics o && match reg.get (StateObject.api o).name with
    | none => true
    | some sch => match sch.encodePrimaryKey o with
      | .panic => false
      | .ret pk => indexable sch pk o

/-- An operation on the map that crashes where the object's primary key cannot be encoded, or
the object is to be written but cannot. -/
def mapExec (reg : Registry) (m : Contents O) (op : Op O) : Out (Except OrmErr Unit × Contents O) :=
  match reg.get (StateObject.api op.obj).name with
  | none => .ret (.error .schemaNotFound, m)
  | some sch => match sch.encodePrimaryKey op.obj with
    | .panic => .panic
    | .ret pk => match apply m (StateObject.api op.obj).name pk op with
      | (.error e, m') => .ret (.error e, m')
      | (.ok (), m') =>
        if op.writes && !storable reg op.obj then .panic else .ret (.ok (), m')

/-- The map as a store. -/
noncomputable def mapOps (reg : Registry) : StoreOps (Contents O) O where
  get := mapGet reg
  list m ty opt := match mapListKeys reg m ty opt with
    | .panic => .panic
    | .ret (.error e) => .ret (.error e)
    | .ret (.ok ks) => .ret (.ok (ks.map fun k => mapGet reg m ty k))
  create m o := mapExec reg m (.create o)
  update m o := mapExec reg m (.update o)
  delete m o := mapExec reg m (.delete o)

/-- The same application on another store. -/
def onStore {S S' T R B : Type} (c : Config S O T R B) (ops : StoreOps S' O) : Config S' O T R B :=
  { ops, authorizer := c.authorizer, router := c.router, decode := c.decode, genesis := c.genesis,
    services := c.services, parseGenesis := c.parseGenesis, query := c.query,
    createModules := c.createModules, setInitChain := c.setInitChain,
    setBeginBlock := c.setBeginBlock, setEndBlock := c.setEndBlock,
    valUpdatesType := c.valUpdatesType, toLegacy := c.toLegacy, singletonId := c.singletonId }

end Verif.Spec
