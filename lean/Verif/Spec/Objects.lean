import Verif.Model.ORM
import Verif.Spec.Text
/-!
# Specification of the object store: a map from (type name, primary key) to objects

Used by C08–C14.  Nothing here mentions databases, prefixes or index entries.
-/

namespace Verif.Spec

/-- What the store contains: for each type name and primary key, at most one object. -/
abbrev Contents (O : Type) := Bytes → Bytes → Option O

/-- Nothing stored. -/
def Contents.empty {O : Type} : Contents O := fun _ _ => none

/-- Change one entry. -/
def Contents.put {O : Type} (m : Contents O) (ty pk : Bytes) (v : Option O) : Contents O :=
  fun t k => if t = ty ∧ k = pk then v else m t k

/-- The key fields of the stored objects of a type hold one value of their kind; that is, they are
not repeated fields. -/
def KeysTyped {O : Type} [StateObject O] (m : Contents O) (sch : Schema) : Prop :=
  ∀ pk o, m sch.name pk = some o →
    (∀ i ∈ sch.indexes, kindOf (StateObject.field o i.name) = some i.kind) ∧
    ∀ f k, sch.pk = some (f, k) → kindOf (StateObject.field o f) = some k

/-- A write operation of the store's API. -/
inductive Op (O : Type) where
  | create (o : O)
  | update (o : O)
  | delete (o : O)

/-- The object an operation is about. -/
def Op.obj {O : Type} : Op O → O
  | .create o => o
  | .update o => o
  | .delete o => o

/-- Whether an operation writes its object. -/
def Op.writes {O : Type} : Op O → Bool
  | .create _ => true
  | .update _ => true
  | .delete _ => false

/-- The map-level meaning of an operation on the object `o` with type name `ty` and primary key
`pk`: what it returns and the contents after it. -/
def apply {O : Type} (m : Contents O) (ty pk : Bytes) : Op O → Except OrmErr Unit × Contents O
  | .create o =>
    if pk = [] then (.error .emptyKey, m)
    else if (m ty pk).isSome then (.error .alreadyExists, m)
    else (.ok (), m.put ty pk (some o))
  | .update o =>
    if pk = [] then (.error .emptyKey, m)
    else if (m ty pk).isSome then (.ok (), m.put ty pk (some o))
    else (.error .notFound, m)
  | .delete _ =>
    if pk = [] then (.error .emptyKey, m)
    else if (m ty pk).isSome then (.ok (), m.put ty pk none)
    else (.error .notFound, m)

section
variable {O : Type} [StateObject O]

/-- Type name and primary-key bytes of an object under the registered schemas; `none` when its
type is not registered. -/
def keyOf (reg : Registry) (o : O) : Option (Bytes × Bytes) :=
  match reg.get (StateObject.api o).name with
  | none => none
  | some sch => match sch.encodePrimaryKey o with
    | .ret pk => some ((StateObject.api o).name, pk)
    | .panic => none

/-- One operation. -/
def step (reg : Registry) (m : Contents O) (op : Op O) : Except OrmErr Unit × Contents O :=
  match keyOf reg op.obj with
  | none => (.error .schemaNotFound, m)
  | some (ty, pk) => apply m ty pk op

/-- A history of operations: the returned results in order, and the final contents. -/
def run (reg : Registry) : Contents O → List (Op O) → List (Except OrmErr Unit) × Contents O
  | m, [] => ([], m)
  | m, op :: ops =>
    let r := step reg m op
    let rs := run reg r.2 ops
    (r.1 :: rs.1, rs.2)

/-- One operation on the modelled store. -/
def exec (s : Store O) : Op O → Out (Except OrmErr Unit × Store O)
  | .create o => s.create o
  | .update o => s.update o
  | .delete o => s.delete o

/-- The same history on the modelled store; stops with `panic` if an operation panics. -/
def runStore : Store O → List (Op O) → Out (List (Except OrmErr Unit) × Store O)
  | s, [] => .ret ([], s)
  | s, op :: ops => match exec s op with
    | .panic => .panic
    | .ret (r, s) => match runStore s ops with
      | .panic => .panic
      | .ret (rs, s) => .ret (r :: rs, s)

/-- What a client sees through `Get`. -/
def view (s : Store O) : Contents O := fun ty pk =>
  match s.get ty pk with
  | .ok o => some o
  | .error _ => none

end
end Verif.Spec
