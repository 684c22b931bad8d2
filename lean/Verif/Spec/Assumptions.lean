import Verif.Spec.Objects
/-!
# What the ORM theorems assume about schemas and objects

* `RegOk`: type names are those of protobuf messages (no '/', not starting with a zero byte),
  registered once, and no schema lists an indexed field twice.  Uniqueness of names is enforced
  by `Registry.add` (C15); a repeated indexed field is accepted by the code and breaks it (C15).
* `Physical`: keys fit into memory (only used to show that nothing panics).
* `Encodable`: the object can be marshalled and its key fields hold values of their kinds.
-/

namespace Verif

/-- Assumptions on a schema: the type name has no '/' and does not start with byte 0, and the
indexed fields are pairwise different. -/
structure SchemaOk (s : Schema) : Prop where
  noSlash : 47 ∉ s.name
  head : ∀ t, s.name ≠ 0 :: t
  nodup : (s.indexes.map (·.name)).Nodup
  count : s.indexes.length < 2 ^ 63

/-- Assumptions on a registry. -/
structure RegOk (r : Registry) : Prop where
  names : (r.map Schema.name).Nodup
  ok : ∀ s ∈ r, SchemaOk s

section
variable {O : Type} [StateObject O]

/-- Every index key of the object is shorter than `2^63 - 8` bytes: a byte slice longer than
that cannot exist. -/
def Physical (reg : Registry) (o : O) : Prop :=
  ∀ sch, reg.get (StateObject.api o).name = some sch → ∀ pk, sch.encodePrimaryKey o = .ret pk →
    ∀ i ∈ sch.indexes, 25 + sch.name.length + i.name.length +
      (match i.encodeFromObject o with | .ret v => v.length | .panic => 0) + pk.length < maxLen

/-- The object can be marshalled and all its key fields can be encoded. -/
structure Encodable (reg : Registry) (o : O) : Prop where
  marshal : StateObject.marshalPanics o = false
  pk : ∀ sch, reg.get (StateObject.api o).name = some sch → ∃ pk, sch.encodePrimaryKey o = .ret pk
  idx : ∀ sch, reg.get (StateObject.api o).name = some sch →
    ∀ i ∈ sch.indexes, ∃ v, i.encodeFromObject o = .ret v

namespace Spec

/-- The store right after registration of the types in `reg`. -/
def fresh (reg : Registry) : Store O := { objects := KV.empty, index := KV.empty, reg := reg }

/-- `s` is what the store is after the operations `ops` (which returned `rs`), starting with
no objects. -/
structure Reached (reg : Registry) (ops : List (Op O)) (rs : List (Except OrmErr Unit))
    (s : Store O) : Prop where
  regOk : RegOk reg
  run : runStore (fresh reg) ops = .ret (rs, s)

end Spec
end
end Verif
