import Verif.Spec.Http
import Verif.Spec.Text
/-!
# Which HTTP requests are well-formed
-/

namespace Verif.Spec

/-- The text is a number of 64 bits. -/
def Number64 (t : Bytes) : Prop := ∃ n, DenotesNat t n ∧ n < 2 ^ 64

/-- No height is given, or a positive number of 64 bits. -/
def HeightGiven (t : Bytes) : Prop := t = [] ∨ ∃ n, DenotesNat t n ∧ 0 < n ∧ n < 2 ^ 64

/-- The first parameter with the name, if there is one that is not empty, is a number of 64 bits. -/
def LimitGiven (params : List (Bytes × Bytes)) (name : Bytes) : Prop :=
  ∀ t, ((params.filter (·.1 = name)).map (·.2)).head? = some t → t = [] ∨ Number64 t

/-- The selection names an indexed field and a text for a value of it. -/
def SelectionGiven (sch : Schema) (t : Bytes) : Prop :=
  ∃ i ∈ sch.indexes, ∃ v, 61 ∉ i.name ∧ t = i.name ++ 61 :: v

/-- Height, range and selections of a request for a list are well-formed. -/
structure ListRequestOk (sch : Schema) (req : HttpReq) : Prop where
  height : HeightGiven req.height
  start : LimitGiven req.params b!"start"
  stop : LimitGiven req.params b!"end"
  selections : ∀ t, (b!"selectField", t) ∈ req.params → SelectionGiven sch t

/-- The path of a singleton. -/
def httpSingletonPath (group kind : Bytes) : Bytes := 47 :: (toLower group ++ 47 :: toLower kind)

/-- The path is that of an object of one of the types, with any key. -/
def ObjectPath (objs : List (Schema × SchemaDef)) (p : Bytes) : Prop :=
  ∃ e ∈ objs, e.2.singleton = false ∧ ∃ key, key ≠ [] ∧ 47 ∉ key ∧ p = httpPath e.1.api.group e.1.api.kind key

/-- The path is that of a singleton. -/
def SingletonPath (objs : List (Schema × SchemaDef)) (p : Bytes) : Prop :=
  ∃ e ∈ objs, e.2.singleton = true ∧ p = httpSingletonPath e.1.api.group e.1.api.kind

/-- The path is that of the objects of a type. -/
def ListPath (objs : List (Schema × SchemaDef)) (p : Bytes) : Prop :=
  ∃ e ∈ objs, e.2.singleton = false ∧ p = httpListPath e.1.api.group e.1.api.kind

end Verif.Spec
