import Verif.Model.Codegen
import Verif.Spec.Objects
import Verif.Spec.GenFiles
/-!
# What generated code should be

What the declarations declare, what a call of a generated client asks for, and conditions on the
names of messages.
-/

namespace Verif.Spec

/-- The identifier a declaration introduces in the Go package, if it is not a method. -/
def declIdent : Decl → Option Bytes
  | .clientInterface n _ _ | .clientStruct n | .iteratorInterface n _ | .iteratorStruct n | .schema n _ => some n
  | .clientSetInterface _ _ => some b!"ClientSet"
  | .newClientSet _ => some b!"NewClientSet"
  | .clientSetStruct _ => some b!"clientSet"
  | _ => none

/-- The type and the name of a method. -/
def declMethod : Decl → Option (Bytes × Bytes)
  | .apiDefinition r _ _ _ => some (r, b!"APIDefinition")
  | .newStateObject r => some (r, b!"NewStateObject")
  | .newStateTransition r => some (r, b!"NewStateTransition")
  | .getSingleton r _ | .getByKey r _ _ _ _ | .iteratorGet r _ => some (r, b!"Get")
  | .list r _ _ => some (r, b!"List")
  | .create r _ _ => some (r, b!"Create")
  | .delete r _ _ => some (r, b!"Delete")
  | .update r _ _ => some (r, b!"Update")
  | .iteratorValid r => some (r, b!"Valid")
  | .iteratorNext r => some (r, b!"Next")
  | .accessor n _ _ | .exec n _ => some (b!"clientSet", n)
  | _ => none

/-- The API definition a declaration gives: the type, the group, the kind, and whether it is of a
transition. -/
def declApi : Decl → Option (Bytes × Bytes × Bytes × Bool)
  | .apiDefinition r g k t => some (r, g, k, t)
  | _ => none

/-- The schema definition a declaration gives. -/
def declSchema : Decl → Option (Bytes × SchemaDef)
  | .schema n d => some (n, d)
  | _ => none

/-- What a file declares. -/
def declared (ds : List Decl) : Declared :=
  ⟨ds.filterMap declIdent, ds.filterMap declMethod, ds.filterMap declApi, ds.filterMap declSchema⟩

/-- The identifier `meta.constructor(v)` (core/meta/state.go:5-17), if there is such a function and it
takes the value. -/
def metaID (constructor : Bytes) (v : Val) : Option Bytes :=
  match v with
  | .str s => if constructor = b!"NewStringID" then some s else none
  | .bytes b => if constructor = b!"NewBytesID" then some b else none
  | _ => none

/-- The API definition of an annotated message. -/
def apiOf (f : GenFile) (m : GenMsg) : APIDef := ⟨f.package, m.name⟩

/-- The descriptor of a message. -/
def descOf (f : GenFile) (m : GenMsg) : MsgDesc := ⟨f.package ++ 46 :: m.name, m.fields⟩

/-- Go names of messages are exported: they begin with a capital letter. -/
def Exported (n : Bytes) : Prop := ∃ c r, n = c :: r ∧ 65 ≤ c ∧ c ≤ 90

/-- The Go names of the messages of a file are exported and different. -/
def GoNamesOk (f : GenFile) : Prop :=
  (∀ m ∈ f.messages, Exported m.goName) ∧ (f.messages.map (·.goName)).Nodup

/-- What the generator expects of an object: it is not a transition too; it is a singleton or its
primary key is a field of a kind for which there is a Go type. -/
def ObjectOk (m : GenMsg) (d : SchemaDef) : Prop :=
  m.transition = false ∧ (d.singleton = true ∨ d.primaryKey ≠ [] ∧
    ∃ x t, m.fields.find? (fun f => f.json = d.primaryKey) = some x ∧ goTypeOf x.kind = some t)

/-- Two objects of a file would get the same method, one in the plural and the other as it is
called. -/
def PluralClash (f : GenFile) : Prop :=
  ∃ a ∈ f.objects, ∃ b ∈ f.objects, a.2.singleton = false ∧ a.1.goName.getLast? ≠ some 115 ∧
    b.1.goName = a.1.goName ++ b!"s"

/-- An object would get the method of a transition. -/
def ExecClash (f : GenFile) : Prop :=
  ∃ a ∈ f.objects, ∃ t ∈ f.transitions, accessorName a.1 a.2 = b!"Exec" ++ t.goName

end Verif.Spec
