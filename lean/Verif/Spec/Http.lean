import Verif.Model.Http
import Verif.Spec.Chain
/-!
# What the HTTP API is meant to do
-/

namespace Verif.Spec

/-- Text with its letters in lower case, letter by letter. -/
def lowered (s : Bytes) : Bytes :=
  s.map fun b => (((b!"ABCDEFGHIJKLMNOPQRSTUVWXYZ").zip b!"abcdefghijklmnopqrstuvwxyz").find? (·.1 == b)).elim b (·.2)

/-- The path of an object. -/
def httpPath (group kind key : Bytes) : Bytes := 47 :: (toLower group ++ 47 :: (toLower kind ++ 47 :: key))

/-- The path of the objects of a type. -/
def httpListPath (group kind : Bytes) : Bytes := 47 :: (toLower group ++ 47 :: (toLower kind ++ b!"s"))

/-- A name that can be a segment of a path. -/
def PathName (s : Bytes) : Prop := s ≠ [] ∧ 47 ∉ s ∧ s ≠ b!"." ∧ s ≠ b!".."

instance (s : Bytes) : Decidable (PathName s) := by unfold PathName; infer_instance

/-- The types can be told apart by their lower-case names, and their names can be segments of
paths. -/
structure PathsOk (objs : List (Schema × SchemaDef)) : Prop where
  names : ∀ e ∈ objs, PathName (toLower e.1.api.group) ∧ PathName (toLower e.1.api.kind)
  distinct : objs.Pairwise fun e e' => ¬ (toLower e.1.api.group = toLower e'.1.api.group ∧
    toLower e.1.api.kind = toLower e'.1.api.kind)

/-- The objects of the application with their definitions, in the order of the modules. -/
def appObjects (lib : Libs) : List (Schema × SchemaDef) :=
  appReg.zip (((appModules lib).flatMap (·.objects)).map (·.schema))

/-- The client of the API server of the application. -/
def apiClient : ORMClient (Store Obj) Obj := ⟨ormOps Obj⟩

/-- The application, started with no objects, has answered the requests `calls` by `rs`, and `s` is
now the store. -/
def Stored (lib : Libs) (calls : List (Call BlockReq)) (rs : List (Resp Obj)) (s : Store Obj) : Prop :=
  ∃ n a, (ormApp lib).steps n ⟨fresh appReg, false, false⟩ calls = .done rs a ∧ a.store = s

/-- No singleton has the path of the list of the objects of the type. -/
def ListOk (objs : List (Schema × SchemaDef)) (sch : Schema) : Prop :=
  ∀ e ∈ objs, e.2.singleton = true → ¬ (toLower e.1.api.group = toLower sch.api.group ∧
    toLower e.1.api.kind = toLower sch.api.kind ++ b!"s")

/-- The answer of the API server of the application to a request. -/
def apiAnswer (lib : Libs) (req : HttpReq) (s : Store Obj) : Out (HttpResp Obj) :=
  serveHttp lib.jsonFails apiClient (allRoutes (appObjects lib)) req s

end Verif.Spec
