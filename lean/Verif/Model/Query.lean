import Verif.Model.ABCI
import Verif.Model.ORM
/-!
# ABCI queries (runtime/query.go)
-/

namespace Verif

section
variable {O : Type}

/-- `Querier.get` (runtime/query.go:90-109). -/
def queryGet (reg : Registry) (read : Bytes → Bytes → Except OrmErr O) (path : Bytes) :
    Option O :=
  match Bytes.splitOn 47 path with
  | _ :: group :: kind :: id :: _ => match reg.getByAPI group kind with
    | none => none
    | some sch => match read sch.name id with
      | .error _ => none
      | .ok o => some o
  | _ => none

/-- `Querier.Handle` (runtime/query.go:34-58): the code and the object found.  `jsonFails o` says
that `protojson.Marshal` returns an error for the object, which panics (52-54).  The answer to
`api_resources` (60-88) is `apiResources` in `Model/Client`; `list` marshals a nil message. -/
def handleQuery (reg : Registry) (jsonFails : O → Bool)
    (read : Bytes → Bytes → Except OrmErr O) (path : Bytes) : Out (Nat × Option O) :=
  match Bytes.splitOn 47 path with
  | [] => .ret (1, none)
  | verb :: _ =>
    if verb = b!"api_resources" then .ret (0, none)
    else if verb = b!"get" then
      match queryGet reg read path with
      | none => .ret (1, none)
      | some o => if jsonFails o then .panic else .ret (0, some o)
    else if verb = b!"list" then .ret (0, none)
    else .ret (1, none)

end
end Verif
