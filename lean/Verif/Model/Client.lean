import Verif.Model.Query
/-!
# The list of resources and the command line client (runtime/query.go, pkg/client, pkg/spfcli)

Of cobra the check of the number of arguments is modelled; arguments that begin with a dash, which
cobra takes for flags, are left out.
-/

namespace Verif

/-- The keys of the map `apiGroups` (runtime/orm/schema/registry.go:29), in the order in which they
were added. -/
def Registry.groups (r : Registry) : List Bytes :=
  r.foldl (fun l s => if s.api.group ∈ l then l else l ++ [s.api.group]) []

/-- `runtimev1alpha1.APIGroupResources` (core/runtime/v1alpha1/query.proto:12-17). -/
structure GroupResources where
  group : Bytes
  objects : List Bytes
  transitions : List Bytes
  deriving DecidableEq

/-- `Querier.apiResources` (runtime/query.go:60-88) with `ListAPIGroups` (registry.go:65-71), which
gives the groups in the order Go iterates over the map: `order`. -/
def apiResources (order : List Bytes → List Bytes) (r : Registry) : Out (List GroupResources) :=
  let rec loop : List Bytes → Out (List GroupResources)
    | [] => .ret []
    | g :: gs => match r.kindsInGroup g with
      | none => .panic
      | some ks => match loop gs with
        | .panic => .panic
        | .ret l => .ret (⟨g, ks, []⟩ :: l)
  loop (order r.groups)

section
variable {O : Type}

/-- `client.Get` (pkg/client/client.go:49-60).  `ask` sends a query to the node: nothing comes back if
this fails, otherwise the code and the value.  `none` is an error. -/
def clientGet (ask : Bytes → Option (Nat × Option O)) (group kind name : Bytes) : Option (Option O) :=
  match ask (b!"get" ++ b!"/" ++ group ++ b!"/" ++ kind ++ b!"/" ++ name) with
  | none => none
  | some (code, v) => if code ≠ 0 then none else some v

/-- The command `get` (pkg/spfcli/get.go:7-23), with `cobra.MinimumNArgs(2)`.  Without a usable
configuration every call of the client fails (clicontext.go:29-43, 66-76).  `none` is an error, else
the value that is printed; `args[2]` is evaluated before the call. -/
def cliGet (configured : Bool) (ask : Bytes → Option (Nat × Option O)) (args : List Bytes) :
    Out (Option (Option O)) :=
  match args with
  | [] => .ret none
  | [_] => .ret none
  | [_, _] => .panic
  | group :: kind :: name :: _ =>
    if configured then .ret (clientGet ask group kind name) else .ret none

/-- A node that answers queries; if it crashes, nothing comes back. -/
def nodeAsk (handle : Bytes → Out (Nat × Option O)) (path : Bytes) : Option (Nat × Option O) :=
  match handle path with
  | .panic => none
  | .ret a => some a

/-- `GetConfig` (pkg/spfcli/config.go:30-62): the text of the file, if it can be read, through
`yaml.Unmarshal` (`parse`), and `Validate` (23-28). -/
def getConfig (file : Option Bytes) (parse : Bytes → Option Bytes) : Option Bytes :=
  match file with
  | none => none
  | some t => match parse t with
    | none => none
    | some endpoint => if endpoint = [] then none else some endpoint

end
end Verif
