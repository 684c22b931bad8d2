import Verif.Model.Runtime
/-!
# Extension services' client (runtime/client/orm.go) and the HTTP API (core/apiserver)

Requests other than GET are not modelled; for the OpenAPI document served at "/spec" see OpenApi.lean.
The messages of lists (`forge.List`) are represented by the objects in them.  The router of
gorilla/mux is modelled as far as it is used: path templates of literal segments and one variable,
routes tried in the order of their registration, unclean paths redirected.
-/

namespace Verif

/-! ## The client given to extension services -/

section
variable {S O T : Type}

/-- `ORMClient` (runtime/client/orm.go:23-26); of the store only the operations matter.  The
version loaded is always the store itself (runtime/orm/store.go:177-186), so that the height asked
for has no influence. -/
structure ORMClient (S O : Type) where
  ops : StoreOps S O

/-- `ORMClient.Create` (orm.go:28-30). -/
def ORMClient.create (_ : ORMClient S O) (_ : O) (s : S) : Except Err Unit × S := (.error .other, s)

/-- `ORMClient.Update` (orm.go:32-34). -/
def ORMClient.update (_ : ORMClient S O) (_ : O) (s : S) : Except Err Unit × S := (.error .other, s)

/-- `ORMClient.Delete` (orm.go:36-38). -/
def ORMClient.delete (_ : ORMClient S O) (_ : O) (s : S) : Except Err Unit × S := (.error .other, s)

/-- `ORMClient.Deliver` (orm.go:40-42). -/
def ORMClient.deliver (_ : ORMClient S O) (_ : T) (s : S) : Except Err Unit × S := (.error .other, s)

/-- `ORMClient.Get` (orm.go:45-62). -/
def ORMClient.get (c : ORMClient S O) (s : S) (ty id : Bytes) : Except OrmErr O := c.ops.get s ty id

/-- `ORMClient.List` (orm.go:65-82), the iterator driven to its end. -/
def ORMClient.list (c : ORMClient S O) (s : S) (ty : Bytes) (opt : ListOptions) :
    Out (Except OrmErr (List (Except OrmErr O))) := c.ops.list s ty opt

/-- The classes found in the errors of the store by `errors.Is`: none (runtime/orm/errors.go). -/
def plainError {α : Type} : Except OrmErr α → Except Err α
  | .ok a => .ok a
  | .error _ => .error .other

/-- Code of an extension service using its client. -/
def Prog.serve {α : Type} (c : ORMClient S O) : Prog O T α → S → Res S α
  | .ret a, s => .done a s
  | .crash, _ => .panic
  | .get ty id k, s => (k (plainError (c.get s ty id))).serve c s
  | .list ty opt k, s => match c.list s ty opt with
    | .panic => .panic
    | .ret r => (k (plainError r)).serve c s
  | .create o k, s => (k (c.create o s).1).serve c (c.create o s).2
  | .update o k, s => (k (c.update o s).1).serve c (c.update o s).2
  | .delete o k, s => (k (c.delete o s).1).serve c (c.delete o s).2
  | .deliver t _ k, s => (k (c.deliver t s).1).serve c (c.deliver t s).2

end

/-! ## Routes -/

/-- `strings.ToLower` on a byte of ASCII text. -/
def lowerByte (b : UInt8) : UInt8 := if 65 ≤ b.toNat ∧ b.toNat ≤ 90 then b + 32 else b

/-- `strings.ToLower` on ASCII text; group, kind and field names are identifiers. -/
def toLower (s : Bytes) : Bytes := s.map lowerByte

/-- A segment of the template of a path. -/
inductive Seg where
  | lit (s : Bytes)
  | var (name : Bytes)
  deriving DecidableEq, Repr

/-- What a route does: `newSingletonGetHandler`, `newGetHandler` with the primary key of the
definition, `newListHandler`, the document. -/
inductive RouteKind where
  | singleton (sch : Schema)
  | get (sch : Schema) (primaryKey : Bytes)
  | list (sch : Schema)
  | spec
  deriving DecidableEq, Repr

/-- A route. -/
structure Route where
  segs : List Seg
  kind : RouteKind
  deriving DecidableEq, Repr

/-- `Builder.CreateStateObjectHandler` (core/apiserver/router/server.go:56-105) after the schema was
parsed; group, kind and primary key contain no slash, brace or colon. -/
def objectRoutes (sch : Schema) (d : SchemaDef) : List Route :=
  if d.singleton then [⟨[.lit (toLower sch.api.group), .lit (toLower sch.api.kind)], .singleton sch⟩]
  else [
    ⟨[.lit (toLower sch.api.group), .lit (toLower sch.api.kind), .var (toLower d.primaryKey)],
      .get sch d.primaryKey⟩,
    ⟨[.lit (toLower sch.api.group), .lit (toLower (sch.api.kind ++ b!"s"))], .list sch⟩]

/-- The routes of the API server, in order (core/apiserver/module.go:52-69, server.go:116-118). -/
def allRoutes (objs : List (Schema × SchemaDef)) : List Route :=
  (objs.flatMap fun e => objectRoutes e.1 e.2) ++ [⟨[.lit b!"spec"], .spec⟩]

/-- Match the segments of a path, a variable being `[^/]+`; the result is `mux.Vars`. -/
def matchSegs : List Seg → List Bytes → Option (List (Bytes × Bytes))
  | [], [] => some []
  | .lit l :: segs, s :: path => if l = s then matchSegs segs path else none
  | .var v :: segs, s :: path => if s = [] then none else match matchSegs segs path with
    | some vars => some ((v, s) :: vars)
    | none => none
  | _, _ => none

/-- The first route that matches. -/
def findRoute : List Route → List Bytes → Option (RouteKind × List (Bytes × Bytes))
  | [], _ => none
  | r :: rs, path => match matchSegs r.segs path with
    | some vars => some (r.kind, vars)
    | none => findRoute rs path

/-- Whether the path (its segments after the leading slash) is what `cleanPath` makes of it: no
empty segments (but the last), no "." and ".."; the empty path is not clean. -/
def cleanSegs : List Bytes → Bool
  | [] => false
  | [s] => s ≠ b!"." && s ≠ b!".."
  | s :: rest => s ≠ [] && s ≠ b!"." && s ≠ b!".." && cleanSegs rest

/-! ## Handlers -/

/-- A GET request: the (decoded) path, the value of the height header ("" if absent), and the
parameters of the query in order. -/
structure HttpReq where
  path : Bytes
  height : Bytes := []
  params : List (Bytes × Bytes) := []

/-- A response; the codes are 200, 200, 200, 301, 400 and 404. -/
inductive HttpResp (O : Type) where
  | object (o : O)
  | list (os : List O)
  | document
  | redirect
  | badRequest
  | notFound
  deriving DecidableEq

/-- `getHeight` (core/apiserver/router/types.go:62-75): whether it returns without error. -/
def heightOk (h : Bytes) : Bool := h = [] || match parseUint 64 h with
  | some n => n ≠ 0
  | none => false

/-- `url.Values.Get`. -/
def paramGet (ps : List (Bytes × Bytes)) (k : Bytes) : Bytes := match ps.find? (·.1 = k) with
  | some e => e.2
  | none => []

/-- One limit in `ListQueryParams.UnmarshalURLValues` (types.go:28-52). -/
def limitParam (ps : List (Bytes × Bytes)) (k : Bytes) (default : Nat) : Option Nat :=
  if paramGet ps k = [] then some default else parseUint 64 (paramGet ps k)

/-- `strings.SplitN(selection, "=", 2)`; `none` if there is no second part (server.go:209-213). -/
def splitSelection : Bytes → Option (Bytes × Bytes)
  | [] => none
  | 61 :: rest => some ([], rest)
  | c :: rest => match splitSelection rest with
    | some (f, v) => some (c :: f, v)
    | none => none

/-- The loop over the selections (server.go:208-221); `none` is a bad request. -/
def selections (sch : Schema) : List Bytes → Option (List (Bytes × Bytes))
  | [] => some []
  | x :: xs => match splitSelection x with
    | none => none
    | some (f, v) => match sch.indexer f with
      | none => none
      | some _ => match selections sch xs with
        | none => none
        | some rest => some ((f, v) :: rest)

section
variable {S O : Type}

/-- `writeObject` (server.go:248-258): panics if `protojson.Marshal` returns an error. -/
def writeObject (jsonFails : O → Bool) (o : O) : Out (HttpResp O) :=
  if jsonFails o then .panic else .ret (.object o)

/-- The loop over the results (server.go:233-242). -/
def collect : List (Except OrmErr O) → Option (List O)
  | [] => some []
  | .error _ :: _ => none
  | .ok o :: rest => match collect rest with
    | some os => some (o :: os)
    | none => none

/-- `newListHandler` (server.go:186-245). -/
def listHandler (jsonFails : O → Bool) (c : ORMClient S O) (sch : Schema) (req : HttpReq) (s : S) : Out (HttpResp O) :=
  if !heightOk req.height then .ret .badRequest
  else match limitParam req.params b!"start" 0, limitParam req.params b!"end" 100 with
    | some start, some stop =>
      match selections sch ((req.params.filter (·.1 = b!"selectField")).map (·.2)) with
      | none => .ret .badRequest
      | some sel => match c.list s sch.name { matchString := sel, start, stop } with
        | .panic => .panic
        | .ret (.error _) => .ret .badRequest
        | .ret (.ok rs) => match collect rs with
          | none => .ret .badRequest
          | some os => if os.any jsonFails then .panic else .ret (.list os)
    | _, _ => .ret .badRequest

/-- `newGetHandler` (server.go:145-177). -/
def getHandler (jsonFails : O → Bool) (c : ORMClient S O) (sch : Schema) (pk : Bytes) (vars : List (Bytes × Bytes))
    (req : HttpReq) (s : S) : Out (HttpResp O) :=
  if !heightOk req.height then .ret .badRequest
  else match vars.find? (·.1 = pk) with
    | none => .ret .badRequest
    | some (_, value) => match sch.encodePrimaryKeyString value with
      | .panic => .panic
      | .ret none => .ret .badRequest
      | .ret (some id) => match c.get s sch.name id with
        | .error _ => .ret .notFound
        | .ok o => writeObject jsonFails o

/-- `newSingletonGetHandler` (server.go:123-142). -/
def singletonHandler (jsonFails : O → Bool) (c : ORMClient S O) (sch : Schema) (req : HttpReq) (s : S) : Out (HttpResp O) :=
  if !heightOk req.height then .ret .badRequest
  else match c.get s sch.name b!"unique" with
    | .error _ => .ret .notFound
    | .ok o => writeObject jsonFails o

/-- A GET request to the API server.  A panic of a handler ends the request, not the process. -/
def serveHttp (jsonFails : O → Bool) (c : ORMClient S O) (routes : List Route) (req : HttpReq) (s : S) :
    Out (HttpResp O) :=
  match Bytes.splitOn 47 req.path with
  | [] :: segs =>
    if !cleanSegs segs then .ret .redirect
    else match findRoute routes segs with
      | none => .ret .notFound
      | some (.spec, _) => .ret .document
      | some (.singleton sch, _) => singletonHandler jsonFails c sch req s
      | some (.get sch pk, vars) => getHandler jsonFails c sch pk vars req s
      | some (.list sch, _) => listHandler jsonFails c sch req s
  | _ => .ret .redirect

end
end Verif
