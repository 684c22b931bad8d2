import Verif.Model.ABCI
import Verif.Model.ORM
/-!
# Building a runtime from modules (runtime/builder.go, runtime/module/descriptor.go)

A transition appears in a descriptor as an empty message of its type; only its name is used
(`meta.Name`), so it is given by its name here.  The nested loops over modules and over the
entries of a module are loops over the concatenation of the entries: an error aborts the whole
build, so nothing else can be observed.
-/

namespace Verif

/-- One entry of `Descriptor.StateObjects`: type name, protobuf descriptor, schema definition. -/
structure ObjectEntry where
  api : APIDef
  desc : MsgDesc
  schema : SchemaDef

/-- `module.Descriptor` (runtime/module/descriptor.go:19-33). -/
structure ModuleDesc (O T R : Type) where
  name : Bytes
  genesis : Option (Prog O T (Except Err Unit) × (Option Bytes → Prog O T (Except Err Unit))) := none
  admission : List (Bytes × (Users → T → Prog O T (Except Err Unit))) := []
  pre : List (Bytes × (Users → T → Prog O T (Except Err Unit))) := []
  exec : List (Bytes × (Users → T → Prog O T (Except Err Unit))) := []
  post : List (Bytes × (Users → T → Prog O T (Except Err Unit))) := []
  objects : List ObjectEntry := []
  needs : List Bytes := []
  authAdmission : List (Tx T R → Prog O T (Except Err Unit)) := []
  postAuth : List (Tx T R → Prog O T (Except Err Unit)) := []
  services : List Service := []
  authorizer : Option (Authorizer O) := none

/-- Errors of `Build`. -/
inductive BuildErr where
  | emptyName
  | schema (e : SchemaErr)
  | router (e : Err)
  | secondAuthorizer
  deriving DecidableEq, Repr

section
variable {O T R : Type}

/-- Handlers of a module use the module's client, whose user is the module name
(runtime/builder.go:54-60). -/
def ModuleDesc.handlers (m : ModuleDesc O T R)
    (l : List (Bytes × (Users → T → Prog O T (Except Err Unit)))) : List (Bytes × Handler O T) :=
  l.map fun e => (e.1, ⟨m.name, e.2⟩)

/-- `installStateObjects`, `registerStateObjects` (builder.go:120-142).  `none` as in
`parseObjectSchema`. -/
def registerObjects (env : DescEnv) (fuel : Nat) :
    List ObjectEntry → Registry → Option (Except BuildErr Registry)
  | [], r => some (.ok r)
  | e :: es, r => match parseObjectSchema env fuel e.api e.desc e.schema with
    | none => none
    | some (.error x) => some (.error (.schema x))
    | some (.ok sch) => match r.add sch with
      | .error x => some (.error (.schema x))
      | .ok r => registerObjects env fuel es r

/-- `installStateTransitions`, `registerStateTransitionHandlers` (builder.go:94-105, 144-153). -/
def addExecs : List (Bytes × Handler O T) → Router O T R → Except BuildErr (Router O T R)
  | [], r => .ok r
  | e :: es, r => match r.addExec e.1 e.2 with
    | .error x => .error (.router x)
    | .ok r => addExecs es r

/-- `installStateTransitionAdmissionHandlers` (builder.go:107-118, 155-164). -/
def addAdmissions : List (Bytes × Handler O T) → Router O T R → Router O T R
  | [], r => r
  | e :: es, r => addAdmissions es (r.addAdmission e.1 e.2)

/-- `installStateTransitionPreExecHandlers` (builder.go:166-182). -/
def addPres : List (Bytes × Handler O T) → Router O T R → Except BuildErr (Router O T R)
  | [], r => .ok r
  | e :: es, r => match r.addPre e.1 e.2 with
    | .error x => .error (.router x)
    | .ok r => addPres es r

/-- `installStateTransitionPostExecHandlers` (builder.go:184-199). -/
def addPosts : List (Bytes × Handler O T) → Router O T R → Except BuildErr (Router O T R)
  | [], r => .ok r
  | e :: es, r => match r.addPost e.1 e.2 with
    | .error x => .error (.router x)
    | .ok r => addPosts es r

/-- `installAuthenticationAdmissionHandlers` (builder.go:248-259). -/
def addAuthAdmissions : List (TxHandler O T R) → Router O T R → Router O T R
  | [], r => r
  | h :: hs, r => addAuthAdmissions hs (r.addAuthAdmission h)

/-- `installPostAuthenticationHandlers` (builder.go:261-272). -/
def addPostAuths : List (TxHandler O T R) → Router O T R → Router O T R
  | [], r => r
  | h :: hs, r => addPostAuths hs (r.addPostAuth h)

/-- `installDependencies` (builder.go:274-284). -/
def checkNeeds (r : Router O T R) : List Bytes → Except BuildErr Unit
  | [] => .ok ()
  | n :: ns => match r.getExec n with
    | .error x => .error (.router x)
    | .ok _ => checkNeeds r ns

/-- The loop of `installAuthorizer` (builder.go:305-313). -/
def findAuthorizer : List (ModuleDesc O T R) → Option (Authorizer O) →
    Except BuildErr (Option (Authorizer O))
  | [], a => .ok a
  | m :: ms, a =>
    if a.isSome ∧ m.authorizer.isSome then .error .secondAuthorizer
    else findAuthorizer ms (match m.authorizer with
      | some x => some x
      | none => a)

/-- `installExtensions` (builder.go:297-302). -/
def installExtensions : List (ModuleDesc O T R) → List Service → List Service
  | [], g => g
  | m :: ms, g => installExtensions ms (addServices g m.name m.services)

/-- What `Build` produces. -/
structure Built (O T R : Type) where
  reg : Registry
  router : Router O T R
  services : List Service
  authorizer : Authorizer O

/-- `Builder.Build`, `installModules` (builder.go:67-92, 201-246).  The list includes the
runtime and abci modules, which `NewBuilder` adds first (builder.go:37-38). -/
def build (env : DescEnv) (fuel : Nat) (mods : List (ModuleDesc O T R)) :
    Option (Except BuildErr (Built O T R)) :=
  if mods.any fun m => m.name = [] then some (.error .emptyName)
  else match registerObjects env fuel (mods.flatMap (·.objects)) [] with
  | none => none
  | some (.error e) => some (.error e)
  | some (.ok reg) => match addExecs (mods.flatMap fun m => m.handlers m.exec) Router.new with
    | .error e => some (.error e)
    | .ok r =>
      let r := addAdmissions (mods.flatMap fun m => m.handlers m.admission) r
      match addPres (mods.flatMap fun m => m.handlers m.pre) r with
      | .error e => some (.error e)
      | .ok r => match addPosts (mods.flatMap fun m => m.handlers m.post) r with
        | .error e => some (.error e)
        | .ok r =>
          let r := addAuthAdmissions (mods.flatMap fun m => m.authAdmission.map fun c => ⟨m.name, c⟩) r
          let r := addPostAuths (mods.flatMap fun m => m.postAuth.map fun c => ⟨m.name, c⟩) r
          match checkNeeds r (mods.flatMap (·.needs)) with
          | .error e => some (.error e)
          | .ok () => match findAuthorizer mods none with
            | .error e => some (.error e)
            | .ok a => some (.ok {
                reg, router := r, services := installExtensions mods []
                authorizer := match a with
                  | some a => a
                  | none => alwaysAllow })

/-- The genesis handlers run by `InitGenesis` and `Import` (runtime/runtime.go:77-85, 104-113). -/
def genesisOf (mods : List (ModuleDesc O T R)) : List (Genesis O T) :=
  mods.filterMap fun m => m.genesis.map fun g => ⟨m.name, g.1, g.2⟩

end
end Verif
