import Verif.Model.Universe
/-!
# Role based access control (core/rbac)
-/

namespace Verif

/-- `Role.GetResourcesForVerb` (core/rbac/v1alpha1/rbac.go:24-41). -/
def Role.resources (r : Role) : Verb → List Bytes
  | .get => r.gets
  | .list => r.lists
  | .create => r.creates
  | .delete => r.deletes
  | .update => r.updates
  | .deliver => r.delivers
  | .unknown => []

/-- `appendResourceToVerb` (rbac.go:72-95). -/
def Role.append (r : Role) (res : Bytes) : Verb → Except Err Role
  | .get => .ok { r with gets := r.gets ++ [res] }
  | .list => .ok { r with lists := r.lists ++ [res] }
  | .create => .ok { r with creates := r.creates ++ [res] }
  | .delete => .ok { r with deletes := r.deletes ++ [res] }
  | .update => .ok { r with updates := r.updates ++ [res] }
  | .deliver => .ok { r with delivers := r.delivers ++ [res] }
  | .unknown => .error .other

/-- `Role.ExtendRaw` (rbac.go:43-56, 62-70): an error if the resource is there already. -/
def Role.extend (r : Role) (v : Verb) (api : APIDef) : Except Err Role :=
  if (r.resources v).contains api.name then .error .other else r.append api.name v

/-- `ExternalAccountRoleID` (rbac.go:14). -/
def externalRoleID : Bytes := b!"external_account"

/-- `roleNameForModule` (rbac.go:97-100). -/
def roleNameForModule (name : Bytes) : Bytes := name ++ b!"-role"

/-! ## The authorizer -/

/-- `fetchRoles` (core/rbac/authorizer.go:42-61), reading with `read`. -/
def fetchRoles (read : Bytes → Bytes → Out (Except Err Obj)) :
    List Bytes → Out (Except Err (List Role))
  | [] => .ret (.ok [])
  | subject :: rest => match read tyRoleBinding subject with
    | .panic => .panic
    | .ret (.error e) => .ret (.error e)
    | .ret (.ok (.roleBinding _ roleRef)) => match read tyRole roleRef with
      | .panic => .panic
      | .ret (.error e) => .ret (.error e)
      | .ret (.ok (.role role)) => match fetchRoles read rest with
        | .panic => .panic
        | .ret (.error e) => .ret (.error e)
        | .ret (.ok roles) => .ret (.ok (role :: roles))
      | .ret (.ok _) => .panic
    | .ret (.ok _) => .panic

/-- `Authorizer.Authorize` (authorizer.go:24-40). -/
def rbacAuthorizer : Authorizer Obj := fun read v resource users =>
  match fetchRoles read users with
  | .panic => .panic
  | .ret (.error e) => .ret (.error e)
  | .ret (.ok roles) =>
    if (roles.flatMap fun r => r.resources v).contains resource then .ret (.ok true)
    else .ret (.error .other)

/-! ## Transitions -/

/-- `BindRoleHandler.Exec` (core/rbac/ctrl_bind.go:18-24). -/
def bindRoleExec : Users → Tr → Code
  | _, .bindRole roleId subject => .create (.roleBinding subject roleId) .ret
  | _, _ => .crash

/-- `BindRoleAdmission.Validate` (ctrl_bind.go:34-48). -/
def bindRoleAdmission : Users → Tr → Code
  | _, .bindRole roleId _ => getRole roleId fun
    | .error e => .ret (.error e)
    | .ok _ => .ret (.ok ())
  | _, _ => .crash

/-- `CreateRoleHandler.Exec` (core/rbac/ctrl_create_role.go:26-29).  A nil `*Role` has the API
definition of a role and reads as the empty message, so it is created as one: denied without
authorization, otherwise its empty key makes `Create` panic. -/
def createRoleExec : Users → Tr → Code
  | _, .createRole (some r) => .create (.role r) .ret
  | _, .createRole none => .create (.role { id := [] }) .ret
  | _, _ => .crash

/-- One clause of `verifyStateObjects`/`verifyStateTransitions` (ctrl_create_role.go:103-129):
an empty list is fine, otherwise every entry has to be known. -/
def knownResources (known l : List Bytes) : Bool := l.all known.contains

/-- `verifyStateObjects` and `verifyStateTransitions` (ctrl_create_role.go:103-129). -/
def verifyRole (mods : List RawModule) (r : Role) : Except Err Unit :=
  let transitions := mods.flatMap fun m => m.transitions.map fun t => t.api.name
  let objects := mods.flatMap fun m => m.objects.map APIDef.name
  if !knownResources objects r.gets then .error .other
  else if !knownResources objects r.lists then .error .other
  else if !knownResources objects r.creates then .error .other
  else if !knownResources objects r.updates then .error .other
  else if !knownResources objects r.deletes then .error .other
  else if !knownResources transitions r.delivers then .error .other
  else .ok ()

/-- `CreateRoleAdmissionHandler.Validate` (ctrl_create_role.go:43-101). -/
def createRoleAdmission : Users → Tr → Code
  | _, .createRole none => .ret (.error .other)
  | _, .createRole (some role) =>
    if role.id = [] then .ret (.error .other)
    else getRole role.id fun
      | .ok _ => .ret (.error .other)
      | .error .notFound => getModuleDescriptors fun
        | .error e => .ret (.error e)
        | .ok mods => .ret (verifyRole mods role)
      | .error e => .ret (.error e)
  | _, _ => .crash

/-! ## Roles of modules, created at genesis -/

/-- `FullName.Name` of protoreflect: what follows the last dot. -/
def shortName (full : Bytes) : Bytes := (full.reverse.takeWhile (· ≠ 46)).reverse

/-- Search for the message of the short name in the files, in order
(core/rbac/rbac_applier.go:148-155). -/
def findMessage (short : Bytes) : List ProtoFile → Option (Option Bool)
  | [] => none
  | f :: fs => match f.messages.find? fun e => e.1 = short with
    | some e => some e.2
    | none => findMessage short fs

/-- `getACL` (rbac_applier.go:129-169): the `external` flag. -/
def getACL (t : RawTransition) : Out (Except Err Bool) :=
  if t.files.any fun f => !f.valid then .ret (.error .other)
  else match findMessage (shortName t.fullName) t.files with
    | none => .panic
    | some none => .ret (.error .other)
    | some (some ext) => .ret (.ok ext)

/-- The loop over the transitions of a module (rbac_applier.go:81-96): the role and the
external transitions collected. -/
def extendTransitions : List RawTransition → Role → List APIDef →
    Out (Except Err (Role × List APIDef))
  | [], role, ext => .ret (.ok (role, ext))
  | t :: ts, role, ext => match getACL t with
    | .panic => .panic
    | .ret (.error e) => .ret (.error e)
    | .ret (.ok external) => match role.extend .deliver t.api with
      | .error e => .ret (.error e)
      | .ok role => extendTransitions ts role (if external then ext ++ [t.api] else ext)

/-- `extendRoleForStateObject` (rbac_applier.go:171-193). -/
def extendObject (role : Role) (api : APIDef) : Except Err Role :=
  match role.extend .create api with
  | .error e => .error e
  | .ok role => match role.extend .delete api with
    | .error e => .error e
    | .ok role => match role.extend .update api with
      | .error e => .error e
      | .ok role => match role.extend .get api with
        | .error e => .error e
        | .ok role => role.extend .list api

/-- The loop over the state objects (rbac_applier.go:98-103). -/
def extendObjects : List APIDef → Role → Except Err Role
  | [], role => .ok role
  | o :: os, role => match extendObject role o with
    | .error e => .error e
    | .ok role => extendObjects os role

/-- The loop over the required resources (rbac_applier.go:105-115); the switch has no default. -/
def extendNeeds : List (APIDef × ApiType) → Role → Except Err Role
  | [], role => .ok role
  | (_, .stateObject) :: _, _ => .error .other
  | (_, .unrecognized) :: ns, role => extendNeeds ns role
  | (api, .stateTransition) :: ns, role => match role.extend .deliver api with
    | .error e => .error e
    | .ok role => extendNeeds ns role

/-- The role of a module and its external transitions (rbac_applier.go:76-115). -/
def moduleRole (m : RawModule) : Out (Except Err (Role × List APIDef)) :=
  match extendTransitions m.transitions { id := roleNameForModule m.name } [] with
  | .panic => .panic
  | .ret (.error e) => .ret (.error e)
  | .ret (.ok (role, ext)) => match extendObjects m.objects role with
    | .error e => .ret (.error e)
    | .ok role => match extendNeeds m.needs role with
      | .error e => .ret (.error e)
      | .ok role => .ret (.ok (role, ext))

/-- `handleModule` (rbac_applier.go:76-127): the error of the binding is dropped (121-126). -/
def handleModule (m : RawModule) (k : Except Err (List APIDef) → Code) : Code :=
  match moduleRole m with
  | .panic => .crash
  | .ret (.error e) => k (.error e)
  | .ret (.ok (role, ext)) => .deliver (.createRole (some role)) none fun
    | .error e => k (.error e)
    | .ok () => .deliver (.bindRole role.id m.name) none fun _ => k (.ok ext)

/-- The inner loop of `PostExec` (rbac_applier.go:59-64). -/
def extendExternal : List APIDef → Role → Except Err Role
  | [], role => .ok role
  | t :: ts, role => match role.extend .deliver t with
    | .error e => .error e
    | .ok role => extendExternal ts role

/-- The outer loop of `PostExec` (rbac_applier.go:53-74). -/
def handleModules : List RawModule → Role → Code
  | [], userRole => .deliver (.createRole (some userRole)) none .ret
  | m :: ms, userRole => handleModule m fun
    | .error e => .ret (.error e)
    | .ok ext => match extendExternal ext userRole with
      | .error e => .ret (.error e)
      | .ok userRole => handleModules ms userRole

/-- `initGenesisRoleCreator.PostExec` (rbac_applier.go:33-74). -/
def roleCreator : Users → Tr → Code
  | _, .createModules mods => handleModules mods { id := externalRoleID }
  | _, _ => .crash

/-- The genesis handler (core/rbac/module.go:48-79): the lists of initial roles are empty, so
`Default` does nothing; `Import` panics. -/
def rbacGenesis : Code × (Option Bytes → Code) := (.ret (.ok ()), fun _ => .crash)

end Verif
