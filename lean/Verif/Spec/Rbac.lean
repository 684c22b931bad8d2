import Verif.Spec.Chain
/-!
# Who may do what

Written without the authorizer, the admission of roles and the role creator of core/rbac.
-/

namespace Verif.Spec

/-- What a role lists for a verb. -/
def listed (r : Role) (v : Verb) : List Bytes :=
  if v = .get then r.gets else if v = .list then r.lists else if v = .create then r.creates
  else if v = .update then r.updates else if v = .delete then r.deletes
  else if v = .deliver then r.delivers else []

/-- There is a binding of the user, and the role it names exists. -/
def HasRole (m : World) (u : Bytes) (r : Role) : Prop :=
  (∃ k, m tyRoleBinding k = some (.roleBinding u r.id)) ∧ ∃ k, m tyRole k = some (.role r)

/-- Every acting user is bound to a role, and one of these roles lists the resource. -/
def Allowed (m : World) (v : Verb) (resource : Bytes) (users : List Bytes) : Prop :=
  (∀ u ∈ users, ∃ r, HasRole m u r) ∧ ∃ u ∈ users, ∃ r, HasRole m u r ∧ resource ∈ listed r v

/-- A name that is stored under itself. -/
def PlainName (s : Bytes) : Prop := s ≠ [] ∧ s.length < 128

instance (s : Bytes) : Decidable (PlainName s) := by unfold PlainName; infer_instance

/-- The users are plain names, and so are the roles they are bound to. -/
def PlainUsers (m : World) (users : List Bytes) : Prop :=
  ∀ u ∈ users, PlainName u ∧ ∀ k ref, m tyRoleBinding k = some (.roleBinding u ref) → PlainName ref

/-! ## Roles made from module descriptors -/

/-- The full name of a top-level message of a file. -/
def ProtoFile.fullName (f : ProtoFile) (short : Bytes) : Bytes :=
  if f.package = [] then short else f.package ++ 46 :: short

/-- The declaration of the transition among its files carries the flag. -/
def Marked (t : RawTransition) (flag : Bool) : Prop :=
  ∃ f ∈ t.files, ∃ e ∈ f.messages, ProtoFile.fullName f e.1 = t.fullName ∧ e.2 = some flag

/-- The last part of a name. -/
def LastPart (short full : Bytes) : Prop := 46 ∉ short ∧ (full = short ∨ ∃ p, full = p ++ 46 :: short)

/-- All messages in the files of the transition whose name is the last part of its name are its
declaration, and it is declared in one way. -/
structure Unambiguous (t : RawTransition) : Prop where
  own : ∀ f ∈ t.files, ∀ e ∈ f.messages, LastPart e.1 t.fullName → ProtoFile.fullName f e.1 = t.fullName
  once : ∀ f ∈ t.files, ∀ e ∈ f.messages, ∀ f' ∈ t.files, ∀ e' ∈ f'.messages,
    ProtoFile.fullName f e.1 = t.fullName → ProtoFile.fullName f' e'.1 = t.fullName → e.2 = e'.2

/-- The modules were installed in a store without objects, which now holds `m`. -/
def Installed (lib : Libs) (mods : List RawModule) (m : World) : Prop :=
  ∃ n s, (ormApp lib).deliver n false false [userRuntime] (.createModules mods) (fresh appReg) = .done (.ok ()) s ∧
    view s = m

/-- What a module declares: the objects it owns, the transitions it handles, the transitions it
needs. -/
def ownObjects (mod : RawModule) : List Bytes := mod.objects.map APIDef.name
def ownTransitions (mod : RawModule) : List Bytes := mod.transitions.map fun t => t.api.name
def neededTransitions (mod : RawModule) : List Bytes :=
  (mod.needs.filter fun n => n.2 = .stateTransition).map fun n => n.1.name

end Verif.Spec
