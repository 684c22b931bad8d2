import Verif.Model.ABCI
import Verif.Spec.Objects
/-!
# Vocabulary for the runtime theorems (C19–C29)
-/

namespace Verif.Spec
variable {S O T R : Type} [StateObject O]

/-- The authorizer, asked in state `s` about `v` on `resource` by `users`, answers allow
without an error. -/
def Allows (sys : Sys S O) (s : S) (v : Verb) (resource : Bytes) (users : Users) : Prop :=
  sys.authorizer (sys.get s) v resource users = .ret (.ok true)

/-- One write of an object to the store, requested by the module `m` and allowed by the
authorizer for exactly that verb and object type. -/
inductive AllowedWrite (sys : Sys S O) (m : Bytes) : S → S → Prop where
  | create (o : O) (s s' : S) (r : Except OrmErr Unit) :
      Allows sys s .create (StateObject.api o).name [m] → sys.ops.create s o = .ret (r, s') →
      AllowedWrite sys m s s'
  | update (o : O) (s s' : S) (r : Except OrmErr Unit) :
      Allows sys s .update (StateObject.api o).name [m] → sys.ops.update s o = .ret (r, s') →
      AllowedWrite sys m s s'
  | delete (o : O) (s s' : S) (r : Except OrmErr Unit) :
      Allows sys s .delete (StateObject.api o).name [m] → sys.ops.delete s o = .ret (r, s') →
      AllowedWrite sys m s s'

/-- `s'` results from `s` by allowed writes of modules in `ms` and nothing else. -/
inductive AllowedWrites (sys : Sys S O) (ms : List Bytes) : S → S → Prop where
  | refl (s : S) : AllowedWrites sys ms s s
  | step (s s₁ s' : S) (m : Bytes) : m ∈ ms → AllowedWrites sys ms s s₁ →
      AllowedWrite sys m s₁ s' → AllowedWrites sys ms s s'

/-- The modules that own a handler of the router. -/
def owners (r : Router O T R) : List Bytes :=
  r.authAdmission.map (·.owner) ++ r.postAuth.map (·.owner) ++ r.admission.map (·.2.owner)
    ++ r.pre.map (·.2.owner) ++ r.exec.map (·.2.owner) ++ r.post.map (·.2.owner)

/-- The handlers added under a name, in the order in which they were added. -/
def registered {H : Type} (m : List (Bytes × H)) (name : Bytes) : List H :=
  m.filterMap fun e => if e.1 = name then some e.2 else none

/-- Code that only reads. -/
inductive ReadOnly {α : Type} : Prog O T α → Prop where
  | ret (a : α) : ReadOnly (.ret a)
  | crash : ReadOnly .crash
  | get (ty id : Bytes) (k : Except Err O → Prog O T α) : (∀ r, ReadOnly (k r)) →
      ReadOnly (.get ty id k)
  | list (ty : Bytes) (opt : ListOptions) (k : Except Err (List (Except OrmErr O)) → Prog O T α) :
      (∀ r, ReadOnly (k r)) → ReadOnly (.list ty opt k)

/-- One step of a sequence: it may fail, panic, or go on. -/
abbrev Step (S : Type) := S → Res S (Except Err Unit)

/-- Run steps one after the other; the first step that does not succeed ends the sequence and
is its result. -/
def inOrder : List (Step S) → Step S
  | [], s => .done (.ok ()) s
  | f :: fs, s => match f s with
    | .done (.ok ()) s => inOrder fs s
    | r => r

/-- A step whose error, if any, is reported as `e`. -/
def failAs (e : Err) (f : Step S) : Step S := fun s => match f s with
  | .done (.error _) s => .done (.error e) s
  | r => r

/-- The documented codes of the error classes (runtime/errors/errors.go:8-34); every other error
has code 1. -/
def codeOf (e : Err) : Nat :=
  ([(Err.badRequest, 400), (.notFound, 404), (.alreadyExists, 409), (.conditionNotMet, 412)].lookup e).getD 1

/-- The response to a transaction whose phases ended with the given result. -/
def respond {α : Type} (a : App S) : Res S (Except Err α) → Res (App S) Nat
  | .panic => .panic
  | .diverge => .diverge
  | .done (.ok _) s => .done 0 { a with store := s }
  | .done (.error e) s => .done (codeOf e) { a with store := s }

end Verif.Spec
