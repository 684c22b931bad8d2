import Verif.Model.Bytes
/-!
# Users (runtime/authentication/user/user.go)

`DefaultUsers` is a Go map from name to user; a `DefaultUser` is just its name
(user.go:14-24).  It is modelled as the list of its keys in insertion order.  Go enumerates a
map in an arbitrary order: theorems about code that enumerates users are stated for every
permutation where the order could matter.
-/

namespace Verif

/-- `user.Users`: the names, each once. -/
abbrev Users := List Bytes

namespace Users

/-- `DefaultUsers.add` (user.go:32-39), without its result. -/
def add (u : Users) (name : Bytes) : Users := if name ∈ u then u else u ++ [name]

/-- `NewUsersFromString`, `NewUsers` (user.go:71-85). -/
def ofNames (names : List Bytes) : Users := names.foldl add []

/-- `NewUsersUnion` (user.go:87-99); `none` is a nil group. -/
def union (groups : List (Option Users)) : Users :=
  groups.foldl (fun u g => match g with
    | none => u
    | some l => l.foldl add u) []

/-- `DefaultUsers.has` (user.go:50-53). -/
def has1 (u : Users) (name : Bytes) : Bool := u.contains name

/-- `DefaultUsers.Has` (user.go:41-48). -/
def has (u : Users) : List Bytes → Bool
  | [] => true
  | n :: ns => if !u.has1 n then false else u.has ns

end Users

/-- The well-known names (runtime/authentication/user/well_knowns.go). -/
def userABCI : Bytes := b!"system:abci"
def userRuntime : Bytes := b!"system:runtime"

end Verif
