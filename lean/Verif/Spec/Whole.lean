import Verif.Spec.Chain
/-!
# The application as a whole
-/

namespace Verif.Spec

/-- Two transactions that differ at most in the order of their users. -/
structure Reordered (tx tx' : AppTx) : Prop where
  transitions : tx'.transitions = tx.transitions
  raw : tx'.raw = tx.raw
  users : tx'.users.Perm tx.users

/-- Two results of the decoder that differ at most in the order of users. -/
def ReorderedOut : Out (Except Err AppTx) → Out (Except Err AppTx) → Prop
  | .ret (.ok tx), .ret (.ok tx') => Reordered tx tx'
  | a, b => b = a

/-- The same libraries, but the users of transactions may come in another order. -/
structure ReorderedLibs (lib lib' : Libs) : Prop where
  coins : lib'.coins = lib.coins
  verify : lib'.verify = lib.verify
  parseGenesis : lib'.parseGenesis = lib.parseGenesis
  jsonFails : lib'.jsonFails = lib.jsonFails
  decode : ∀ bytes, ReorderedOut (lib.decode bytes) (lib'.decode bytes)

/-- The types of objects that transactions may change. -/
def txTypes : List Bytes := [tyAccount, tyAccountNumber, tyRoleBinding, tyBalance]

/-- The transition creates an account or sends coins. -/
inductive CreatesOrSends : Tr → Prop
  | creates (a : Account) : CreatesOrSends (.createAccount (some a))
  | sends (source target : Bytes) (coins : List Coin) : CreatesOrSends (.sendCoins source target coins)

end Verif.Spec
