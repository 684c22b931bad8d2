import Verif.Model.Bytes
/-!
# Outcomes

A Go call either returns (possibly an error value) or panics.  Error values are ordinary
return values (`Except`); a panic is a separate outcome.  The database is in memory only
(runtime/kv/badger.go:16), so after a panic nothing is left to be observed.
-/

namespace Verif

deriving instance DecidableEq for Except

/-- Outcome of a Go function: it returned, or it panicked. -/
inductive Out (α : Type) where
  | ret (a : α)
  | panic
  deriving DecidableEq, Repr

end Verif
