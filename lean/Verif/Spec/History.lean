import Verif.Model.Bytes
/-!
# Specification: what a history of writes means

A key-value map is specified by its history: the value of a key is the one given by the last
write to that key, nothing if that was a deletion or there was none.
-/

namespace Verif.Spec

/-- A write to a byte map. -/
inductive KVOp (V : Type) where
  | set (k : Bytes) (v : V)
  | delete (k : Bytes)

/-- Value of `k` after a history, most recent write *first*. -/
def lastWrite {V : Type} (k : Bytes) : List (KVOp V) → Option V
  | [] => none
  | .set j v :: h => if j = k then some v else lastWrite k h
  | .delete j :: h => if j = k then none else lastWrite k h

/-- Keys in strictly increasing byte order. -/
def StrictlyIncreasing (ks : List Bytes) : Prop := ks.Pairwise fun a b => Bytes.lt a b = true

end Verif.Spec
