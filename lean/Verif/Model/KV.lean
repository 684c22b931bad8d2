import Verif.Model.Bytes
/-!
# The key-value layer (runtime/kv/badger.go)

An in-memory badger database is modelled as an association list kept sorted by key.
Simplifications: transactions never fail (no conflicts: single writer, one transaction
per call), badger's limits (key size 65000, value size about 1 MiB, reserved `!badger!` prefix, empty key) are
not modelled.  Values are polymorphic: the object store puts marshalled objects in, the
index store byte strings.
-/

namespace Verif

/-- Contents of a badger database: key/value pairs in increasing key order. -/
abbrev KV (V : Type) := List (Bytes × V)

namespace KV
variable {V : Type}

/-- `kv.NewBadger` (runtime/kv/badger.go:15-21). -/
def empty : KV V := []

/-- `Badger.Get` (runtime/kv/badger.go:36-59): value and existence flag. -/
def get : KV V → Bytes → Option V
  | [], _ => none
  | (k', v) :: m, k => if k' = k then some v else get m k

/-- `Badger.Has` (runtime/kv/badger.go:61-64). -/
def has (m : KV V) (k : Bytes) : Bool := (m.get k).isSome

/-- `Badger.Set` (runtime/kv/badger.go:23-34). -/
def set : KV V → Bytes → V → KV V
  | [], k, v => [(k, v)]
  | (k', v') :: m, k, v =>
    if k' = k then (k, v) :: m
    else if Bytes.lt k k' then (k, v) :: (k', v') :: m
    else (k', v') :: set m k v

/-- `Badger.Delete` (runtime/kv/badger.go:66-77).  The returned flag is `true` whether or
not the key was there. -/
def delete (m : KV V) (k : Bytes) : Bool × KV V := (true, m.filter fun e => e.1 ≠ k)

/-- `Badger.IteratePrefix` driven from `Seek` until `Valid` is false
(runtime/kv/badger.go:96-138): the keys at or after the prefix, in order, as long as they
have the prefix; `Key()` drops the prefix. -/
def iteratePrefix (m : KV V) (pfx : Bytes) : List (Bytes × V) :=
  ((m.dropWhile fun e => Bytes.lt e.1 pfx).map fun e => (Bytes.stripPrefix pfx e.1, e.2))
    |>.takeWhile (fun e => e.1.isSome)
    |>.filterMap fun e => e.1.map fun k => (k, e.2)

/-- `Badger.Iterate(start, end)` driven until `Valid` is false (runtime/kv/badger.go:79-94,
146-175).  badger's `NewKeyIterator(start)` iterates over the versions of the single key
`start`, so no other key is produced; the item is dropped if its key is greater than a
non-empty `end`.  Simplified: the same key may be produced several times (superseded
versions), the model produces it once.  Nothing in the repository calls `Iterate`. -/
def iterate (m : KV V) (start stop : Bytes) : List (Bytes × V) :=
  match m.get start with
  | none => []
  | some v => if stop ≠ [] ∧ Bytes.lt stop start then [] else [(start, v)]

end KV
end Verif
