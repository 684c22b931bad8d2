import Verif.Model.Schema
import Verif.Model.KV
/-!
# Index keys and the index store (runtime/orm/indexes/*.go)
-/

namespace Verif

/-- `indexObjectWithSecondaryKey` (runtime/orm/indexes/types.go:9-14). -/
structure IndexKey where
  objectPrefix : Bytes
  indexPrefix : Bytes
  secondaryKeyValue : Bytes
  primaryKey : Bytes := []
  deriving DecidableEq, Repr

/-- `appendLengthPrefixed(nil, value)` (types.go:76-92). -/
def lengthPrefixed (v : Bytes) : Bytes := le64 v.length ++ v

/-- `indexObjectWithSecondaryKey.marshal` (types.go:19-32).  `IndexersPrefix` is 0
(indexes/store.go:11). -/
def IndexKey.marshal (k : IndexKey) : Bytes :=
  0 :: (lengthPrefixed k.objectPrefix ++ lengthPrefixed k.indexPrefix
    ++ lengthPrefixed k.secondaryKeyValue ++ k.primaryKey)

/-- `2^63 - 8`: from this length on `8+int(length)` overflows Go's `int` (types.go:65).
No Go slice can be that long. -/
def maxLen : Nat := 9223372036854775800

/-- The bytes `marshal` returns.  A slice longer than Go allows cannot be built: `append` panics
(`growslice: len out of range`). -/
def IndexKey.encode (k : IndexKey) : Out Bytes :=
  if k.marshal.length < maxLen then .ret k.marshal else .panic

/-- `consumeLengthPrefixed` (types.go:59-74): value and rest; inner `none` is the returned
error.  `8+int(length)` wraps to a negative number for `length ≥ 2^63 - 8`; the length check
then passes and `make([]byte, length)` panics. -/
def consumeLengthPrefixed (buf : Bytes) : Out (Option (Bytes × Bytes)) :=
  match readLe64 buf with
  | none => .ret none
  | some (n, rest) =>
    if n ≥ maxLen then .panic
    else if rest.length < n then .ret none
    else .ret (some (rest.take n, rest.drop n))

/-- `indexObjectWithSecondaryKey.unmarshal` (types.go:34-57); `buf[1:]` panics on an empty
buffer. -/
def IndexKey.unmarshal (buf : Bytes) : Out (Option IndexKey) :=
  match buf with
  | [] => .panic
  | _ :: buf => match consumeLengthPrefixed buf with
    | .panic => .panic
    | .ret none => .ret none
    | .ret (some (objectPrefix, buf)) => match consumeLengthPrefixed buf with
      | .panic => .panic
      | .ret none => .ret none
      | .ret (some (indexPrefix, buf)) => match consumeLengthPrefixed buf with
        | .panic => .panic
        | .ret none => .ret none
        | .ret (some (secondaryKeyValue, primaryKey)) =>
          .ret (some { objectPrefix, indexPrefix, secondaryKeyValue, primaryKey })

/-- `indexList.marshal` (types.go:97-107).  `PrimaryKeyIndexes` is 1. -/
def indexListMarshal (l : List Bytes) : Bytes :=
  if l.length = 0 then []
  else 1 :: (appendVarint l.length ++ l.flatMap appendBytes)

/-- The loop of `indexList.unmarshal` (types.go:118-131): `n` elements still to read.
Result `some l`: the receiver is set to `l`.  When the buffer runs empty the Go code returns
nil without setting the receiver, which then stays empty. -/
def indexListLoop : Nat → Bytes → List Bytes → Option (List Bytes)
  | 0, buf, acc => if buf = [] then some acc else none
  | n + 1, buf, acc =>
    if buf = [] then some []
    else match consumeBytes buf with
      | .ok v rest => indexListLoop n rest (acc ++ [v])
      | _ => none

/-- `indexList.unmarshal` (types.go:109-134); `buf[1:]` panics on an empty buffer and
`make([][]byte, n)` on a negative count.  Inner `none` is the returned error.  Simplified: an
absurdly large positive count is assumed to be allocatable. -/
def indexListUnmarshal (buf : Bytes) : Out (Option (List Bytes)) :=
  match buf with
  | [] => .panic
  | _ :: buf => match consumeVarint buf with
    | .ok n rest => if n ≥ 2 ^ 63 then .panic else .ret (indexListLoop n rest [])
    | _ => .ret none

/-- `typePrefixedKey.bytes` (types.go:141-147). -/
def typePrefixedKey (typePrefix primaryKey : Bytes) : Bytes := typePrefix ++ 47 :: primaryKey

/-- Errors of the ORM packages (orm/errors.go, indexes/errors.go and the unnamed ones). -/
inductive OrmErr where
  | notFound             -- orm.ErrNotFound
  | alreadyExists        -- orm.ErrAlreadyExists
  | emptyKey             -- objects/store.go:114
  | schemaNotFound       -- schema.ErrNotFound
  | secondaryExists      -- indexes/store.go:41
  | primaryKeyNotFound   -- indexes/store.go:65
  | decode               -- protowire errors, types.go:113,124,130
  | noResults            -- indexes.errNotFound
  | noConditions         -- list.go:18
  | badField             -- list.go:34,50
  | badValue             -- list.go:38,54
  deriving DecidableEq, Repr

/-- `Store.Index`, the loop over the indexers (indexes/store.go:32-45). -/
def indexLoop {O : Type} [StateObject O] (sch : Schema) (o : O) (pk : Bytes) :
    List Indexer → KV Bytes → List Bytes → Out (Except OrmErr (List Bytes) × KV Bytes)
  | [], kv, acc => .ret (.ok acc, kv)
  | sk :: sks, kv, acc =>
    match sk.encodeFromObject o with
    | .panic => .panic
    | .ret v =>
      match IndexKey.encode { objectPrefix := sch.name, indexPrefix := sk.name,
                              secondaryKeyValue := v, primaryKey := pk } with
      | .panic => .panic
      | .ret key =>
        if kv.has key then .ret (.error .secondaryExists, kv)
        else indexLoop sch o pk sks (kv.set key []) (acc ++ [key])

/-- `Store.Index` (indexes/store.go:24-53). -/
def indexObject {O : Type} [StateObject O] (kv : KV Bytes) (sch : Schema) (o : O) :
    Out (Except OrmErr Unit × KV Bytes) :=
  if !sch.hasIndexes then .ret (.ok (), kv)
  else match sch.encodePrimaryKey o with
    | .panic => .panic
    | .ret pk => match indexLoop sch o pk sch.indexes kv [] with
      | .panic => .panic
      | .ret (.error e, kv) => .ret (.error e, kv)
      | .ret (.ok keys, kv) =>
        .ret (.ok (), kv.set (typePrefixedKey sch.name pk) (indexListMarshal keys))

/-- The deletion loop of `ClearIndexes` (indexes/store.go:73-78). -/
def clearLoop : List Bytes → KV Bytes → Out (KV Bytes)
  | [], kv => .ret kv
  | k :: ks, kv =>
    let (existed, kv) := kv.delete k
    if existed then clearLoop ks kv else .panic

/-- `Store.ClearIndexes` (indexes/store.go:55-80).  The pk → index list entry is kept. -/
def clearIndexes {O : Type} [StateObject O] (kv : KV Bytes) (sch : Schema) (o : O) :
    Out (Except OrmErr Unit × KV Bytes) :=
  if !sch.hasIndexes then .ret (.ok (), kv)
  else match sch.encodePrimaryKey o with
    | .panic => .panic
    | .ret pk => match kv.get (typePrefixedKey sch.name pk) with
      | none => .ret (.error .primaryKeyNotFound, kv)
      | some b => match indexListUnmarshal b with
        | .panic => .panic
        | .ret none => .ret (.error .decode, kv)
        | .ret (some keys) => match clearLoop keys kv with
          | .panic => .panic
          | .ret kv => .ret (.ok (), kv)

/-- `orm.ListOptions` (runtime/orm/store.go:125-149). -/
structure ListOptions where
  matchInterface : List (Bytes × Arg) := []
  matchString : List (Bytes × Bytes) := []
  start : Nat := 0
  stop : Nat := 0
  deriving DecidableEq, Repr

/-- First loop of `prefixesToScan` (indexes/list.go:31-45). -/
def prefixesInterface (sch : Schema) : List (Bytes × Arg) → Out (Except OrmErr (List IndexKey))
  | [] => .ret (.ok [])
  | (f, a) :: rest => match sch.indexer f with
    | none => .ret (.error .badField)
    | some idx => match idx.encodeInterface a with
      | .panic => .panic
      | .ret none => .ret (.error .badValue)
      | .ret (some b) => match prefixesInterface sch rest with
        | .ret (.ok ks) => .ret (.ok ({ objectPrefix := sch.name, indexPrefix := idx.name,
                                        secondaryKeyValue := b } :: ks))
        | r => r

/-- Second loop of `prefixesToScan` (indexes/list.go:47-61). -/
def prefixesString (sch : Schema) : List (Bytes × Bytes) → Out (Except OrmErr (List IndexKey))
  | [] => .ret (.ok [])
  | (f, s) :: rest => match sch.indexer f with
    | none => .ret (.error .badField)
    | some idx => match idx.encodeString s with
      | .panic => .panic
      | .ret none => .ret (.error .badValue)
      | .ret (some b) => match prefixesString sch rest with
        | .ret (.ok ks) => .ret (.ok ({ objectPrefix := sch.name, indexPrefix := idx.name,
                                        secondaryKeyValue := b } :: ks))
        | r => r

/-- `prefixesToScan` (indexes/list.go:29-64). -/
def prefixesToScan (sch : Schema) (opt : ListOptions) : Out (Except OrmErr (List IndexKey)) :=
  match prefixesInterface sch opt.matchInterface with
  | .ret (.ok ks) => match prefixesString sch opt.matchString with
    | .ret (.ok ks') => .ret (.ok (ks ++ ks'))
    | r => r
  | r => r

/-- `indexes.Store.List` (indexes/list.go:11-25), driven to the end: the primary keys.
Only the first prefix is scanned; `start`/`stop` are not looked at. -/
def listIndex (kv : KV Bytes) (sch : Schema) (opt : ListOptions) : Out (Except OrmErr (List Bytes)) :=
  match prefixesToScan sch opt with
  | .panic => .panic
  | .ret (.error e) => .ret (.error e)
  | .ret (.ok []) => .ret (.error .noConditions)
  | .ret (.ok (p :: _)) => match p.encode with
    | .panic => .panic
    | .ret pfx => match kv.iteratePrefix pfx with
      | [] => .ret (.error .noResults)
      | es => .ret (.ok (es.map (·.1)))

end Verif
