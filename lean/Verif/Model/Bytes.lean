/-!
# Byte strings

Go `[]byte` and Go `string` are both modelled as lists of bytes.  A nil slice and
an empty slice are identified: none of the modelled functions distinguishes them
(where the code tests for nil the model uses an explicit case).
-/

namespace Verif

/-- Go `[]byte` / `string`. -/
abbrev Bytes := List UInt8

/-- `b!"text"` is the byte string of an ASCII/UTF-8 literal, expanded at elaboration
time into a list of numerals. -/
syntax:max "b!" noWs str : term
macro_rules
  | `(b!$s:str) => do
    let bs := s.getString.toUTF8.toList
    let elems ← bs.toArray.mapM fun b => do
      let n := Lean.Syntax.mkNumLit (toString b.toNat)
      `(($n : UInt8))
    `(([$elems,*] : Bytes))

/-- `bytes.Compare(a, b) < 0`: strict lexicographic order on byte strings
(Go standard library; used by badger's key order, runtime/kv/badger.go:96-105,
and by `BadgerIterator.Valid`, runtime/kv/badger.go:165-175). -/
def Bytes.lt : Bytes → Bytes → Bool
  | _, [] => false
  | [], _ :: _ => true
  | a :: as, b :: bs => if a < b then true else if b < a then false else Bytes.lt as bs

/-- `strings.HasPrefix` / `bytes.HasPrefix` and what is left after the prefix:
`stripPrefix p k = some r` iff `k = p ++ r`. -/
def Bytes.stripPrefix : Bytes → Bytes → Option Bytes
  | [], k => some k
  | _ :: _, [] => none
  | p :: ps, k :: ks => if p = k then Bytes.stripPrefix ps ks else none

/-- `strings.Split(s, "/")`-style split on one byte (Go standard library, used at
runtime/query.go:35 and runtime/query.go:91).  Always non-empty. -/
def Bytes.splitOn (sep : UInt8) : Bytes → List Bytes
  | [] => [[]]
  | c :: cs =>
    if c = sep then [] :: Bytes.splitOn sep cs
    else match Bytes.splitOn sep cs with
      | [] => [[c]]
      | w :: ws => (c :: w) :: ws

end Verif
