import Verif.Model.Bytes
/-!
# protowire primitives

`google.golang.org/protobuf/encoding/protowire` v1.26 (dependency, pinned in
/repo/go.mod).  Only the functions the repository calls are modelled.
-/

namespace Verif

/-- The loop that `protowire.AppendVarint` unrolls; the first argument bounds the number of
continuation bytes. -/
def appendVarintLoop : Nat → Nat → Bytes
  | 0, n => [UInt8.ofNat n]
  | fuel + 1, n =>
    if n < 128 then [UInt8.ofNat n]
    else UInt8.ofNat (n % 128 + 128) :: appendVarintLoop fuel (n / 128)

/-- `protowire.AppendVarint(nil, v)` for `v < 2^64`: base-128, least significant
group first.  Called at kindencoder.go:92,121,149,177,225 and indexes/types.go:102.
(The Go code is a ten-way case split on the size of `v`; `n` continuation bytes are always
enough for the number `n`.) -/
def appendVarint (n : Nat) : Bytes := appendVarintLoop n n

/-- `protowire.AppendBytes(nil, v)` / `AppendString`: varint length, then the bytes.
Called at kindencoder.go:62,254 and indexes/types.go:104. -/
def appendBytes (v : Bytes) : Bytes := appendVarint v.length ++ v

/-- Result of a consuming parser: the value and the rest, or the negative code. -/
inductive Parse (α : Type) where
  | ok (v : α) (rest : Bytes)
  | truncated
  | overflow
  deriving DecidableEq, Repr

/-- Loop of `protowire.ConsumeVarint`: `left` bytes may still be read; the last one
(tenth) must be `< 2`. -/
def consumeVarintAux : Nat → Nat → Nat → Bytes → Parse Nat
  | 0, _, _, _ => .overflow
  | _ + 1, _, _, [] => .truncated
  | left + 1, shift, acc, b :: bs =>
    if left = 0 then
      if b.toNat < 2 then .ok (acc + b.toNat * 2 ^ shift) bs else .overflow
    else if b.toNat < 128 then .ok (acc + b.toNat * 2 ^ shift) bs
    else consumeVarintAux left (shift + 7) (acc + (b.toNat - 128) * 2 ^ shift) bs

/-- `protowire.ConsumeVarint`, called at indexes/types.go:111. -/
def consumeVarint (b : Bytes) : Parse Nat := consumeVarintAux 10 0 0 b

/-- `protowire.ConsumeBytes`, called at indexes/types.go:122: a varint length followed
by that many bytes. -/
def consumeBytes (b : Bytes) : Parse Bytes :=
  match consumeVarint b with
  | .ok m rest => if m ≤ rest.length then .ok (rest.take m) (rest.drop m) else .truncated
  | .truncated => .truncated
  | .overflow => .overflow

/-- The eight little-endian bytes of a `uint64` (indexes/types.go:78-88). -/
def le64 (n : Nat) : Bytes :=
  [UInt8.ofNat (n / 256 ^ 0 % 256), UInt8.ofNat (n / 256 ^ 1 % 256),
   UInt8.ofNat (n / 256 ^ 2 % 256), UInt8.ofNat (n / 256 ^ 3 % 256),
   UInt8.ofNat (n / 256 ^ 4 % 256), UInt8.ofNat (n / 256 ^ 5 % 256),
   UInt8.ofNat (n / 256 ^ 6 % 256), UInt8.ofNat (n / 256 ^ 7 % 256)]

/-- The `uint64` read back from eight little-endian bytes (indexes/types.go:64);
`none` if fewer than eight bytes are there (indexes/types.go:60-62). -/
def readLe64 : Bytes → Option (Nat × Bytes)
  | b0 :: b1 :: b2 :: b3 :: b4 :: b5 :: b6 :: b7 :: rest =>
    some (b0.toNat + b1.toNat * 256 ^ 1 + b2.toNat * 256 ^ 2 + b3.toNat * 256 ^ 3 +
      b4.toNat * 256 ^ 4 + b5.toNat * 256 ^ 5 + b6.toNat * 256 ^ 6 + b7.toNat * 256 ^ 7, rest)
  | _ => none

end Verif
