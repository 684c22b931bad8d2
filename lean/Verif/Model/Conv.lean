import Verif.Model.Bytes
import Verif.Model.Out
/-!
# Conversions without copying (pkg/conv/string.go)

Here strings and slices are what they are in memory: an address and a length, and for slices a capacity.
-/

namespace Verif.Conv

/-- Memory: the byte at each address, and whether the address may be written to. -/
structure Memory where
  byte : Nat → UInt8
  readOnly : Nat → Bool

/-- `reflect.StringHeader`. -/
structure Str where
  data : Nat
  len : Nat
  deriving DecidableEq

/-- `reflect.SliceHeader`. -/
structure Slice where
  data : Nat
  len : Nat
  cap : Nat
  deriving DecidableEq

/-- The bytes of a string. -/
def Str.bytes (s : Str) (m : Memory) : Bytes := (List.range s.len).map fun i => m.byte (s.data + i)

/-- The bytes of a slice. -/
def Slice.bytes (b : Slice) (m : Memory) : Bytes := (List.range b.len).map fun i => m.byte (b.data + i)

/-- `UnsafeStrToBytes` (pkg/conv/string.go:10-18). -/
def unsafeStrToBytes (s : Str) : Slice := ⟨s.data, s.len, s.len⟩

/-- `UnsafeBytesToStr` (pkg/conv/string.go:24-26): the first two words of the header. -/
def unsafeBytesToStr (b : Slice) : Str := ⟨b.data, b.len⟩

/-- Write a byte; memory that may not be written to ends the process. -/
def Memory.write (m : Memory) (a : Nat) (v : UInt8) : Out Memory :=
  if m.readOnly a then .panic else .ret { m with byte := fun x => if x = a then v else m.byte x }

/-- Write bytes from an address on. -/
def Memory.writeAll (m : Memory) (a : Nat) : Bytes → Out Memory
  | [] => .ret m
  | v :: vs => match m.write a v with
    | .panic => .panic
    | .ret m => m.writeAll (a + 1) vs

/-- `b[i] = v` in Go. -/
def Slice.assign (b : Slice) (m : Memory) (i : Nat) (v : UInt8) : Out Memory :=
  if i < b.len then m.write (b.data + i) v else .panic

/-- `append(b, vs...)` in Go: in place if the capacity suffices, otherwise all bytes are written to new memory, at
`fresh`, with at least the capacity needed. -/
def Slice.append (b : Slice) (m : Memory) (fresh extra : Nat) (vs : Bytes) : Out (Slice × Memory) :=
  if b.len + vs.length ≤ b.cap then
    match m.writeAll (b.data + b.len) vs with
    | .panic => .panic
    | .ret m => .ret (⟨b.data, b.len + vs.length, b.cap⟩, m)
  else
    match m.writeAll fresh (b.bytes m ++ vs) with
    | .panic => .panic
    | .ret m => .ret (⟨fresh, b.len + vs.length, b.len + vs.length + extra⟩, m)

end Verif.Conv
