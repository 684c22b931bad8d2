import Verif.Model.Bytes
/-!
# Hash functions

SHA-256, HMAC and RIPEMD-160, which the keys call (`crypto/sha256`, `crypto/hmac` and
`golang.org/x/crypto/ripemd160`; dependencies, modelled after their standards FIPS 180-4, RFC 2104 and
the paper of Dobbertin, Bosselaers and Preneel).  Theorems that need no property of a hash function are
stated for all functions; these definitions show what the model computes, on published examples, and
supply the lengths of addresses.
-/

namespace Verif.Hash

def rotl (x : UInt32) (n : UInt32) : UInt32 := (x <<< n) ||| (x >>> (32 - n))

def rotr (x : UInt32) (n : UInt32) : UInt32 := (x >>> n) ||| (x <<< (32 - n))

/-- The bytes of a number of 64 bits, the last byte first. -/
def length8 (n : Nat) : Bytes := (List.range 8).map fun i => UInt8.ofNat (n / 256 ^ i)

/-- One bit, then as many zeros as are needed to leave room for the length in bits. -/
def pad (bigEndian : Bool) (m : Bytes) : Bytes :=
  m ++ 0x80 :: List.replicate ((119 - m.length % 64) % 64) 0 ++
    (if bigEndian then (length8 (8 * m.length)).reverse else length8 (8 * m.length))

/-- Words of 32 bits. -/
def words (bigEndian : Bool) : Bytes → List UInt32
  | a :: b :: c :: d :: l =>
    (if bigEndian then a.toUInt32 <<< 24 ||| b.toUInt32 <<< 16 ||| c.toUInt32 <<< 8 ||| d.toUInt32
      else d.toUInt32 <<< 24 ||| c.toUInt32 <<< 16 ||| b.toUInt32 <<< 8 ||| a.toUInt32) :: words bigEndian l
  | _ => []

/-- The bytes of a word, the first byte first. -/
def word4 (w : UInt32) : Bytes := [(w >>> 24).toUInt8, (w >>> 16).toUInt8, (w >>> 8).toUInt8, w.toUInt8]

/-- Blocks of 16 words. -/
def blocks : (fuel : Nat) → List UInt32 → List (List UInt32)
  | 0, _ => []
  | _, [] => []
  | f + 1, l => l.take 16 :: blocks f (l.drop 16)

/-! ## SHA-256 -/

def sha256K : List UInt32 :=
  [0x428a2f98, 0x71374491, 0xb5c0fbcf, 0xe9b5dba5, 0x3956c25b, 0x59f111f1, 0x923f82a4, 0xab1c5ed5,
   0xd807aa98, 0x12835b01, 0x243185be, 0x550c7dc3, 0x72be5d74, 0x80deb1fe, 0x9bdc06a7, 0xc19bf174,
   0xe49b69c1, 0xefbe4786, 0x0fc19dc6, 0x240ca1cc, 0x2de92c6f, 0x4a7484aa, 0x5cb0a9dc, 0x76f988da,
   0x983e5152, 0xa831c66d, 0xb00327c8, 0xbf597fc7, 0xc6e00bf3, 0xd5a79147, 0x06ca6351, 0x14292967,
   0x27b70a85, 0x2e1b2138, 0x4d2c6dfc, 0x53380d13, 0x650a7354, 0x766a0abb, 0x81c2c92e, 0x92722c85,
   0xa2bfe8a1, 0xa81a664b, 0xc24b8b70, 0xc76c51a3, 0xd192e819, 0xd6990624, 0xf40e3585, 0x106aa070,
   0x19a4c116, 0x1e376c08, 0x2748774c, 0x34b0bcb5, 0x391c0cb3, 0x4ed8aa4a, 0x5b9cca4f, 0x682e6ff3,
   0x748f82ee, 0x78a5636f, 0x84c87814, 0x8cc70208, 0x90befffa, 0xa4506ceb, 0xbef9a3f7, 0xc67178f2]

/-- The state: eight words. -/
structure State8 where
  (a b c d e f g h : UInt32)

def sha256Init : State8 :=
  ⟨0x6a09e667, 0xbb67ae85, 0x3c6ef372, 0xa54ff53a, 0x510e527f, 0x9b05688c, 0x1f83d9ab, 0x5be0cd19⟩

/-- The next words of the schedule; the last sixteen are kept, the latest first. -/
def schedule : (n : Nat) → List UInt32 → List UInt32
  | 0, _ => []
  | n + 1, w =>
    let w2 := w.getD 1 0
    let w15 := w.getD 14 0
    let s0 := rotr w15 7 ^^^ rotr w15 18 ^^^ (w15 >>> 3)
    let s1 := rotr w2 17 ^^^ rotr w2 19 ^^^ (w2 >>> 10)
    let x := w.getD 15 0 + s0 + w.getD 6 0 + s1
    x :: schedule n ((x :: w).take 16)

def sha256Round (s : State8) (kw : UInt32 × UInt32) : State8 :=
  let s1 := rotr s.e 6 ^^^ rotr s.e 11 ^^^ rotr s.e 25
  let ch := (s.e &&& s.f) ^^^ ((~~~ s.e) &&& s.g)
  let t1 := s.h + s1 + ch + kw.1 + kw.2
  let s0 := rotr s.a 2 ^^^ rotr s.a 13 ^^^ rotr s.a 22
  let maj := (s.a &&& s.b) ^^^ (s.a &&& s.c) ^^^ (s.b &&& s.c)
  ⟨t1 + (s0 + maj), s.a, s.b, s.c, s.d + t1, s.e, s.f, s.g⟩

def sha256Block (s : State8) (w : List UInt32) : State8 :=
  let t := (sha256K.zip (w ++ schedule 48 w.reverse)).foldl sha256Round s
  ⟨s.a + t.a, s.b + t.b, s.c + t.c, s.d + t.d, s.e + t.e, s.f + t.f, s.g + t.g, s.h + t.h⟩

/-- `sha256.Sum256`. -/
def sha256 (m : Bytes) : Bytes :=
  let w := words true (pad true m)
  let s := (blocks w.length w).foldl sha256Block sha256Init
  [s.a, s.b, s.c, s.d, s.e, s.f, s.g, s.h].flatMap word4

/-- `hmac.New(sha256.New, key)` applied to a message. -/
def hmacSha256 (key m : Bytes) : Bytes :=
  let key := if key.length > 64 then sha256 key else key
  let key := key ++ List.replicate (64 - key.length) 0
  sha256 (key.map (· ^^^ 0x5c) ++ sha256 (key.map (· ^^^ 0x36) ++ m))

/-! ## RIPEMD-160 -/

def ripemdR : List Nat :=
  [0, 1, 2, 3, 4, 5, 6, 7, 8, 9, 10, 11, 12, 13, 14, 15,
   7, 4, 13, 1, 10, 6, 15, 3, 12, 0, 9, 5, 2, 14, 11, 8,
   3, 10, 14, 4, 9, 15, 8, 1, 2, 7, 0, 6, 13, 11, 5, 12,
   1, 9, 11, 10, 0, 8, 12, 4, 13, 3, 7, 15, 14, 5, 6, 2,
   4, 0, 5, 9, 7, 12, 2, 10, 14, 1, 3, 8, 11, 6, 15, 13]

def ripemdR' : List Nat :=
  [5, 14, 7, 0, 9, 2, 11, 4, 13, 6, 15, 8, 1, 10, 3, 12,
   6, 11, 3, 7, 0, 13, 5, 10, 14, 15, 8, 12, 4, 9, 1, 2,
   15, 5, 1, 3, 7, 14, 6, 9, 11, 8, 12, 2, 10, 0, 4, 13,
   8, 6, 4, 1, 3, 11, 15, 0, 5, 12, 2, 13, 9, 7, 10, 14,
   12, 15, 10, 4, 1, 5, 8, 7, 6, 2, 13, 14, 0, 3, 9, 11]

def ripemdS : List UInt32 :=
  [11, 14, 15, 12, 5, 8, 7, 9, 11, 13, 14, 15, 6, 7, 9, 8,
   7, 6, 8, 13, 11, 9, 7, 15, 7, 12, 15, 9, 11, 7, 13, 12,
   11, 13, 6, 7, 14, 9, 13, 15, 14, 8, 13, 6, 5, 12, 7, 5,
   11, 12, 14, 15, 14, 15, 9, 8, 9, 14, 5, 6, 8, 6, 5, 12,
   9, 15, 5, 11, 6, 8, 13, 12, 5, 12, 13, 14, 11, 8, 5, 6]

def ripemdS' : List UInt32 :=
  [8, 9, 9, 11, 13, 15, 15, 5, 7, 7, 8, 11, 14, 14, 12, 6,
   9, 13, 15, 7, 12, 8, 9, 11, 7, 7, 12, 7, 6, 15, 13, 11,
   9, 7, 15, 11, 8, 6, 6, 14, 12, 13, 5, 14, 13, 13, 7, 5,
   15, 5, 8, 11, 14, 14, 6, 14, 6, 9, 12, 9, 12, 5, 15, 8,
   8, 5, 12, 9, 12, 5, 14, 6, 8, 13, 6, 5, 15, 13, 11, 11]

/-- The state: five words. -/
structure State5 where
  (a b c d e : UInt32)

/-- The functions of the five rounds. -/
def ripemdF (j : Nat) (x y z : UInt32) : UInt32 :=
  match j with
  | 0 => x ^^^ y ^^^ z
  | 1 => (x &&& y) ||| ((~~~ x) &&& z)
  | 2 => (x ||| ~~~ y) ^^^ z
  | 3 => (x &&& z) ||| (y &&& ~~~ z)
  | _ => x ^^^ (y ||| ~~~ z)

def ripemdK : List UInt32 := [0, 0x5a827999, 0x6ed9eba1, 0x8f1bbcdc, 0xa953fd4e]

def ripemdK' : List UInt32 := [0x50a28be6, 0x5c4dd124, 0x6d703ef3, 0x7a6d76e9, 0]

/-- One step, with a function, a word of the message plus a constant, and a rotation. -/
def ripemdStep (f : UInt32 → UInt32 → UInt32 → UInt32) (x s : UInt32) (t : State5) : State5 :=
  ⟨t.e, rotl (t.a + f t.b t.c t.d + x) s + t.e, t.b, rotl t.c 10, t.d⟩

def ripemdBlock (s : State5) (w : List UInt32) : State5 :=
  let l := (List.range 80).foldl (fun t j => ripemdStep (ripemdF (j / 16))
    (w.getD (ripemdR.getD j 0) 0 + ripemdK.getD (j / 16) 0) (ripemdS.getD j 0) t) s
  let r := (List.range 80).foldl (fun t j => ripemdStep (ripemdF (4 - j / 16))
    (w.getD (ripemdR'.getD j 0) 0 + ripemdK'.getD (j / 16) 0) (ripemdS'.getD j 0) t) s
  ⟨s.b + l.c + r.d, s.c + l.d + r.e, s.d + l.e + r.a, s.e + l.a + r.b, s.a + l.b + r.c⟩

/-- `ripemd160.New().Sum`. -/
def ripemd160 (m : Bytes) : Bytes :=
  let w := words false (pad false m)
  let s := (blocks w.length w).foldl ripemdBlock ⟨0x67452301, 0xefcdab89, 0x98badcfe, 0x10325476, 0xc3d2e1f0⟩
  [s.a, s.b, s.c, s.d, s.e].flatMap fun w => (word4 w).reverse

end Verif.Hash
