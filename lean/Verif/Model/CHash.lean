import Verif.Model.Hash
/-!
# The hash functions of the C library

`hash_impl.h` (in `x/authn/crypto/secp256k1/internal/secp256k1/libsecp256k1/src`) on a machine that stores the last byte of a
word first and whose `size_t` has 64 bits. What is in a buffer that is not initialized is an argument. Clearing of memory
that is not read again is left out. Line numbers are those of that file.
-/

namespace Verif.C
open Verif.Hash (State8)

/-- `Ch`, line 16. -/
def chC (x y z : UInt32) : UInt32 := z ^^^ (x &&& (y ^^^ z))

/-- `Maj`, line 17. -/
def majC (x y z : UInt32) : UInt32 := (x &&& y) ||| (z &&& (x ||| y))

/-- `Sigma0`, line 18. -/
def bigSigma0 (x : UInt32) : UInt32 := (x >>> 2 ||| x <<< 30) ^^^ (x >>> 13 ||| x <<< 19) ^^^ (x >>> 22 ||| x <<< 10)

/-- `Sigma1`, line 19. -/
def bigSigma1 (x : UInt32) : UInt32 := (x >>> 6 ||| x <<< 26) ^^^ (x >>> 11 ||| x <<< 21) ^^^ (x >>> 25 ||| x <<< 7)

/-- `sigma0`, line 20. -/
def sigma0 (x : UInt32) : UInt32 := (x >>> 7 ||| x <<< 25) ^^^ (x >>> 18 ||| x <<< 14) ^^^ (x >>> 3)

/-- `sigma1`, line 21. -/
def sigma1 (x : UInt32) : UInt32 := (x >>> 17 ||| x <<< 15) ^^^ (x >>> 19 ||| x <<< 13) ^^^ (x >>> 10)

/-- `Round`, lines 23-28: the new `d` and `h`. -/
def roundC (a b c d e f g h k w : UInt32) : UInt32 × UInt32 :=
  let t1 := h + bigSigma1 e + chC e f g + k + w
  let t2 := bigSigma0 a + majC a b c
  (d + t1, t1 + t2)

/-- `BE32`, line 33. -/
def be32Swap (p : UInt32) : UInt32 :=
  ((p &&& 0xFF) <<< 24) ||| ((p &&& 0xFF00) <<< 8) ||| ((p &&& 0xFF0000) >>> 8) ||| ((p &&& 0xFF000000) >>> 24)

/-- The words `w0` to `w15`. -/
structure Words16 where
  (w0 w1 w2 w3 w4 w5 w6 w7 w8 w9 w10 w11 w12 w13 w14 w15 : UInt32)

/-- Lines 53-68. -/
def rounds0 (s : State8) (chunk : List UInt32) : State8 × Words16 :=
  let ⟨a, b, c, d, e, f, g, h⟩ := s
  let w0 := be32Swap (chunk.getD 0 0)
  let r := roundC a b c d e f g h 0x428a2f98 w0
  let d := r.1
  let h := r.2
  let w1 := be32Swap (chunk.getD 1 0)
  let r := roundC h a b c d e f g 0x71374491 w1
  let c := r.1
  let g := r.2
  let w2 := be32Swap (chunk.getD 2 0)
  let r := roundC g h a b c d e f 0xb5c0fbcf w2
  let b := r.1
  let f := r.2
  let w3 := be32Swap (chunk.getD 3 0)
  let r := roundC f g h a b c d e 0xe9b5dba5 w3
  let a := r.1
  let e := r.2
  let w4 := be32Swap (chunk.getD 4 0)
  let r := roundC e f g h a b c d 0x3956c25b w4
  let h := r.1
  let d := r.2
  let w5 := be32Swap (chunk.getD 5 0)
  let r := roundC d e f g h a b c 0x59f111f1 w5
  let g := r.1
  let c := r.2
  let w6 := be32Swap (chunk.getD 6 0)
  let r := roundC c d e f g h a b 0x923f82a4 w6
  let f := r.1
  let b := r.2
  let w7 := be32Swap (chunk.getD 7 0)
  let r := roundC b c d e f g h a 0xab1c5ed5 w7
  let e := r.1
  let a := r.2
  let w8 := be32Swap (chunk.getD 8 0)
  let r := roundC a b c d e f g h 0xd807aa98 w8
  let d := r.1
  let h := r.2
  let w9 := be32Swap (chunk.getD 9 0)
  let r := roundC h a b c d e f g 0x12835b01 w9
  let c := r.1
  let g := r.2
  let w10 := be32Swap (chunk.getD 10 0)
  let r := roundC g h a b c d e f 0x243185be w10
  let b := r.1
  let f := r.2
  let w11 := be32Swap (chunk.getD 11 0)
  let r := roundC f g h a b c d e 0x550c7dc3 w11
  let a := r.1
  let e := r.2
  let w12 := be32Swap (chunk.getD 12 0)
  let r := roundC e f g h a b c d 0x72be5d74 w12
  let h := r.1
  let d := r.2
  let w13 := be32Swap (chunk.getD 13 0)
  let r := roundC d e f g h a b c 0x80deb1fe w13
  let g := r.1
  let c := r.2
  let w14 := be32Swap (chunk.getD 14 0)
  let r := roundC c d e f g h a b 0x9bdc06a7 w14
  let f := r.1
  let b := r.2
  let w15 := be32Swap (chunk.getD 15 0)
  let r := roundC b c d e f g h a 0xc19bf174 w15
  let e := r.1
  let a := r.2
  (⟨a, b, c, d, e, f, g, h⟩, ⟨w0, w1, w2, w3, w4, w5, w6, w7, w8, w9, w10, w11, w12, w13, w14, w15⟩)

/-- Lines 70-85; 87-102 and 104-119 are the same with other constants. (Lines 118 and 119 do not store the last two words, which
are not used any more.) -/
def rounds16 (k : List UInt32) (s : State8) (w : Words16) : State8 × Words16 :=
  let ⟨a, b, c, d, e, f, g, h⟩ := s
  let ⟨w0, w1, w2, w3, w4, w5, w6, w7, w8, w9, w10, w11, w12, w13, w14, w15⟩ := w
  let w0 := w0 + (sigma1 w14 + w9 + sigma0 w1)
  let r := roundC a b c d e f g h (k.getD 0 0) w0
  let d := r.1
  let h := r.2
  let w1 := w1 + (sigma1 w15 + w10 + sigma0 w2)
  let r := roundC h a b c d e f g (k.getD 1 0) w1
  let c := r.1
  let g := r.2
  let w2 := w2 + (sigma1 w0 + w11 + sigma0 w3)
  let r := roundC g h a b c d e f (k.getD 2 0) w2
  let b := r.1
  let f := r.2
  let w3 := w3 + (sigma1 w1 + w12 + sigma0 w4)
  let r := roundC f g h a b c d e (k.getD 3 0) w3
  let a := r.1
  let e := r.2
  let w4 := w4 + (sigma1 w2 + w13 + sigma0 w5)
  let r := roundC e f g h a b c d (k.getD 4 0) w4
  let h := r.1
  let d := r.2
  let w5 := w5 + (sigma1 w3 + w14 + sigma0 w6)
  let r := roundC d e f g h a b c (k.getD 5 0) w5
  let g := r.1
  let c := r.2
  let w6 := w6 + (sigma1 w4 + w15 + sigma0 w7)
  let r := roundC c d e f g h a b (k.getD 6 0) w6
  let f := r.1
  let b := r.2
  let w7 := w7 + (sigma1 w5 + w0 + sigma0 w8)
  let r := roundC b c d e f g h a (k.getD 7 0) w7
  let e := r.1
  let a := r.2
  let w8 := w8 + (sigma1 w6 + w1 + sigma0 w9)
  let r := roundC a b c d e f g h (k.getD 8 0) w8
  let d := r.1
  let h := r.2
  let w9 := w9 + (sigma1 w7 + w2 + sigma0 w10)
  let r := roundC h a b c d e f g (k.getD 9 0) w9
  let c := r.1
  let g := r.2
  let w10 := w10 + (sigma1 w8 + w3 + sigma0 w11)
  let r := roundC g h a b c d e f (k.getD 10 0) w10
  let b := r.1
  let f := r.2
  let w11 := w11 + (sigma1 w9 + w4 + sigma0 w12)
  let r := roundC f g h a b c d e (k.getD 11 0) w11
  let a := r.1
  let e := r.2
  let w12 := w12 + (sigma1 w10 + w5 + sigma0 w13)
  let r := roundC e f g h a b c d (k.getD 12 0) w12
  let h := r.1
  let d := r.2
  let w13 := w13 + (sigma1 w11 + w6 + sigma0 w14)
  let r := roundC d e f g h a b c (k.getD 13 0) w13
  let g := r.1
  let c := r.2
  let w14 := w14 + (sigma1 w12 + w7 + sigma0 w15)
  let r := roundC c d e f g h a b (k.getD 14 0) w14
  let f := r.1
  let b := r.2
  let w15 := w15 + (sigma1 w13 + w8 + sigma0 w0)
  let r := roundC b c d e f g h a (k.getD 15 0) w15
  let e := r.1
  let a := r.2
  (⟨a, b, c, d, e, f, g, h⟩, ⟨w0, w1, w2, w3, w4, w5, w6, w7, w8, w9, w10, w11, w12, w13, w14, w15⟩)

/-- The constants of lines 70-85. -/
def roundK1 : List UInt32 :=
  [0xe49b69c1, 0xefbe4786, 0x0fc19dc6, 0x240ca1cc, 0x2de92c6f, 0x4a7484aa, 0x5cb0a9dc, 0x76f988da,
    0x983e5152, 0xa831c66d, 0xb00327c8, 0xbf597fc7, 0xc6e00bf3, 0xd5a79147, 0x06ca6351, 0x14292967]

/-- The constants of lines 87-102. -/
def roundK2 : List UInt32 :=
  [0x27b70a85, 0x2e1b2138, 0x4d2c6dfc, 0x53380d13, 0x650a7354, 0x766a0abb, 0x81c2c92e, 0x92722c85,
    0xa2bfe8a1, 0xa81a664b, 0xc24b8b70, 0xc76c51a3, 0xd192e819, 0xd6990624, 0xf40e3585, 0x106aa070]

/-- The constants of lines 104-119. -/
def roundK3 : List UInt32 :=
  [0x19a4c116, 0x1e376c08, 0x2748774c, 0x34b0bcb5, 0x391c0cb3, 0x4ed8aa4a, 0x5b9cca4f, 0x682e6ff3,
    0x748f82ee, 0x78a5636f, 0x84c87814, 0x8cc70208, 0x90befffa, 0xa4506ceb, 0xbef9a3f7, 0xc67178f2]

/-- `secp256k1_sha256_transform`, lines 49-129. -/
def shaTransform (s : State8) (chunk : List UInt32) : State8 :=
  let r := rounds0 s chunk
  let r := rounds16 roundK1 r.1 r.2
  let r := rounds16 roundK2 r.1 r.2
  let r := (rounds16 roundK3 r.1 r.2).1
  ⟨s.a + r.a, s.b + r.b, s.c + r.c, s.d + r.d, s.e + r.e, s.f + r.f, s.g + r.g, s.h + r.h⟩

/-- A word in memory. -/
def load32 (b0 b1 b2 b3 : UInt8) : UInt32 :=
  b0.toUInt32 ||| b1.toUInt32 <<< 8 ||| b2.toUInt32 <<< 16 ||| b3.toUInt32 <<< 24

/-- Bytes in memory as words. -/
def loadWords : Bytes → List UInt32
  | b0 :: b1 :: b2 :: b3 :: l => load32 b0 b1 b2 b3 :: loadWords l
  | _ => []

/-- The bytes of a word in memory. -/
def store32 (w : UInt32) : Bytes := [w.toUInt8, (w >>> 8).toUInt8, (w >>> 16).toUInt8, (w >>> 24).toUInt8]

/-- `secp256k1_sha256_t`, hash.h:13-17; the buffer as its 64 bytes. -/
structure Sha where
  s : State8
  buf : Bytes
  bytes : Nat

/-- `secp256k1_sha256_initialize`, lines 36-46. -/
def shaInit (buf : Bytes) : Sha :=
  ⟨⟨0x6a09e667, 0xbb67ae85, 0x3c6ef372, 0xa54ff53a, 0x510e527f, 0x9b05688c, 0x1f83d9ab, 0x5be0cd19⟩, buf, 0⟩

/-- `memcpy(buf + at, data, data.length)`. -/
def memcpyAt (buf : Bytes) (i : Nat) (data : Bytes) : Bytes := buf.take i ++ data ++ buf.drop (i + data.length)

/-- The loop of lines 134-141: the state, the buffer, `bufsize` and the data that is left. Each round reads at least one byte, so
that as many rounds as there are bytes are enough. -/
def shaWriteLoop : (fuel : Nat) → (s : State8) → (buf : Bytes) → (bufsize : Nat) → (data : Bytes) → State8 × Bytes × Nat × Bytes
  | 0, s, buf, bufsize, data => (s, buf, bufsize, data)
  | fuel + 1, s, buf, bufsize, data =>
    if bufsize + data.length ≥ 64 then
      let buf := memcpyAt buf bufsize (data.take (64 - bufsize))
      shaWriteLoop fuel (shaTransform s (loadWords buf)) buf 0 (data.drop (64 - bufsize))
    else (s, buf, bufsize, data)

/-- `secp256k1_sha256_write`, lines 131-146. -/
def shaWrite (hash : Sha) (data : Bytes) : Sha :=
  let bufsize := hash.bytes &&& 0x3F
  let bytes := (hash.bytes + data.length) % 2 ^ 64
  let r := shaWriteLoop data.length hash.s hash.buf bufsize data
  ⟨r.1, if r.2.2.2.length = 0 then r.2.1 else memcpyAt r.2.1 r.2.2.1 r.2.2.2, bytes⟩

/-- `pad`, line 149. -/
def shaPad : Bytes := 0x80 :: List.replicate 63 0

/-- `secp256k1_sha256_finalize`, lines 148-162. -/
def shaFinal (hash : Sha) : Bytes :=
  let size0 := be32Swap (UInt32.ofNat (hash.bytes >>> 29))
  let size1 := be32Swap (UInt32.ofNat (hash.bytes <<< 3))
  let h := shaWrite hash (shaPad.take (1 + (119 - hash.bytes % 64) % 64))
  let h := shaWrite h (store32 size0 ++ store32 size1)
  [h.s.a, h.s.b, h.s.c, h.s.d, h.s.e, h.s.f, h.s.g, h.s.h].flatMap fun w => store32 (be32Swap w)

/-- `secp256k1_hmac_sha256_t`, hash.h:23-25. -/
structure Hmac where
  inner : Sha
  outer : Sha

/-- What is in the buffers that are not initialized: of `inner`, `outer` and `sha256` (line 171). -/
structure HashMem where
  inner : Bytes
  outer : Bytes
  key : Bytes

/-- `secp256k1_hmac_sha256_initialize`, lines 164-190. -/
def hmacInit (mem : HashMem) (key : Bytes) : Hmac :=
  let rkey :=
    if key.length ≤ 64 then key ++ List.replicate (64 - key.length) 0
    else shaFinal (shaWrite (shaInit mem.key) key) ++ List.replicate 32 0
  let rkey := rkey.map (· ^^^ 0x5c)
  let outer := shaWrite (shaInit mem.outer) rkey
  let rkey := rkey.map (· ^^^ (0x5c ^^^ 0x36))
  ⟨shaWrite (shaInit mem.inner) rkey, outer⟩

/-- `secp256k1_hmac_sha256_write`, lines 192-194. -/
def hmacWrite (hash : Hmac) (data : Bytes) : Hmac := { hash with inner := shaWrite hash.inner data }

/-- `secp256k1_hmac_sha256_finalize`, lines 196-202. -/
def hmacFinal (hash : Hmac) : Bytes := shaFinal (shaWrite hash.outer (shaFinal hash.inner))

/-- `secp256k1_rfc6979_hmac_sha256_t`, hash.h:31-35. -/
structure Rng where
  v : Bytes
  k : Bytes
  retry : Bool

/-- Initialize, write each of the parts, finalize. -/
def hmacOf (mem : HashMem) (key : Bytes) (parts : List Bytes) : Bytes := hmacFinal (parts.foldl hmacWrite (hmacInit mem key))

/-- `secp256k1_rfc6979_hmac_sha256_initialize`, lines 205-233. -/
def rngInit (mem : HashMem) (key : Bytes) : Rng :=
  let v := List.replicate 32 1
  let k := List.replicate 32 0
  let k := hmacOf mem k [v, [0], key]
  let v := hmacOf mem k [v]
  let k := hmacOf mem k [v, [1], key]
  let v := hmacOf mem k [v]
  ⟨v, k, false⟩

/-- The loop of lines 249-261; each round writes at least one byte. -/
def rngLoop (mem : HashMem) (k : Bytes) : (fuel outlen : Nat) → (v : Bytes) → Bytes × Bytes
  | 0, _, v => (v, [])
  | fuel + 1, outlen, v =>
    if outlen > 0 then
      let v := hmacOf mem k [v]
      let now := if outlen > 32 then 32 else outlen
      let r := rngLoop mem k fuel (outlen - now) v
      (r.1, v.take now ++ r.2)
    else (v, [])

/-- `secp256k1_rfc6979_hmac_sha256_generate`, lines 235-264: the new state, and `out`. -/
def rngGenerate (mem : HashMem) (rng : Rng) (outlen : Nat) : Rng × Bytes :=
  let k := if rng.retry then hmacOf mem rng.k [rng.v, [0]] else rng.k
  let v := if rng.retry then hmacOf mem k [rng.v] else rng.v
  let r := rngLoop mem k outlen outlen v
  (⟨r.1, k, true⟩, r.2)

end Verif.C
