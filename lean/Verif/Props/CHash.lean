import Verif.Proofs.CHash
/-!
# The hash functions of the C library: C114

The memory that is not initialized may hold anything.
-/

namespace Verif.Props
open Verif Verif.C Verif.Spec Verif.Proofs

/-! ## C114 -/

/-- **C114** SHA-256: the data may be written in any parts; the result is the hash of all of them. -/
theorem C114_sha256 {buf : Bytes} (hb : buf.length = 64) (parts : List Bytes) :
    shaFinal (parts.foldl shaWrite (shaInit buf)) = Hash.sha256 parts.flatten := by
  have key : ∀ (parts : List Bytes) {h : Sha} {m : Bytes}, Reads h m → Reads (parts.foldl shaWrite h) (m ++ parts.flatten) := by
    intro parts
    induction parts with
    | nil => intro h m hr; rw [List.flatten_nil, List.append_nil]; exact hr
    | cons p parts ih =>
      intro h m hr
      rw [List.flatten_cons, ← List.append_assoc]
      exact ih (write_reads hr p)
  exact final_eq (key parts (init_reads buf hb))

/-- **C114** HMAC: for keys of any length, and data in any parts. -/
theorem C114_hmac {mem : HashMem} (hm : mem.Ok) (key : Bytes) (parts : List Bytes) :
    hmacFinal (parts.foldl hmacWrite (hmacInit mem key)) = Hash.hmacSha256 key parts.flatten := hmacOf_eq hm key parts

/-- **C114** The generator gives the candidates of RFC 6979, in turn. -/
theorem C114_rfc6979 {mem : HashMem} (hm : mem.Ok) (seed : Bytes) (n : Nat) :
    (rngGenerate mem (Nat.iterate (fun rng => (rngGenerate mem rng 32).1) n (rngInit mem seed)) 32).2 =
      rfcCandidate Hash.hmacSha256 seed n := by
  have key : ∀ n, rngGenerate mem (Nat.iterate (fun rng => (rngGenerate mem rng 32).1) n (rngInit mem seed)) 32 = rngRounds mem seed n := by
    intro n
    induction n with
    | zero => rfl
    | succ n ih => rw [Function.iterate_succ_apply', ih]; rfl
  rw [key, rngRounds_eq hm]

/-- **C114** Any number of bytes can be generated at once. -/
theorem C114_bytes {mem : HashMem} (hm : mem.Ok) (seed : Bytes) (len : Nat) :
    (rngGenerate mem (rngInit mem seed) len).2 =
      rfcBytes Hash.hmacSha256 (rfcSeeded Hash.hmacSha256 seed).1 (rfcSeeded Hash.hmacSha256 seed).2 len := by
  rw [rngInit_eq hm, rngGenerate_eq hm]
  rfl

/-- There are buffers. -/
example : (⟨List.replicate 64 0, List.replicate 64 1, List.replicate 64 2⟩ : HashMem).Ok := ⟨rfl, rfl, rfl⟩

/-- The word of 24 bits "abc" in two parts. -/
example : shaFinal (shaWrite (shaWrite (shaInit (List.replicate 64 7)) [0x61]) [0x62, 0x63]) =
    [0xba, 0x78, 0x16, 0xbf, 0x8f, 0x01, 0xcf, 0xea, 0x41, 0x41, 0x40, 0xde, 0x5d, 0xae, 0x22, 0x23,
     0xb0, 0x03, 0x61, 0xa3, 0x96, 0x17, 0x7a, 0x9c, 0xb4, 0x10, 0xff, 0x61, 0xf2, 0x00, 0x15, 0xad] := by decide +kernel

end Verif.Props
