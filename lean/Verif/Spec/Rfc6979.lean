import Verif.Model.Bytes
import Mathlib.Logic.Function.Iterate
/-!
# RFC 6979

The generator of section 3.2, with a hash function of 32 bytes: `mac` is HMAC, a function of the key and the message.
-/

namespace Verif.Spec

/-- K and V after the steps b to g. -/
def rfcSeeded (mac : Bytes → Bytes → Bytes) (seed : Bytes) : Bytes × Bytes :=
  let v := List.replicate 32 1
  let k := mac (List.replicate 32 0) (v ++ [0] ++ seed)
  let v := mac k v
  let k := mac k (v ++ [1] ++ seed)
  (k, mac k v)

/-- The last part of step h. -/
def rfcAgain (mac : Bytes → Bytes → Bytes) (kv : Bytes × Bytes) : Bytes × Bytes :=
  let k := mac kv.1 (kv.2 ++ [0])
  (k, mac k kv.2)

/-- K and V in the round of the loop of step h with the number n, after V has been computed: V is the candidate. -/
def rfcRound (mac : Bytes → Bytes → Bytes) (seed : Bytes) : Nat → Bytes × Bytes
  | 0 => let kv := rfcSeeded mac seed; (kv.1, mac kv.1 kv.2)
  | n + 1 => let kv := rfcAgain mac (rfcRound mac seed n); (kv.1, mac kv.1 kv.2)

/-- The candidate with the number n. -/
def rfcCandidate (mac : Bytes → Bytes → Bytes) (seed : Bytes) (n : Nat) : Bytes := (rfcRound mac seed n).2

/-- The bytes that the loop of step h2 gives: as many results as needed, cut. -/
def rfcBytes (mac : Bytes → Bytes → Bytes) (k v : Bytes) (len : Nat) : Bytes :=
  (((List.range ((len + 31) / 32)).map fun i => Nat.iterate (mac k) (i + 1) v).flatten).take len

end Verif.Spec
