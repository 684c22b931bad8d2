import Verif.Model.CEcdsa
import Verif.Model.CGen
/-!
# Signatures made by the C library

`ecdsa_impl.h:273-313`, `secp256k1.c:308-338` and `modules/recovery/main_impl.h:27-36, 60-72, 123-168` (in
`x/authn/crypto/secp256k1/internal/secp256k1/libsecp256k1/src`). `NDEBUG` is defined and `VERIFY` is not, so `VERIFY_CHECK` does
nothing. The clearing of variables is not modelled.
-/

namespace Verif.C

/-- `secp256k1_ecdsa_sig_sign`, ecdsa_impl.h:273-313: r, s and the identifier. -/
def sigSign (ctx : GenCtx) (seckey message nonce : Sc) : Option ((Sc × Sc) × Nat) :=
  let r := geSetGej (ecmultGen ctx nonce)
  let x := feNormalize r.x
  let y := feNormalize r.y
  let sigr := scSetB32 (feGetB32 x)
  let recid := (if sigr.2 then 2 else 0) ||| (if feIsOdd y then 1 else 0)
  let n := scAdd (scMul sigr.1 seckey) message
  let sigs := scMul (scInverse nonce) n.1
  if scIsZero sigs then none
  else if scIsHigh sigs then some ((sigr.1, scNegate sigs), recid ^^^ 1)
  else some ((sigr.1, sigs), recid)

/-- The loop of secp256k1.c:333-335, `n` rounds. -/
def nonceRounds (mem : HashMem) : (n : Nat) → Rng → Bytes → Bytes
  | 0, _, nonce32 => nonce32
  | n + 1, rng, _ =>
    let g := rngGenerate mem rng 32
    nonceRounds mem n g.1 g.2

/-- `nonce_function_rfc6979`, secp256k1.c:308-338, with `algo16` and `data` NULL (main_impl.h:145, secp256.go:75), for counters
below 2^32 - 1. -/
def nonceFunction (mem : HashMem) (msg32 key32 : Bytes) (counter : Nat) : Bytes :=
  nonceRounds mem (counter + 1) (rngInit mem (key32 ++ msg32)) []

/-- The loop of main_impl.h:144-156, from `count` on; `none` if it does not end in `fuel` rounds. (`count` would be 0 again after
2^32 rounds.) -/
def signLoop (mem : HashMem) (ctx : GenCtx) (msg32 seckey : Bytes) (sec msg : Sc) : (fuel count : Nat) → Option ((Sc × Sc) × Nat)
  | 0, _ => none
  | fuel + 1, count =>
    let non := scSetB32 (nonceFunction mem msg32 seckey count)
    if !scIsZero non.1 && !non.2 then
      match sigSign ctx sec msg non.1 with
      | some sig => some sig
      | none => signLoop mem ctx msg32 seckey sec msg fuel (count + 1)
    else signLoop mem ctx msg32 seckey sec msg fuel (count + 1)

/-- `secp256k1_ecdsa_sign_recoverable`, main_impl.h:123-168. -/
def signRecoverable (mem : HashMem) (ctx : GenCtx) (fuel : Nat) (msg32 seckey : Bytes) : Option ((Sc × Sc) × Nat) :=
  let sec := scSetB32 seckey
  if !sec.2 && !scIsZero sec.1 then signLoop mem ctx msg32 seckey sec.1 (scSetB32 msg32).1 fuel 0
  else none

/-- The same, with `secp256k1_ecdsa_recoverable_signature_serialize_compact`, main_impl.h:60-72. -/
def cSign (mem : HashMem) (ctx : GenCtx) (fuel : Nat) (msg32 seckey : Bytes) : Option (Bytes × Nat) :=
  match signRecoverable mem ctx fuel msg32 seckey with
  | none => none
  | some ((r, s), recid) => some (scGetB32 r ++ scGetB32 s, recid)

end Verif.C
