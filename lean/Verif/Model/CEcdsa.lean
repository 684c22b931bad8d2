import Verif.Model.CEcmult
import Verif.Model.CProduct
import Verif.Model.Curve
/-!
# Keys and signatures in the C library

`eckey_impl.h`, `ecdsa_impl.h`, `secp256k1.c`, `modules/recovery/main_impl.h` (in
`x/authn/crypto/secp256k1/internal/secp256k1/libsecp256k1/src`) and `internal/secp256k1/ext.h`, as far as `secp256.go` calls
them. A place for a public key holds the 64 bytes of `secp256k1_ge_storage` (secp256k1.c:116, 135), which are a `GeStorage`
here; a place for a signature holds the two scalars (secp256k1.c:188, 201; main_impl.h:14, 28), which are a pair. Pointers are
never NULL. Functions that return 0 give `none` or `false`; `ARG_CHECK` calls the callback of secp256.go:38, which panics.
-/

namespace Verif.C

/-- `secp256k1_fe_cmp_var`, field_10x26_impl.h:304-321. -/
def feCmpVar (a b : Fe) : Int :=
  let rec go : List (Nat × Nat) → Int
    | [] => 0
    | (x, y) :: rest => if x > y then 1 else if x < y then -1 else go rest
  go [(a.n9, b.n9), (a.n8, b.n8), (a.n7, b.n7), (a.n6, b.n6), (a.n5, b.n5), (a.n4, b.n4), (a.n3, b.n3), (a.n2, b.n2),
    (a.n1, b.n1), (a.n0, b.n0)]

/-- `pub[0]`. -/
def firstByte (pub : Bytes) : Nat := (pub.headD 0).toNat

/-- `secp256k1_eckey_pubkey_parse`, eckey_impl.h:17-34. -/
def pubkeyParse (pub : Bytes) : Option Ge :=
  let t := firstByte pub
  if pub.length = 33 ∧ (t = 2 ∨ t = 3) then
    let x := feSetB32 ((pub.drop 1).take 32)
    let r := geSetXoVar x.1 (t = 3)
    if x.2 && r.2 then some r.1 else none
  else if pub.length = 65 ∧ (t = 4 ∨ t = 6 ∨ t = 7) then
    let x := feSetB32 ((pub.drop 1).take 32)
    let y := feSetB32 ((pub.drop 33).take 32)
    if !x.2 || !y.2 then none
    else
      let elem := geSetXy x.1 y.1
      if (t = 6 ∨ t = 7) ∧ feIsOdd y.1 ≠ decide (t = 7) then none
      else if geIsValidVar elem then some elem else none
  else none

/-- `secp256k1_eckey_pubkey_serialize`, eckey_impl.h:36-52. -/
def pubkeySerialize (elem : Ge) (compressed : Bool) : Option Bytes :=
  if elem.infinity then none
  else
    let x := feNormalizeVar elem.x
    let y := feNormalizeVar elem.y
    if compressed then some (UInt8.ofNat (2 ||| (if feIsOdd y then 1 else 0)) :: feGetB32 x)
    else some (4 :: feGetB32 x ++ feGetB32 y)

/-- `secp256k1_pubkey_load`, secp256k1.c:115-132. -/
def pubkeyLoad (pubkey : GeStorage) : Out Ge :=
  let ge := geFromStorage pubkey
  if feIsZero ge.x then .panic else .ret ge

/-- `secp256k1_ec_pubkey_parse`, secp256k1.c:148-161, with `secp256k1_pubkey_save`, 134-146. -/
def ecPubkeyParse (input : Bytes) : Option GeStorage := (pubkeyParse input).map geToStorage

/-- `secp256k1_ec_pubkey_serialize`, secp256k1.c:163-184, for a buffer of the length that belongs to the flag. -/
def ecPubkeySerialize (pubkey : GeStorage) (compressed : Bool) : Out (Option Bytes) :=
  match pubkeyLoad pubkey with
  | .panic => .panic
  | .ret q => .ret (pubkeySerialize q compressed)

/-- `secp256k1_ext_reencode_pubkey`, ext.h:76-90, for an output of 33 or 65 bytes. -/
def extReencode (outlen : Nat) (pubkeydata : Bytes) : Out (Option Bytes) :=
  match ecPubkeyParse pubkeydata with
  | none => .ret none
  | some pubkey => ecPubkeySerialize pubkey (outlen = 33)

/-- `secp256k1_ecdsa_signature_parse_compact`, secp256k1.c:226-245, and main_impl.h:48-57. -/
def signatureParse (input64 : Bytes) : Option (Sc × Sc) :=
  let r := scSetB32 (input64.take 32)
  let s := scSetB32 ((input64.drop 32).take 32)
  if !r.2 && !s.2 then some (r.1, s.1) else none

/-- `secp256k1_ecdsa_const_order_as_fe`, ecdsa_impl.h:32-35. -/
def orderAsFe : Fe := feConst 0xFFFFFFFF 0xFFFFFFFF 0xFFFFFFFF 0xFFFFFFFE 0xBAAEDCE6 0xAF48A03B 0xBFD25E8C 0xD0364141

/-- `secp256k1_ecdsa_const_p_minus_order`, ecdsa_impl.h:46-48. -/
def pMinusOrder : Fe := feConst 0 0 0 1 0x45512319 0x50B75FC4 0x402DA172 0x2FC9BAEE

/-- `secp256k1_ecdsa_sig_verify`, ecdsa_impl.h:203-271. -/
def sigVerify (st : Stack) (preG : List GeStorage) (sigr sigs : Sc) (pubkey : Ge) (message : Sc) : Bool :=
  if scIsZero sigr || scIsZero sigs then false
  else
    let sn := scInverse sigs
    let u1 := scMul sn message
    let u2 := scMul sn sigr
    let pr := ecmult st preG (gejSetGe pubkey) u2 u1
    if pr.infinity then false
    else
      let xr := (feSetB32 (scGetB32 sigr)).1
      if gejEqXVar xr pr then true
      else if feCmpVar xr pMinusOrder ≥ 0 then false
      else gejEqXVar (feAdd xr orderAsFe) pr

/-- `secp256k1_ecdsa_verify`, secp256k1.c:291-306. -/
def ecdsaVerify (st : Stack) (preG : List GeStorage) (sig : Sc × Sc) (msg32 : Bytes) (pubkey : GeStorage) : Out Bool :=
  let m := (scSetB32 msg32).1
  if scIsHigh sig.2 then .ret false
  else match pubkeyLoad pubkey with
    | .panic => .panic
    | .ret q => .ret (sigVerify st preG sig.1 sig.2 q m)

/-- `secp256k1_ext_ecdsa_verify`, ext.h:46-63. -/
def extVerify (st : Stack) (preG : List GeStorage) (sigdata msgdata pubkeydata : Bytes) : Out Bool :=
  match signatureParse sigdata with
  | none => .ret false
  | some sig =>
    match ecPubkeyParse pubkeydata with
    | none => .ret false
    | some pubkey => ecdsaVerify st preG sig msgdata pubkey

/-- `secp256k1_ge_set_gej_var`, group_impl.h:113-127; of an infinite point only the flag is stored: `r` is what was in the
place of the result. -/
def geSetGejVar (r : Ge) (a : Gej) : Ge := if a.infinity then { r with infinity := true } else geSetGej a

/-- `secp256k1_ecdsa_sig_recover`, main_impl.h:87-121; `q` is what was in the place of the public key. -/
def sigRecover (st : Stack) (q : Ge) (preG : List GeStorage) (sigr sigs message : Sc) (recid : Nat) : Option Ge :=
  if scIsZero sigr || scIsZero sigs then none
  else
    let fx := (feSetB32 (scGetB32 sigr)).1
    if recid &&& 2 ≠ 0 ∧ feCmpVar fx pMinusOrder ≥ 0 then none
    else
      let fx := if recid &&& 2 ≠ 0 then feAdd fx orderAsFe else fx
      let x := geSetXoVar fx (recid &&& 1 ≠ 0)
      if x.2 = false then none
      else
        let rn := scInverse sigr
        let u1 := scNegate (scMul rn message)
        let u2 := scMul rn sigs
        let qj := ecmult st preG (gejSetGe x.1) u2 u1
        let pubkey := geSetGejVar q qj
        if qj.infinity then none else some pubkey

/-- `secp256k1_ext_ecdsa_recover`, ext.h:18-35, with main_impl.h:38-58 (the check of the id, line 46) and 170-191. -/
def extRecover (st : Stack) (q : Ge) (preG : List GeStorage) (sigdata msgdata : Bytes) : Out (Option Bytes) :=
  let recid := ((sigdata.drop 64).headD 0).toNat
  if recid > 3 then .panic
  else match signatureParse sigdata with
    | none => .ret none
    | some sig =>
      match sigRecover st q preG sig.1 sig.2 (scSetB32 msgdata).1 recid with
      | none => .ret none
      | some ge => ecPubkeySerialize (geToStorage ge) false

/-- `secp256k1_ec_seckey_verify`, secp256k1.c:389-400. -/
def seckeyVerify (seckey : Bytes) : Bool :=
  let sec := scSetB32 seckey
  !sec.2 && !scIsZero sec.1

/-- What was returned; a panic counts as a failure. With the buffers that `secp256.go` gives there is none (C110 to C112). -/
def orNone {α : Type} : Out (Option α) → Option α
  | .ret a => a
  | .panic => none

@[inherit_doc orNone] def orFalse : Out Bool → Bool
  | .ret a => a
  | .panic => false

/-- The functions of the C library that `secp256.go` calls: `preG` is that of the context, `st` and `q` are what was in the
variables that are not initialized; the signing is given. -/
def cLib (st : Stack) (q : Ge) (preG : List GeStorage) (sign : Bytes → Bytes → Option (Bytes × Nat)) : CLib where
  seckeyVerify := seckeyVerify
  sign := sign
  recover := fun sig msg => orNone (extRecover st q preG sig msg)
  verify := fun sig msg key => orFalse (extVerify st preG sig msg key)
  reencode := fun n key => orNone (extReencode n key)

end Verif.C
