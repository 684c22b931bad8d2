import Verif.Model.Decoder
import Mathlib.Data.List.Forall2
/-!
# What a transaction is

The wire format as a grammar, and the messages of a transaction by what their fields are: the last
value of a field, all values of a repeated field, the parts of a message field put together.
Nothing here follows the order in which a decoder does things.
-/

namespace Verif.Spec

/-! ## The wire format -/

/-- Base 128, least significant digit first; the top bit of a digit is not part of it. -/
def base128 : Bytes → Nat
  | [] => 0
  | b :: bs => b.toNat % 128 + 128 * base128 bs

/-- A number of 64 bits in base 128: all bytes but the last have the top bit. -/
structure IsVarint (b : Bytes) (n : Nat) : Prop where
  value : base128 b = n
  continued : ∀ x ∈ b.dropLast, 128 ≤ x.toNat
  ended : ∃ x, b.getLast? = some x ∧ x.toNat < 128
  short : b.length ≤ 10
  fits : n < 2 ^ 64

/-- A value that is not a group. -/
inductive IsScalar : FieldVal → Bytes → Prop
  | varint {n : Nat} {b : Bytes} : IsVarint b n → IsScalar (.varint n) b
  | fixed64 {b : Bytes} : b.length = 8 → IsScalar .fixed64 b
  | len {l b : Bytes} : IsVarint l b.length → IsScalar (.len b) (l ++ b)
  | fixed32 {b : Bytes} : b.length = 4 → IsScalar .fixed32 b

/-- A field number and a wire type. -/
def IsTag (b : Bytes) (num typ : Nat) : Prop := 1 ≤ num ∧ num ≤ 2 ^ 31 - 1 ∧ IsVarint b (num * 8 + typ)

/-- The rest of the groups with the given numbers, the innermost first. -/
inductive Closes : List Nat → Bytes → Prop
  | done : Closes [] []
  | close {g : Nat} {gs : List Nat} {t b : Bytes} : IsTag t g 4 → Closes gs b → Closes (g :: gs) (t ++ b)
  | begin {n g : Nat} {gs : List Nat} {t b : Bytes} : IsTag t n 3 → Closes (n :: g :: gs) b →
    Closes (g :: gs) (t ++ b)
  | scalar {n g : Nat} {gs : List Nat} {t x b : Bytes} {v : FieldVal} : IsTag t n v.wire → IsScalar v x →
    Closes (g :: gs) b → Closes (g :: gs) (t ++ (x ++ b))

/-- The value of the field with the given number. -/
inductive IsValue (num : Nat) : FieldVal → Bytes → Prop
  | scalar {v : FieldVal} {b : Bytes} : IsScalar v b → IsValue num v b
  | group {b : Bytes} : Closes [num] b → IsValue num .group b

/-- A message and its fields. -/
inductive IsMessage : Bytes → List Field → Prop
  | nil : IsMessage [] []
  | cons {num : Nat} {v : FieldVal} {t x b : Bytes} {fs : List Field} : num ≤ 2 ^ 29 - 1 →
    IsTag t num v.wire → IsValue num v x → IsMessage b fs →
    IsMessage (t ++ (x ++ b)) (⟨num, v, x⟩ :: fs)

/-- A message in several parts. -/
def AreParts (parts : List Bytes) (fs : List Field) : Prop :=
  ∃ fss, List.Forall₂ IsMessage parts fss ∧ fs = fss.flatten

/-! ## Fields -/

/-- The byte strings in the field with the given number. -/
def payloads (fs : List Field) (num : Nat) : List Bytes :=
  fs.filterMap fun f => match f.val with
    | .len b => if f.num = num then some b else none
    | _ => none

/-- The numbers in the field with the given number. -/
def numbers (fs : List Field) (num : Nat) : List Nat :=
  fs.filterMap fun f => match f.val with
    | .varint n => if f.num = num then some n else none
    | _ => none

/-- The last element, or a default. -/
def lastOr {α : Type} (d : α) : List α → α
  | [] => d
  | x :: l => lastOr x l

/-- Text. -/
def AllText (l : List Bytes) : Prop := ∀ x ∈ l, validUtf8 x = true

/-- Every field has one of the given numbers and wire types. -/
def OnlyFields (known : List (Nat × Nat)) (fs : List Field) : Prop :=
  ∀ f ∈ fs, (f.num, f.val.wire) ∈ known

/-! ## Messages -/

/-- An `Any` with the given fields. -/
def HasAny (fs : List Field) (a : AnyMsg) : Prop :=
  AllText (payloads fs 1) ∧ a = ⟨lastOr [] (payloads fs 1), lastOr [] (payloads fs 2)⟩

def IsAny (b : Bytes) (a : AnyMsg) : Prop := ∃ fs, IsMessage b fs ∧ HasAny fs a

def IsCoin (b : Bytes) (c : Coin) : Prop :=
  ∃ fs, IsMessage b fs ∧ AllText (payloads fs 1) ∧ AllText (payloads fs 2) ∧
    c = ⟨lastOr [] (payloads fs 1), lastOr [] (payloads fs 2)⟩

/-- A public key; everything that is not the key is kept. -/
def IsPubKey (b : Bytes) (k : PubKey) : Prop :=
  ∃ fs, IsMessage b fs ∧ k = ⟨lastOr [] (payloads fs 1),
    (fs.filter fun f => (f.num, f.val.wire) ≠ (1, 2)).flatMap fun f => appendTag f.num f.val.wire ++ f.raw⟩

/-- The sign mode of a signer as far as it has to parse. -/
inductive ModeParses : List Field → Prop
  | mk {fs : List Field} (singles multis : Bytes → List Field) (nested : Bytes → List Field)
      (bits : Bytes → List Field) :
    (∀ b ∈ payloads fs 1, IsMessage b (singles b)) →
    (∀ b ∈ payloads fs 2, IsMessage b (multis b)) →
    (∀ b ∈ payloads fs 2, ∀ c ∈ payloads (multis b) 1, IsMessage c (bits c)) →
    (∀ b ∈ payloads fs 2, ∀ c ∈ payloads (multis b) 2, IsMessage c (nested c)) →
    (∀ b ∈ payloads fs 2, ∀ c ∈ payloads (multis b) 2, ModeParses (nested c)) →
    ModeParses fs

/-- The sign mode is "one signature, in direct mode": the last case that is set is the first one, and
since then the last mode given is 1 (as a number of 32 bits). -/
def Direct (fs : List Field) : Prop :=
  let since := (fs.reverse.takeWhile fun f => (f.num, f.val.wire) ≠ (2, 2)).reverse
  payloads since 1 ≠ [] ∧
  ∃ gs, AreParts (payloads since 1) gs ∧ lastOr 0 (numbers gs 1) % 2 ^ 32 = 1

/-- What is said about a signer: a public key, whether the sign mode is direct, a sequence. -/
structure SignerInfo where
  key : AnyMsg
  direct : Bool
  sequence : BitVec 64

/-- What is not said about the public key is empty; a sign mode that is not there is not direct. -/
def IsSignerInfo (b : Bytes) (s : SignerInfo) : Prop :=
  ∃ fs ks ms, IsMessage b fs ∧ AreParts (payloads fs 1) ks ∧ HasAny ks s.key ∧
    AreParts (payloads fs 2) ms ∧ ModeParses ms ∧ (s.direct = true ↔ Direct ms) ∧
    s.sequence = BitVec.ofNat 64 (lastOr 0 (numbers fs 3))

/-- An account with the given fields. -/
def HasAccount (fs : List Field) (a : Account) : Prop :=
  AllText (payloads fs 1) ∧ a.address = lastOr [] (payloads fs 1) ∧
  (∃ ks key, AreParts (payloads fs 2) ks ∧ HasAny ks key ∧
    a.pubKey = if payloads fs 2 = [] then none else some key) ∧
  a.number = BitVec.ofNat 64 (lastOr 0 (numbers fs 3)) ∧
  a.sequence = BitVec.ofNat 64 (lastOr 0 (numbers fs 4))

/-- A role with the given fields; it is remembered whether there are fields that are not known. -/
def HasRoleFields (fs : List Field) (r : Role) : Prop :=
  (∀ k, 1 ≤ k → k ≤ 7 → AllText (payloads fs k)) ∧
  r.id = lastOr [] (payloads fs 1) ∧ r.gets = payloads fs 2 ∧ r.lists = payloads fs 3 ∧ r.creates = payloads fs 4 ∧
  r.updates = payloads fs 5 ∧ r.deletes = payloads fs 6 ∧ r.delivers = payloads fs 7 ∧
  (r.hasUnknown = false ↔ OnlyFields [(1, 2), (2, 2), (3, 2), (4, 2), (5, 2), (6, 2), (7, 2)] fs)

/-- The parts of a transaction. -/
structure TxParts where
  body : Bytes
  authInfo : Bytes
  signatures : List Bytes
  messages : List AnyMsg
  memo : Bytes
  timeout : BitVec 64
  infos : List SignerInfo
  fee : List Coin
  /-- The declared fee payer; empty if there is none. -/
  declared : Bytes

/-- The bytes of a transaction.  In the three outer messages every field is known. -/
structure IsTx (bytes : Bytes) (p : TxParts) : Prop where
  outer : ∃ fs, IsMessage bytes fs ∧ OnlyFields [(1, 2), (2, 2), (3, 2)] fs ∧
    p.body = lastOr [] (payloads fs 1) ∧ p.authInfo = lastOr [] (payloads fs 2) ∧
    p.signatures = payloads fs 3
  body : ∃ fs, IsMessage p.body fs ∧ OnlyFields [(1, 2), (2, 2), (3, 0), (1023, 2), (2047, 2)] fs ∧
    List.Forall₂ IsAny (payloads fs 1) p.messages ∧
    AllText (payloads fs 2) ∧ p.memo = lastOr [] (payloads fs 2) ∧
    p.timeout = BitVec.ofNat 64 (lastOr 0 (numbers fs 3)) ∧
    (∀ x ∈ payloads fs 1023, ∃ a, IsAny x a) ∧ (∀ x ∈ payloads fs 2047, ∃ a, IsAny x a)
  authInfo : ∃ fs gs, IsMessage p.authInfo fs ∧ OnlyFields [(1, 2), (2, 2)] fs ∧
    List.Forall₂ IsSignerInfo (payloads fs 1) p.infos ∧ AreParts (payloads fs 2) gs ∧
    List.Forall₂ IsCoin (payloads gs 1) p.fee ∧ AllText (payloads gs 3) ∧ AllText (payloads gs 4) ∧
    p.declared = lastOr [] (payloads gs 3)

/-- The name in a type URL: what follows the last slash. -/
def UrlName (url name : Bytes) : Prop :=
  (0x2f : UInt8) ∉ name ∧ (url = name ∨ ∃ front, url = front ++ 0x2f :: name)

/-- A message whose fields with the given numbers, as far as they hold byte strings, are as given; nothing
is asked of other fields. -/
def Holds (known : List (Nat × (Bytes → Prop))) (b : Bytes) : Prop :=
  ∃ fs, IsMessage b fs ∧ ∀ k ∈ known, ∀ p ∈ payloads fs k.1, k.2 p

def Text (b : Bytes) : Prop := validUtf8 b = true

/-- The block header. -/
def Header : Bytes → Prop := Holds [(1, Holds []), (2, Text), (4, Holds []), (5, Holds [(2, Holds [])])]

/-- An account, with the type of its public key. -/
def AccountText : Bytes → Prop := Holds [(1, Text), (2, Holds [(1, Text)])]

/-- The transitions whose content does not matter, and what can be read as them. -/
inductive IsOther (env : DecodeEnv) (value : Bytes) : APIDef → Prop
  | createModules : env.describes value = true → IsOther env value ⟨b!"tmos.runtime.v1alpha1", b!"CreateModuleDescriptors"⟩
  | updateAccount : Holds [(2, AccountText)] value → IsOther env value ⟨b!"tmos.x.authn.v1alpha1", b!"MsgUpdateAccount"⟩
  | deleteAccount : Holds [(2, AccountText)] value → IsOther env value ⟨b!"tmos.x.authn.v1alpha1", b!"MsgDeleteAccount"⟩
  | setBalance : Holds [(1, Text), (2, Holds [(1, Text), (2, Text)])] value →
    IsOther env value ⟨b!"tmos.x.bank.v1alpha1", b!"MsgSetBalance"⟩
  | setBeginBlock : Holds [(1, Holds [(2, Header), (3, Holds [(2, Holds [(1, Holds [])])]),
      (4, Holds [(2, Holds []), (4, Holds [])])])] value →
    IsOther env value ⟨b!"tmos.abci.v1alpha1", b!"MsgSetBeginBlockState"⟩
  | setCheckTx : Holds [(1, Holds [])] value → IsOther env value ⟨b!"tmos.abci.v1alpha1", b!"MsgSetCheckTxState"⟩
  | setDeliverTx : Holds [(1, Holds [])] value → IsOther env value ⟨b!"tmos.abci.v1alpha1", b!"MsgSetDeliverTxState"⟩
  | setEndBlock : Holds [(1, Holds [])] value → IsOther env value ⟨b!"tmos.abci.v1alpha1", b!"MsgSetEndBlockState"⟩
  | setInitChain : Holds [(1, Holds [(1, Text)])] value → IsOther env value ⟨b!"tmos.abci.v1alpha1", b!"MsgSetInitChain"⟩
  | setValidatorUpdates : Holds [(1, Holds [(1, Holds [])])] value →
    IsOther env value ⟨b!"tmos.abci.v1alpha1", b!"MsgSetValidatorUpdates"⟩

/-- A message with the given full name, as a transition. -/
def IsTransition (env : DecodeEnv) (name value : Bytes) (t : Tr) : Prop :=
  if name = b!"tmos.x.bank.v1alpha1.MsgSendCoins" then
    ∃ fs amount, IsMessage value fs ∧ AllText (payloads fs 1) ∧ AllText (payloads fs 2) ∧
      List.Forall₂ IsCoin (payloads fs 3) amount ∧
      t = .sendCoins (lastOr [] (payloads fs 1)) (lastOr [] (payloads fs 2)) amount
  else if name = b!"tmos.x.authn.v1alpha1.MsgCreateAccount" then
    ∃ fs gs a, IsMessage value fs ∧ AreParts (payloads fs 1) gs ∧ HasAccount gs a ∧
      t = .createAccount (if payloads fs 1 = [] then none else some a)
  else if name = b!"tmos.core.rbac.v1alpha1.MsgCreateRole" then
    ∃ fs gs r, IsMessage value fs ∧ AreParts (payloads fs 1) gs ∧ HasRoleFields gs r ∧
      t = .createRole (if payloads fs 1 = [] then none else some r)
  else if name = b!"tmos.core.rbac.v1alpha1.MsgBindRole" then
    ∃ fs, IsMessage value fs ∧ AllText (payloads fs 1) ∧ AllText (payloads fs 2) ∧
      t = .bindRole (lastOr [] (payloads fs 1)) (lastOr [] (payloads fs 2))
  else ∃ api, IsOther env value api ∧ name = api.name ∧ t = .other api

/-- A message of a transaction.  One type URL of the Cosmos SDK stands for another message. -/
def HoldsTransition (env : DecodeEnv) (a : AnyMsg) (t : Tr) : Prop :=
  if a.typeUrl = b!"/cosmos.bank.v1beta1.MsgSend" then
    IsTransition env b!"tmos.x.bank.v1alpha1.MsgSendCoins" a.value t
  else a.typeUrl ≠ [] ∧ ∃ name, UrlName a.typeUrl name ∧ IsTransition env name a.value t

/-- A signer whose key can be read: direct mode and one of the two key types. -/
def KeyOf (i : SignerInfo) (k : PubKey) : Prop :=
  i.direct = true ∧
  (i.key.typeUrl = b!"/tmos.x.authn.crypto.v1alpha1.PubKey" ∨
    i.key.typeUrl = b!"/cosmos.crypto.secp256k1.PubKey") ∧
  IsPubKey i.key.value k

/-- The signer of the given signature. -/
def IsSigner (env : DecodeEnv) (hrp : Bytes) (i : SignerInfo) (signature : Bytes) (s : Signer) : Prop :=
  ∃ k, KeyOf i k ∧ k.key.length = 33 ∧
    s = ⟨bech32 hrp (env.ripemd160 (env.sha256 k.key)), k, signature, i.sequence⟩

/-- Everything about a transaction that does not concern the keys of its signers. -/
structure Sound (env : DecodeEnv) (bytes : Bytes) (p : TxParts) (transitions : List Tr) : Prop where
  parts : IsTx bytes p
  fee : p.fee ≠ []
  nonempty : p.messages ≠ []
  transitions : List.Forall₂ (HoldsTransition env) p.messages transitions
  signed : p.infos ≠ []
  matched : p.signatures.length = p.infos.length

/-- The transaction that is accepted for the given bytes. -/
def Accepted (env : DecodeEnv) (hrp bytes : Bytes) (tx : AppTx) : Prop :=
  ∃ p, Sound env bytes p tx.transitions ∧
    List.Forall₂ (fun i s => IsSigner env hrp i.1 i.2 s) (p.infos.zip p.signatures) tx.raw.signers ∧
    tx.users = Users.ofNames (tx.raw.signers.map Signer.address) ∧
    (if p.declared = [] then some tx.raw.payer = (tx.raw.signers.map Signer.address).head?
      else tx.raw.payer = p.declared) ∧
    tx.raw.fee = p.fee ∧ tx.raw.timeout = p.timeout ∧ tx.raw.memo = p.memo ∧
    tx.raw.bodyBytes = p.body ∧ tx.raw.authInfoBytes = p.authInfo

/-- Bytes for which the decoder crashes: all is well up to a signer whose public key does not have
33 bytes. -/
def BadKey (env : DecodeEnv) (bytes : Bytes) : Prop :=
  ∃ p ts before i after k, Sound env bytes p ts ∧ p.infos = before ++ i :: after ∧
    (∀ j ∈ before, ∃ k, KeyOf j k ∧ k.key.length = 33) ∧ KeyOf i k ∧ k.key.length ≠ 33

end Verif.Spec
