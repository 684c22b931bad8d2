import Verif.Spec.Machine
/-!
# The application as a state machine over maps of objects

One transition per request.  `Served` is about the modelled application on the object store;
everything else here does not mention stores, clients, routers or modules.
-/

namespace Verif.Spec

/-- What the decoder guarantees of a transaction: there is a signer, signers and fee payer have an
address, the transaction acts as its signers (in any order: users are a Go map), and it contains a
transition. -/
structure Decoded (tx : AppTx) : Prop where
  signed : tx.raw.signers ≠ []
  addresses : ∀ s ∈ tx.raw.signers, s.address ≠ []
  payer : tx.raw.payer ≠ []
  users : tx.users.Perm (Users.ofNames (tx.raw.signers.map Signer.address))
  transitions : tx.transitions ≠ []

/-- The assumption on the decoder of transactions. -/
def DecodesWell (lib : Libs) : Prop := ∀ ⦃bytes tx⦄, lib.decode bytes = .ret (.ok tx) → Decoded tx

/-- The state in which the chain starts, if the identifier of the chain is valid UTF-8 (otherwise
InitChain crashes). -/
def genesisWorld (lib : Libs) (chainId : Bytes) : World := fill Contents.empty (genesisWrites lib chainId)

/-- The code of a response. -/
def resultCode : Except Err Unit → Nat
  | .ok () => 0
  | .error e => codeOf e

/-- One request before the chain is started, answered without a crash.  No transaction is
accepted. -/
inductive ServeIdle (lib : Libs) : Call BlockReq → Resp Obj → Prop
  | info : ServeIdle lib .info .none
  | commit : ServeIdle lib .commit .none
  | query (path : Bytes) (n : Nat) (o : Option Obj) :
    handleQuery appReg lib.jsonFails (mapGet appReg Contents.empty) path = .ret (n, o) →
    ServeIdle lib (.query path) (.answer n o)
  | checkUndecodable (bytes : Bytes) (e : Err) : lib.decode bytes = .ret (.error e) →
    ServeIdle lib (.checkTx bytes) (.code (codeOf e))
  | checkRejected (bytes : Bytes) (tx : AppTx) : lib.decode bytes = .ret (.ok tx) →
    ServeIdle lib (.checkTx bytes) (.code 400)
  | undecodable (bytes : Bytes) (e : Err) : lib.decode bytes = .ret (.error e) →
    ServeIdle lib (.deliverTx bytes) (.code (codeOf e))
  | rejected (bytes : Bytes) (tx : AppTx) : lib.decode bytes = .ret (.ok tx) →
    ServeIdle lib (.deliverTx bytes) (.code 400)

/-- One request after the chain is started, answered without a crash. -/
inductive Serve (lib : Libs) : World → Call BlockReq → Resp Obj → World → Prop
  | info (m : World) : Serve lib m .info .none m
  | commit (m : World) : Serve lib m .commit .none m
  | query (m : World) (path : Bytes) (n : Nat) (o : Option Obj) :
    handleQuery appReg lib.jsonFails (mapGet appReg m) path = .ret (n, o) →
    Serve lib m (.query path) (.answer n o) m
  | checkUndecodable (m : World) (bytes : Bytes) (e : Err) : lib.decode bytes = .ret (.error e) →
    Serve lib m (.checkTx bytes) (.code (codeOf e)) m
  | checkUnauthenticated (m : World) (bytes : Bytes) (tx : AppTx) : lib.decode bytes = .ret (.ok tx) →
    ¬ Authenticated lib m tx → ¬ (Signed lib m tx ∧ FeeCrashes lib m tx) →
    Serve lib m (.checkTx bytes) (.code 400) m
  | checked (m : World) (bytes : Bytes) (tx : AppTx) (r : Except Err Unit) :
    lib.decode bytes = .ret (.ok tx) → Authenticated lib m tx →
    checkTransitions m tx.transitions = .ret r →
    Serve lib m (.checkTx bytes) (.code (resultCode r)) m
  | undecodable (m : World) (bytes : Bytes) (e : Err) : lib.decode bytes = .ret (.error e) →
    Serve lib m (.deliverTx bytes) (.code (codeOf e)) m
  | unauthenticated (m : World) (bytes : Bytes) (tx : AppTx) : lib.decode bytes = .ret (.ok tx) →
    ¬ Authenticated lib m tx → ¬ (Signed lib m tx ∧ FeeCrashes lib m tx) →
    Serve lib m (.deliverTx bytes) (.code 400) m
  | executed (m m' : World) (bytes : Bytes) (tx : AppTx) (r : Except Err Unit) :
    lib.decode bytes = .ret (.ok tx) → Authenticated lib m tx → doTx lib.coins tx m = .done r m' →
    Serve lib m (.deliverTx bytes) (.code (resultCode r)) m'
  | beginBlock (m : World) (b : BlockReq) : validUtf8 b.chainId = true →
    Serve lib m (.beginBlock b) .none (doBeginBlock b m)
  | endBlock (m : World) (h : Int) (us : List ValUpdate) : withKeys (storedUpdates m) = some us →
    Serve lib m (.endBlock h) (.updates us) (doEndBlock h m)

/-- A sequence of requests before the chain is started. -/
inductive RunIdle (lib : Libs) : List (Call BlockReq) → List (Resp Obj) → Prop
  | nil : RunIdle lib [] []
  | cons {c : Call BlockReq} {r : Resp Obj} {cs : List (Call BlockReq)} {rs : List (Resp Obj)} :
    ServeIdle lib c r → RunIdle lib cs rs → RunIdle lib (c :: cs) (r :: rs)

/-- A sequence of requests. -/
inductive Run (lib : Libs) : World → List (Call BlockReq) → List (Resp Obj) → World → Prop
  | nil (m : World) : Run lib m [] [] m
  | cons {m m₁ m' : World} {c : Call BlockReq} {r : Resp Obj} {cs : List (Call BlockReq)} {rs : List (Resp Obj)} :
    Serve lib m c r m₁ → Run lib m₁ cs rs m' → Run lib m (c :: cs) (r :: rs) m'

/-- The application on the object store. -/
def ormApp (lib : Libs) : Config (Store Obj) Obj Tr TxData BlockReq :=
  appConfig lib (ormOps Obj) (appBuilt lib)

/-- The application, started with no objects, has answered the requests `calls` by `rs`, and
clients now see the objects `m`. -/
def Served (lib : Libs) (calls : List (Call BlockReq)) (rs : List (Resp Obj)) (m : World) : Prop :=
  ∃ n a, (ormApp lib).steps n ⟨fresh appReg, false, false⟩ calls = .done rs a ∧ view a.store = m

/-- The accounts, in the order of their creation, are those at `ks`, and are numbered from 0 on. -/
structure Numbered (m : World) (ks : List Bytes) : Prop where
  nodup : ks.Nodup
  accounts : ∀ k, (accountAt m k).isSome ↔ k ∈ ks
  numbers : ∀ i k, ks[i]? = some k → ∃ a, accountAt m k = some a ∧ a.number = BitVec.ofNat 64 i
  next : nextNumber m = BitVec.ofNat 64 ks.length

/-- One of the requests starts the chain. -/
def Starts (calls : List (Call BlockReq)) : Prop := ∃ c st, .initChain c st ∈ calls

end Verif.Spec
