import Verif.Spec.Genesis
/-!
# What the transitions of the application do, on a map of objects

Plain functions without clients, routers, users or authorization.
-/

namespace Verif.Spec

/-- A state of the application. -/
abbrev World := Contents Obj

/-- The key under which an object named by the string `a` is stored: `a` itself if it is shorter
than 128 bytes. -/
def encKey (a : Bytes) : Bytes := (appendBytes a).drop 1

/-- The account stored under a key. -/
def accountAt (m : World) (k : Bytes) : Option Account := match m tyAccount k with
  | some (.account a) => some a
  | _ => none

/-- The coins stored under a key. -/
def balanceAt (m : World) (k : Bytes) : Option (List Coin) := match m tyBalance k with
  | some (.balance _ cs) => some cs
  | _ => none

/-- Whether a subject is bound under a key. -/
def boundAt (m : World) (k : Bytes) : Bool := (m tyRoleBinding k).isSome

/-- The number of the next account. -/
def nextNumber (m : World) : BitVec 64 := match m tyAccountNumber singletonID with
  | some (.accountNumber n) => n
  | _ => 0

/-- The height of the current block. -/
def height (m : World) : BitVec 64 := match m tyCurrentBlock singletonID with
  | some (.currentBlock n) => n
  | _ => 0

/-- The recorded stage. -/
def stage (m : World) : Stage := match m tyStage singletonID with
  | some (.stage s) => s
  | _ => .unknown

/-- The chain identifier. -/
def chainId (m : World) : Bytes := match m tyInitChainInfo singletonID with
  | some (.initChainInfo c) => c
  | _ => []

/-- The stored descriptors of the modules. -/
def modules (m : World) : List RawModule := match m tyModuleDescriptors singletonID with
  | some (.moduleDescriptors ms) => ms
  | _ => []

/-- The authentication parameters. -/
def params (m : World) : AuthnParams := match m tyAuthnParams singletonID with
  | some (.authnParams p) => p
  | _ => ⟨0, 0⟩

/-- The outcome of a transition. -/
abbrev Outcome := Res World (Except Err Unit)

/-- The object can be marshalled and indexed; writing one that cannot crashes. -/
abbrev appStorable (o : Obj) : Bool := Spec.storable appReg o

/-- The account and its binding can be written; otherwise the attempt crashes. -/
def accountFits (a : Account) : Bool :=
  appStorable (.account a) && appStorable (.roleBinding a.address externalRoleID)

/-- Create an account (with the given public key), number it, and bind it to the role of
external accounts; crashes if the address is empty, or an account or binding exists already, or
one of them cannot be written. -/
def doCreateAccount (address : Bytes) (pubKey : Option AnyMsg) (m : World) : Outcome :=
  let k := encKey address
  if k = [] ∨ (accountAt m k).isSome ∨ boundAt m k ∨
    accountFits ⟨address, pubKey, nextNumber m, 0⟩ = false then .panic
  else .done (.ok ())
    (((m.put tyAccount k (some (.account ⟨address, pubKey, nextNumber m, 0⟩))).put
      tyAccountNumber singletonID (some (.accountNumber (nextNumber m + 1)))).put
      tyRoleBinding k (some (.roleBinding address externalRoleID)))

/-- Set the coins of an address.  Whether there is an entry is looked up under the address, the
entry is written under its key; crashes if it cannot be written. -/
def doSetBalance (address : Bytes) (coins : List Coin) (m : World) : Outcome :=
  let k := encKey address
  if k = [] then .panic
  else match balanceAt m address, balanceAt m k with
    | some _, none => .done (.error .notFound) m
    | none, some _ => .panic
    | _, _ =>
      if appStorable (.balance address coins) then
        .done (.ok ()) (m.put tyBalance k (some (.balance address coins)))
      else .panic

/-- Go on after a success. -/
def andThen (r : Outcome) (f : World → Outcome) : Outcome := match r with
  | .done (.ok ()) m => f m
  | r => r

/-- Create an account for the address unless there is one. -/
def doEnsureAccount (address : Bytes) (m : World) : Outcome :=
  if (accountAt m address).isSome then .done (.ok ()) m else doCreateAccount address none m

/-- Give coins to an address. -/
def doCredit (lib : CoinLib) (target : Bytes) (amount : List Coin) (m : World) : Outcome :=
  if target = [] then .panic
  else match balanceAt m target with
    | none => andThen (doSetBalance target amount m) (doEnsureAccount target)
    | some balance => match lib.safeAddCoins balance amount with
      | .panic => .panic
      | .ret (.error e) => .done (.error e) m
      | .ret (.ok new) => doSetBalance target new m

/-- Move coins. -/
def doSend (lib : CoinLib) (source target : Bytes) (amount : List Coin) (m : World) : Outcome :=
  if source = [] then .panic
  else match balanceAt m source with
    | none => .done (.error .notFound) m
    | some balance => match lib.safeSubCoins balance amount with
      | .panic => .panic
      | .ret (.error e) => .done (.error e) m
      | .ret (.ok new) => andThen (doSetBalance source new m) (doCredit lib target amount)

/-- A transition requested by external accounts: creating accounts and sending coins are the only
ones permitted. -/
def doTransition (lib : CoinLib) : Tr → World → Outcome
  | .createAccount none, _ => .panic
  | .createAccount (some a), m => doCreateAccount a.address a.pubKey m
  | .sendCoins source target amount, m => doSend lib source target amount m
  | .other api, m =>
    if api.name = tname (.createAccount none : Tr) ∨ api.name = tname (.sendCoins [] [] [] : Tr)
    then .panic else .done (.error .unauthorized) m
  | _, m => .done (.error .unauthorized) m

/-- Transitions in order, up to the first failure. -/
def doTransitions (lib : CoinLib) : List Tr → World → Outcome
  | [], m => .done (.ok ()) m
  | t :: ts, m => andThen (doTransition lib t m) (doTransitions lib ts)

/-- Increment the sequence of each account. -/
def bump (m : World) : List Bytes → World
  | [] => m
  | u :: us => match accountAt m u with
    | none => bump m us
    | some a => bump (m.put tyAccount u (some (.account { a with sequence := a.sequence + 1 }))) us

/-- A declared signer is authenticated: there is an account at the address, with a public key, the
declared sequence is the account's, and the signature verifies, under the key given in the
transaction, over the sign document of the transaction for this chain and account number. -/
structure SignerOk (verify : Verify) (m : World) (raw : TxData) (s : Signer) (a : Account) : Prop where
  account : accountAt m s.address = some a
  hasKey : a.pubKey ≠ none
  sequence : a.sequence = s.sequence
  utf8 : validUtf8 (chainId m) = true
  verified : verify s.pubKey.key (signDoc raw.bodyBytes raw.authInfoBytes (chainId m) a.number)
    s.signature = true

/-- A transaction passes authentication, up to the check of the fee. -/
structure Signed (lib : Libs) (m : World) (tx : AppTx) : Prop where
  users : ∀ u ∈ tx.users, u ≠ [] ∧ (accountAt m u).isSome
  timeout : tx.raw.timeout = 0 ∨ height m ≤ tx.raw.timeout
  memo : tx.raw.memo.length ≤ (params m).maxMemo.toNat
  count : tx.raw.signers.length ≤ (params m).sigLimit.toNat
  signers : ∀ s ∈ tx.raw.signers, s.address ≠ [] ∧ ∃ a, SignerOk lib.verify m tx.raw s a
  payer : tx.raw.payer ≠ []

/-- A transaction passes authentication. -/
structure Authenticated (lib : Libs) (m : World) (tx : AppTx) : Prop extends Signed lib m tx where
  fee : ∃ balance rest, balanceAt m tx.raw.payer = some balance ∧
    lib.coins.safeSubCoins balance tx.raw.fee = .ret (.ok rest)

/-- The check of the fee crashes: coins cannot be parsed or are too many. -/
def FeeCrashes (lib : Libs) (m : World) (tx : AppTx) : Prop :=
  ∃ balance, balanceAt m tx.raw.payer = some balance ∧ lib.coins.safeSubCoins balance tx.raw.fee = .panic

/-- A failing authentication handler is reported as a bad request. -/
def asBadRequest : Outcome → Outcome
  | .done (.error _) m => .done (.error .badRequest) m
  | r => r

/-- What happens to an authenticated transaction. -/
def doTx (lib : CoinLib) (tx : AppTx) (m : World) : Outcome :=
  andThen (asBadRequest (doSend lib tx.raw.payer feeCollector tx.raw.fee (bump m tx.users)))
    (doTransitions lib tx.transitions)

/-- The names of the transitions with a handler. -/
def handledNames : List Bytes := [.createModules [], .setInitChain none, .setCheckTx none,
  .setBeginBlock none, .setDeliverTx none, .setEndBlock none, .setValidatorUpdates [],
  .createAccount none, .createRole none, .bindRole [] [], .sendCoins [] [] [], .setBalance [] []].map
    (tname (T := Tr))

/-- The names of the transitions that are validated before they are executed. -/
def validatedNames : List Bytes := [.createAccount none, .createRole none, .bindRole [] []].map (tname (T := Tr))

/-- All resources of the role belong to the modules. -/
def roleKnown (mods : List RawModule) (r : Role) : Bool :=
  (r.gets ++ r.lists ++ r.creates ++ r.updates ++ r.deletes).all
    (mods.flatMap fun m => m.objects.map APIDef.name).contains &&
  r.delivers.all (mods.flatMap fun m => m.transitions.map fun t => t.api.name).contains

/-- The validation of a transition. -/
def checkTransition (m : World) : Tr → Out (Except Err Unit)
  | .createAccount none => .ret (.error .badRequest)
  | .createAccount (some a) => .ret (if a.address = [] then .error .badRequest else .ok ())
  | .createRole none => .ret (.error .badRequest)
  | .createRole (some r) => .ret (
    if r.id ≠ [] ∧ m tyRole r.id = none ∧ roleKnown (modules m) r then .ok () else .error .badRequest)
  | .bindRole id _ => if id = [] then .panic else .ret (
    if (m tyRole id).isSome then .ok () else .error .badRequest)
  | .other api =>
    if api.name ∈ validatedNames then .panic
    else .ret (if api.name ∈ handledNames then .ok () else .error .transitionNotFound)
  | _ => .ret (.ok ())

/-- The validation of transitions in order, up to the first failure. -/
def checkTransitions (m : World) : List Tr → Out (Except Err Unit)
  | [] => .ret (.ok ())
  | t :: ts => match checkTransition m t with
    | .ret (.ok ()) => checkTransitions m ts
    | r => r

/-- The state after BeginBlock. -/
def doBeginBlock (b : BlockReq) (m : World) : World :=
  ((m.put tyStage singletonID (some (.stage .beginBlock))).put
    (Obj.api (.beginBlockState none)).name singletonID
      (some (.beginBlockState (some ⟨some b.height, b.chainId, b.rest⟩)))).put
    tyCurrentBlock singletonID (some (.currentBlock b.height))

/-- The state after EndBlock. -/
def doEndBlock (h : Int) (m : World) : World :=
  (m.put tyStage singletonID (some (.stage .endBlock))).put
    (Obj.api (.endBlockState none)).name singletonID (some (.endBlockState (some (BitVec.ofInt 64 h))))

/-- The stored validator updates. -/
def storedUpdates (m : World) : List StoredUpdate :=
  match m tyValidatorUpdates singletonID with
  | some (.validatorUpdates l) => l
  | _ => []

/-- The updates as consensus knows them: every one must have a key. -/
def withKeys (l : List StoredUpdate) : Option (List ValUpdate) :=
  l.mapM fun u => u.pubKey.join.map fun k => ⟨k, u.power⟩

/-! ## Invariant -/

/-- The roles of genesis, as they are stored. -/
def roleTable (k : Bytes) : Option Obj :=
  ((externalRole :: moduleRoles.map (·.2)).find? (·.id = k)).map .role

/-- The roles are those of genesis, and each module is bound to its role. -/
structure RolesInv (m : World) : Prop where
  roles : ∀ k, m tyRole k = roleTable k
  modules : ∀ e ∈ moduleRoles, m tyRoleBinding e.1 = some (.roleBinding e.1 e.2.id)

/-- What holds of the state after the chain was started, forever. -/
structure AppInv (m : World) : Prop extends RolesInv m where
  /-- All others are bound to the role of external accounts. -/
  others : ∀ k o, m tyRoleBinding k = some o → (∀ e ∈ moduleRoles, e.1 ≠ k) →
    ∃ a, encKey a = k ∧ o = .roleBinding a externalRoleID
  /-- Accounts are stored under their address and are external. -/
  accounts : ∀ k o, m tyAccount k = some o → ∃ a, o = .account a ∧ encKey a.address = k ∧
    m tyRoleBinding k = some (.roleBinding a.address externalRoleID)
  /-- Balances are stored under their address. -/
  balances : ∀ k o, m tyBalance k = some o → ∃ a cs, o = .balance a cs ∧ encKey a = k
  number : ∃ n, m tyAccountNumber singletonID = some (.accountNumber n)
  params : ∃ p, m tyAuthnParams singletonID = some (.authnParams p)
  height : ∃ n, m tyCurrentBlock singletonID = some (.currentBlock n)
  stage : ∃ s, m tyStage singletonID = some (.stage s)
  chainId : ∃ c, m tyInitChainInfo singletonID = some (.initChainInfo c)
  updates : ∃ l, m tyValidatorUpdates singletonID = some (.validatorUpdates l)
  beginState : (m (Obj.api (.beginBlockState none)).name singletonID).isSome
  endState : (m (Obj.api (.endBlockState none)).name singletonID).isSome
  mods : ∃ l, m tyModuleDescriptors singletonID = some (.moduleDescriptors l)
  /-- What is stored could be written. -/
  storable : ∀ ty k o, m ty k = some o → appStorable o = true

end Verif.Spec
