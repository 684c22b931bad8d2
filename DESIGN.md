# Formal model of allinbits/cosmos-sdk-poc (module path github.com/fdymylja/tmos)

The subject is the Go source in /repo at the pinned commit.  Nothing was built or run; the model
was written from the text of the code.  Lean 4.33.0 with Mathlib.

## Layout

| directory | content |
|---|---|
| `lean/Verif/Model/*` | executable definitions, one per Go function, each with the file and lines it models |
| `lean/Verif/Spec/*` | small specifications, written without the helpers of the model, and sample data for examples |
| `lean/Verif/Proofs/*` | lemmas and invariants |
| `lean/Verif/Props/*` | the property theorems named in `MANIFEST.json`; next to them examples that meet their hypotheses |
| `properties.jsonl` | the properties in words |
| `seeded/LOG.jsonl` | wrong versions of the model that were tried against the theorems |

Where the code does not have a property, its negation is proved with a concrete counterexample
(`..._fails`), and the strongest true restriction that was found is proved as `..._partial`.
A property is called `partial` in the manifest whenever its statement in `properties.jsonl` does
not hold or is not proved in full.

## How the code is modelled

* **Values.**  `[]byte` and `string` are `List UInt8`; nil and empty slices are identified except
  where the code tests for nil.  `uint64` fields are `BitVec 64`, `int64` heights are `Int`;
  `math/big` numbers are `Nat` or `Int`.
* **Outcomes.**  A call returns or panics (`Out`); errors are values.  Module code can moreover
  recurse without end; nesting of deliveries is bounded by a number (`Res.diverge` if it is not
  enough), and the theorems about the application show which bound suffices (10).
* **Errors** are the class `errors.Is` finds in them (`Err`, `OrmErr`); texts of errors are left
  out.
* **Maps.**  Go maps are association lists; where the code enumerates a map, the theorems hold for
  every order in which it may be enumerated.
* **Module code** is a term of `Prog`, a small syntax whose only effects are the calls a module
  client offers (Get, List, Create, Update, Delete, Deliver) and `panic`.  Statements about "every
  module" quantify over all such terms.  The interpreter `Prog.run` is generic in the store, so
  that the application can be run on the modelled ORM and on a plain map; C61 proves that no
  client can tell the two apart.
* **Histories.**  `Served` is: the application of `testapp/app/app.go`, started with an empty
  database, has answered a list of ABCI requests with a list of responses, and clients now see
  these objects.  `Spec/Chain.lean` and `Spec/Machine.lean` define a state machine over maps of
  objects that does not mention stores, routers, users or modules, and it is proved that `Served`
  is exactly a run of it.  The theorems about accounts, balances, roles, blocks and validators are
  about all served histories.

## What is modelled

| code | model |
|---|---|
| protowire (dependency), varints, length prefixes | `Wire` |
| `runtime/kv/badger.go`, `kv.go` | `KV` |
| `pkg/protoutils/kindencoder/kindencoder.go`, and of strconv and base64 what it calls | `Kind` |
| `pkg/protoutils/desc/desc.go`, `core/schema/schema.go`, `runtime/orm/schema/*`, `core/meta/*` | `Schema`, `Desc` |
| `runtime/orm/indexes/*` | `Index` |
| `runtime/orm/objects/store.go`, `runtime/orm/store.go`, `iterator.go` | `ORM` |
| `runtime/authentication/user/*` | `Users` |
| `runtime/runtime.go`, `router.go`, `client.go`, `client/client.go`, `authorization/*`, `errors/errors.go`, `statetransition/*` | `Runtime` |
| `runtime/builder.go`, `runtime/module/*` | `Builder` |
| `runtime/abci.go`, genesis in `runtime/runtime.go`, `core/abci/tendermint/abci/types.go` (as far as called) | `ABCI`, `System`, `TestApp` |
| `runtime/query.go` | `Query` |
| `runtime/services.go`, `runtime/module/services.go` | `Services` |
| `runtime/client/orm.go`, `core/apiserver/module.go`, `core/apiserver/router/server.go`, `types.go` | `Http` |
| `core/apiserver/router/openapi.go`, `pkg/protoutils/oas3schema/oas3schema.go`, `pkg/protoutils/forge/list.go` | `OpenApi` |
| `pkg/modulecodegen/*.go` (which declarations it writes) | `Codegen` |
| `x/authn/crypto/internal/ecdsa/*.go` | `Nist` |
| `pkg/protoutils/kindencoder/xx_to_support.go` | `Spare` |
| `pkg/conv/string.go`, with memory, strings and slices as Go has them | `Conv` |
| `MarshalTo` and `String` in `x/authn/crypto/internal/ecdsa` | `KeyText` |
| `pkg/client/client.go`, `pkg/spfcli/*.go` (commands `get`, `resources`) | `Client` |
| `core/abci/*.go`, `core/runtime/module.go` | `System` |
| `core/rbac/*.go`, `core/rbac/v1alpha1/rbac.go` | `RBAC` |
| `core/coin/v1alpha1/coin.go`, and the arithmetic of coin lists of the cosmos-sdk | `Coins` |
| `ParseCoinsNormalized`, `Int.String` and the overflow check of the cosmos-sdk (v0.42) | `SdkCoins` |
| `x/authn/*.go`, `x/authn/v1alpha1/client.go`, `x/distribution/*.go` | `Authn` |
| `x/authn/tx/*.go`, `x/authn/crypto/crypto.go`, and of protobuf-go what they call | `Decoder`, `Proto` |
| `testapp/module/sign.go`, and of the client of the cosmos-sdk what it calls | `Sign` |
| bech32 (cosmos-sdk) | `Bech32` |
| `x/authn/crypto/secp256k1/secp256k1.go`, `secp256k1_nocgo.go` | `Secp` |
| btcec and crypto/ecdsa, as far as these call them, and RFC 6979 | `Ecdsa` |
| SHA-256, HMAC, RIPEMD-160 | `Hash` |
| `x/authn/crypto/secp256k1/internal/secp256k1/curve.go`, `secp256.go` (no module uses them) | `Curve` |
| `x/bank/*.go` | `Bank` |
| `testapp/app/app.go`, `testapp/module/module.go` | `TestApp` |
| `testdata/testmodule/*.go`, `x/crisis/*.go` | `TestModule` |
| `libsecp256k1/src/field_10x26_impl.h`, `field_impl.h` | `CField`, storage in `CGroup`, `inv_all_var` in `CGen` |
| `libsecp256k1/src/group_impl.h` (without `set_table_gej_var`, `mul_lambda`, `has_quad_y_var`) | `CGroup`, `set_all_gej_var` in `CGen` |
| `libsecp256k1/src/scalar_8x32_impl.h` (without multiplication, split) | `CScalar` |
| `libsecp256k1/src/scalar_8x32_impl.h:260-673` (products), `scalar_impl.h` (inverse) | `CProduct` |
| `libsecp256k1/src/ecmult_impl.h` (the context and `ecmult`) | `CEcmult` |
| `libsecp256k1/src/eckey_impl.h` (parse, serialize), `ecdsa_impl.h` (verify, sign), `modules/recovery/main_impl.h`, `secp256k1.c` (the functions that secp256.go and ext.h call), `ext.h` | `CEcdsa`; sign in `CSign` |
| `libsecp256k1/src/hash_impl.h` | `CHash` |
| `libsecp256k1/src/ecmult_gen_impl.h` | `CGen` |
| `libsecp256k1/src/ecmult_const_impl.h`, the odd multiples of `ecmult_impl.h`, `ext.h:101-130` | `CMult` |
| the .proto files of objects and transitions (fields, keys, imports, access options) | `Universe`, `Files`, `TestApp`, `Protos`, `GenFiles` |

## What is not modelled

* Of the OpenAPI document comments, descriptions and constant parts, and the annotations of service
  methods (there are none in the repository); of generated code (`pkg/modulecodegen`) the text: only the
  declarations with the names and expressions in them are modelled; `cmd/*` (main
  functions).
* Of the C library in `x/authn/crypto/secp256k1/internal` what secp256.go does not call, and
  `secp256k1_cgo.go`: it imports an internal package of the cosmos-sdk and declares
  `VerifySignature` on private keys, so the build with its tag should not compile.
* `testdata/testpb`, and `pkg/ptrprim` (pointers to its arguments).
* Of the conversion of BeginBlock's request only the height and the chain id are told apart; the rest
  is carried as bytes.  The conversion fails on a chain id that is not UTF-8, and that is modelled;
  it would also fail on times outside the range of protobuf, which Tendermint does not send.
* SetOption and the snapshot calls of ABCI (they panic unconditionally), gas, logs and events of
  responses (they carry no information in this code base), texts of errors.
* Concurrency: requests are served one after the other, as Tendermint does on the consensus
  connection.  HTTP requests, queries and CheckTx run concurrently with it in a real node; each is
  modelled as one atomic step.
* Limits of badger (key size 65000, value size about 1 MiB in memory, the reserved prefix `!badger!`, empty keys) and failures of
  its transactions.  Memory and time.

## Trusted base

1. Lean's kernel.  No axiom is added; there is no `sorry`, `admit`, `native_decide` or `bv_decide`.
   The theorems depend on at most `propext`, `Classical.choice` and `Quot.sound`; the list at the
   end gives them theorem by theorem.
2. That the definitions in `Model/` say what the Go code does.  Each cites the lines it is taken
   from.  This was checked by reading only.
3. What is said about code outside the repository:
   * badger is a map sorted by key (`Model/KV`);
   * `proto.Marshal` followed by `proto.Unmarshal` gives a message back, and marshalling fails
     exactly on strings that are not UTF-8 (`StateObject.marshalPanics`); strings in stored module
     descriptors are constants of the source and are not checked;
   * `proto.Unmarshal` of protobuf-go v1.26 reads as `Model/Proto` does (no limit on recursion;
     unknown fields kept; strings checked for UTF-8);
   * protowire, strconv, base64 and bech32 functions do as `Model/Wire`, `Kind`, `Bech32` say;
   * gorilla/mux matches templates of literal segments and one variable in the order of their
     registration and redirects unclean paths (`Model/Http`);
   * Go iterates over maps in any order, another one each time (`MapOrder`); `protogen` gives the
     files it was given in their order (`Model/OpenApi`) and writes nothing after an error
     (`Model/Codegen`); of the rules of Go for what is generated, those of `Spec/GoCode`;
   * cobra checks the number of arguments before running a command (`Model/Client`);
   * the coin parser of the cosmos-sdk does as `Model/SdkCoins` says; its source was not at hand, it
     is written from knowledge of the published text of v0.42;
   * the client of the cosmos-sdk encodes transactions as `Model/Sign` says, likewise;
   * btcec v0.21 and crypto/ecdsa do as `Model/Ecdsa` says, likewise; of the arithmetic of btcec (field
     elements in ten words, Jacobian coordinates, the endomorphism) only the result is modelled: the
     group law;
   * encoding/asn1, cryptobyte, crypto/elliptic and crypto/ecdsa do as `Model/Nist` says, likewise;
   * the hash functions do as `Model/Hash` says, which follows their standards;
   * math/big computes as `Model/Secp` and `Model/Curve` say; `ModInverse` returns nil if there is
     no inverse (since Go 1.11), and using it crashes.
4. Parameters of the model, over which the theorems quantify, with the assumptions made on them
   where a theorem needs them (as visible hypotheses of the theorem):
   * signature verification and hash functions: arbitrary functions, no assumption; the modelled ones are
     put in for `C40_ecdsa_partial`, `C99_real_partial` and C103 (`RealLibs`);
   * the functions of the C library of secp256k1: `Multiplies` of its multiplication
     (`Spec/Curve`), which is proved of the C code (`C82_multiplies`), no assumption on the others;
     C110 to C113 put the modelled functions in for all but `sign`, which stays arbitrary there,
     C116 and C117 that one too;
   * `CoinLib`, parsing and printing of amounts by the cosmos-sdk: `CoinsOk`, `TextCoins`
     (`Spec/Coins`, `Spec/Safe`); `CoinsOk` says that there is a largest amount up to which what
     is printed is parsed again and sums do not overflow.  Both are proved of `Sdk.coins bits`
     (`C97_assumptions`) for `bits = none` and all `bits ≥ 93`, where `bits` is the size up to
     which `NewDecFromStr` accepts numbers (versions of the sdk differ in it);
   * `Libs.decode`, the transaction decoder: `DecodesWell`, which is proved of the modelled
     decoder (`decodesWell`);
   * `DecodeEnv.describes`, whether bytes can be read as a `CreateModuleDescriptors` (it contains
     descriptors of protobuf files): an arbitrary predicate, no assumption;
   * files of a set of descriptors: `PathsName`, `PathsOk` (one path names one file);
   * messages and files of the OpenAPI document: `NamesKnown`, `NamesUnique`, `DeclaredOnce`,
     `PathsUnique`, `FilesOk`, `TopLevel` (`Spec/OpenApi`);
   * messages of files given to the code generator: `GoNamesOk` (`Spec/Codegen`), `GoLetters`
     (`Spec/GoCode`);
   * conversions between float32 and float64: `Exact` (`Props/Spare`);
   * curves of crypto/elliptic: `CurveGroup`, `FieldOk` (`Spec/Nist`);
   * registries and objects: `RegOk`, `Physical`, `Encodable` (`Spec/Assumptions`), and for lists
     `KeysTyped` (`Spec/Objects`): key fields are not repeated fields.
   For each of these there is an example showing that it can be met.

## Testing the theorems

`seeded/LOG.jsonl` has one line per wrong version: the definition, the edit, the property it
should break (`claim`), the declarations at which the build stopped (`failed`), and what was
tightened when the build went through.  What a line shows is limited:

* `failed` says that some proof no longer goes through.  That alone does not show that a statement
  became false: the proof could depend on how the definition is written.
* The build stops at the first failing declarations, often lemmas; theorems in modules that import
  them are then not tried.  That the property named in `claim` became false was judged by reading
  when the edit was chosen.
* From line 149 on, a line also has `verdict`: `refuted` (a consequence of the theorem on a
  concrete input, in `refutation`, was evaluated with `#guard`: it holds on the model and fails on
  the wrong version; the guard states the failure), `argued` (the reason why the statement is false
  is given in `why`), or `proof only` (the statement stays true or this is not known).
  Lines without `verdict` were not classified.

## Properties

| id | property | status | remarks |
|---|---|---|---|
| C01 | Secondary-index entries of different objects never collide | proved |  |
| C02 | A list query scans exactly its own index partition | proved |  |
| C03 | The per-object index list survives encoding | proved | Round trip proved; the decoder also accepts some truncated inputs (theorem ending in _fails). |
| C04 | Field values of one kind map to distinct index/primary keys | proved |  |
| C05 | An object with a string primary key is found under that string | partial | Holds for string keys shorter than 128 bytes (at the level of encoding and of the store after any history); false for every longer key (theorem ending in _fails). |
| C06 | The textual, typed and stored forms of a key value agree | proved |  |
| C07 | Objects of different types never share a storage key | proved | Type names are assumed free of '/'; group/kind pairs containing dots can collide (theorem ending in _fails). |
| C08 | The object store behaves like a typed map | proved | Objects whose keys fit in memory (Physical); the no-panic part is for marshallable objects with encodable keys. |
| C09 | A failing store operation changes nothing | partial | Proved for schemas that list each indexed field once; false otherwise (theorem ending in _fails). |
| C10 | Indexes always mirror the objects | proved |  |
| C11 | Listing by an indexed field returns exactly the matching live objects | partial | Proved for key fields that are not repeated fields, and without restriction for every state of the application. False for repeated string fields, which are indexed by their printed form (theorem ending in _fails). |
| C12 | A list query with several conditions returns only objects meeting all of them | partial | Proved: all objects meeting all conditions are returned, bad conditions are rejected, and the answer is that to the first condition alone (C12_first_condition_partial). False as stated: only the first condition is used (theorem ending in _fails). Key fields are not repeated fields. |
| C13 | A list range limits the result to that range | partial | False as stated: the range is ignored (theorem ending in _fails); proved: it has no effect. |
| C14 | Writing one object never affects any other object | proved |  |
| C15 | A schema that registers is usable | partial | Proved for schemas with distinct, non-repeated key fields; false otherwise (theorems ending in _fails). |
| C16 | Unsupported field shapes are rejected wherever they occur | partial | Proved for the top-level message; nested messages are not inspected (theorem ending in _fails). |
| C17 | The key-value layer is an ordered byte map | proved |  |
| C18 | Range iteration enumerates the range | partial | False as stated: range iteration yields at most the start key. |
| C19 | An unknown state transition has no effect | proved | If admission is skipped the authorizer is asked first and is assumed to answer. |
| C20 | Nothing is written without authorization | proved | For deliveries and for all ABCI requests except InitChain (during which authorization is off). |
| C21 | A denied request leaves the state untouched | proved |  |
| C22 | The phases of a transition run in order and stop at the first error | proved |  |
| C23 | A built runtime is well-formed | proved | Characterises exactly when a build succeeds and what it produces. |
| C24 | Creating an object that exists is reported as an error | partial | False as stated: the process panics (theorems with _fails). Proved: creating never overwrites. |
| C25 | Checking a transaction never changes the state | proved | For all applications whose admission handlers only read. |
| C26 | A transaction rejected by CheckTx-level transition admission is rejected on delivery | partial | False as stated (theorem ending in _fails): DeliverTx skips transition admission. Proved for deliveries made by modules and by the engine. |
| C27 | A failed transaction leaves no trace | partial | False as stated (theorem ending in _fails). Proved for transactions that do not decode or fail transaction admission. |
| C28 | The response code tells success from failure | proved |  |
| C29 | Default genesis can run only once | proved |  |
| C30 | A set of users behaves as a set | proved |  |
| C31 | The RBAC decision is exactly what roles and bindings say | partial | Exact decision and independence of the order for users and roles with plain names (1..127 bytes), in every state the store can reach; fails for empty names (crash, order-dependent) and long names (bound but denied; another user without a binding is allowed). |
| C32 | Only well-formed roles pass admission, and roles are never overwritten | partial | Admission and preservation of existing objects for all requests and states; ids of 128 bytes or more are admitted although in use (the delivery then crashes, nothing is overwritten). |
| C33 | Every role binding refers to an existing role and is never redirected | proved | In every state reached by the application, for every library satisfying DecodesWell. |
| C34 | External accounts may deliver exactly the transitions marked external | partial | Exact for all sets of modules whose transitions are unambiguously declared in their files; fails if a dependency declares a message of the same short name. |
| C35 | Each module gets exactly its own rights | partial | Contents of the roles exact for all sets of modules; rights of the module itself exact for names of at most 122 bytes, longer names get a role that is silently not bound. |
| C36 | An accepted transaction cannot be replayed | proved | Over all served histories of the application; decoding, signature checking and coin parsing are parameters. |
| C37 | Account sequences only move forward, by one per authenticated transaction | proved |  |
| C38 | Account numbers are unique | proved | Uniqueness while fewer than 2^64 accounts have been created (the counter is a uint64 and wraps). |
| C39 | A transaction is not executed after its timeout height | proved |  |
| C40 | Execution requires a valid signature of every signer | partial | False as stated: the key carried by the transaction is used, the stored one is ignored (theorem ending in _fails). Proved: every signer has an account with some key and the expected sequence, and the key in the transaction verifies the signature over the sign document; a transaction for which this does not hold is rejected without effect. With the modelled secp256k1, each signer gives a key that belongs to exactly one private key, and the equation of ECDSA holds (C40_ecdsa_partial). |
| C41 | The sign document binds body, fees, chain and account | proved | Byte strings shorter than 2^64, as in Go. |
| C42 | Decoding never accepts malformed transactions | partial | False as stated (theorem ending in _fails): unknown fields of nested messages are accepted, and keys that do not have 33 bytes crash the decoder. Proved exactly which bytes are accepted, crash and are rejected. The content of transitions that only modules may request is left out where nothing reads it (C42_refused). |
| C43 | No transaction can crash the node | partial | False as stated: C43_fails gives transactions (bytes, through the modelled decoder) that crash CheckTx and DeliverTx for every fuel >= 10. C43_exactly says exactly when DeliverTx crashes; C43_partial and C43_check_partial prove that transactions meeting explicit sufficient conditions are answered: SafeTx / SafeCheck, keys of 33 bytes, addresses shorter than 128 bytes in the history, and the assumptions CoinsOk/TextCoins on cosmos-sdk coin parsing, which are proved of the modelled parser (C97_assumptions, C43_deployed_partial). Missing: transactions that are not safe do crash, so the full statement is not provable. |
| C44 | The fee payer agreed to pay | partial | False as stated (theorem ending in _fails): any string can be declared as payer. Proved for transactions that do not declare a payer. |
| C45 | Transfers conserve the total supply | partial | Proved when transfers name addresses shorter than 128 bytes; false otherwise because longer addresses share a storage key: C45_fails burns coins and C45_mint_fails mints coins. Depends on CoinsOk, which is proved of the modelled coin parser of the cosmos-sdk (C97_assumptions, C45_deployed_partial). |
| C46 | A transfer moves exactly the amount | partial | Proved after histories with addresses shorter than 128 bytes, under CoinsOk, which is proved of the modelled coin parser (C46_deployed_partial); false otherwise (theorem ending in _fails). |
| C47 | Balances are never negative | partial | Proved of what a stored balance is read as (through the coin parser, under CoinsOk, which is proved of the modelled one: C47_deployed_partial), after histories with addresses shorter than 128 bytes; false of the stored coins as written (theorem ending in _fails). |
| C48 | Only the owner can spend a balance | partial | False as stated: the bank does not check the sender (theorem ending in _fails). Proved: exactly the accounts named as payer, source or target are touched. |
| C49 | Fee deduction moves exactly the fee to the collector | partial | Proved after histories with addresses shorter than 128 bytes, under CoinsOk, which is proved of the modelled coin parser (C97_assumptions); false otherwise (theorem ending in _fails). |
| C50 | Block height seen by modules is the height of the current block | proved |  |
| C51 | Validator updates can be set only at chain start or end of block | proved | Over histories of requests interleaved with module requests to set the updates, at any point. EndBlock returns what was last set, converted as Go does; C51_end_block_crashes_iff says that it crashes exactly if an update last set has no usable public key. |
| C52 | Starting from exported state works | partial | False as stated: a non-empty application state panics (theorem ending in _fails). Proved for the default genesis. |
| C53 | The ABCI get query returns the stored object | partial | Proved for identifiers without a slash; false otherwise (theorem ending in _fails). |
| C54 | Queries never change state and unknown verbs are rejected | proved | For every configuration; also that unknown verbs are answered by code 1. |
| C55 | Read-only clients cannot write | proved | For every store, and for every program using the client. |
| C56 | File dependencies come in registration order | proved | For files in whose import trees a path names one file (PathsName). |
| C57 | Stored signatures have one canonical form | proved | Hash function and curve arithmetic of btcec are parameters. |
| C58 | Derived private keys are valid scalars | proved | For any hash function; also for keys generated from random bytes. |
| C59 | HTTP reads find the object named in the path | partial | Proved for lower-case primary keys and keys that can be a segment of a path; false for mixed-case primary keys, keys with a slash, "." and "..", and types whose names differ in case only (theorems ending in _fails). The router of gorilla/mux is modelled as far as it is used. Key fields are not repeated fields. |
| C60 | Service start is all-or-nothing in order and stop reaches every service | proved |  |
| C61 | The application behaves as if objects were kept in a plain map | proved |  |
| C62 | A listing without matches is reported to the caller | partial | False as stated: the process panics (theorem ending in _fails). Proved: a listing that returns yields at least one object, those of the store. |
| C63 | The databases depend only on the stored objects | partial | False as stated (theorem ending in _fails): index key lists of deleted objects stay. Proved for the object database and the index entries. |
| C64 | Without a transaction decoder transactions are rejected | partial | False as stated for every application: the process crashes (theorem ending in _fails); nothing of the property holds. |
| C66 | A module's identity is its own | partial | False as stated: duplicate names are accepted (theorem ending in _fails). Proved: handlers act under the name of their module. |
| C67 | Block callbacks act as the ABCI user, and authorization stays on after InitChain | proved |  |
| C68 | Impersonated deliveries are authorized for the module together with the impersonated users | proved |  |
| C74 | HTTP lists answer the matching objects | partial | Proved for one selection; false without a selection (always refused), for several selections, for ranges, and for types whose plural is the name of a singleton (theorems ending in _fails). Key fields are not repeated fields. |
| C75 | HTTP reads at a height answer the state at that height | partial | False as stated: the height is ignored (theorem ending in _fails). Proved that the answer is that for the state stored. |
| C76 | Transactions are read by the wire format | proved | For the wire-format reader of the model, which describes protobuf-go. |
| C77 | Signers of different keys have different addresses | proved | Hash functions are parameters; different hashes give different addresses. |
| C78 | Coins are only sent to well-formed addresses | partial | False as stated (theorem ending in _fails). Proved for the addresses of signers. |
| C65 | The order of the signers of a transaction does not matter | proved | Assumes DecodesWell, which is proved of the modelled decoder. |
| C70 | Every request terminates | proved | Assumes DecodesWell, which is proved of the modelled decoder. The bound of ten nested deliveries is part of the statement. |
| C71 | What transactions can do | proved | Assumes DecodesWell, which is proved of the modelled decoder. |
| C72 | The application is a deterministic state machine over a map of objects | proved | Assumes DecodesWell, which is proved of the modelled decoder. The state machine is Spec/Chain.lean with Spec/Machine.lean and Spec/Genesis.lean. |
| C79 | Curve arithmetic follows the group law | partial | False for Add on points with the same x-coordinate, a point and itself or its opposite: Add crashes (C79_add_fails); C79_add_crashes says exactly when, for all integers. Double, IsOnCurve and closure are proved in full. |
| C80 | The curve parameters define a group of prime order | proved | P and N are proved prime by certificates that the kernel checks; the order is computed with the modelled functions. The group of points has exactly N elements, proved without the theorem of Hasse (card_points, C80_all_points): every point other than infinity is a multiple of the base point. |
| C81 | Points are read back as they were written | partial | Round trip and canonicity are proved in full. That only points of the curve are read is false: Unmarshal does not check the equation (C81_fails). |
| C82 | Scalar multiplication gives the multiple of the point | partial | For every point, with the code of the C library (C82_multiplies, C82_c_partial) or any that satisfies Multiplies. False for scalars that are zero, not below N, or longer than 32 bytes: no point or a crash (C82_refused, C82_crashes, C82_fails, C82_c_fails). |
| C83 | The C library is only given buffers of the documented sizes | proved | The C functions are arbitrary parameters. The sizes are those documented in ext.h; no theorem is about the C code. |
| C84 | Collecting the messages of the API ends | partial | Exact conditions for returning with every order and with some order are proved. False in general (C84_fails), and for the application with some order: the module descriptors contain descriptions of protobuf messages, which nest (C84_application_fails). An order chosen at random ends with probability one; that is not modelled. |
| C85 | The document describes the messages of the answers | partial | The messages collected are proved in full (C85_required), and which of them have schemas (C85_schemas_iff): all of them if they are declared at the top level of files and paths are unique (C85_schemas_partial). False for the lists of the second of two objects declared in one file: they occur in answers and have no schema (C85_lists_fails; C86_application_fails shows it in the application). |
| C86 | Every reference of the document resolves | partial | C86_iff says exactly when a reference resolves. False for messages declared inside others and for the second list from a file (C86_lists_fails); in the application exactly six references do not resolve (C86_application_fails). Holds for top-level messages with unique names and paths. |
| C87 | The document describes the routes | partial | The paths agree in general. The operation is the last one registered, the router serves the first (C87_collision_fails); variables of paths are never declared (C87_variables_fails). |
| C88 | The schemas give the types of the answers | partial | Exact conditions by kind and of maps (C88_map). False for integers of 64 bits, enums, groups, durations and field masks (C88_application_fails). Wrapper and struct types are not covered. |
| C89 | The document does not depend on the order of iteration | partial | Proved if names and paths are unique and one file has services, as in the application. False with two such files: the title changes (C89_fails). |
| C90 | Malformed HTTP requests are refused | proved | A malformed height on a path that is not found is answered by "not found". |
| C91 | The abci module records the request being served | partial | Holds for InitChain, BeginBlock and EndBlock. False for CheckTx and DeliverTx: nothing delivers their transitions, and no transaction is ever recorded (C91_fails); the handlers themselves are right (C91_handlers). |
| C92 | The generated client finds the object with the given key | partial | Proved for string and bytes keys of 1 to 127 bytes and for singletons, for all histories of the store; applied to the balances of the application. False for keys of other kinds, which can be registered: the generated code does not compile (C92_fails). |
| C93 | Generated code declares each name once | partial | Types, functions and variables generated for one file have different names; methods exactly if no object is called like the plural of another or like the method of a transition (C93_methods_iff, C93_fails). False for two annotated files of one package (C93_package_fails) and with messages called like generated types (C93_message_fails). |
| C94 | Generated definitions are those of the annotations and can be registered | partial | Proved: what is generated, when, and for which files; that the generated files of the repository declare what the generator gives, and that the application registers what is annotated. Definitions that registration rejects are accepted (C94_fails); what is missing for registration is stated (C94_registers_partial); files of imports are written too (C94_imports_fails). |
| C95 | The list of resources is complete | partial | Proved for state objects, whatever the order of iteration over the map of groups. State transitions are never listed (C95_fails); the order of the groups is arbitrary (C95_order_fails). |
| C96 | The command line client prints the object asked for | partial | Proved for three or more arguments and names without a slash, in particular for every state of the application. With two arguments, which the command accepts, it crashes (C96_two_arguments_fails); of a name with a slash only the part before it counts (C96_slash_fails). |
| C97 | Coins are read as they are written | partial | Proved for lists of well-formed coins (C97_read_partial, C97_repeated) and, whatever is written, of the result (C97_result); false for coins that are not well-formed: commas and fractions in them are accepted (C97_fails). Reading crashes on large numbers exactly with versions of the cosmos-sdk that do not check the size of what they parse; this is a parameter (C97_no_crash, C97_crash_fails). Exactly which texts are read, and as what: C97_coin, C97_text, C97_trimmed. |
| C98 | Transactions of clients are read as they are meant | proved | For transactions with at least one message, one signer and one coin of the fee (others are refused by the decoder, C42) whose keys have 33 bytes and whose length fits into 64 bits. The encoder of the cosmos-sdk is modelled from its published messages; its source was not at hand. |
| C99 | Transactions that are signed and covered are accepted | partial | Any transaction that is signed, safe and covered is accepted (C99_accepted_partial); what Sign returns is accepted for the first transaction of the account with number 0 (C99_sign_partial, for any signature scheme whose signatures are valid; C99_real_partial with the modelled secp256k1 and hash functions, without that hypothesis). False in general: Sign always says number 0 and sequence 0, so it works once and for one account only (C99_fails). |
| C100 | Whoever receives coins can spend them | partial | Whoever has a balance has an account (C100_owners_partial, for addresses shorter than 128 bytes). False: an account that appears by receiving coins has no public key, never gets one, and nothing it signs is ever accepted; its coins are locked (C100_received_fails, C100_locked_fails). |
| C101 | What a key signs is accepted, and only signatures are | proved | btcec and crypto/ecdsa are modelled from their published text, their arithmetic as the group law of the curve (Model/Ecdsa); the model reproduces a published example of RFC 6979 and the key of the test of the repository. That the search for the secret number ends is not proved (no one knows); what is proved holds for every number it may return. Private keys that are multiples of N have a public key that accepts nothing (C101_zero); keys of GenPrivKey and GenPrivKeyFromSecret are not (C101_generated). |
| C102 | A public key has one form | partial | False: the x-coordinate of a compressed key may be P or larger, so points with a small x-coordinate have two keys of 33 bytes, with two addresses (C102_fails). Proved for keys with a number below P, in particular for all that are computed from private keys (C102_computed_partial). |
| C103 | The genesis account can be used with its private key | partial | The constants belong together (C103_constants) and what the key signs is accepted (C103_signs). That the first transaction is accepted is proved if Sign returned one (C103_first_partial): that the search of RFC 6979 ends for every message, with numbers that are not zero, can not be proved. An example on a chain named test is computed completely. |
| C104 | The test module creates the posts it is asked for | partial | Proved that the module can be built, which messages are admitted, and that the first creates post number 1. False for the second: the number is never increased, so it crashes the process (C104_second_fails). |
| C105 | The field arithmetic of the C library is exact | partial | Proved for multiplication and squaring (magnitude up to 8), sums, multiples, opposites, bytes, inverse, square root and choice. False for normalization at magnitude 32, which secp256k1_fe_verify allows: the first pass overflows 32 bits (C105_normalize_fails); proved up to magnitude 31 (C105_normalize_partial). |
| C106 | The group of points of the C library is the group of the curve | proved | For coordinates of magnitude up to 8 (the library allows as much to multiplication). |
| C107 | The scalars of the C library are the integers modulo the order | proved | For the functions that multiplication of points uses; products and inverses are C109. |
| C108 | The C library multiplies points | proved | Configured as in secp256.go: without the endomorphism, 32-bit limbs. Points on the curve: the function does not check that. |
| C109 | The C library multiplies and inverts scalars exactly | proved | The accumulator of 96 bits is proved not to overflow in any of the sums. The 8x32 limbs, as configured in secp256.go. |
| C110 | The C library reads and writes public keys exactly | proved | The places for keys hold the stored coordinates of the point; pointers are not NULL. |
| C111 | VerifySignature of the C library accepts exactly the valid signatures | proved | With the context of secp256k1_context_create (its table is computed and proved). The message is 32 bytes, which VerifySignature checks. |
| C112 | RecoverPubkey of the C library returns exactly the keys of a signature | proved | The identifier is below 4, which checkSignature checks (otherwise the callback would panic). |
| C113 | The C library and btcec accept the same keys and signatures | partial | False as stated: btcec reads 65 bytes after 5 and 33 bytes with a coordinate not below P, which the C library rejects (C113_keys_fails); so for every message there is a signature that the builds judge differently (C113_signatures_fails). Proved in part: all keys of the C library are keys of btcec for the same point, all others differ only in these two ways, and for keys that both read the signatures accepted are the same. |
| C114 | The hash functions of the C library are those of the standards | proved | For a machine that stores the last byte of a word first. The standards are the definitions of Model/Hash and Spec/Rfc6979. |
| C115 | The context of the C library computes multiples of the base point | proved | The loops of the generator with a seed that is given are cut off after a number of rounds; no seed is known for which they need more than one. |
| C116 | Sign of the C library makes valid signatures | partial | Exact for all hashes, keys and contexts that are reachable (C116_exact). The property in part: signatures verify and the key is recovered if r is not zero (C116_verifies_partial), the identifier is 0 or 1 if x is below the order (C116_identifier_partial). It fails: a secret number whose point has x = N gives r = 0, which the library returns and nothing accepts (C116_fails), and one with x = N + 2 an identifier that is 2 or 3 (C116_identifier_fails). The number of candidates that are tried is bounded by a parameter. |
| C117 | The C library and btcec make the same signatures | partial | For hashes below N both make the same signatures (C117_same_partial; back from the C library if r is not zero and the first candidate in the range gives a signature). It fails for the hash N and the key 1: btcec reduces the hash before it seeds the generator, the C library does not, and the signatures differ (C117_fails; the hash function is arbitrary there, no message with such a hash is known). |
| C118 | Generated code compiles | partial | Names are declared, fields and constructors of client sets agree, interfaces are implemented, for all files (C118_references, C118_fields, C118_implements). The parameters are right exactly for the names that C118_scopes_iff lists, and the functions of package meta exist exactly if primary keys are strings or bytes (C118_constructors_iff). So it fails for objects called Type, Map, Range, X or Opts (C118_fails) and for primary keys called x or meta (C118_key_fails); the files of the repository are not concerned (C118_repository). Only these rules of Go are stated; names outside ASCII are not modelled. |
| C119 | Keys of the package ecdsa sign and verify | proved | For all curves whose methods compute in a group of prime order (CurveGroup), bytes shorter than 2 GiB. The reader of DER and ECDSA of the standard library are modelled; their source was not at hand. No module uses the package. |
| C120 | The package ecdsa accepts one encoding of a signature | partial | False: bytes after the numbers are ignored (C120_extra) and N - s is accepted for s (C120_other, C120_fails). In part: without further bytes two numbers have one encoding (C120_one_partial). |
| C121 | Addresses of the package ecdsa are those of the key and the name | partial | The first address is right (C121_first_partial). Then it is kept, for all names and after another key is read (C121_cached, C121_read, C121_fails). |
| C122 | Keys of the package ecdsa are read as they are written | partial | Public keys round trip (C122_public; C122_read except for y = 0), private keys too (C122_private). False in that multiples of N are read as private keys, whose public key has the coordinates (0, 0) (C122_fails). |
| C123 | The encoders set aside for further kinds could be used for keys | partial | The bytes are exactly those of the wire format, and different arguments have different bytes (C123_encodes, C123_distinct); for float32 if widening loses nothing and the argument is a number. False of the kinds: uint64 has no conversion, bytes have no encoder (C123_kinds_fails). False of equal values: the two zeros of floating-point numbers have different bytes (C123_zeros_fails). Nothing calls this code. |
| C124 | Conversions without copying behave as those of the language | partial | The bytes are the same (C124_reads), appending leaves the string as it is (C124_append). False of assignments: they change the string, or end the process if it is a constant (C124_fails, C124_string_fails; C124_assign_partial says exactly what happens). The only caller hands the bytes to a hash function, which reads them. |
| C125 | Keys of package ecdsa are written to buffers whole, and as text without what is private | partial | Proved for buffers with room for the key (C125_written_partial, C125_read) and for the texts (C125_text, C125_private). False of smaller buffers: the first bytes are written and the number of all is returned, without an error (C125_fails). Keys with nil pointers are left out. |

## Axioms

The theorems named in the manifest, by the axioms they depend on (`#print axioms`).

* none: `C28_error_code_nonzero`, `C55_reads`, `C55_state_unchanged`, `C55_writes_rejected`, `C94_full_name`, `C96_two_arguments_fails`, `C96_unconfigured`, `C124_fails`, `C124_reads`, `C124_string_fails`
* propext: `C04_encoding_total`, `C06_interface_exact`, `C07_storage_keys_injective`, `C07_type_names_collide_with_dots_fails`, `C07_type_names_injective`, `C09_duplicate_index_fails`, `C11_repeated_field_fails`, `C12_bad_condition_rejected`, `C12_bad_typed_condition_rejected`, `C12_first_condition_partial`, `C12_second_condition_ignored_fails`, `C13_range_ignored_fails`, `C13_range_without_effect_partial`, `C21_denied_write_no_effect`, `C24_fails`, `C24_fails_example`, `C26_fails`, `C26_nested_admission_partial`, `C27_fails`, `C27_rejected_no_trace_partial`, `C28_undecodable`, `C42_refused`, `C53_partial`, `C54_unchanged`, `C54_unknown_verb`, `C59_collision_fails`, `C59_dot_fails`, `C59_member_fails`, `C59_mixed_case_fails`, `C59_singletons`, `C59_slash_fails`, `C61_bound_irrelevant`, `C62_fails`, `C63_fails`, `C64_fails`, `C67_endBlock`, `C74_hidden_fails`, `C74_range_fails`, `C74_second_selection_fails`, `C76_append`, `C77_key_address`, `C83_sizes`, `C87_application`, `C87_application_objects`, `C87_collision_fails`, `C88_items_iff`, `C88_map`, `C88_message_iff`, `C88_scalar_iff`, `C89_fails`, `C90_key_refused`, `C90_no_key`, `C92_kinds`, `C93_fails`, `C93_message_fails`, `C94_files`, `C94_imports_fails`, `C94_repository`, `C96_application_partial`, `C96_get_partial`, `C96_slash_fails`, `C96_unknown_kind`, `C97_crash_fails`, `C98_signed`, `C118_fails`, `C121_cached`, `C121_first_partial`, `C121_read`, `C122_fails`
* Quot.sound, propext: `C01_index_key_roundtrip`, `C01_index_keys_injective`, `C02_prefix_scan_exact`, `C03_truncated_list_accepted_fails`, `C05_string_key_is_identifier_iff`, `C06_interface_rejects`, `C15_accepted_definition`, `C15_duplicate_secondary_key_fails`, `C15_names_registered_once`, `C15_repeated_field_key_fails`, `C16_nested_shapes_accepted_fails`, `C16_top_level_rejected_partial`, `C18_range_iteration_complete_fails`, `C19_unknown_transition_no_effect`, `C20_deliver_only_allowed_writes`, `C20_delivered_only_if_allowed`, `C20_requests_only_allowed_writes`, `C21_denied_deliver_no_effect`, `C25_checkTx_no_effect`, `C28_checkTx_phases`, `C28_deliverTx_phases`, `C30_has`, `C30_ofNames`, `C30_union`, `C31_long_name_fails`, `C31_order_fails`, `C32_long_id_fails`, `C56_exact`, `C56_once`, `C56_order`, `C56_registration`, `C56_self`, `C57_roundtrip`, `C57_unique`, `C58_generated`, `C59_lower`, `C60_start`, `C60_stop`, `C66_fails`, `C67_beginBlock`, `C67_initChain`, `C67_initGenesis`, `C68_impersonated_delivery_allowed`, `C68_impersonation`, `C74_first_selection_partial`, `C75_current_state_partial`, `C72_deterministic`, `C82_crashes`, `C84_application_some_order`, `C90_list_refused`, `C90_object_refused`, `C92_fails`, `C93_identifiers_partial`, `C93_methods_iff`, `C93_package_fails`, `C94_all_or_nothing`, `C94_application`, `C94_definitions`, `C94_fails`, `C94_output_iff`, `C94_panic_iff`, `C94_registers_partial`, `C95_application_partial`, `C95_fails`, `C95_objects_partial`, `C95_order_fails`, `C96_config`, `C97_coin`, `C97_fails`, `C103_constants`, `C104_built`, `C107_write`, `C118_constructors_iff`, `C118_fields`, `C118_implements`, `C118_references`, `C118_repository`, `C119_keys`, `C120_fails`, `C121_fails`, `C123_kinds_fails`, `C123_kinds_partial`, `C123_sint64`, `C123_zeros_fails`, `C124_append`, `C124_assign_partial`, `C125_fails`, `C125_private`, `C125_text`, `C125_written_partial`
* Classical.choice, Quot.sound, propext: `C03_index_list_roundtrip`, `C04_encoding_injective`, `C05_found_under_its_key_partial`, `C05_long_string_key_fails`, `C06_integer_text_exact`, `C06_text_agrees`, `C08_no_panic`, `C08_store_is_typed_map`, `C09_failed_operation_changes_nothing_partial`, `C10_clear_indexes_succeeds`, `C10_index_mirrors_objects`, `C11_application_list_exact`, `C11_list_exact_partial`, `C12_list_complete_partial`, `C14_other_objects_unaffected`, `C15_registered_type_usable_partial`, `C17_get_is_last_write`, `C17_prefix_iteration`, `C18_range_iteration_partial`, `C22_phases_in_order`, `C23_build`, `C23_one_execution_handler`, `C24_create_never_overwrites_partial`, `C29_genesis_once`, `C31_confusion_fails`, `C31_decision_partial`, `C31_empty_name_fails`, `C31_order_partial`, `C32_admitted_roles_partial`, `C32_roles_kept`, `C33_never_redirected`, `C33_refers`, `C34_external_role_partial`, `C34_short_name_fails`, `C35_long_name_fails`, `C35_module_rights_partial`, `C35_module_roles`, `C35_nobody_else`, `C36_accepted_once`, `C36_no_replay`, `C37_history`, `C37_sequences`, `C37_unauthenticated`, `C38_constant`, `C38_numbered`, `C38_unique`, `C39_accepted_in_time`, `C39_timeout`, `C40_chain_partial`, `C40_ecdsa_partial`, `C40_fails`, `C40_partial`, `C40_rejected_partial`, `C41_injective`, `C41_marshalled`, `C42_accepts`, `C42_crashes`, `C42_fails`, `C42_partial`, `C42_rejects`, `C43_check_partial`, `C43_deployed_check_partial`, `C43_deployed_partial`, `C43_exactly`, `C43_fails`, `C43_partial`, `C44_fails`, `C44_partial`, `C45_deployed_partial`, `C45_fails`, `C45_genesis_partial`, `C45_holders_partial`, `C45_mint_fails`, `C45_partial`, `C46_accepted_partial`, `C46_deployed_partial`, `C46_fails`, `C46_insufficient_partial`, `C46_transfer_partial`, `C47_deployed_partial`, `C47_fails`, `C47_partial`, `C48_fails`, `C48_others_partial`, `C48_partial`, `C48_touched_partial`, `C49_fails`, `C49_fee_partial`, `C49_insufficient_partial`, `C49_payer_partial`, `C50_height`, `C50_stays`, `C51_end_block_crashes_iff`, `C51_possible`, `C51_recorded`, `C51_returned`, `C51_when`, `C52_fails`, `C52_partial`, `C53_application_partial`, `C53_fails`, `C54_crash`, `C57_accepted`, `C57_sibling`, `C58_derived`, `C58_exhausted`, `C59_application_partial`, `C59_partial`, `C61_application_on_a_map`, `C61_crashes_agree`, `C61_map_application_on_store`, `C62_listing_partial`, `C63_databases_from_contents_partial`, `C66_handlers_act_as_their_module_partial`, `C67_authorization_stays_on`, `C74_partial`, `C74_unselected_fails`, `C75_fails`, `C76_parses`, `C76_unique`, `C77_collision`, `C77_injective`, `C77_no_module`, `C77_signers`, `C77_valid`, `C78_fails`, `C78_partial`, `C65_crashes`, `C65_order_of_users`, `C70_no_endless_delivery`, `C71_only_accounts_and_coins`, `C71_reach`, `C71_read_only`, `C72_answers_or_crashes`, `C72_is_the_state_machine`, `C79_add_crashes`, `C79_add_fails`, `C79_add_jacobian_degenerate`, `C79_add_jacobian_partial`, `C79_add_partial`, `C79_closed`, `C79_double`, `C79_double_jacobian`, `C79_on_curve`, `C80_all_points`, `C80_derived`, `C80_group`, `C80_public_keys`, `C81_canonical`, `C81_fails`, `C81_roundtrip`, `C82_c_fails`, `C82_c_partial`, `C82_every_point_partial`, `C82_fails`, `C82_multiple_partial`, `C82_multiplies`, `C82_public_key_partial`, `C82_refused`, `C83_in_bounds`, `C84_application_fails`, `C84_every_order_iff`, `C84_fails`, `C84_partial`, `C84_some_order_iff`, `C85_lists_fails`, `C85_required`, `C85_schemas_iff`, `C85_schemas_partial`, `C86_application_fails`, `C86_iff`, `C86_lists_fails`, `C86_lists_iff`, `C86_partial`, `C87_application_fails`, `C87_described`, `C87_last`, `C87_partial`, `C87_paths`, `C87_variables_fails`, `C88_application_fails`, `C89_files`, `C89_partial`, `C90_bad_height`, `C90_list_answers`, `C90_object_answers`, `C90_other_paths`, `C91_fails`, `C91_handlers`, `C91_recorded_partial`, `C92_balance_partial`, `C92_get_partial`, `C92_singleton`, `C95_groups`, `C97_assumptions`, `C97_no_crash`, `C97_read_partial`, `C97_repeated`, `C97_result`, `C97_text`, `C97_trimmed`, `C98_decoded`, `C98_transfer`, `C99_accepted_partial`, `C99_fails`, `C99_real_partial`, `C99_sign_partial`, `C100_locked_fails`, `C100_owners_partial`, `C100_received_fails`, `C101_exact`, `C101_generated`, `C101_none`, `C101_owner`, `C101_public_key`, `C101_sibling`, `C101_signs`, `C101_verifies`, `C101_zero`, `C102_computed_partial`, `C102_fails`, `C102_partial`, `C103_first_partial`, `C103_signs`, `C104_admission_partial`, `C104_first_partial`, `C104_genesis_partial`, `C104_second_fails`, `C105_bytes`, `C105_cmov`, `C105_inv`, `C105_linear`, `C105_mul`, `C105_normal_unique`, `C105_normalize_fails`, `C105_normalize_partial`, `C105_sqr`, `C105_sqrt`, `C106_add`, `C106_add_affine`, `C106_add_unified`, `C106_add_zinv`, `C106_convert`, `C106_double`, `C106_eq_x`, `C106_from_x`, `C106_neg`, `C106_valid`, `C107_add`, `C107_add_bit`, `C107_compare`, `C107_negate`, `C107_read`, `C107_round`, `C107_shift`, `C107_words`, `C108_memory`, `C108_multiple`, `C108_table`, `C109_inverse`, `C109_mul`, `C109_sqr`, `C109_sqr_mul`, `C110_compress`, `C110_decompress`, `C110_parse`, `C110_reencode`, `C110_roundtrip`, `C110_seckey`, `C110_unique`, `C111_ecmult`, `C111_exact`, `C111_no_panic`, `C112_complete`, `C112_exact`, `C112_no_panic`, `C112_recovers`, `C112_valid`, `C112_verifies`, `C113_keys_fails`, `C113_keys_partial`, `C113_signatures_fails`, `C113_signatures_partial`, `C114_bytes`, `C114_hmac`, `C114_rfc6979`, `C114_sha256`, `C115_build`, `C115_infinity`, `C115_inverses`, `C115_multiple`, `C115_table`, `C116_exact`, `C116_fails`, `C116_identifier_fails`, `C116_identifier_partial`, `C116_verifies_partial`, `C117_fails`, `C117_same_partial`, `C118_key_fails`, `C118_scopes_iff`, `C119_accepts_iff`, `C119_signs`, `C120_extra`, `C120_one_partial`, `C120_other`, `C122_private`, `C122_public`, `C122_read`, `C123_distinct`, `C123_encodes`, `C125_read`
