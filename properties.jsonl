{"id": "C01", "title": "Secondary-index entries of different objects never collide", "statement": "Two index entries written for different (object type, indexed field, field value, primary key) quadruples occupy different store keys, and decoding a stored index key gives back exactly the four components that produced it.", "quantifier": "all byte strings of any length below 2^63 for each of the four components", "why_tests_cant": "The key layout concatenates variable-length attacker-influenced byte strings; a collision needs one specific pair out of infinitely many.", "anchors": ["runtime/orm/indexes/types.go: indexObjectWithSecondaryKey.marshal, unmarshal, appendLengthPrefixed, consumeLengthPrefixed"]}
{"id": "C02", "title": "A list query scans exactly its own index partition", "statement": "The key prefix scanned for a query on (type, field, value) is a prefix of an index entry if and only if the entry has the same type, the same field and the same value; what is left after the prefix is exactly the primary key of that entry.", "quantifier": "all queries and all index entries, components of any length below 2^63", "why_tests_cant": "Prefix confusion (a value that is a prefix of another value, a field name that is a prefix of another field name) can only be excluded by quantifying over all pairs.", "anchors": ["runtime/orm/indexes/types.go: marshal", "runtime/orm/indexes/list.go: prefixesToScan, List", "runtime/kv/badger.go: IteratePrefix, Key"]}
{"id": "C03", "title": "The per-object index list survives encoding", "statement": "Encoding a non-empty list of index keys and decoding it gives the same list back; every input that decodes to a list with trailing bytes is rejected.", "quantifier": "all non-empty lists of byte strings of any length, all trailing byte strings", "why_tests_cant": "Unbounded list length and element length, including varint length boundaries.", "anchors": ["runtime/orm/indexes/types.go: indexList.marshal, indexList.unmarshal"]}
{"id": "C04", "title": "Field values of one kind map to distinct index/primary keys", "statement": "For every supported field kind, two different field values are encoded to different key bytes (so two objects with different primary keys never overwrite each other and two different indexed values never share an index partition).", "quantifier": "all pairs of values of each supported kind (bool, int32, uint32, int64, uint64, string, bytes)", "why_tests_cant": "Infinite value domains, with sign extension and variable-length integers.", "anchors": ["pkg/protoutils/kindencoder/kindencoder.go: EncodeValueToBytes of every kind"]}
{"id": "C05", "title": "An object with a string primary key is found under that string", "statement": "After an object whose string primary key is s has been created, reading it with the identifier s returns it.", "quantifier": "all string primary keys s of any length and all store histories", "why_tests_cant": "The defect only shows for strings of at least 128 bytes; no finite set of short test keys reveals it.", "anchors": ["pkg/protoutils/kindencoder/kindencoder.go: kString.EncodeValueToBytes", "runtime/orm/objects/store.go: Create, Get, saveKeyRaw", "core/meta/state.go: StringID"]}
{"id": "C06", "title": "The textual, typed and stored forms of a key value agree", "statement": "For every supported kind and value, encoding the canonical text of the value gives the same key bytes as encoding the value itself, and a typed argument of the wrong Go type or a text that does not denote a value of the kind is rejected.", "quantifier": "all kinds, all values, all argument strings", "why_tests_cant": "Range boundaries of the integer kinds and the unbounded space of malformed texts.", "anchors": ["pkg/protoutils/kindencoder/kindencoder.go: EncodeString, EncodeInterface", "runtime/orm/schema/indexer.go", "runtime/orm/schema/schema.go: EncodePrimaryKeyString"]}
{"id": "C07", "title": "Objects of different types never share a storage key", "statement": "Storage keys of two objects are equal only when both their type names and their encoded primary keys are equal.", "quantifier": "all type names without '/', all primary keys including ones containing '/'", "why_tests_cant": "Needs all pairs of names and keys, including keys crafted to contain separators.", "anchors": ["runtime/orm/objects/store.go: saveKeyRaw", "runtime/orm/indexes/types.go: typePrefixedKey.bytes", "core/meta/meta.go: Name"]}
{"id": "C08", "title": "The object store behaves like a typed map", "statement": "Create, Update, Delete and Get behave as on a partial map from (type, primary key) to object: Create succeeds exactly when the key is free and non-empty, Update and Delete succeed exactly when it is taken, Get returns the last value written, and the outcome of every operation depends only on that map.", "quantifier": "all registered schemas, all finite sequences of operations, all objects", "why_tests_cant": "Interaction of object and index sub-stores over arbitrary histories.", "anchors": ["runtime/orm/store.go: Create, Get, Update, Delete", "runtime/orm/objects/store.go", "runtime/orm/indexes/store.go"]}
{"id": "C09", "title": "A failing store operation changes nothing", "statement": "If Create, Update or Delete returns an error, every later Get and List answers as if the operation had not been issued.", "quantifier": "all reachable stores, all operations, all objects", "why_tests_cant": "Partial writes between the two sub-stores only show on error paths that a suite has to enumerate.", "anchors": ["runtime/orm/store.go: Create, Update, Delete", "runtime/orm/indexes/store.go: Index, ClearIndexes"]}
{"id": "C10", "title": "Indexes always mirror the objects", "statement": "After any history of operations the index contains an entry for (type, field, value, primary key) if and only if a live object of that type has that value in that indexed field under that primary key; clearing an object's indexes never aborts with the 'data corruption' panic or with 'primary key not found'.", "quantifier": "all finite histories of Create/Update/Delete over any set of registered types", "why_tests_cant": "Histories are unbounded; stale entries left by an earlier update can surface arbitrarily later.", "anchors": ["runtime/orm/indexes/store.go: Index, ClearIndexes", "runtime/orm/store.go"]}
{"id": "C11", "title": "Listing by an indexed field returns exactly the matching live objects", "statement": "Listing a type by one indexed field and value yields each live object of that type with that field value exactly once, and nothing else, in increasing order of encoded primary key; if there is none the call reports an error.", "quantifier": "all reachable stores, all types, indexed fields and values", "why_tests_cant": "Soundness and completeness of the result set over unbounded histories.", "anchors": ["runtime/orm/store.go: List", "runtime/orm/indexes/list.go: List", "runtime/orm/iterator.go", "runtime/kv/badger.go: IteratePrefix"]}
{"id": "C12", "title": "A list query with several conditions returns only objects meeting all of them", "statement": "Every object returned by a list query satisfies every field condition given in the query.", "quantifier": "all list queries with any number of conditions, all reachable stores", "why_tests_cant": "Depends on combinations of conditions and stored data; tests list with one condition.", "anchors": ["runtime/orm/indexes/list.go: List, prefixesToScan"]}
{"id": "C13", "title": "A list range limits the result to that range", "statement": "A list query with range [start, end) returns only the matching objects at those positions.", "quantifier": "all ranges, all reachable stores", "why_tests_cant": "Ranges and result sizes are unbounded.", "anchors": ["runtime/client/client.go: ListRange", "runtime/orm/indexes/list.go: List", "core/apiserver/router/server.go: newListHandler"]}
{"id": "C14", "title": "Writing one object never affects any other object", "statement": "A Create, Update or Delete of an object leaves the result of reading any object with another type or another primary key unchanged, and listing of other types unchanged.", "quantifier": "all reachable stores, all pairs of (type, key)", "why_tests_cant": "Frame conditions quantify over all untouched state.", "anchors": ["runtime/orm/store.go", "runtime/orm/objects/store.go", "runtime/orm/indexes/store.go"]}
{"id": "C15", "title": "A schema that registers is usable", "statement": "If registering an object type with a schema definition succeeds, then creating any object of that type with a fresh non-empty primary key succeeds.", "quantifier": "all schema definitions (including repeated secondary keys) and objects", "why_tests_cant": "Registration accepts unboundedly many definitions; the failing one repeats a field.", "anchors": ["runtime/orm/schema/schema.go: parseObjectSchema", "core/schema/schema.go: Validate", "runtime/orm/indexes/store.go: Index"]}
{"id": "C16", "title": "Unsupported field shapes are rejected wherever they occur", "statement": "Registration of a type is refused if the message, or any message nested in it at any depth, contains a map field or a field of an unsupported kind.", "quantifier": "all message descriptor graphs, any nesting depth", "why_tests_cant": "Nesting depth is unbounded; tests use one level.", "anchors": ["pkg/protoutils/desc/desc.go: HasMap, HasKind, HasKinds", "runtime/orm/schema/schema.go: parseObjectSchema"]}
{"id": "C17", "title": "The key-value layer is an ordered byte map", "statement": "Get returns the last value Set and not Deleted; prefix iteration enumerates, in strictly increasing byte order and without repetition, exactly the keys having the prefix.", "quantifier": "all histories of Set/Delete, all keys, all prefixes", "why_tests_cant": "Unbounded histories and keys.", "anchors": ["runtime/kv/badger.go: Set, Get, Has, Delete, IteratePrefix"]}
{"id": "C18", "title": "Range iteration enumerates the range", "statement": "Iterating from start to end enumerates every stored key k with start <= k <= end, in order.", "quantifier": "all stores, all start and end keys", "why_tests_cant": "Needs all stores and ranges; the code uses a single-key iterator.", "anchors": ["runtime/kv/badger.go: Iterate, BadgerIterator.Valid"]}
{"id": "C19", "title": "An unknown state transition has no effect", "statement": "Delivering a state transition for which no execution handler was registered returns an error and leaves the state unchanged, whoever delivers it and whether or not admission is skipped.", "quantifier": "all module sets, all callers, all states, all unregistered transitions", "why_tests_cant": "Quantifies over every module configuration.", "anchors": ["runtime/runtime.go: deliver, runAdmissionChain", "runtime/router.go"]}
{"id": "C20", "title": "Nothing is written without authorization", "statement": "With authorization enabled, state can only change through a create, update or delete for which the authorizer, asked about exactly that verb, resource and the issuing module, answered allow without error; and a transition's handlers run only if the authorizer allowed the caller to deliver it.", "quantifier": "all module programs, all call trees of nested transitions, all authorizers that only read state", "why_tests_cant": "Call trees are unbounded and module code is arbitrary.", "anchors": ["runtime/runtime.go: Create, Update, Delete, deliver, authorized", "runtime/client.go: ModuleClient"]}
{"id": "C21", "title": "A denied request leaves the state untouched", "statement": "If the authorizer denies (or fails) a create, update, delete or deliver request, the request returns an unauthorized error and the state is unchanged (for deliver: provided admission handlers obey their contract of not writing).", "quantifier": "all states, requests, authorizers, users", "why_tests_cant": "All states and arbitrary authorizer behaviour.", "anchors": ["runtime/runtime.go: authorized, Create, Update, Delete, deliver"]}
{"id": "C22", "title": "The phases of a transition run in order and stop at the first error", "statement": "Delivering a transition runs admission handlers, the authorization check, pre-execution handlers, the execution handler and post-execution handlers in this order, each group in registration order; the first error stops everything after it and is what the caller gets.", "quantifier": "all handler lists of any length, all outcomes of each handler", "why_tests_cant": "Unbounded chains with an error at any position.", "anchors": ["runtime/runtime.go: deliver, runAdmissionChain"]}
{"id": "C23", "title": "A built runtime is well-formed", "statement": "If building succeeds, then every transition has exactly one execution handler (the one of the module declaring it), every pre/post-execution handler and every declared dependency refers to a transition that has an execution handler, every object type is registered once, no module name is empty, and at most one module is the authorizer; without any, everything is allowed.", "quantifier": "all lists of module descriptors", "why_tests_cant": "All module sets of any size, any order.", "anchors": ["runtime/builder.go: Build, installModules, installDependencies, installAuthorizer", "runtime/router.go", "runtime/orm/schema/registry.go: Add"]}
{"id": "C24", "title": "Creating an object that exists is reported as an error", "statement": "A client Create of an object that already exists returns an 'already exists' error to the caller and the process keeps running.", "quantifier": "all states and objects", "why_tests_cant": "Every caller of Create in every state; the error conversion is total only for one error.", "anchors": ["runtime/runtime.go: convertStoreError, Create"]}
{"id": "C25", "title": "Checking a transaction never changes the state", "statement": "CheckTx leaves the state unchanged for every transaction, given that admission handlers only read.", "quantifier": "all transactions, all states, all module sets whose admission handlers only read (in particular the shipped modules)", "why_tests_cant": "All transactions and states.", "anchors": ["runtime/abci.go: CheckTx", "x/authn/extensions.go", "x/distribution/extensions.go: FeeChecker"]}
{"id": "C26", "title": "A transaction rejected by CheckTx-level transition admission is rejected on delivery", "statement": "If some transition of a transaction fails its admission check in the current state, then DeliverTx of the transaction in that state does not execute that transition.", "quantifier": "all transactions, all states", "why_tests_cant": "Delivery deliberately skips the check; only a specific class of transactions exposes the difference.", "anchors": ["runtime/abci.go: DeliverTx", "runtime/runtime.go: DeliverSkipAdmissionHandlers"]}
{"id": "C27", "title": "A failed transaction leaves no trace", "statement": "If DeliverTx reports an error, the state after it equals the state before it.", "quantifier": "all transactions, all states", "why_tests_cant": "Needs failure injected at every position of a transaction with arbitrary transitions.", "anchors": ["runtime/abci.go: DeliverTx", "runtime/runtime.go: runTxPostAuthenticationChain"]}
{"id": "C28", "title": "The response code tells success from failure", "statement": "CheckTx and DeliverTx return code 0 exactly when every phase succeeded; otherwise the code is the one documented for the error class of the first failing phase, never 0.", "quantifier": "all transactions, states, errors", "why_tests_cant": "All error values including wrapped ones.", "anchors": ["runtime/errors/errors.go: ToABCIResponse", "runtime/abci.go: CheckTx, DeliverTx"]}
{"id": "C29", "title": "Default genesis can run only once", "statement": "After a successful default genesis, a second attempt returns an error and does not change the state.", "quantifier": "all module sets and states", "why_tests_cant": "Any number of intermediate operations.", "anchors": ["runtime/runtime.go: InitGenesis"]}
{"id": "C30", "title": "A set of users behaves as a set", "statement": "Users built from names contain exactly these names; the union of groups (skipping absent ones) contains exactly the members of any group; 'has' of several names is true exactly when all are members; the listing contains each member once.", "quantifier": "all lists of names and groups", "why_tests_cant": "Unbounded lists with duplicates and map iteration order.", "anchors": ["runtime/authentication/user/user.go"]}
{"id": "C31", "title": "The RBAC decision is exactly what roles and bindings say", "statement": "The authorizer allows a request if and only if every acting user has a binding to an existing role and at least one of these roles lists the resource for the verb; in every other case it denies with an error, and the answer does not depend on the order in which users are examined.", "quantifier": "all states, all user sets, verbs and resources, all map iteration orders", "why_tests_cant": "All role/binding configurations and iteration orders.", "anchors": ["core/rbac/authorizer.go: Authorize, fetchRoles", "core/rbac/v1alpha1/rbac.go: GetResourcesForVerb"]}
{"id": "C32", "title": "Only well-formed roles pass admission, and roles are never overwritten", "statement": "A create-role request is admitted only if the role id is non-empty, unused, and each listed resource is a state object (for create/get/list/update/delete) or state transition (for deliver) known to the runtime; executing a create-role request never changes an existing role.", "quantifier": "all states and requests", "why_tests_cant": "All role contents.", "anchors": ["core/rbac/ctrl_create_role.go"]}
{"id": "C33", "title": "Every role binding refers to an existing role and is never redirected", "statement": "In every reachable state each role binding refers to an existing role, and once a subject is bound its binding never changes.", "quantifier": "all ABCI histories of the application", "why_tests_cant": "Unbounded histories of transactions and blocks.", "anchors": ["core/rbac/ctrl_bind.go", "core/rbac/rbac_applier.go", "x/authn/ctrl_state_transition.go"]}
{"id": "C34", "title": "External accounts may deliver exactly the transitions marked external", "statement": "After module installation, the role given to external accounts allows delivering a transition if and only if its declaration is marked external, and allows no direct object access.", "quantifier": "all sets of module descriptors", "why_tests_cant": "All descriptor sets, including ones with equal short names.", "anchors": ["core/rbac/rbac_applier.go: PostExec, handleModule, getACL"]}
{"id": "C35", "title": "Each module gets exactly its own rights", "statement": "After module installation each module's role allows creating, reading, updating and deleting exactly its own state objects and delivering exactly its own and its declared needed transitions.", "quantifier": "all sets of module descriptors", "why_tests_cant": "All descriptor sets.", "anchors": ["core/rbac/rbac_applier.go: handleModule, extendRoleForStateObject"]}
{"id": "C36", "title": "An accepted transaction cannot be replayed", "statement": "Once a transaction has passed authentication and its sequences have been incremented, delivering the same transaction again fails authentication, in every later state reached before a sequence number wraps around.", "quantifier": "all transactions, all histories between the two deliveries", "why_tests_cant": "Arbitrary interleavings between the first and the second delivery.", "anchors": ["x/authn/extensions.go: sigVerifier, increaseSequence", "x/authn/v1alpha1/client.go: IncreaseSequence"]}
{"id": "C37", "title": "Account sequences only move forward, by one per authenticated transaction", "statement": "Delivering a transaction changes the sequence only of its signers, increments each by exactly one if the transaction passes authentication, and by nothing otherwise.", "quantifier": "all transactions, all states, all histories", "why_tests_cant": "Histories with duplicates of signers and failing transactions.", "anchors": ["x/authn/extensions.go: increaseSequence", "x/authn/ctrl_state_transition.go"]}
{"id": "C38", "title": "Account numbers are unique", "statement": "No two accounts ever have the same account number, and an account's number never changes.", "quantifier": "all ABCI histories", "why_tests_cant": "Unbounded histories through several creation paths (transaction, bank transfer, fee collection).", "anchors": ["x/authn/ctrl_state_transition.go: Exec"]}
{"id": "C39", "title": "A transaction is not executed after its timeout height", "statement": "A transaction with timeout height h > 0 passes authentication only while the current block height is at most h.", "quantifier": "all heights and transactions", "why_tests_cant": "Boundary over all 64-bit values.", "anchors": ["x/authn/extensions.go: timeoutBlockExtension"]}
{"id": "C40", "title": "Execution requires a valid signature of every signer", "statement": "A transaction passes authentication only if each declared signer has an account whose stored public key verifies the corresponding signature over the sign document built from the raw body, the raw auth info, the chain id and that signer's account number, with the sequence equal to the account's current one.", "quantifier": "all transactions and states, all verification functions", "why_tests_cant": "All transactions.", "anchors": ["x/authn/extensions.go: sigVerifier, accountExists", "x/authn/tx/decoder.go"]}
{"id": "C41", "title": "The sign document binds body, fees, chain and account", "statement": "Two sign documents with different body bytes, auth info bytes, chain id or account number have different sign bytes.", "quantifier": "all pairs of sign documents", "why_tests_cant": "Infinite pairs; needs injectivity of the encoding, including omitted default fields.", "anchors": ["x/authn/extensions.go: DirectSignBytes"]}
{"id": "C42", "title": "Decoding never accepts malformed transactions", "statement": "A transaction that decodes has at least one transition, exactly one signature per signer, a payer that is the declared one or the first signer, and no unknown fields; everything else is rejected with an error.", "quantifier": "all byte strings", "why_tests_cant": "All byte strings.", "anchors": ["x/authn/tx/decoder.go", "x/authn/tx/decode_unknowns.go"]}
{"id": "C43", "title": "No transaction can crash the node", "statement": "CheckTx and DeliverTx return a response for every transaction in every reachable state.", "quantifier": "all transactions, all reachable states", "why_tests_cant": "Crashes need specific content: wrong key length, empty address, absent account, existing address.", "anchors": ["runtime/runtime.go: convertStoreError", "x/authn/crypto/secp256k1/secp256k1.go: Address", "x/bank/handler.go", "x/authn/ctrl_state_transition.go"]}
{"id": "C44", "title": "The fee payer agreed to pay", "statement": "The account charged for a transaction is one of its authenticated signers.", "quantifier": "all transactions", "why_tests_cant": "Decoder accepts any payer string.", "anchors": ["x/authn/tx/decoder.go: authInfo", "x/distribution/extensions.go"]}
{"id": "C45", "title": "Transfers conserve the total supply", "statement": "For every denomination the sum over all balances is the same before and after any transaction.", "quantifier": "all transactions, all reachable states", "why_tests_cant": "Sums over all accounts, unbounded histories, failure half-way through a transfer.", "anchors": ["x/bank/handler.go: SendCoinsHandler.Exec, createAccountIfNotExist, SetCoins", "core/coin/v1alpha1/coin.go"]}
{"id": "C46", "title": "A transfer moves exactly the amount", "statement": "A successful transfer of amount a from x to y (x and y different) decreases each denomination of x by exactly a's amount and increases y's by exactly as much, changes no other balance, and fails without effect when x holds less than a in some denomination; a transfer to oneself changes no amount.", "quantifier": "all states, addresses and amounts", "why_tests_cant": "All amounts and denomination lists.", "anchors": ["x/bank/handler.go", "core/coin/v1alpha1/coin.go: SafeSub, SafeAdd"]}
{"id": "C47", "title": "Balances are never negative", "statement": "In every reachable state every stored balance is a list of distinct denominations with non-negative amounts.", "quantifier": "all histories", "why_tests_cant": "Unbounded histories.", "anchors": ["x/bank/handler.go", "core/coin/v1alpha1/coin.go"]}
{"id": "C48", "title": "Only the owner can spend a balance", "statement": "A transaction decreases a balance only if the owner of the balance is one of the transaction's authenticated signers.", "quantifier": "all transactions, all states", "why_tests_cant": "The attack is a specific combination of signer and message content.", "anchors": ["x/bank/handler.go: SendCoinsHandler.Exec", "x/bank/v1alpha1"]}
{"id": "C49", "title": "Fee deduction moves exactly the fee to the collector", "statement": "An authenticated transaction decreases the payer's balance by exactly its fee and increases the fee collector's by the same, before any of its transitions run; a payer whose balance is insufficient makes the transaction fail authentication without effect.", "quantifier": "all transactions and states", "why_tests_cant": "All fees and states.", "anchors": ["x/distribution/extensions.go: FeeChecker, FeeDeduction"]}
{"id": "C50", "title": "Block height seen by modules is the height of the current block", "statement": "After BeginBlock of height h the current block height readable by modules is h and remains h until the next BeginBlock, whatever transactions run in between.", "quantifier": "all ABCI histories", "why_tests_cant": "All interleavings of transactions.", "anchors": ["core/abci/handlers.go: beginBlockHandler", "runtime/abci.go: BeginBlock"]}
{"id": "C51", "title": "Validator updates can be set only at chain start or end of block", "statement": "A request to set validator updates succeeds only while the recorded stage is InitChain or EndBlock; what EndBlock returns is the value last set.", "quantifier": "all histories of stages and requests", "why_tests_cant": "All stage sequences.", "anchors": ["core/abci/handlers.go: validatorUpdatesHandler", "runtime/abci.go: EndBlock"]}
{"id": "C52", "title": "Starting from exported state works", "statement": "InitChain with a non-empty application state initialises the chain and returns.", "quantifier": "all non-empty JSON application states", "why_tests_cant": "All genesis files.", "anchors": ["runtime/abci.go: InitChain", "runtime/runtime.go: Import", "core/abci/genesis.go: Import", "core/rbac/module.go"]}
{"id": "C53", "title": "The ABCI get query returns the stored object", "statement": "Query on path get/group/kind/id returns the object stored under that identifier, for every identifier.", "quantifier": "all object types, identifiers, stores", "why_tests_cant": "Identifiers containing the separator or long identifiers.", "anchors": ["runtime/query.go: Handle, get"]}
{"id": "C54", "title": "Queries never change state and unknown verbs are rejected", "statement": "Query leaves the state unchanged for every path; a path whose first component is not one of api_resources, get, list yields code 1.", "quantifier": "all paths, all states", "why_tests_cant": "All paths.", "anchors": ["runtime/query.go"]}
{"id": "C55", "title": "Read-only clients cannot write", "statement": "Every create, update, delete or deliver through the client given to extension services returns an error and does not change the state.", "quantifier": "all states and requests", "why_tests_cant": "All requests.", "anchors": ["runtime/client/orm.go", "runtime/services.go"]}
{"id": "C56", "title": "File dependencies come in registration order", "statement": "The dependency list of a file contains every file it imports directly or indirectly exactly once, each one after all of its own imports, and never the file itself.", "quantifier": "all acyclic import graphs", "why_tests_cant": "Graphs of any shape and size, with shared dependencies.", "anchors": ["pkg/protoutils/desc/desc.go: Dependencies"]}
{"id": "C57", "title": "Stored signatures have one canonical form", "statement": "Encoding (r, s) into 64 bytes and decoding gives back (r, s); verification accepts only 64-byte signatures whose s is in the lower half of the group order, so from an accepted signature the sibling (r, n-s) is rejected.", "quantifier": "all r, s below 2^256; all byte strings", "why_tests_cant": "256-bit value space.", "anchors": ["x/authn/crypto/secp256k1/secp256k1_nocgo.go: VerifySignature, signatureFromBytes, serializeSig"]}
{"id": "C58", "title": "Derived private keys are valid scalars", "statement": "The private key derived from any secret is a 32-byte big-endian number between 1 and n-1.", "quantifier": "all secrets", "why_tests_cant": "All hash outputs.", "anchors": ["x/authn/crypto/secp256k1/secp256k1.go: GenPrivKeyFromSecret"]}
{"id": "C59", "title": "HTTP reads find the object named in the path", "statement": "A GET on the path of an object type with a primary key in the path reads the object with that primary key, for every registered object type.", "quantifier": "all schema definitions and keys", "why_tests_cant": "All primary key field names (including mixed-case ones).", "anchors": ["core/apiserver/router/server.go: CreateStateObjectHandler, newGetHandler"]}
{"id": "C60", "title": "Service start is all-or-nothing in order and stop reaches every service", "statement": "Starting services starts them in registration order, each with its own read-only client, stopping at the first failure, which is reported; stopping calls every service exactly once and reports an error if and only if some service failed.", "quantifier": "all lists of services and all outcomes", "why_tests_cant": "All lists.", "anchors": ["runtime/services.go: Start, Stop"]}
{"id": "C61", "title": "The application behaves as if objects were kept in a plain map", "statement": "For every history of ABCI requests that the application serves on the object store (two key-value databases with encoded keys and an index), the same application with objects kept in a plain map from (type, primary key) to object gives the same responses and ends with the same visible objects; the nesting depth of deliveries plays no role.", "quantifier": "all module sets, all request histories", "why_tests_cant": "All histories of all applications.", "anchors": ["runtime/abci.go", "runtime/runtime.go", "runtime/orm/store.go"]}
{"id": "C62", "title": "A listing without matches is reported to the caller", "statement": "A client List whose condition no object meets returns an error or an empty result to the caller, and the process keeps running.", "quantifier": "all states, types and conditions", "why_tests_cant": "Depends on the absence of matching objects in the current state; conversion of store errors is total only for one error.", "anchors": ["runtime/runtime.go: List, convertStoreError", "runtime/orm/indexes/list.go"]}
{"id": "C63", "title": "The databases depend only on the stored objects", "statement": "Two histories of object operations that leave the same objects leave the same contents of the object database and of the index database.", "quantifier": "all pairs of histories", "why_tests_cant": "Pairs of histories of any length.", "anchors": ["runtime/orm/indexes/store.go: ClearIndexes", "runtime/orm/store.go"]}
{"id": "C64", "title": "Without a transaction decoder transactions are rejected", "statement": "An application built without a decoder answers every CheckTx and DeliverTx with an error response.", "quantifier": "all module sets, transactions and states", "why_tests_cant": "The claim is about a configuration, for all inputs.", "anchors": ["runtime/builder.go: Build", "runtime/abci.go: CheckTx, DeliverTx"]}
{"id": "C66", "title": "A module's identity is its own", "statement": "In a built runtime the handlers of a module act under a name that no other module acts under.", "quantifier": "all lists of module descriptors", "why_tests_cant": "All module sets.", "anchors": ["runtime/builder.go: AddModule, installModules"]}
{"id": "C67", "title": "Block callbacks act as the ABCI user, and authorization stays on after InitChain", "statement": "InitChain, BeginBlock and EndBlock deliver exactly their transition as the user system:abci, with admission, and panic if that fails. The default genesis delivers the module descriptors as system:runtime and then runs the module genesis handlers in order, each as its module. Once InitChain has returned, authorization is enabled after every further history of calls.", "quantifier": "all configurations, states, requests and histories of calls", "why_tests_cant": "The claim covers every configuration and every history; tests run one application.", "anchors": ["runtime/abci.go: InitChain, BeginBlock, EndBlock", "runtime/runtime.go: InitGenesis"]}
{"id": "C68", "title": "Impersonated deliveries are authorized for the module together with the impersonated users", "statement": "When a module delivers a transition impersonating users, the delivery is authorized for, and handled as, the union of the module's own identity and exactly the impersonated users.", "quantifier": "all modules, transitions, impersonated users, authorizers and states", "why_tests_cant": "All combinations of identities and authorizers.", "anchors": ["runtime/client.go: Deliver", "runtime/authentication/user/user.go: NewUsersUnion"]}
{"id": "C74", "title": "HTTP lists answer the matching objects", "statement": "A GET on the path of the list of an object type answers exactly the stored objects of the type that meet all selections, in the range asked for.", "quantifier": "all schema definitions, selections, ranges and states", "why_tests_cant": "All combinations of types, selections and stored objects.", "anchors": ["core/apiserver/router/server.go: newListHandler", "core/apiserver/router/types.go"]}
{"id": "C75", "title": "HTTP reads at a height answer the state at that height", "statement": "A GET that names a height in its header answers what was stored after the block of that height.", "quantifier": "all histories of blocks, requests and heights", "why_tests_cant": "All pairs of histories and heights.", "anchors": ["core/apiserver/router/server.go", "runtime/client/orm.go: Get, List", "runtime/orm/store.go: LoadVersion"]}
{"id": "C76", "title": "Transactions are read by the wire format", "statement": "The bytes of a message are split into fields exactly as the protobuf wire format says: every list of fields has its bytes accepted, no other bytes are accepted, and no bytes have two readings.", "quantifier": "all byte strings", "why_tests_cant": "All byte strings, including groups nested to any depth and over-long numbers.", "anchors": ["x/authn/tx/decode_unknowns.go: unmarshalAndRejectUnknowns"]}
{"id": "C77", "title": "Signers of different keys have different addresses", "statement": "The address of a signer is a valid bech32 string with the prefix of the application; different key hashes give different addresses; no address is the name of a module.", "quantifier": "all keys, all transactions", "why_tests_cant": "Address space is infinite; checksum holds for all data.", "anchors": ["x/authn/tx/decoder.go: authInfo", "x/authn/crypto/secp256k1/secp256k1.go: Address", "x/authn/authenticator.go"]}
{"id": "C78", "title": "Coins are only sent to well-formed addresses", "statement": "If a transaction that sends coins is executed, the target is a valid address.", "quantifier": "all transactions, all reachable states", "why_tests_cant": "Nothing checks the target.", "anchors": ["x/bank/handler.go"]}
{"id": "C65", "title": "The order of the signers of a transaction does not matter", "statement": "The users of a transaction are a Go map, enumerated in an arbitrary order that may differ from node to node. Whatever the order, a history of requests gets the same responses and leaves the same objects.", "quantifier": "all histories of requests, all orders of users in all transactions", "why_tests_cant": "Go's map order is random at run time; a test sees one order per run.", "anchors": ["runtime/authentication/user/user.go: NewUsers, List", "x/authn/tx/decoder.go", "runtime/runtime.go: deliver", "x/authn/authenticator.go"]}
{"id": "C70", "title": "Every request terminates", "statement": "No request leads to an unending chain of deliveries between modules, in any history.", "quantifier": "all histories of requests", "why_tests_cant": "Handlers deliver transitions to each other; termination is a statement about all executions.", "anchors": ["runtime/runtime.go: Deliver", "x/bank/handler.go", "x/authn/ctrl_state_transition.go", "x/distribution"]}
{"id": "C71", "title": "What transactions can do", "statement": "An accepted transaction consists of account creations and coin transfers only. Delivering a transaction changes only accounts, the next account number, role bindings and balances, and no existing role binding. CheckTx, queries, Info and Commit change nothing.", "quantifier": "all transactions in all histories", "why_tests_cant": "All transactions and all states, including hostile ones.", "anchors": ["runtime/abci.go: DeliverTx, CheckTx, Query", "runtime/runtime.go", "core/rbac", "x/bank/handler.go"]}
{"id": "C72", "title": "The application is a deterministic state machine over a map of objects", "statement": "A history of requests is answered by the application exactly as a small state machine says, with the same responses and the same objects; responses and final objects are determined by the requests; a history that is not answered crashes the process.", "quantifier": "all histories of requests", "why_tests_cant": "Equivalence of two systems over all histories.", "anchors": ["runtime/abci.go", "runtime/runtime.go", "runtime/orm/store.go", "testapp/app/app.go"]}
{"id": "C79", "title": "Curve arithmetic follows the group law", "statement": "IsOnCurve decides the equation of secp256k1 modulo its prime. Add and Double return the sum and the double of points of the curve (Mathlib's elliptic curve group), with coordinates that are reduced and on the curve.", "quantifier": "all integers, all pairs of points of the curve", "why_tests_cant": "About 2^512 pairs of points; the Jacobian formulas have exceptional cases that random tests do not meet.", "anchors": ["x/authn/crypto/secp256k1/internal/secp256k1/curve.go: IsOnCurve, affineFromJacobian, Add, addJacobian, Double, doubleJacobian"]}
{"id": "C80", "title": "The curve parameters define a group of prime order", "statement": "P and N are prime, the base point lies on the curve and has order N; private keys between 1 and N - 1 have pairwise different public keys, and every private key derived from a secret has one.", "quantifier": "all private keys, all secrets, all hash functions", "why_tests_cant": "Primality, the order of the group and injectivity on 2^256 keys cannot be tested.", "anchors": ["x/authn/crypto/secp256k1/internal/secp256k1/curve.go: init", "x/authn/crypto/secp256k1/secp256k1.go: GenPrivKeyFromSecret"]}
{"id": "C81", "title": "Points are read back as they were written", "statement": "Marshal writes 65 bytes that Unmarshal reads back; every byte string that is read is the one that is written for what was read; only points of the curve are read.", "quantifier": "all coordinates below 2^256, all byte strings", "why_tests_cant": "All points and all byte strings.", "anchors": ["x/authn/crypto/secp256k1/internal/secp256k1/curve.go: Marshal, Unmarshal, readBits"]}
{"id": "C82", "title": "Scalar multiplication gives the multiple of the point", "statement": "ScalarMult and ScalarBaseMult return the multiple of the point by the scalar.", "quantifier": "all points of the curve, all scalars", "why_tests_cant": "All points and scalars.", "anchors": ["x/authn/crypto/secp256k1/internal/secp256k1/curve.go: ScalarMult, ScalarBaseMult"]}
{"id": "C83", "title": "The C library is only given buffers of the documented sizes", "statement": "Whatever the lengths of messages, keys and signatures, the wrappers call the functions of the C library on buffers of the documented sizes only (and valid recovery ids), so that its behaviour on others makes no difference; other inputs are refused.", "quantifier": "all byte strings, all behaviours of the C library", "why_tests_cant": "Reading beyond a buffer need not show in a test.", "anchors": ["x/authn/crypto/secp256k1/internal/secp256k1/secp256.go: Sign, RecoverPubkey, VerifySignature, DecompressPubkey, CompressPubkey, checkSignature"]}
{"id": "C84", "title": "Collecting the messages of the API ends", "statement": "AddRequiredMessage returns for every message type, whatever order Go chooses for iterating over its maps, and the API server builds its document.", "quantifier": "all message types and sets of messages, all orders of iteration", "why_tests_cant": "The order of iteration over maps is random; that a recursion ends for all orders and all message types cannot be tested.", "anchors": ["pkg/protoutils/oas3schema/oas3schema.go: AddRequiredMessage", "core/apiserver/router/openapi.go", "core/apiserver/module.go: Start"]}
{"id": "C85", "title": "The document describes the messages of the answers", "statement": "The messages collected for the OpenAPI document are exactly those that occur in answers of the API, directly or nested, and there is a schema for each of them.", "quantifier": "all sets of message types and state objects, all orders of iteration", "why_tests_cant": "All sets of messages and orders of iteration over maps.", "anchors": ["pkg/protoutils/oas3schema/oas3schema.go: AddRequiredMessage, Build, addSchemasToDocumentV3", "core/apiserver/router/openapi.go"]}
{"id": "C86", "title": "Every reference of the document resolves", "statement": "Every reference in an operation or a schema of the OpenAPI document names a schema of the document.", "quantifier": "all sets of message types and state objects, all orders of iteration", "why_tests_cant": "All sets of messages; the failures depend on which types share a file.", "anchors": ["pkg/protoutils/oas3schema/oas3schema.go: schemaReferenceForTypeName, fullMessageTypeName, addSchemasToDocumentV3, addDep", "pkg/protoutils/forge/list.go: List"]}
{"id": "C87", "title": "The document describes the routes", "statement": "The paths of the OpenAPI document are those of the routes of the API server; the operation of a path is the one the router serves, and its variables are declared.", "quantifier": "all sets of state objects, all orders of iteration", "why_tests_cant": "All sets of state objects with all group and kind names.", "anchors": ["pkg/protoutils/oas3schema/oas3schema.go: AddRawOperation, addPathsToDocumentV3, addOperationV3", "core/apiserver/router/server.go: CreateStateObjectHandler", "core/apiserver/router/openapi.go: newGetParams"]}
{"id": "C88", "title": "The schemas give the types of the answers", "statement": "The type that the OpenAPI document gives for a field is the type of its JSON value in the answers of the API.", "quantifier": "all fields", "why_tests_cant": "All kinds, cardinalities and message types of fields.", "anchors": ["pkg/protoutils/oas3schema/oas3schema.go: addSchemasToDocumentV3", "core/apiserver/router/server.go: writeObject"]}
{"id": "C89", "title": "The document does not depend on the order of iteration", "statement": "Whatever orders Go chooses for iterating over maps, the OpenAPI document is the same.", "quantifier": "all sets of message types and state objects, all pairs of orders of iteration", "why_tests_cant": "Orders of iteration are chosen at random by the Go runtime and cannot be enumerated.", "anchors": ["pkg/protoutils/oas3schema/oas3schema.go: AddRequiredMessage, Build, buildDocumentV3"]}
{"id": "C90", "title": "Malformed HTTP requests are refused", "statement": "The API server answers an object or a list only to requests whose path names a singleton, an object with a key or the objects of a type, whose height is absent or a positive number, and whose range and selections are well-formed; other paths are not found and other requests are bad requests.", "quantifier": "all requests, all sets of state objects, all stores", "why_tests_cant": "All paths, headers and query parameters.", "anchors": ["core/apiserver/router/server.go: newGetHandler, newSingletonGetHandler, newListHandler", "core/apiserver/router/types.go: UnmarshalURLValues, getHeight"]}
{"id": "C91", "title": "The abci module records the request being served", "statement": "While a request of consensus is served, the objects of the abci module hold its stage and data.", "quantifier": "all histories of requests", "why_tests_cant": "All histories of requests and transactions.", "anchors": ["core/abci/handlers.go", "core/abci/genesis.go", "runtime/abci.go"]}
{"id": "C92", "title": "The generated client finds the object with the given key", "statement": "The Get method generated for a state object returns an object exactly if it is stored and its primary key is the argument; for singletons, exactly if it is stored.", "quantifier": "all annotated messages, all histories of the store, all keys", "why_tests_cant": "All messages, histories and keys.", "anchors": ["pkg/modulecodegen/codegen.go", "core/meta/state.go", "runtime/orm/store.go"]}
{"id": "C93", "title": "Generated code declares each name once", "statement": "The code generated for the annotated files of a Go package declares no identifier and no method twice.", "quantifier": "all annotated files", "why_tests_cant": "All sets of names of messages.", "anchors": ["pkg/modulecodegen/codegen.go", "pkg/modulecodegen/schema.go", "pkg/modulecodegen/api_definition.go"]}
{"id": "C94", "title": "Generated definitions are those of the annotations and can be registered", "statement": "The generator writes, for exactly the annotated files asked for, the API and schema definitions of exactly the annotated messages; what it accepts can be registered.", "quantifier": "all files, all annotations", "why_tests_cant": "All files and annotations.", "anchors": ["pkg/modulecodegen/codegen.go", "pkg/modulecodegen/schema.go", "pkg/modulecodegen/api_definition.go", "runtime/orm/schema/schema.go"]}
{"id": "C95", "title": "The list of resources is complete", "statement": "The query api_resources, which the command resources of spfcli prints, lists exactly the state objects and the state transitions of the chain, in the same order each time.", "quantifier": "all sets of state objects, all orders of iteration over maps", "why_tests_cant": "All sets of state objects; orders of iteration are chosen at random by the Go runtime.", "anchors": ["runtime/query.go: apiResources", "runtime/orm/schema/registry.go: ListAPIGroups, ListKindsInGroup", "pkg/client/client.go: Resources"]}
{"id": "C96", "title": "The command line client prints the object asked for", "statement": "spfcli get with a group, a kind and a name prints the object of this type stored under the name; if there is none, or the arguments or the configuration are unusable, it reports an error.", "quantifier": "all arguments, all configurations, all states", "why_tests_cant": "All names, all states.", "anchors": ["pkg/spfcli/get.go", "pkg/spfcli/config.go", "pkg/client/client.go: Get", "runtime/query.go: get"]}
{"id": "C97", "title": "Coins are read as they are written", "statement": "The list of coins of a message is read as a balance that holds, of each denomination, the amount written in it, in a sorted list without zeros; lists that are not well-formed are refused; reading does not crash.", "quantifier": "all lists of coins", "why_tests_cant": "All texts for amounts and denominations; amounts of any size.", "anchors": ["core/coin/v1alpha1/coin.go: newBalanceFromCoins"]}
{"id": "C98", "title": "Transactions of clients are read as they are meant", "statement": "What a client of the cosmos-sdk encodes is decoded to what it said: its messages in order, its signatures with their keys and sequences, its fee, payer, memo and timeout; and the application verifies signatures of what the client signed.", "quantifier": "all transactions of clients, all signatures", "why_tests_cant": "All messages, texts, numbers, numbers of signers; lengths of any size.", "anchors": ["x/authn/tx/decoder.go", "x/authn/tx/tx.go", "testapp/module/sign.go: Sign"]}
{"id": "C99", "title": "Transactions that are signed and covered are accepted", "statement": "After any requests, a transaction that is signed by the accounts, safe, and covered by the balances is accepted; in particular what Sign returns is accepted and moves the coins.", "quantifier": "all requests before, all transactions", "why_tests_cant": "All histories of the chain and all transactions at once; balances of any size.", "anchors": ["testapp/module/sign.go: Sign", "x/authn/extensions.go", "x/bank/handler.go"]}
{"id": "C100", "title": "Whoever receives coins can spend them", "statement": "Whoever has a balance has an account with a public key that it can sign transactions with.", "quantifier": "all sequences of requests", "why_tests_cant": "Quantifies over all later requests: that an account is locked for the rest of the chain can not be tested.", "anchors": ["x/bank/handler.go", "x/authn/ctrl_state_transition.go", "x/authn/extensions.go: sigVerifier"]}
{"id": "C101", "title": "What a key signs is accepted, and only signatures are", "statement": "What Sign returns for a private key is accepted by VerifySignature of its public key for the same message; a signature is accepted exactly if the equation of ECDSA holds and s is at most half of the order; of the two forms of a signature exactly one is accepted.", "quantifier": "all private keys, messages, hash functions and choices of the secret number", "why_tests_cant": "2^256 private keys and all messages; the tests sign 500 times with random keys.", "anchors": ["x/authn/crypto/secp256k1/secp256k1_nocgo.go: Sign, VerifySignature", "x/authn/crypto/secp256k1/secp256k1.go: PubKey, GenPrivKey, GenPrivKeyFromSecret"]}
{"id": "C102", "title": "A public key has one form", "statement": "Two public keys of 33 bytes that are accepted and stand for the same point are the same bytes, so that a private key has one address.", "quantifier": "all pairs of keys", "why_tests_cant": "Two forms exist only for points whose first coordinate is below 2^256 - P, about one of 2^223 points; no random test finds one.", "anchors": ["x/authn/crypto/secp256k1/secp256k1_nocgo.go: VerifySignature", "x/authn/crypto/secp256k1/secp256k1.go: Address"]}
{"id": "C103", "title": "The genesis account can be used with its private key", "statement": "The address, public key and private key of the genesis account belong together, and on a chain of any name the first transaction that Sign makes with them is accepted.", "quantifier": "all chain identifiers, recipients and amounts", "why_tests_cant": "All names of chains, recipients and amounts at once, through signing, encoding, decoding, verification and execution.", "anchors": ["testapp/module/module.go", "testapp/module/sign.go: Sign", "x/authn/extensions.go", "x/authn/crypto/secp256k1/secp256k1.go: Address"]}
{"id": "C104", "title": "The test module creates the posts it is asked for", "statement": "After the default genesis every MsgCreatePost of an authenticated creator with title and text creates a post with a new number; any other is refused without effect.", "quantifier": "all messages, users, states of the store", "why_tests_cant": "All messages and states at once; the tests of the repository create no posts through the module.", "anchors": ["testdata/testmodule/module.go", "testdata/testmodule/v1/testmodule.proto"]}
{"id": "C105", "title": "The field arithmetic of the C library is exact", "statement": "On elements within the magnitudes that the library allows, multiplication, squaring, sums, multiples, opposites, normalization, inversion, square roots and the conversions from and to bytes compute the operations of the field of 2^256 - 2^32 - 977 elements, without overflow of 32 or 64 bits.", "quantifier": "all elements of any magnitude the library allows", "why_tests_cant": "Ten limbs of 26 to 31 bits per element: overflow happens for limbs near their bounds, which random tests never reach.", "anchors": ["x/authn/crypto/secp256k1/internal/secp256k1/libsecp256k1/src/field_10x26_impl.h", "x/authn/crypto/secp256k1/internal/secp256k1/libsecp256k1/src/field_impl.h"]}
{"id": "C106", "title": "The group of points of the C library is the group of the curve", "statement": "Doubling, the four additions, opposites, the changes of coordinates, storage, the tests for points and the point with a given first coordinate compute the group of secp256k1 for all points: equal ones, opposite ones, the one at infinity and those for which the unified formula degenerates.", "quantifier": "all representations, within the magnitudes that the library allows, of all points", "why_tests_cant": "The degenerate cases of the formulas are met with negligible probability by random points.", "anchors": ["x/authn/crypto/secp256k1/internal/secp256k1/libsecp256k1/src/group_impl.h"]}
{"id": "C107", "title": "The scalars of the C library are the integers modulo the order", "statement": "Reading and writing of bytes, sums, opposites, comparisons, the addition of powers of two and shifts of scalars are exact, and the 65 words into which a scalar is cut for multiplication are odd, between -15 and 15, and stand for the scalar with a skew of 1 or 2 modulo the order.", "quantifier": "all scalars", "why_tests_cant": "Carries through all eight limbs and the scalars next to the order or to half of it are not met by random tests.", "anchors": ["x/authn/crypto/secp256k1/internal/secp256k1/libsecp256k1/src/scalar_8x32_impl.h", "x/authn/crypto/secp256k1/internal/secp256k1/libsecp256k1/src/ecmult_const_impl.h"]}
{"id": "C108", "title": "The C library multiplies points", "statement": "secp256k1_ecmult_const computes the multiple of every point of the curve by every scalar, and secp256k1_ext_scalar_mul the coordinates of the multiple for every scalar between 1 and N - 1 and nothing for others, whatever is found in variables that are not initialized.", "quantifier": "all points of the curve, all scalars, all contents of memory", "why_tests_cant": "All points and scalars; the sums of the loop may meet equal and opposite points for some of them.", "anchors": ["x/authn/crypto/secp256k1/internal/secp256k1/libsecp256k1/src/ecmult_const_impl.h", "x/authn/crypto/secp256k1/internal/secp256k1/libsecp256k1/src/ecmult_impl.h", "x/authn/crypto/secp256k1/internal/secp256k1/ext.h"]}
{"id": "C109", "title": "The C library multiplies and inverts scalars exactly", "statement": "The product and the square of scalars are those modulo the order for all eight limbs of 32 bits, and the inverse gives one in a product with the scalar, for every scalar but zero, which has itself.", "quantifier": "all scalars; for products all contents of the eight limbs", "why_tests_cant": "The folding of 512 bits into 256 has carries that only numbers next to the bounds reach; the chain of the inverse has 253 squarings and 40 products.", "anchors": ["x/authn/crypto/secp256k1/internal/secp256k1/libsecp256k1/src/scalar_8x32_impl.h", "x/authn/crypto/secp256k1/internal/secp256k1/libsecp256k1/src/scalar_impl.h"]}
{"id": "C110", "title": "The C library reads and writes public keys exactly", "statement": "The bytes that are parsed as public keys are exactly the encodings of points with 33 bytes, or 65 bytes after 4, 6 or 7 with the right parity, with coordinates below P; they denote one point, and encoding it anew gives the one encoding of the length asked for. DecompressPubkey and CompressPubkey convert exactly; private keys are accepted exactly between 1 and N - 1.", "quantifier": "all byte strings, all points", "why_tests_cant": "The keys that are next to valid ones (coordinates not below P, points not on the curve, a wrong parity) are never met by chance.", "anchors": ["x/authn/crypto/secp256k1/internal/secp256k1/libsecp256k1/src/eckey_impl.h", "x/authn/crypto/secp256k1/internal/secp256k1/libsecp256k1/src/secp256k1.c", "x/authn/crypto/secp256k1/internal/secp256k1/ext.h", "x/authn/crypto/secp256k1/internal/secp256k1/secp256.go"]}
{"id": "C111", "title": "VerifySignature of the C library accepts exactly the valid signatures", "statement": "VerifySignature accepts exactly 64 bytes with numbers r and s for a hash of 32 bytes, if the equation of ECDSA holds for the point that the key denotes and s is at most half of the order; it does not panic; the multiplication behind it is exact for all scalars, with any contents of memory that is not initialized.", "quantifier": "all keys, hashes and signatures, all contents of uninitialized memory", "why_tests_cant": "Wrong answers for special points (equal summands, infinity, x not below the order) need inputs that no one finds by chance; false acceptance cannot be tested at all.", "anchors": ["x/authn/crypto/secp256k1/internal/secp256k1/libsecp256k1/src/ecdsa_impl.h", "x/authn/crypto/secp256k1/internal/secp256k1/libsecp256k1/src/ecmult_impl.h", "x/authn/crypto/secp256k1/internal/secp256k1/libsecp256k1/src/secp256k1.c", "x/authn/crypto/secp256k1/internal/secp256k1/ext.h", "x/authn/crypto/secp256k1/internal/secp256k1/secp256.go"]}
{"id": "C112", "title": "RecoverPubkey of the C library returns exactly the keys of a signature", "statement": "RecoverPubkey returns the key that the hash, the signature and the identifier give, and an error exactly if there is none; it does not panic. The signature is valid under that key; every key under which it is valid is returned for one of the four identifiers.", "quantifier": "all hashes and signatures with an identifier, all contents of uninitialized memory", "why_tests_cant": "The identifiers 2 and 3 belong to points whose x is not below the order, which no one has ever met.", "anchors": ["x/authn/crypto/secp256k1/internal/secp256k1/libsecp256k1/src/modules/recovery/main_impl.h", "x/authn/crypto/secp256k1/internal/secp256k1/libsecp256k1/src/ecmult_impl.h", "x/authn/crypto/secp256k1/internal/secp256k1/ext.h", "x/authn/crypto/secp256k1/internal/secp256k1/secp256.go"]}
{"id": "C113", "title": "The C library and btcec accept the same keys and signatures", "statement": "A public key is read by the C library exactly if btcec reads it, and a signature of a message is accepted by the C library for the hash exactly if the build without cgo accepts it.", "quantifier": "all keys, messages and signatures", "why_tests_cant": "Nodes with different builds would disagree about a block for one transaction with such a key; tests use keys that were generated.", "anchors": ["x/authn/crypto/secp256k1/internal/secp256k1/secp256.go", "x/authn/crypto/secp256k1/internal/secp256k1/libsecp256k1/src/eckey_impl.h", "x/authn/crypto/secp256k1/secp256k1_nocgo.go"]}
{"id": "C114", "title": "The hash functions of the C library are those of the standards", "statement": "SHA-256 (written in any parts), HMAC-SHA256 (with keys of any length) and the generator of RFC 6979 of the C library compute exactly what the standards say, whatever the memory that is not initialized holds.", "quantifier": "all messages, divisions into parts, keys, seeds and numbers of rounds", "why_tests_cant": "Messages of particular lengths meet the end of the buffer; tests try a few lengths.", "anchors": ["x/authn/crypto/secp256k1/internal/secp256k1/libsecp256k1/src/hash_impl.h"]}
{"id": "C115", "title": "The context of the C library computes multiples of the base point", "statement": "The context that the C library builds, blinded any number of times with any seeds, gives for every scalar exactly that multiple of the base point, whatever the memory that is not initialized holds; building it ends.", "quantifier": "all scalars, all contexts that can be built and blinded, all contents of uninitialized memory", "why_tests_cant": "Each of the 1024 entries of the table is used only for scalars with certain digits; the blinding takes the factor of every multiplication to another scalar.", "anchors": ["x/authn/crypto/secp256k1/internal/secp256k1/libsecp256k1/src/ecmult_gen_impl.h", "x/authn/crypto/secp256k1/internal/secp256k1/libsecp256k1/src/field_impl.h", "x/authn/crypto/secp256k1/internal/secp256k1/libsecp256k1/src/group_impl.h"]}
{"id": "C116", "title": "Sign of the C library makes valid signatures", "statement": "Sign returns r, s and the identifier for the first candidate of RFC 6979 with which there is a signature, with s at most half of the order; the signature verifies under the public key of the private key, which RecoverPubkey returns from it, and the identifier is 0 or 1.", "quantifier": "all hashes and private keys, all reachable contexts, all contents of uninitialized memory", "why_tests_cant": "The secret numbers whose point has an x not below the order (r is zero, or the identifier is 2 or 3) exist but no one has met them.", "anchors": ["x/authn/crypto/secp256k1/internal/secp256k1/libsecp256k1/src/ecdsa_impl.h", "x/authn/crypto/secp256k1/internal/secp256k1/libsecp256k1/src/modules/recovery/main_impl.h", "x/authn/crypto/secp256k1/internal/secp256k1/libsecp256k1/src/secp256k1.c", "x/authn/crypto/secp256k1/internal/secp256k1/secp256.go"]}
{"id": "C117", "title": "The C library and btcec make the same signatures", "statement": "For every private key between 1 and N - 1 and every message the signature that btcec makes is what Sign of the C library returns for the hash, before the identifier.", "quantifier": "all private keys and messages", "why_tests_cant": "The two libraries treat hashes that are not below the order differently; no message with such a hash is known.", "anchors": ["x/authn/crypto/secp256k1/secp256k1_nocgo.go", "x/authn/crypto/secp256k1/secp256k1_cgo.go", "x/authn/crypto/secp256k1/internal/secp256k1/secp256.go", "x/authn/crypto/secp256k1/internal/secp256k1/libsecp256k1/src/secp256k1.c"]}
{"id": "C118", "title": "Generated code compiles", "statement": "In the code generated for an annotated file every name that is used is declared, every struct that is made an interface has its methods, and the parameters of functions are names, different ones, that hide nothing their bodies use.", "quantifier": "all annotated files", "why_tests_cant": "All names of messages and fields and all annotations.", "anchors": ["pkg/modulecodegen/codegen.go", "pkg/modulecodegen/schema.go", "pkg/modulecodegen/api_definition.go", "pkg/modulecodegen/util.go"]}
{"id": "C119", "title": "Keys of the package ecdsa sign and verify", "statement": "A signature is accepted exactly if it holds, as a sequence of DER, two numbers that are a signature of the hash of the message under the key; what a private key signs, its public key accepts.", "quantifier": "all curves, keys, messages, bytes and random numbers", "why_tests_cant": "All curves, keys and bytes.", "anchors": ["x/authn/crypto/internal/ecdsa/pubkey.go", "x/authn/crypto/internal/ecdsa/privkey.go"]}
{"id": "C120", "title": "The package ecdsa accepts one encoding of a signature", "statement": "For a key and a message there is one sequence of bytes that is accepted for a secret number.", "quantifier": "all curves, keys, messages and bytes", "why_tests_cant": "All bytes.", "anchors": ["x/authn/crypto/internal/ecdsa/pubkey.go", "x/authn/crypto/internal/ecdsa/privkey.go"]}
{"id": "C121", "title": "Addresses of the package ecdsa are those of the key and the name", "statement": "Address returns the hash of the hash of the name and the bytes of the key, whatever was called before.", "quantifier": "all keys, names and sequences of calls", "why_tests_cant": "All sequences of calls.", "anchors": ["x/authn/crypto/internal/ecdsa/pubkey.go"]}
{"id": "C122", "title": "Keys of the package ecdsa are read as they are written", "statement": "The bytes of a key are read as this key, what is read is a key, and its bytes are those that were read.", "quantifier": "all curves, keys and bytes", "why_tests_cant": "All keys and bytes.", "anchors": ["x/authn/crypto/internal/ecdsa/pubkey.go", "x/authn/crypto/internal/ecdsa/privkey.go"]}
{"id": "C123", "title": "The encoders set aside for further kinds could be used for keys", "statement": "The conversions and encoders set aside for the kinds without support cover the same kinds, give every argument of the right type the bytes of the wire format, and equal bytes exactly to equal values.", "quantifier": "all kinds and arguments", "why_tests_cant": "All numbers of 32 and 64 bits.", "anchors": ["pkg/protoutils/kindencoder/xx_to_support.go"]}
{"id": "C124", "title": "Conversions without copying behave as those of the language", "statement": "A string converted to bytes, or bytes converted to a string, have the same bytes, and what is done with the one does not change the other.", "quantifier": "all memory, strings, slices, assignments and bytes appended", "why_tests_cant": "All contents of memory and all places of strings in it.", "anchors": ["pkg/conv/string.go"]}
{"id": "C125", "title": "Keys of package ecdsa are written to buffers whole, and as text without what is private", "statement": "MarshalTo of a public or private key writes its bytes to the buffer and returns how many it wrote. String of a public key determines its name and bytes; String of a private key is the same for all keys and never that of a public key.", "quantifier": "all curves, keys, names and buffers", "why_tests_cant": "Buffers of any size and texts of any two keys with any two names.", "anchors": ["x/authn/crypto/internal/ecdsa/pubkey.go", "x/authn/crypto/internal/ecdsa/privkey.go"]}
