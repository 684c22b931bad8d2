{
 "claims": [
  {
   "property": "C01",
   "status": "proved",
   "theorems": [
    "Verif.Props.C01_index_key_roundtrip",
    "Verif.Props.C01_index_keys_injective"
   ],
   "note": ""
  },
  {
   "property": "C02",
   "status": "proved",
   "theorems": [
    "Verif.Props.C02_prefix_scan_exact"
   ],
   "note": ""
  },
  {
   "property": "C03",
   "status": "proved",
   "theorems": [
    "Verif.Props.C03_index_list_roundtrip",
    "Verif.Props.C03_truncated_list_accepted_fails"
   ],
   "note": "Round trip proved; the decoder also accepts some truncated inputs (theorem ending in _fails)."
  },
  {
   "property": "C04",
   "status": "proved",
   "theorems": [
    "Verif.Props.C04_encoding_injective",
    "Verif.Props.C04_encoding_total"
   ],
   "note": ""
  },
  {
   "property": "C05",
   "status": "partial",
   "theorems": [
    "Verif.Props.C05_found_under_its_key_partial",
    "Verif.Props.C05_long_string_key_fails",
    "Verif.Props.C05_string_key_is_identifier_iff"
   ],
   "note": "Holds for string keys shorter than 128 bytes (at the level of encoding and of the store after any history); false for every longer key (theorem ending in _fails)."
  },
  {
   "property": "C06",
   "status": "proved",
   "theorems": [
    "Verif.Props.C06_integer_text_exact",
    "Verif.Props.C06_interface_exact",
    "Verif.Props.C06_interface_rejects",
    "Verif.Props.C06_text_agrees"
   ],
   "note": ""
  },
  {
   "property": "C07",
   "status": "proved",
   "theorems": [
    "Verif.Props.C07_storage_keys_injective",
    "Verif.Props.C07_type_names_collide_with_dots_fails",
    "Verif.Props.C07_type_names_injective"
   ],
   "note": "Type names are assumed free of '/'; group/kind pairs containing dots can collide (theorem ending in _fails)."
  },
  {
   "property": "C08",
   "status": "proved",
   "theorems": [
    "Verif.Props.C08_no_panic",
    "Verif.Props.C08_store_is_typed_map"
   ],
   "note": "Objects whose keys fit in memory (Physical); the no-panic part is for marshallable objects with encodable keys."
  },
  {
   "property": "C09",
   "status": "partial",
   "theorems": [
    "Verif.Props.C09_duplicate_index_fails",
    "Verif.Props.C09_failed_operation_changes_nothing_partial"
   ],
   "note": "Proved for schemas that list each indexed field once; false otherwise (theorem ending in _fails)."
  },
  {
   "property": "C10",
   "status": "proved",
   "theorems": [
    "Verif.Props.C10_clear_indexes_succeeds",
    "Verif.Props.C10_index_mirrors_objects"
   ],
   "note": ""
  },
  {
   "property": "C11",
   "status": "partial",
   "theorems": [
    "Verif.Props.C11_application_list_exact",
    "Verif.Props.C11_list_exact_partial",
    "Verif.Props.C11_repeated_field_fails"
   ],
   "note": "Proved for key fields that are not repeated fields, and without restriction for every state of the application. False for repeated string fields, which are indexed by their printed form (theorem ending in _fails)."
  },
  {
   "property": "C12",
   "status": "partial",
   "theorems": [
    "Verif.Props.C12_bad_condition_rejected",
    "Verif.Props.C12_bad_typed_condition_rejected",
    "Verif.Props.C12_first_condition_partial",
    "Verif.Props.C12_list_complete_partial",
    "Verif.Props.C12_second_condition_ignored_fails"
   ],
   "note": "Proved: all objects meeting all conditions are returned, bad conditions are rejected, and the answer is that to the first condition alone (C12_first_condition_partial). False as stated: only the first condition is used (theorem ending in _fails). Key fields are not repeated fields."
  },
  {
   "property": "C13",
   "status": "partial",
   "theorems": [
    "Verif.Props.C13_range_ignored_fails",
    "Verif.Props.C13_range_without_effect_partial"
   ],
   "note": "False as stated: the range is ignored (theorem ending in _fails); proved: it has no effect."
  },
  {
   "property": "C14",
   "status": "proved",
   "theorems": [
    "Verif.Props.C14_other_objects_unaffected"
   ],
   "note": ""
  },
  {
   "property": "C15",
   "status": "partial",
   "theorems": [
    "Verif.Props.C15_accepted_definition",
    "Verif.Props.C15_duplicate_secondary_key_fails",
    "Verif.Props.C15_names_registered_once",
    "Verif.Props.C15_registered_type_usable_partial",
    "Verif.Props.C15_repeated_field_key_fails"
   ],
   "note": "Proved for schemas with distinct, non-repeated key fields; false otherwise (theorems ending in _fails)."
  },
  {
   "property": "C16",
   "status": "partial",
   "theorems": [
    "Verif.Props.C16_nested_shapes_accepted_fails",
    "Verif.Props.C16_top_level_rejected_partial"
   ],
   "note": "Proved for the top-level message; nested messages are not inspected (theorem ending in _fails)."
  },
  {
   "property": "C17",
   "status": "proved",
   "theorems": [
    "Verif.Props.C17_get_is_last_write",
    "Verif.Props.C17_prefix_iteration"
   ],
   "note": ""
  },
  {
   "property": "C18",
   "status": "partial",
   "theorems": [
    "Verif.Props.C18_range_iteration_complete_fails",
    "Verif.Props.C18_range_iteration_partial"
   ],
   "note": "False as stated: range iteration yields at most the start key."
  },
  {
   "property": "C19",
   "status": "proved",
   "theorems": [
    "Verif.Props.C19_unknown_transition_no_effect"
   ],
   "note": "If admission is skipped the authorizer is asked first and is assumed to answer."
  },
  {
   "property": "C20",
   "status": "proved",
   "theorems": [
    "Verif.Props.C20_deliver_only_allowed_writes",
    "Verif.Props.C20_delivered_only_if_allowed",
    "Verif.Props.C20_requests_only_allowed_writes"
   ],
   "note": "For deliveries and for all ABCI requests except InitChain (during which authorization is off)."
  },
  {
   "property": "C21",
   "status": "proved",
   "theorems": [
    "Verif.Props.C21_denied_deliver_no_effect",
    "Verif.Props.C21_denied_write_no_effect"
   ],
   "note": ""
  },
  {
   "property": "C22",
   "status": "proved",
   "theorems": [
    "Verif.Props.C22_phases_in_order"
   ],
   "note": ""
  },
  {
   "property": "C23",
   "status": "proved",
   "theorems": [
    "Verif.Props.C23_build",
    "Verif.Props.C23_one_execution_handler"
   ],
   "note": "Characterises exactly when a build succeeds and what it produces."
  },
  {
   "property": "C24",
   "status": "partial",
   "theorems": [
    "Verif.Props.C24_create_never_overwrites_partial",
    "Verif.Props.C24_fails",
    "Verif.Props.C24_fails_example"
   ],
   "note": "False as stated: the process panics (theorems with _fails). Proved: creating never overwrites."
  },
  {
   "property": "C25",
   "status": "proved",
   "theorems": [
    "Verif.Props.C25_checkTx_no_effect"
   ],
   "note": "For all applications whose admission handlers only read."
  },
  {
   "property": "C26",
   "status": "partial",
   "theorems": [
    "Verif.Props.C26_fails",
    "Verif.Props.C26_nested_admission_partial"
   ],
   "note": "False as stated (theorem ending in _fails): DeliverTx skips transition admission. Proved for deliveries made by modules and by the engine."
  },
  {
   "property": "C27",
   "status": "partial",
   "theorems": [
    "Verif.Props.C27_fails",
    "Verif.Props.C27_rejected_no_trace_partial"
   ],
   "note": "False as stated (theorem ending in _fails). Proved for transactions that do not decode or fail transaction admission."
  },
  {
   "property": "C28",
   "status": "proved",
   "theorems": [
    "Verif.Props.C28_checkTx_phases",
    "Verif.Props.C28_deliverTx_phases",
    "Verif.Props.C28_error_code_nonzero",
    "Verif.Props.C28_undecodable"
   ],
   "note": ""
  },
  {
   "property": "C29",
   "status": "proved",
   "theorems": [
    "Verif.Props.C29_genesis_once"
   ],
   "note": ""
  },
  {
   "property": "C30",
   "status": "proved",
   "theorems": [
    "Verif.Props.C30_has",
    "Verif.Props.C30_ofNames",
    "Verif.Props.C30_union"
   ],
   "note": ""
  },
  {
   "property": "C31",
   "status": "partial",
   "theorems": [
    "Verif.Props.C31_confusion_fails",
    "Verif.Props.C31_decision_partial",
    "Verif.Props.C31_empty_name_fails",
    "Verif.Props.C31_long_name_fails",
    "Verif.Props.C31_order_fails",
    "Verif.Props.C31_order_partial"
   ],
   "note": "Exact decision and independence of the order for users and roles with plain names (1..127 bytes), in every state the store can reach; fails for empty names (crash, order-dependent) and long names (bound but denied; another user without a binding is allowed)."
  },
  {
   "property": "C32",
   "status": "partial",
   "theorems": [
    "Verif.Props.C32_admitted_roles_partial",
    "Verif.Props.C32_long_id_fails",
    "Verif.Props.C32_roles_kept"
   ],
   "note": "Admission and preservation of existing objects for all requests and states; ids of 128 bytes or more are admitted although in use (the delivery then crashes, nothing is overwritten)."
  },
  {
   "property": "C33",
   "status": "proved",
   "theorems": [
    "Verif.Props.C33_never_redirected",
    "Verif.Props.C33_refers"
   ],
   "note": "In every state reached by the application, for every library satisfying DecodesWell."
  },
  {
   "property": "C34",
   "status": "partial",
   "theorems": [
    "Verif.Props.C34_external_role_partial",
    "Verif.Props.C34_short_name_fails"
   ],
   "note": "Exact for all sets of modules whose transitions are unambiguously declared in their files; fails if a dependency declares a message of the same short name."
  },
  {
   "property": "C35",
   "status": "partial",
   "theorems": [
    "Verif.Props.C35_long_name_fails",
    "Verif.Props.C35_module_rights_partial",
    "Verif.Props.C35_module_roles",
    "Verif.Props.C35_nobody_else"
   ],
   "note": "Contents of the roles exact for all sets of modules; rights of the module itself exact for names of at most 122 bytes, longer names get a role that is silently not bound."
  },
  {
   "property": "C36",
   "status": "proved",
   "theorems": [
    "Verif.Props.C36_accepted_once",
    "Verif.Props.C36_no_replay"
   ],
   "note": "Over all served histories of the application; decoding, signature checking and coin parsing are parameters."
  },
  {
   "property": "C37",
   "status": "proved",
   "theorems": [
    "Verif.Props.C37_history",
    "Verif.Props.C37_sequences",
    "Verif.Props.C37_unauthenticated"
   ],
   "note": ""
  },
  {
   "property": "C38",
   "status": "proved",
   "theorems": [
    "Verif.Props.C38_constant",
    "Verif.Props.C38_numbered",
    "Verif.Props.C38_unique"
   ],
   "note": "Uniqueness while fewer than 2^64 accounts have been created (the counter is a uint64 and wraps)."
  },
  {
   "property": "C39",
   "status": "proved",
   "theorems": [
    "Verif.Props.C39_accepted_in_time",
    "Verif.Props.C39_timeout"
   ],
   "note": ""
  },
  {
   "property": "C40",
   "status": "partial",
   "theorems": [
    "Verif.Props.C40_chain_partial",
    "Verif.Props.C40_ecdsa_partial",
    "Verif.Props.C40_fails",
    "Verif.Props.C40_partial",
    "Verif.Props.C40_rejected_partial"
   ],
   "note": "False as stated: the key carried by the transaction is used, the stored one is ignored (theorem ending in _fails). Proved: every signer has an account with some key and the expected sequence, and the key in the transaction verifies the signature over the sign document; a transaction for which this does not hold is rejected without effect. With the modelled secp256k1, each signer gives a key that belongs to exactly one private key, and the equation of ECDSA holds (C40_ecdsa_partial)."
  },
  {
   "property": "C41",
   "status": "proved",
   "theorems": [
    "Verif.Props.C41_injective",
    "Verif.Props.C41_marshalled"
   ],
   "note": "Byte strings shorter than 2^64, as in Go."
  },
  {
   "property": "C42",
   "status": "partial",
   "theorems": [
    "Verif.Props.C42_accepts",
    "Verif.Props.C42_crashes",
    "Verif.Props.C42_fails",
    "Verif.Props.C42_partial",
    "Verif.Props.C42_refused",
    "Verif.Props.C42_rejects"
   ],
   "note": "False as stated (theorem ending in _fails): unknown fields of nested messages are accepted, and keys that do not have 33 bytes crash the decoder. Proved exactly which bytes are accepted, crash and are rejected. The content of transitions that only modules may request is left out where nothing reads it (C42_refused)."
  },
  {
   "property": "C43",
   "status": "partial",
   "theorems": [
    "Verif.Props.C43_check_partial",
    "Verif.Props.C43_deployed_check_partial",
    "Verif.Props.C43_deployed_partial",
    "Verif.Props.C43_exactly",
    "Verif.Props.C43_fails",
    "Verif.Props.C43_partial"
   ],
   "note": "False as stated: C43_fails gives transactions (bytes, through the modelled decoder) that crash CheckTx and DeliverTx for every fuel >= 10. C43_exactly says exactly when DeliverTx crashes; C43_partial and C43_check_partial prove that transactions meeting explicit sufficient conditions are answered: SafeTx / SafeCheck, keys of 33 bytes, addresses shorter than 128 bytes in the history, and the assumptions CoinsOk/TextCoins on cosmos-sdk coin parsing, which are proved of the modelled parser (C97_assumptions, C43_deployed_partial). Missing: transactions that are not safe do crash, so the full statement is not provable."
  },
  {
   "property": "C44",
   "status": "partial",
   "theorems": [
    "Verif.Props.C44_fails",
    "Verif.Props.C44_partial"
   ],
   "note": "False as stated (theorem ending in _fails): any string can be declared as payer. Proved for transactions that do not declare a payer."
  },
  {
   "property": "C45",
   "status": "partial",
   "theorems": [
    "Verif.Props.C45_deployed_partial",
    "Verif.Props.C45_fails",
    "Verif.Props.C45_genesis_partial",
    "Verif.Props.C45_holders_partial",
    "Verif.Props.C45_mint_fails",
    "Verif.Props.C45_partial"
   ],
   "note": "Proved when transfers name addresses shorter than 128 bytes; false otherwise because longer addresses share a storage key: C45_fails burns coins and C45_mint_fails mints coins. Depends on CoinsOk, which is proved of the modelled coin parser of the cosmos-sdk (C97_assumptions, C45_deployed_partial)."
  },
  {
   "property": "C46",
   "status": "partial",
   "theorems": [
    "Verif.Props.C46_accepted_partial",
    "Verif.Props.C46_deployed_partial",
    "Verif.Props.C46_fails",
    "Verif.Props.C46_insufficient_partial",
    "Verif.Props.C46_transfer_partial"
   ],
   "note": "Proved after histories with addresses shorter than 128 bytes, under CoinsOk, which is proved of the modelled coin parser (C46_deployed_partial); false otherwise (theorem ending in _fails)."
  },
  {
   "property": "C47",
   "status": "partial",
   "theorems": [
    "Verif.Props.C47_deployed_partial",
    "Verif.Props.C47_fails",
    "Verif.Props.C47_partial"
   ],
   "note": "Proved of what a stored balance is read as (through the coin parser, under CoinsOk, which is proved of the modelled one: C47_deployed_partial), after histories with addresses shorter than 128 bytes; false of the stored coins as written (theorem ending in _fails)."
  },
  {
   "property": "C48",
   "status": "partial",
   "theorems": [
    "Verif.Props.C48_fails",
    "Verif.Props.C48_others_partial",
    "Verif.Props.C48_partial",
    "Verif.Props.C48_touched_partial"
   ],
   "note": "False as stated: the bank does not check the sender (theorem ending in _fails). Proved: exactly the accounts named as payer, source or target are touched."
  },
  {
   "property": "C49",
   "status": "partial",
   "theorems": [
    "Verif.Props.C49_fails",
    "Verif.Props.C49_fee_partial",
    "Verif.Props.C49_insufficient_partial",
    "Verif.Props.C49_payer_partial"
   ],
   "note": "Proved after histories with addresses shorter than 128 bytes, under CoinsOk, which is proved of the modelled coin parser (C97_assumptions); false otherwise (theorem ending in _fails)."
  },
  {
   "property": "C50",
   "status": "proved",
   "theorems": [
    "Verif.Props.C50_height",
    "Verif.Props.C50_stays"
   ],
   "note": ""
  },
  {
   "property": "C51",
   "status": "proved",
   "theorems": [
    "Verif.Props.C51_end_block_crashes_iff",
    "Verif.Props.C51_possible",
    "Verif.Props.C51_recorded",
    "Verif.Props.C51_returned",
    "Verif.Props.C51_when"
   ],
   "note": "Over histories of requests interleaved with module requests to set the updates, at any point. EndBlock returns what was last set, converted as Go does; C51_end_block_crashes_iff says that it crashes exactly if an update last set has no usable public key."
  },
  {
   "property": "C52",
   "status": "partial",
   "theorems": [
    "Verif.Props.C52_fails",
    "Verif.Props.C52_partial"
   ],
   "note": "False as stated: a non-empty application state panics (theorem ending in _fails). Proved for the default genesis."
  },
  {
   "property": "C53",
   "status": "partial",
   "theorems": [
    "Verif.Props.C53_application_partial",
    "Verif.Props.C53_fails",
    "Verif.Props.C53_partial"
   ],
   "note": "Proved for identifiers without a slash; false otherwise (theorem ending in _fails)."
  },
  {
   "property": "C54",
   "status": "proved",
   "theorems": [
    "Verif.Props.C54_crash",
    "Verif.Props.C54_unchanged",
    "Verif.Props.C54_unknown_verb"
   ],
   "note": "For every configuration; also that unknown verbs are answered by code 1."
  },
  {
   "property": "C55",
   "status": "proved",
   "theorems": [
    "Verif.Props.C55_reads",
    "Verif.Props.C55_state_unchanged",
    "Verif.Props.C55_writes_rejected"
   ],
   "note": "For every store, and for every program using the client."
  },
  {
   "property": "C56",
   "status": "proved",
   "theorems": [
    "Verif.Props.C56_exact",
    "Verif.Props.C56_once",
    "Verif.Props.C56_order",
    "Verif.Props.C56_registration",
    "Verif.Props.C56_self"
   ],
   "note": "For files in whose import trees a path names one file (PathsName)."
  },
  {
   "property": "C57",
   "status": "proved",
   "theorems": [
    "Verif.Props.C57_accepted",
    "Verif.Props.C57_roundtrip",
    "Verif.Props.C57_sibling",
    "Verif.Props.C57_unique"
   ],
   "note": "Hash function and curve arithmetic of btcec are parameters."
  },
  {
   "property": "C58",
   "status": "proved",
   "theorems": [
    "Verif.Props.C58_derived",
    "Verif.Props.C58_exhausted",
    "Verif.Props.C58_generated"
   ],
   "note": "For any hash function; also for keys generated from random bytes."
  },
  {
   "property": "C59",
   "status": "partial",
   "theorems": [
    "Verif.Props.C59_application_partial",
    "Verif.Props.C59_collision_fails",
    "Verif.Props.C59_dot_fails",
    "Verif.Props.C59_lower",
    "Verif.Props.C59_member_fails",
    "Verif.Props.C59_mixed_case_fails",
    "Verif.Props.C59_partial",
    "Verif.Props.C59_singletons",
    "Verif.Props.C59_slash_fails"
   ],
   "note": "Proved for lower-case primary keys and keys that can be a segment of a path; false for mixed-case primary keys, keys with a slash, \".\" and \"..\", and types whose names differ in case only (theorems ending in _fails). The router of gorilla/mux is modelled as far as it is used. Key fields are not repeated fields."
  },
  {
   "property": "C60",
   "status": "proved",
   "theorems": [
    "Verif.Props.C60_start",
    "Verif.Props.C60_stop"
   ],
   "note": ""
  },
  {
   "property": "C61",
   "status": "proved",
   "theorems": [
    "Verif.Props.C61_application_on_a_map",
    "Verif.Props.C61_bound_irrelevant",
    "Verif.Props.C61_crashes_agree",
    "Verif.Props.C61_map_application_on_store"
   ],
   "note": ""
  },
  {
   "property": "C62",
   "status": "partial",
   "theorems": [
    "Verif.Props.C62_fails",
    "Verif.Props.C62_listing_partial"
   ],
   "note": "False as stated: the process panics (theorem ending in _fails). Proved: a listing that returns yields at least one object, those of the store."
  },
  {
   "property": "C63",
   "status": "partial",
   "theorems": [
    "Verif.Props.C63_databases_from_contents_partial",
    "Verif.Props.C63_fails"
   ],
   "note": "False as stated (theorem ending in _fails): index key lists of deleted objects stay. Proved for the object database and the index entries."
  },
  {
   "property": "C64",
   "status": "partial",
   "theorems": [
    "Verif.Props.C64_fails"
   ],
   "note": "False as stated for every application: the process crashes (theorem ending in _fails); nothing of the property holds."
  },
  {
   "property": "C66",
   "status": "partial",
   "theorems": [
    "Verif.Props.C66_fails",
    "Verif.Props.C66_handlers_act_as_their_module_partial"
   ],
   "note": "False as stated: duplicate names are accepted (theorem ending in _fails). Proved: handlers act under the name of their module."
  },
  {
   "property": "C67",
   "status": "proved",
   "theorems": [
    "Verif.Props.C67_authorization_stays_on",
    "Verif.Props.C67_beginBlock",
    "Verif.Props.C67_endBlock",
    "Verif.Props.C67_initChain",
    "Verif.Props.C67_initGenesis"
   ],
   "note": ""
  },
  {
   "property": "C68",
   "status": "proved",
   "theorems": [
    "Verif.Props.C68_impersonated_delivery_allowed",
    "Verif.Props.C68_impersonation"
   ],
   "note": ""
  },
  {
   "property": "C74",
   "status": "partial",
   "theorems": [
    "Verif.Props.C74_first_selection_partial",
    "Verif.Props.C74_hidden_fails",
    "Verif.Props.C74_partial",
    "Verif.Props.C74_range_fails",
    "Verif.Props.C74_second_selection_fails",
    "Verif.Props.C74_unselected_fails"
   ],
   "note": "Proved for one selection; false without a selection (always refused), for several selections, for ranges, and for types whose plural is the name of a singleton (theorems ending in _fails). Key fields are not repeated fields."
  },
  {
   "property": "C75",
   "status": "partial",
   "theorems": [
    "Verif.Props.C75_current_state_partial",
    "Verif.Props.C75_fails"
   ],
   "note": "False as stated: the height is ignored (theorem ending in _fails). Proved that the answer is that for the state stored."
  },
  {
   "property": "C76",
   "status": "proved",
   "theorems": [
    "Verif.Props.C76_append",
    "Verif.Props.C76_parses",
    "Verif.Props.C76_unique"
   ],
   "note": "For the wire-format reader of the model, which describes protobuf-go."
  },
  {
   "property": "C77",
   "status": "proved",
   "theorems": [
    "Verif.Props.C77_collision",
    "Verif.Props.C77_injective",
    "Verif.Props.C77_key_address",
    "Verif.Props.C77_no_module",
    "Verif.Props.C77_signers",
    "Verif.Props.C77_valid"
   ],
   "note": "Hash functions are parameters; different hashes give different addresses."
  },
  {
   "property": "C78",
   "status": "partial",
   "theorems": [
    "Verif.Props.C78_fails",
    "Verif.Props.C78_partial"
   ],
   "note": "False as stated (theorem ending in _fails). Proved for the addresses of signers."
  },
  {
   "property": "C65",
   "status": "proved",
   "theorems": [
    "Verif.Props.C65_crashes",
    "Verif.Props.C65_order_of_users"
   ],
   "note": "Assumes DecodesWell, which is proved of the modelled decoder."
  },
  {
   "property": "C70",
   "status": "proved",
   "theorems": [
    "Verif.Props.C70_no_endless_delivery"
   ],
   "note": "Assumes DecodesWell, which is proved of the modelled decoder. The bound of ten nested deliveries is part of the statement."
  },
  {
   "property": "C71",
   "status": "proved",
   "theorems": [
    "Verif.Props.C71_only_accounts_and_coins",
    "Verif.Props.C71_reach",
    "Verif.Props.C71_read_only"
   ],
   "note": "Assumes DecodesWell, which is proved of the modelled decoder."
  },
  {
   "property": "C72",
   "status": "proved",
   "theorems": [
    "Verif.Props.C72_answers_or_crashes",
    "Verif.Props.C72_deterministic",
    "Verif.Props.C72_is_the_state_machine"
   ],
   "note": "Assumes DecodesWell, which is proved of the modelled decoder. The state machine is Spec/Chain.lean with Spec/Machine.lean and Spec/Genesis.lean."
  },
  {
   "property": "C79",
   "status": "partial",
   "theorems": [
    "Verif.Props.C79_add_crashes",
    "Verif.Props.C79_add_fails",
    "Verif.Props.C79_add_jacobian_degenerate",
    "Verif.Props.C79_add_jacobian_partial",
    "Verif.Props.C79_add_partial",
    "Verif.Props.C79_closed",
    "Verif.Props.C79_double",
    "Verif.Props.C79_double_jacobian",
    "Verif.Props.C79_on_curve"
   ],
   "note": "False for Add on points with the same x-coordinate, a point and itself or its opposite: Add crashes (C79_add_fails); C79_add_crashes says exactly when, for all integers. Double, IsOnCurve and closure are proved in full."
  },
  {
   "property": "C80",
   "status": "proved",
   "theorems": [
    "Verif.Props.C80_all_points",
    "Verif.Props.C80_derived",
    "Verif.Props.C80_group",
    "Verif.Props.C80_public_keys"
   ],
   "note": "P and N are proved prime by certificates that the kernel checks; the order is computed with the modelled functions. The group of points has exactly N elements, proved without the theorem of Hasse (card_points, C80_all_points): every point other than infinity is a multiple of the base point."
  },
  {
   "property": "C81",
   "status": "partial",
   "theorems": [
    "Verif.Props.C81_canonical",
    "Verif.Props.C81_fails",
    "Verif.Props.C81_roundtrip"
   ],
   "note": "Round trip and canonicity are proved in full. That only points of the curve are read is false: Unmarshal does not check the equation (C81_fails)."
  },
  {
   "property": "C82",
   "status": "partial",
   "theorems": [
    "Verif.Props.C82_c_fails",
    "Verif.Props.C82_c_partial",
    "Verif.Props.C82_crashes",
    "Verif.Props.C82_every_point_partial",
    "Verif.Props.C82_fails",
    "Verif.Props.C82_multiple_partial",
    "Verif.Props.C82_multiplies",
    "Verif.Props.C82_public_key_partial",
    "Verif.Props.C82_refused"
   ],
   "note": "For every point, with the code of the C library (C82_multiplies, C82_c_partial) or any that satisfies Multiplies. False for scalars that are zero, not below N, or longer than 32 bytes: no point or a crash (C82_refused, C82_crashes, C82_fails, C82_c_fails)."
  },
  {
   "property": "C83",
   "status": "proved",
   "theorems": [
    "Verif.Props.C83_in_bounds",
    "Verif.Props.C83_sizes"
   ],
   "note": "The C functions are arbitrary parameters. The sizes are those documented in ext.h; no theorem is about the C code."
  },
  {
   "property": "C84",
   "status": "partial",
   "theorems": [
    "Verif.Props.C84_application_fails",
    "Verif.Props.C84_application_some_order",
    "Verif.Props.C84_every_order_iff",
    "Verif.Props.C84_fails",
    "Verif.Props.C84_partial",
    "Verif.Props.C84_some_order_iff"
   ],
   "note": "Exact conditions for returning with every order and with some order are proved. False in general (C84_fails), and for the application with some order: the module descriptors contain descriptions of protobuf messages, which nest (C84_application_fails). An order chosen at random ends with probability one; that is not modelled."
  },
  {
   "property": "C85",
   "status": "partial",
   "theorems": [
    "Verif.Props.C85_lists_fails",
    "Verif.Props.C85_required",
    "Verif.Props.C85_schemas_iff",
    "Verif.Props.C85_schemas_partial"
   ],
   "note": "The messages collected are proved in full (C85_required), and which of them have schemas (C85_schemas_iff): all of them if they are declared at the top level of files and paths are unique (C85_schemas_partial). False for the lists of the second of two objects declared in one file: they occur in answers and have no schema (C85_lists_fails; C86_application_fails shows it in the application)."
  },
  {
   "property": "C86",
   "status": "partial",
   "theorems": [
    "Verif.Props.C86_application_fails",
    "Verif.Props.C86_iff",
    "Verif.Props.C86_lists_fails",
    "Verif.Props.C86_lists_iff",
    "Verif.Props.C86_partial"
   ],
   "note": "C86_iff says exactly when a reference resolves. False for messages declared inside others and for the second list from a file (C86_lists_fails); in the application exactly six references do not resolve (C86_application_fails). Holds for top-level messages with unique names and paths."
  },
  {
   "property": "C87",
   "status": "partial",
   "theorems": [
    "Verif.Props.C87_application",
    "Verif.Props.C87_application_fails",
    "Verif.Props.C87_application_objects",
    "Verif.Props.C87_collision_fails",
    "Verif.Props.C87_described",
    "Verif.Props.C87_last",
    "Verif.Props.C87_partial",
    "Verif.Props.C87_paths",
    "Verif.Props.C87_variables_fails"
   ],
   "note": "The paths agree in general. The operation is the last one registered, the router serves the first (C87_collision_fails); variables of paths are never declared (C87_variables_fails)."
  },
  {
   "property": "C88",
   "status": "partial",
   "theorems": [
    "Verif.Props.C88_application_fails",
    "Verif.Props.C88_items_iff",
    "Verif.Props.C88_map",
    "Verif.Props.C88_message_iff",
    "Verif.Props.C88_scalar_iff"
   ],
   "note": "Exact conditions by kind and of maps (C88_map). False for integers of 64 bits, enums, groups, durations and field masks (C88_application_fails). Wrapper and struct types are not covered."
  },
  {
   "property": "C89",
   "status": "partial",
   "theorems": [
    "Verif.Props.C89_fails",
    "Verif.Props.C89_files",
    "Verif.Props.C89_partial"
   ],
   "note": "Proved if names and paths are unique and one file has services, as in the application. False with two such files: the title changes (C89_fails)."
  },
  {
   "property": "C90",
   "status": "proved",
   "theorems": [
    "Verif.Props.C90_bad_height",
    "Verif.Props.C90_key_refused",
    "Verif.Props.C90_list_answers",
    "Verif.Props.C90_list_refused",
    "Verif.Props.C90_no_key",
    "Verif.Props.C90_object_answers",
    "Verif.Props.C90_object_refused",
    "Verif.Props.C90_other_paths"
   ],
   "note": "A malformed height on a path that is not found is answered by \"not found\"."
  },
  {
   "property": "C91",
   "status": "partial",
   "theorems": [
    "Verif.Props.C91_fails",
    "Verif.Props.C91_handlers",
    "Verif.Props.C91_recorded_partial"
   ],
   "note": "Holds for InitChain, BeginBlock and EndBlock. False for CheckTx and DeliverTx: nothing delivers their transitions, and no transaction is ever recorded (C91_fails); the handlers themselves are right (C91_handlers)."
  },
  {
   "property": "C92",
   "status": "partial",
   "theorems": [
    "Verif.Props.C92_balance_partial",
    "Verif.Props.C92_fails",
    "Verif.Props.C92_get_partial",
    "Verif.Props.C92_kinds",
    "Verif.Props.C92_singleton"
   ],
   "note": "Proved for string and bytes keys of 1 to 127 bytes and for singletons, for all histories of the store; applied to the balances of the application. False for keys of other kinds, which can be registered: the generated code does not compile (C92_fails)."
  },
  {
   "property": "C93",
   "status": "partial",
   "theorems": [
    "Verif.Props.C93_fails",
    "Verif.Props.C93_identifiers_partial",
    "Verif.Props.C93_message_fails",
    "Verif.Props.C93_methods_iff",
    "Verif.Props.C93_package_fails"
   ],
   "note": "Types, functions and variables generated for one file have different names; methods exactly if no object is called like the plural of another or like the method of a transition (C93_methods_iff, C93_fails). False for two annotated files of one package (C93_package_fails) and with messages called like generated types (C93_message_fails)."
  },
  {
   "property": "C94",
   "status": "partial",
   "theorems": [
    "Verif.Props.C94_all_or_nothing",
    "Verif.Props.C94_application",
    "Verif.Props.C94_definitions",
    "Verif.Props.C94_fails",
    "Verif.Props.C94_files",
    "Verif.Props.C94_full_name",
    "Verif.Props.C94_imports_fails",
    "Verif.Props.C94_output_iff",
    "Verif.Props.C94_panic_iff",
    "Verif.Props.C94_registers_partial",
    "Verif.Props.C94_repository"
   ],
   "note": "Proved: what is generated, when, and for which files; that the generated files of the repository declare what the generator gives, and that the application registers what is annotated. Definitions that registration rejects are accepted (C94_fails); what is missing for registration is stated (C94_registers_partial); files of imports are written too (C94_imports_fails)."
  },
  {
   "property": "C95",
   "status": "partial",
   "theorems": [
    "Verif.Props.C95_application_partial",
    "Verif.Props.C95_fails",
    "Verif.Props.C95_groups",
    "Verif.Props.C95_objects_partial",
    "Verif.Props.C95_order_fails"
   ],
   "note": "Proved for state objects, whatever the order of iteration over the map of groups. State transitions are never listed (C95_fails); the order of the groups is arbitrary (C95_order_fails)."
  },
  {
   "property": "C96",
   "status": "partial",
   "theorems": [
    "Verif.Props.C96_application_partial",
    "Verif.Props.C96_config",
    "Verif.Props.C96_get_partial",
    "Verif.Props.C96_slash_fails",
    "Verif.Props.C96_two_arguments_fails",
    "Verif.Props.C96_unconfigured",
    "Verif.Props.C96_unknown_kind"
   ],
   "note": "Proved for three or more arguments and names without a slash, in particular for every state of the application. With two arguments, which the command accepts, it crashes (C96_two_arguments_fails); of a name with a slash only the part before it counts (C96_slash_fails)."
  },
  {
   "property": "C97",
   "status": "partial",
   "theorems": [
    "Verif.Props.C97_assumptions",
    "Verif.Props.C97_coin",
    "Verif.Props.C97_crash_fails",
    "Verif.Props.C97_fails",
    "Verif.Props.C97_no_crash",
    "Verif.Props.C97_read_partial",
    "Verif.Props.C97_repeated",
    "Verif.Props.C97_result",
    "Verif.Props.C97_text",
    "Verif.Props.C97_trimmed"
   ],
   "note": "Proved for lists of well-formed coins (C97_read_partial, C97_repeated) and, whatever is written, of the result (C97_result); false for coins that are not well-formed: commas and fractions in them are accepted (C97_fails). Reading crashes on large numbers exactly with versions of the cosmos-sdk that do not check the size of what they parse; this is a parameter (C97_no_crash, C97_crash_fails). Exactly which texts are read, and as what: C97_coin, C97_text, C97_trimmed."
  },
  {
   "property": "C98",
   "status": "proved",
   "theorems": [
    "Verif.Props.C98_decoded",
    "Verif.Props.C98_signed",
    "Verif.Props.C98_transfer"
   ],
   "note": "For transactions with at least one message, one signer and one coin of the fee (others are refused by the decoder, C42) whose keys have 33 bytes and whose length fits into 64 bits. The encoder of the cosmos-sdk is modelled from its published messages; its source was not at hand."
  },
  {
   "property": "C99",
   "status": "partial",
   "theorems": [
    "Verif.Props.C99_accepted_partial",
    "Verif.Props.C99_fails",
    "Verif.Props.C99_real_partial",
    "Verif.Props.C99_sign_partial"
   ],
   "note": "Any transaction that is signed, safe and covered is accepted (C99_accepted_partial); what Sign returns is accepted for the first transaction of the account with number 0 (C99_sign_partial, for any signature scheme whose signatures are valid; C99_real_partial with the modelled secp256k1 and hash functions, without that hypothesis). False in general: Sign always says number 0 and sequence 0, so it works once and for one account only (C99_fails)."
  },
  {
   "property": "C100",
   "status": "partial",
   "theorems": [
    "Verif.Props.C100_locked_fails",
    "Verif.Props.C100_owners_partial",
    "Verif.Props.C100_received_fails"
   ],
   "note": "Whoever has a balance has an account (C100_owners_partial, for addresses shorter than 128 bytes). False: an account that appears by receiving coins has no public key, never gets one, and nothing it signs is ever accepted; its coins are locked (C100_received_fails, C100_locked_fails)."
  },
  {
   "property": "C101",
   "status": "proved",
   "theorems": [
    "Verif.Props.C101_exact",
    "Verif.Props.C101_generated",
    "Verif.Props.C101_none",
    "Verif.Props.C101_owner",
    "Verif.Props.C101_public_key",
    "Verif.Props.C101_sibling",
    "Verif.Props.C101_signs",
    "Verif.Props.C101_verifies",
    "Verif.Props.C101_zero"
   ],
   "note": "btcec and crypto/ecdsa are modelled from their published text, their arithmetic as the group law of the curve (Model/Ecdsa); the model reproduces a published example of RFC 6979 and the key of the test of the repository. That the search for the secret number ends is not proved (no one knows); what is proved holds for every number it may return. Private keys that are multiples of N have a public key that accepts nothing (C101_zero); keys of GenPrivKey and GenPrivKeyFromSecret are not (C101_generated)."
  },
  {
   "property": "C102",
   "status": "partial",
   "theorems": [
    "Verif.Props.C102_computed_partial",
    "Verif.Props.C102_fails",
    "Verif.Props.C102_partial"
   ],
   "note": "False: the x-coordinate of a compressed key may be P or larger, so points with a small x-coordinate have two keys of 33 bytes, with two addresses (C102_fails). Proved for keys with a number below P, in particular for all that are computed from private keys (C102_computed_partial)."
  },
  {
   "property": "C103",
   "status": "partial",
   "theorems": [
    "Verif.Props.C103_constants",
    "Verif.Props.C103_first_partial",
    "Verif.Props.C103_signs"
   ],
   "note": "The constants belong together (C103_constants) and what the key signs is accepted (C103_signs). That the first transaction is accepted is proved if Sign returned one (C103_first_partial): that the search of RFC 6979 ends for every message, with numbers that are not zero, can not be proved. An example on a chain named test is computed completely."
  },
  {
   "property": "C104",
   "status": "partial",
   "theorems": [
    "Verif.Props.C104_admission_partial",
    "Verif.Props.C104_built",
    "Verif.Props.C104_first_partial",
    "Verif.Props.C104_genesis_partial",
    "Verif.Props.C104_second_fails"
   ],
   "note": "Proved that the module can be built, which messages are admitted, and that the first creates post number 1. False for the second: the number is never increased, so it crashes the process (C104_second_fails)."
  },
  {
   "property": "C105",
   "status": "partial",
   "theorems": [
    "Verif.Props.C105_bytes",
    "Verif.Props.C105_cmov",
    "Verif.Props.C105_inv",
    "Verif.Props.C105_linear",
    "Verif.Props.C105_mul",
    "Verif.Props.C105_normal_unique",
    "Verif.Props.C105_normalize_fails",
    "Verif.Props.C105_normalize_partial",
    "Verif.Props.C105_sqr",
    "Verif.Props.C105_sqrt"
   ],
   "note": "Proved for multiplication and squaring (magnitude up to 8), sums, multiples, opposites, bytes, inverse, square root and choice. False for normalization at magnitude 32, which secp256k1_fe_verify allows: the first pass overflows 32 bits (C105_normalize_fails); proved up to magnitude 31 (C105_normalize_partial)."
  },
  {
   "property": "C106",
   "status": "proved",
   "theorems": [
    "Verif.Props.C106_add",
    "Verif.Props.C106_add_affine",
    "Verif.Props.C106_add_unified",
    "Verif.Props.C106_add_zinv",
    "Verif.Props.C106_convert",
    "Verif.Props.C106_double",
    "Verif.Props.C106_eq_x",
    "Verif.Props.C106_from_x",
    "Verif.Props.C106_neg",
    "Verif.Props.C106_valid"
   ],
   "note": "For coordinates of magnitude up to 8 (the library allows as much to multiplication)."
  },
  {
   "property": "C107",
   "status": "proved",
   "theorems": [
    "Verif.Props.C107_add",
    "Verif.Props.C107_add_bit",
    "Verif.Props.C107_compare",
    "Verif.Props.C107_negate",
    "Verif.Props.C107_read",
    "Verif.Props.C107_round",
    "Verif.Props.C107_shift",
    "Verif.Props.C107_words",
    "Verif.Props.C107_write"
   ],
   "note": "For the functions that multiplication of points uses; products and inverses are C109."
  },
  {
   "property": "C108",
   "status": "proved",
   "theorems": [
    "Verif.Props.C108_memory",
    "Verif.Props.C108_multiple",
    "Verif.Props.C108_table"
   ],
   "note": "Configured as in secp256.go: without the endomorphism, 32-bit limbs. Points on the curve: the function does not check that."
  },
  {
   "property": "C109",
   "status": "proved",
   "theorems": [
    "Verif.Props.C109_inverse",
    "Verif.Props.C109_mul",
    "Verif.Props.C109_sqr",
    "Verif.Props.C109_sqr_mul"
   ],
   "note": "The accumulator of 96 bits is proved not to overflow in any of the sums. The 8x32 limbs, as configured in secp256.go."
  },
  {
   "property": "C110",
   "status": "proved",
   "theorems": [
    "Verif.Props.C110_compress",
    "Verif.Props.C110_decompress",
    "Verif.Props.C110_parse",
    "Verif.Props.C110_reencode",
    "Verif.Props.C110_roundtrip",
    "Verif.Props.C110_seckey",
    "Verif.Props.C110_unique"
   ],
   "note": "The places for keys hold the stored coordinates of the point; pointers are not NULL."
  },
  {
   "property": "C111",
   "status": "proved",
   "theorems": [
    "Verif.Props.C111_ecmult",
    "Verif.Props.C111_exact",
    "Verif.Props.C111_no_panic"
   ],
   "note": "With the context of secp256k1_context_create (its table is computed and proved). The message is 32 bytes, which VerifySignature checks."
  },
  {
   "property": "C112",
   "status": "proved",
   "theorems": [
    "Verif.Props.C112_complete",
    "Verif.Props.C112_exact",
    "Verif.Props.C112_no_panic",
    "Verif.Props.C112_recovers",
    "Verif.Props.C112_valid",
    "Verif.Props.C112_verifies"
   ],
   "note": "The identifier is below 4, which checkSignature checks (otherwise the callback would panic)."
  },
  {
   "property": "C113",
   "status": "partial",
   "theorems": [
    "Verif.Props.C113_keys_fails",
    "Verif.Props.C113_keys_partial",
    "Verif.Props.C113_signatures_fails",
    "Verif.Props.C113_signatures_partial"
   ],
   "note": "False as stated: btcec reads 65 bytes after 5 and 33 bytes with a coordinate not below P, which the C library rejects (C113_keys_fails); so for every message there is a signature that the builds judge differently (C113_signatures_fails). Proved in part: all keys of the C library are keys of btcec for the same point, all others differ only in these two ways, and for keys that both read the signatures accepted are the same."
  },
  {
   "property": "C114",
   "status": "proved",
   "theorems": [
    "Verif.Props.C114_bytes",
    "Verif.Props.C114_hmac",
    "Verif.Props.C114_rfc6979",
    "Verif.Props.C114_sha256"
   ],
   "note": "For a machine that stores the last byte of a word first. The standards are the definitions of Model/Hash and Spec/Rfc6979."
  },
  {
   "property": "C115",
   "status": "proved",
   "theorems": [
    "Verif.Props.C115_build",
    "Verif.Props.C115_infinity",
    "Verif.Props.C115_inverses",
    "Verif.Props.C115_multiple",
    "Verif.Props.C115_table"
   ],
   "note": "The loops of the generator with a seed that is given are cut off after a number of rounds; no seed is known for which they need more than one."
  },
  {
   "property": "C116",
   "status": "partial",
   "theorems": [
    "Verif.Props.C116_exact",
    "Verif.Props.C116_fails",
    "Verif.Props.C116_identifier_fails",
    "Verif.Props.C116_identifier_partial",
    "Verif.Props.C116_verifies_partial"
   ],
   "note": "Exact for all hashes, keys and contexts that are reachable (C116_exact). The property in part: signatures verify and the key is recovered if r is not zero (C116_verifies_partial), the identifier is 0 or 1 if x is below the order (C116_identifier_partial). It fails: a secret number whose point has x = N gives r = 0, which the library returns and nothing accepts (C116_fails), and one with x = N + 2 an identifier that is 2 or 3 (C116_identifier_fails). The number of candidates that are tried is bounded by a parameter."
  },
  {
   "property": "C117",
   "status": "partial",
   "theorems": [
    "Verif.Props.C117_fails",
    "Verif.Props.C117_same_partial"
   ],
   "note": "For hashes below N both make the same signatures (C117_same_partial; back from the C library if r is not zero and the first candidate in the range gives a signature). It fails for the hash N and the key 1: btcec reduces the hash before it seeds the generator, the C library does not, and the signatures differ (C117_fails; the hash function is arbitrary there, no message with such a hash is known)."
  },
  {
   "property": "C118",
   "status": "partial",
   "theorems": [
    "Verif.Props.C118_constructors_iff",
    "Verif.Props.C118_fails",
    "Verif.Props.C118_fields",
    "Verif.Props.C118_implements",
    "Verif.Props.C118_key_fails",
    "Verif.Props.C118_references",
    "Verif.Props.C118_repository",
    "Verif.Props.C118_scopes_iff"
   ],
   "note": "Names are declared, fields and constructors of client sets agree, interfaces are implemented, for all files (C118_references, C118_fields, C118_implements). The parameters are right exactly for the names that C118_scopes_iff lists, and the functions of package meta exist exactly if primary keys are strings or bytes (C118_constructors_iff). So it fails for objects called Type, Map, Range, X or Opts (C118_fails) and for primary keys called x or meta (C118_key_fails); the files of the repository are not concerned (C118_repository). Only these rules of Go are stated; names outside ASCII are not modelled."
  },
  {
   "property": "C119",
   "status": "proved",
   "theorems": [
    "Verif.Props.C119_accepts_iff",
    "Verif.Props.C119_keys",
    "Verif.Props.C119_signs"
   ],
   "note": "For all curves whose methods compute in a group of prime order (CurveGroup), bytes shorter than 2 GiB. The reader of DER and ECDSA of the standard library are modelled; their source was not at hand. No module uses the package."
  },
  {
   "property": "C120",
   "status": "partial",
   "theorems": [
    "Verif.Props.C120_extra",
    "Verif.Props.C120_fails",
    "Verif.Props.C120_one_partial",
    "Verif.Props.C120_other"
   ],
   "note": "False: bytes after the numbers are ignored (C120_extra) and N - s is accepted for s (C120_other, C120_fails). In part: without further bytes two numbers have one encoding (C120_one_partial)."
  },
  {
   "property": "C121",
   "status": "partial",
   "theorems": [
    "Verif.Props.C121_cached",
    "Verif.Props.C121_fails",
    "Verif.Props.C121_first_partial",
    "Verif.Props.C121_read"
   ],
   "note": "The first address is right (C121_first_partial). Then it is kept, for all names and after another key is read (C121_cached, C121_read, C121_fails)."
  },
  {
   "property": "C122",
   "status": "partial",
   "theorems": [
    "Verif.Props.C122_fails",
    "Verif.Props.C122_private",
    "Verif.Props.C122_public",
    "Verif.Props.C122_read"
   ],
   "note": "Public keys round trip (C122_public; C122_read except for y = 0), private keys too (C122_private). False in that multiples of N are read as private keys, whose public key has the coordinates (0, 0) (C122_fails)."
  },
  {
   "property": "C123",
   "status": "partial",
   "theorems": [
    "Verif.Props.C123_distinct",
    "Verif.Props.C123_encodes",
    "Verif.Props.C123_kinds_fails",
    "Verif.Props.C123_kinds_partial",
    "Verif.Props.C123_sint64",
    "Verif.Props.C123_zeros_fails"
   ],
   "note": "The bytes are exactly those of the wire format, and different arguments have different bytes (C123_encodes, C123_distinct); for float32 if widening loses nothing and the argument is a number. False of the kinds: uint64 has no conversion, bytes have no encoder (C123_kinds_fails). False of equal values: the two zeros of floating-point numbers have different bytes (C123_zeros_fails). Nothing calls this code."
  },
  {
   "property": "C124",
   "status": "partial",
   "theorems": [
    "Verif.Props.C124_append",
    "Verif.Props.C124_assign_partial",
    "Verif.Props.C124_fails",
    "Verif.Props.C124_reads",
    "Verif.Props.C124_string_fails"
   ],
   "note": "The bytes are the same (C124_reads), appending leaves the string as it is (C124_append). False of assignments: they change the string, or end the process if it is a constant (C124_fails, C124_string_fails; C124_assign_partial says exactly what happens). The only caller hands the bytes to a hash function, which reads them."
  },
  {
   "property": "C125",
   "status": "partial",
   "theorems": [
    "Verif.Props.C125_fails",
    "Verif.Props.C125_private",
    "Verif.Props.C125_read",
    "Verif.Props.C125_text",
    "Verif.Props.C125_written_partial"
   ],
   "note": "Proved for buffers with room for the key (C125_written_partial, C125_read) and for the texts (C125_text, C125_private). False of smaller buffers: the first bytes are written and the number of all is returned, without an error (C125_fails). Keys with nil pointers are left out."
  }
 ]
}