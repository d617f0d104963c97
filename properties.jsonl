{"id": "C01", "title": "Pass price of stored shares is exact", "statement": "The number of passes charged for a set of shares is the sum, over the shares, of the least number of passes whose combined value covers that share's size. It does not depend on the order of the shares, never decreases when a share grows or is added, and prices of disjoint sets of shares add up.", "quantifier": "every positive pass value, every finite list of share sizes", "why_tests_cant": "Arithmetic over unbounded sizes; rounding errors live at boundaries tests only sample.", "anchors": ["src/_zkapauthorizer/storage_common.py:required_passes"]}
{"id": "C02", "title": "Client and server agree on the price of a mutable write", "statement": "For a mutable slot write, the number of passes the client decides to send, computed from the server's answer to a share-stat query, equals the number of passes the server demands, whenever the slot and clock are the same for both computations. It is never negative and equals the growth in passes of the written shares, with shares whose leases have all expired counted as empty.", "quantifier": "every set of existing shares, sizes, lease expirations, clock value, and every test-and-write vector without new_length", "why_tests_cant": "Two independent implementations must agree on all states; tests check a handful.", "anchors": ["src/_zkapauthorizer/_storage_client.py:ZKAPAuthorizerStorageClient.slot_testv_and_readv_and_writev", "src/_zkapauthorizer/_storage_server.py:get_writev_price", "src/_zkapauthorizer/storage_common.py:get_required_new_passes_for_mutable_write"]}
{"id": "C03", "title": "Reads and non-growing mutable writes are free", "statement": "A slot operation that writes nothing costs zero passes, and so does a write that leaves every written, leased share within the passes already paid for it.", "quantifier": "every slot state, clock and vector set", "why_tests_cant": "Universal over vectors and sizes.", "anchors": ["src/_zkapauthorizer/storage_common.py:get_required_new_passes_for_mutable_write", "src/_zkapauthorizer/_storage_server.py:get_writev_price"]}
{"id": "C04", "title": "No immutable bucket without enough valid passes", "statement": "An immutable upload request creates buckets only if the number of valid passes in the request is at least the price of all requested shares. Otherwise the storage, the leases, the spending record and the metrics are all left unchanged and the error reports exactly the number of valid passes, the required number and the positions of the invalid passes.", "quantifier": "every server state, every list of passes (valid, invalid, in any order), every share count and size", "why_tests_cant": "All orders and mixtures of valid and invalid passes.", "anchors": ["src/_zkapauthorizer/_storage_server.py:ZKAPAuthorizerStorageServer.remote_allocate_buckets", "src/_zkapauthorizer/_storage_server.py:check_pass_quantity_for_write", "src/_zkapauthorizer/_storage_server.py:_ValidationResult.validate_passes"]}
{"id": "C05", "title": "Only newly created immutable shares are paid for, and both sides agree on which passes paid", "statement": "After a successful immutable upload request the server records as spent exactly the first passes needed for the newly created buckets, the client discards exactly the tokens behind the same passes, and all other tokens of that request become available again.", "quantifier": "every split of the requested shares into already-present and newly created, every allocation size and token supply", "why_tests_cant": "Depends on agreement of two components for every split.", "anchors": ["src/_zkapauthorizer/_storage_server.py:ZKAPAuthorizerStorageServer.remote_allocate_buckets", "src/_zkapauthorizer/_storage_client.py:ZKAPAuthorizerStorageClient._spend_for_allocate_buckets"]}
{"id": "C06", "title": "A lease is only renewed when all shares at the index are paid for", "statement": "add_lease takes effect only if the number of valid passes is at least the price of all shares stored at that index; otherwise nothing changes. When it takes effect every valid pass sent is recorded as spent. A client that sends the price computed from the share sizes the server reports is never asked for more if its passes are valid and the shares did not change.", "quantifier": "every server state, pass list and storage index", "why_tests_cant": "Universal over states and pass lists.", "anchors": ["src/_zkapauthorizer/_storage_server.py:ZKAPAuthorizerStorageServer.remote_add_lease", "src/_zkapauthorizer/_storage_server.py:check_pass_quantity_for_lease", "src/_zkapauthorizer/_storage_client.py:ZKAPAuthorizerStorageClient.add_lease"]}
{"id": "C07", "title": "A paid mutable write leaves every written share leased", "statement": "After a successful slot write every share that exists and was written has a lease that is active at the time of the write, shares that already had an active lease keep their leases unchanged, and no other slot is touched. If the passes do not cover the price nothing changes.", "quantifier": "every slot state, clock, vectors and pass list", "why_tests_cant": "All combinations of existing, expired and new shares.", "anchors": ["src/_zkapauthorizer/_storage_server.py:ZKAPAuthorizerStorageServer._slot_testv_and_readv_and_writev", "src/_zkapauthorizer/_storage_server.py:add_leases_for_writev"]}
{"id": "C08", "title": "Truncation requests are refused without effect", "statement": "A slot write in which any share carries a new_length is refused and neither storage, leases nor the spending record change, regardless of the passes sent.", "quantifier": "every server state, vector set and pass list", "why_tests_cant": "Universal refusal claim.", "anchors": ["src/_zkapauthorizer/_storage_server.py:ZKAPAuthorizerStorageServer._slot_testv_and_readv_and_writev", "src/_zkapauthorizer/_storage_server.py:NewLengthRejected"]}
{"id": "C09", "title": "A pass is bound to one operation on one storage index", "statement": "The message a pass is signed over determines both the kind of operation and the storage index: two requests with equal messages have the same operation and the same index. A pass that verifies for one message therefore never verifies for another operation or index, if signatures bind their message.", "quantifier": "every pair of operations and byte-string storage indexes", "why_tests_cant": "Injectivity over all byte strings of any length.", "anchors": ["src/_zkapauthorizer/storage_common.py:_message_maker", "src/_zkapauthorizer/storage_common.py:slot_testv_and_readv_and_writev_message"]}
{"id": "C10", "title": "The server honours each pass at most once", "statement": "A pass that has been recorded as spent by the server is not accepted again as payment.", "quantifier": "every history of server requests", "why_tests_cant": "Histories of any length.", "anchors": ["src/_zkapauthorizer/server/spending.py:RecordingSpender.mark_as_spent", "src/_zkapauthorizer/_storage_server.py:_ValidationResult.validate_passes"]}
{"id": "C11", "title": "Passes are only spent on a mutable write that takes effect, and only as many as it costs", "statement": "If the test vector of a slot write fails, or the price is lower than the number of valid passes sent, the server records as spent no more than the price of what was actually written.", "quantifier": "every slot state, vectors and pass list", "why_tests_cant": "Depends on the combination of test outcome, price and pass count.", "anchors": ["src/_zkapauthorizer/_storage_server.py:ZKAPAuthorizerStorageServer._slot_testv_and_readv_and_writev"]}
{"id": "C12", "title": "Share sizes are read correctly from share files", "statement": "For an immutable share file with any data and any number of leases, and for a mutable share file with any data length, the size the server reports is the size of the share data; files with a truncated or unknown header are rejected.", "quantifier": "every byte content, lease count below 2^32, both immutable container versions and any mutable data length below 2^64", "why_tests_cant": "Universal over byte layouts.", "anchors": ["src/_zkapauthorizer/_storage_server.py:get_storage_index_share_size", "src/_zkapauthorizer/_storage_server.py:get_slot_share_size", "src/_zkapauthorizer/_storage_server.py:stat_bucket"]}
{"id": "C13", "title": "Passes survive the wire", "statement": "A pass serialised for the wire is exactly the length the protocol schema allows and parses back to the same pass.", "quantifier": "every preimage and signature of the declared length", "why_tests_cant": "All byte strings, including ones containing the separator.", "anchors": ["src/_zkapauthorizer/model.py:Pass", "src/_zkapauthorizer/foolscap.py:_PASS_LENGTH", "src/_zkapauthorizer/validators.py:base64_bytes"]}
{"id": "C14", "title": "No token is handed out twice while in use", "statement": "Tokens returned by get_unblinded_tokens are distinct and are never returned by a later call on the same open store until they are reset.", "quantifier": "every history of store operations in one process", "why_tests_cant": "Histories of any length and interleaving.", "anchors": ["src/_zkapauthorizer/model.py:VoucherStore.get_unblinded_tokens", "src/_zkapauthorizer/model.py:VoucherStore.reset_unblinded_tokens"]}
{"id": "C15", "title": "Spent and invalidated tokens are gone for good", "statement": "A token that has been discarded or invalidated is never returned by get_unblinded_tokens again, even after restarts, unless the issuer hands the same token out again.", "quantifier": "every history of store operations, including restarts", "why_tests_cant": "Unbounded histories with crash points.", "anchors": ["src/_zkapauthorizer/model.py:VoucherStore.discard_unblinded_tokens", "src/_zkapauthorizer/model.py:VoucherStore.invalidate_unblinded_tokens"]}
{"id": "C16", "title": "The advertised token count is exactly what can be obtained", "statement": "For a non-negative request below 2^63, get_unblinded_tokens succeeds if and only if the requested number is at most count_unblinded_tokens, and then returns exactly that many tokens.", "quantifier": "every reachable store state and request", "why_tests_cant": "Universal over states.", "anchors": ["src/_zkapauthorizer/model.py:VoucherStore.count_unblinded_tokens", "src/_zkapauthorizer/model.py:VoucherStore.get_unblinded_tokens"]}
{"id": "C17", "title": "A token request never yields more tokens than asked for", "statement": "get_unblinded_tokens(n) returns exactly n tokens or raises NotEnoughTokens leaving everything unchanged, for every integer n.", "quantifier": "every store state and every integer n, including negative ones", "why_tests_cant": "Boundary behaviour of the database LIMIT clause.", "anchors": ["src/_zkapauthorizer/model.py:VoucherStore.get_unblinded_tokens"]}
{"id": "C18", "title": "Tokens signed with a disallowed key are never spent", "statement": "Tokens that arrived in a redemption group signed with a key outside the allowed set are never returned by get_unblinded_tokens and never counted as available, in any later state.", "quantifier": "every history of store operations, including restarts", "why_tests_cant": "Unbounded histories.", "anchors": ["src/_zkapauthorizer/model.py:VoucherStore.insert_unblinded_tokens_for_voucher", "src/_zkapauthorizer/controller.py:PaymentController._redeem_success"]}
{"id": "C19", "title": "A restart releases exactly the tokens that were in use", "statement": "After a crash or restart at any point the available tokens are exactly those that are stored, spendable and neither discarded nor invalidated.", "quantifier": "every history of store operations and every crash point between operations", "why_tests_cant": "Crash points.", "anchors": ["src/_zkapauthorizer/model.py:initialize_database", "src/_zkapauthorizer/model.py:VoucherStore.get_unblinded_tokens"]}
{"id": "C20", "title": "Tokens are conserved", "statement": "Each token stored by a successful redemption is at every later moment in exactly one of: available, in use, sequestered, invalid, discarded; the available count plus in-use count equals stored spendable tokens.", "quantifier": "every history of store operations", "why_tests_cant": "Unbounded histories.", "anchors": ["src/_zkapauthorizer/model.py:VoucherStore"]}
{"id": "C21", "title": "A finished storage call leaves no token stuck in use", "statement": "When a storage call made with passes finishes, successfully or not, every token it obtained is spent, invalidated or available again.", "quantifier": "every server behaviour (any sequence of successes, errors and rejections) and every token supply", "why_tests_cant": "All sequences of remote answers.", "anchors": ["src/_zkapauthorizer/_storage_client.py:call_with_passes_with_manual_spend", "src/_zkapauthorizer/_storage_client.py:call_with_passes", "src/_zkapauthorizer/spending.py:SpendingController.get"]}
{"id": "C22", "title": "Tokens are spent only on success and invalidated only when the server says so", "statement": "A storage call discards tokens only after the server accepted the call, and exactly the ones sent with the accepted attempt; it invalidates exactly the tokens whose positions the server reported as failing; every attempt carries exactly the required number of passes.", "quantifier": "every server behaviour and token supply", "why_tests_cant": "All sequences of remote answers.", "anchors": ["src/_zkapauthorizer/_storage_client.py:call_with_passes_with_manual_spend", "src/_zkapauthorizer/_storage_client.py:invalidate_rejected_passes"]}
{"id": "C23", "title": "A storage call terminates", "statement": "A storage call makes finitely many attempts: each retry follows a rejection of at least one pass and so consumes at least one token.", "quantifier": "every server behaviour and finite token supply", "why_tests_cant": "Termination for all remote behaviours, including hostile ones.", "anchors": ["src/_zkapauthorizer/_storage_client.py:call_with_passes_with_manual_spend"]}
{"id": "C24", "title": "Splitting a pass group loses and duplicates nothing", "statement": "Splitting a group by any set of positions yields two groups that together contain every pass exactly once in original order, the first holding exactly the selected positions; expanding adds exactly the requested number of fresh passes.", "quantifier": "every group and index set, including out-of-range indexes", "why_tests_cant": "Universal over index sets.", "anchors": ["src/_zkapauthorizer/spending.py:PassGroup.split", "src/_zkapauthorizer/spending.py:PassGroup.expand"]}
{"id": "C25", "title": "Redemption groups add up to the voucher's value", "statement": "The group sizes used for redeeming a voucher are all at least one, differ by at most one and add up to the expected total.", "quantifier": "every number of groups and every total at least that large", "why_tests_cant": "Integer division over unbounded totals.", "anchors": ["src/_zkapauthorizer/controller.py:token_count_for_group"]}
{"id": "C26", "title": "Random tokens are persisted before they are sent and reused on retry", "statement": "Whenever the issuer is contacted for group c of a voucher, the random tokens in that request are already stored, and every later request for the same voucher and group, across crashes and retries, carries the same tokens until that group succeeds.", "quantifier": "every history of redeem calls, issuer answers, retries and crashes", "why_tests_cant": "Crash points and unbounded histories.", "anchors": ["src/_zkapauthorizer/controller.py:PaymentController.redeem", "src/_zkapauthorizer/model.py:VoucherStore.add"]}
{"id": "C27", "title": "At most one redemption attempt per voucher is in progress", "statement": "However many times redemption of a voucher is requested, at most one request to the issuer for that voucher is outstanding at any time.", "quantifier": "every interleaving of redeem calls, retries and issuer answers", "why_tests_cant": "All schedules.", "anchors": ["src/_zkapauthorizer/controller.py:PaymentController.redeem", "src/_zkapauthorizer/controller.py:PaymentController._perform_redeem"]}
{"id": "C28", "title": "Redemption resumes at the first unredeemed group", "statement": "The persisted counter of a voucher equals the number of groups redeemed so far, and after a crash redemption continues with exactly that group.", "quantifier": "every history and crash point without an unpaid answer", "why_tests_cant": "Crash points.", "anchors": ["src/_zkapauthorizer/controller.py:PaymentController.redeem", "src/_zkapauthorizer/model.py:VoucherStore.insert_unblinded_tokens_for_voucher"]}
{"id": "C29", "title": "A redeemed voucher yields exactly its value", "statement": "When a voucher becomes redeemed its spendable plus sequestered token counts equal the expected total and that many tokens were stored for it.", "quantifier": "every history in which the issuer returns as many tokens as were submitted and never answers unpaid", "why_tests_cant": "Unbounded histories.", "anchors": ["src/_zkapauthorizer/controller.py:PaymentController._redeem_success", "src/_zkapauthorizer/model.py:VoucherStore.insert_unblinded_tokens_for_voucher"]}
{"id": "C30", "title": "Redeemed and double-spent are final", "statement": "Once a voucher is redeemed or double-spent its state never changes again and the issuer is never contacted for it again, through any later redeem call, retry or restart.", "quantifier": "every history of controller operations, including restarts", "why_tests_cant": "Unbounded histories.", "anchors": ["src/_zkapauthorizer/controller.py:PaymentController.redeem", "src/_zkapauthorizer/model.py:VoucherStore.mark_voucher_double_spent"]}
{"id": "C31", "title": "A redemption that failed with an unexpected error is retried", "statement": "After a redemption attempt fails with an unrecognised error, the periodic retry contacts the issuer again for the voucher.", "quantifier": "every controller state with a voucher in the error state", "why_tests_cant": "Liveness of the retry loop across states.", "anchors": ["src/_zkapauthorizer/controller.py:PaymentController._retry_redemption", "src/_zkapauthorizer/model.py:Error.start_at_counter"]}
{"id": "C32", "title": "A voucher that was once unpaid still resumes where it stopped", "statement": "If a voucher was reported unpaid, then partially redeemed, and then failed, the next attempt continues with the first unredeemed group.", "quantifier": "every history containing an unpaid answer", "why_tests_cant": "Depends on a three-step history.", "anchors": ["src/_zkapauthorizer/model.py:Unpaid.start_at_counter", "src/_zkapauthorizer/controller.py:PaymentController.incorporate_transient_state"]}
{"id": "C33", "title": "A double-spend answer does not lose redeemed groups", "statement": "Marking a voucher double-spent is possible only from the pending state, changes nothing but that voucher's state and finish time, and leaves all stored tokens available.", "quantifier": "every store state", "why_tests_cant": "Universal over states.", "anchors": ["src/_zkapauthorizer/model.py:VoucherStore.mark_voucher_double_spent"]}
{"id": "C34", "title": "Voucher JSON round-trips", "statement": "Serialising a voucher to JSON and reading it back gives the same voucher, for every voucher state.", "quantifier": "every voucher in every state", "why_tests_cant": "All states and field values.", "anchors": ["src/_zkapauthorizer/model.py:Voucher.to_json_v1", "src/_zkapauthorizer/model.py:Voucher.from_json_v1"]}
{"id": "C35", "title": "Only well-formed vouchers are accepted by the HTTP API", "statement": "The voucher endpoint accepts exactly the strings of 44 characters that are the URL-safe base64 encoding of 32 bytes.", "quantifier": "every string", "why_tests_cant": "Universal over strings.", "anchors": ["src/_zkapauthorizer/resource.py:is_syntactic_voucher", "src/_zkapauthorizer/_base64.py:urlsafe_b64decode"]}
{"id": "C36", "title": "Adding a voucher again changes nothing", "statement": "Adding tokens for a voucher and counter that are already present returns the stored tokens and leaves the database unchanged; adding a further counter never changes the voucher's expected total, creation time or state.", "quantifier": "every store state", "why_tests_cant": "Universal over states.", "anchors": ["src/_zkapauthorizer/model.py:VoucherStore.add"]}
{"id": "C37", "title": "Failed store operations leave no trace", "statement": "If a store operation raises, the database is exactly as it was before the call.", "quantifier": "every store state and operation", "why_tests_cant": "Failure in the middle of multi-statement transactions.", "anchors": ["src/_zkapauthorizer/model.py:with_cursor", "src/_zkapauthorizer/model.py:VoucherStore"]}
{"id": "C38", "title": "Lease maintenance activity is accounted exactly", "statement": "The pass count reported for a finished lease maintenance run is the sum of the prices of everything observed during that run, whatever other runs and store operations are interleaved.", "quantifier": "every interleaving of runs and store operations", "why_tests_cant": "All interleavings.", "anchors": ["src/_zkapauthorizer/model.py:LeaseMaintenance", "src/_zkapauthorizer/model.py:VoucherStore.get_latest_lease_maintenance_activity"]}
{"id": "C39", "title": "The latest lease maintenance activity is the one that finished last", "statement": "get_latest_lease_maintenance_activity returns a finished run such that no other finished run finished later, or nothing if no run finished; the textual order used by the database agrees with chronological order.", "quantifier": "every set of recorded runs and all timestamps with years 1 to 9999", "why_tests_cant": "Textual ordering of timestamps.", "anchors": ["src/_zkapauthorizer/model.py:VoucherStore.get_latest_lease_maintenance_activity"]}
{"id": "C40", "title": "Leases are renewed exactly when needed", "statement": "During a maintenance run a storage index is renewed on a server if and only if the server has a share there whose lease expires in less than the configured minimum time remaining.", "quantifier": "every server answer, clock and configuration", "why_tests_cant": "Boundary and aggregation over many shares.", "anchors": ["src/_zkapauthorizer/lease_maintenance.py:needs_lease_renew", "src/_zkapauthorizer/lease_maintenance.py:renew_leases_on_server", "src/_zkapauthorizer/lease_maintenance.py:soonest_expiration"]}
{"id": "C41", "title": "Maintenance visits exactly the objects reachable from the roots", "statement": "The traversal visits the storage index of every node reachable from the root nodes and nothing else, and terminates.", "quantifier": "every finite directory tree; every finite directory graph", "why_tests_cant": "Unbounded structures, cycles.", "anchors": ["src/_zkapauthorizer/lease_maintenance.py:visit_storage_indexes", "src/_zkapauthorizer/lease_maintenance.py:iter_storage_indexes"]}
{"id": "C42", "title": "Lease maintenance runs at the configured pace", "statement": "The delay before each run lies within half the configured range of the configured mean; the first delay after a restart is what remains of such an interval since the last run, or zero if it has passed; and while the service runs the next run is always scheduled or in progress.", "quantifier": "every configuration, random sample and last-run time", "why_tests_cant": "Universal over samples.", "anchors": ["src/_zkapauthorizer/lease_maintenance.py:lease_maintenance_service", "src/_zkapauthorizer/lease_maintenance.py:calculate_initial_interval", "src/_zkapauthorizer/lease_maintenance.py:_FuzzyTimerService"]}
{"id": "C43", "title": "Stopping lease maintenance stops it", "statement": "After the maintenance service has been stopped no further run starts.", "quantifier": "every interleaving of timer firings, run completions, start and stop", "why_tests_cant": "All schedules.", "anchors": ["src/_zkapauthorizer/lease_maintenance.py:_FuzzyTimerService.stopService", "src/_zkapauthorizer/lease_maintenance.py:_FuzzyTimerService._iterate"]}
{"id": "C44", "title": "Maintenance configuration durations round-trip", "statement": "A lease maintenance configuration written to the configuration file and read back is the same configuration.", "quantifier": "every configuration with whole-second durations", "why_tests_cant": "All durations.", "anchors": ["src/_zkapauthorizer/lease_maintenance.py:lease_maintenance_config_to_dict", "src/_zkapauthorizer/lease_maintenance.py:lease_maintenance_config_from_dict"]}
{"id": "C45", "title": "Replaying recorded events reproduces the database", "statement": "Replaying, in order and against the same starting state, the events recorded for any sequence of committed store operations gives the same persistent state.", "quantifier": "every sequence of store operations in one process", "why_tests_cant": "Determinism of statement replay over unbounded histories.", "anchors": ["src/_zkapauthorizer/replicate.py:_ReplicationCapableCursor", "src/_zkapauthorizer/recover.py:recover_event_stream"]}
{"id": "C46", "title": "A replica restores the database", "statement": "Whenever no upload is in progress, recovering from the replica and then applying the local unsent events gives exactly the vouchers, random tokens, unblinded tokens, redemption groups, invalid tokens and maintenance records of the source database.", "quantifier": "every history of store operations and replication jobs without crashes or failed transactions", "why_tests_cant": "Unbounded histories and schedules.", "anchors": ["src/_zkapauthorizer/replicate.py:_ReplicationService", "src/_zkapauthorizer/recover.py:recover"]}
{"id": "C47", "title": "Recovery is not affected by the moment of failure", "statement": "Whatever the moment at which the source node dies, recovering from its replica succeeds and yields a state the database actually had.", "quantifier": "every history and crash point", "why_tests_cant": "Crash points between upload, local pruning and remote pruning.", "anchors": ["src/_zkapauthorizer/replicate.py:_ReplicationService._do_one_snapshot_upload", "src/_zkapauthorizer/replicate.py:_ReplicationService._do_one_event_upload", "src/_zkapauthorizer/recover.py:recover"]}
{"id": "C48", "title": "Changes that were rolled back are never replicated", "statement": "Only statements of committed transactions appear in the event stream.", "quantifier": "every sequence of succeeding and failing transactions", "why_tests_cant": "Failure in the middle of a transaction followed by any later transaction.", "anchors": ["src/_zkapauthorizer/replicate.py:_ReplicationCapableConnection.__exit__"]}
{"id": "C49", "title": "Unreplicated changes are never pruned", "statement": "An event is removed from the local event stream only after it has been uploaded in an event stream object or its effect is part of an uploaded snapshot.", "quantifier": "every interleaving of transactions and replication jobs", "why_tests_cant": "All interleavings with in-flight uploads.", "anchors": ["src/_zkapauthorizer/replicate.py:prune_events_to", "src/_zkapauthorizer/replicate.py:_ReplicationService._do_one_snapshot_upload"]}
{"id": "C50", "title": "Important changes are always scheduled for upload", "statement": "As long as an important change is only stored locally, an upload that will include it is queued or in progress.", "quantifier": "every interleaving of transactions and replication jobs while the service runs and uploads succeed", "why_tests_cant": "Lost wake-ups are schedule dependent.", "anchors": ["src/_zkapauthorizer/replicate.py:_ReplicationService.observed_event", "src/_zkapauthorizer/replicate.py:_ReplicationService.queue_job"]}
{"id": "C51", "title": "Event streams are replayed in the order they were recorded", "statement": "Sequence numbers strictly increase over the life of a database, event stream objects have distinct names, and recovery applies non-overlapping event streams in increasing sequence order whatever order they are listed in.", "quantifier": "every set of event streams in any listing order", "why_tests_cant": "All permutations.", "anchors": ["src/_zkapauthorizer/recover.py:sorted_event_streams", "src/_zkapauthorizer/replicate.py:EventStream.highest_sequence", "src/_zkapauthorizer/replicate.py:event_stream_name"]}
{"id": "C52", "title": "Replication is set up at most once", "statement": "Concurrent or repeated setup requests never overwrite an existing replica configuration, at most one setup is in progress, and a failed setup leaves no configuration and releases the lock.", "quantifier": "every interleaving of setup requests, failures and successes", "why_tests_cant": "All schedules.", "anchors": ["src/_zkapauthorizer/replicate.py:setup_tahoe_lafs_replication"]}
{"id": "C53", "title": "Restarting the node does not break recovery", "statement": "Events recorded before and after a restart of the source node can be replayed one after the other.", "quantifier": "every history with restarts", "why_tests_cant": "Depends on the state of in-use tokens at the restart.", "anchors": ["src/_zkapauthorizer/model.py:VoucherStore.get_unblinded_tokens", "src/_zkapauthorizer/model.py:initialize_database"]}
{"id": "C54", "title": "Schema upgrades are part of the event stream", "statement": "Statements that upgrade the schema of a replicated database are recorded, so that later events can be replayed on an older snapshot.", "quantifier": "every schema version of the replica", "why_tests_cant": "Depends on start-up order.", "anchors": ["src/_zkapauthorizer/model.py:initialize_database", "src/_zkapauthorizer/_plugin.py:ZKAPAuthorizer._get_store", "src/_zkapauthorizer/replicate.py:_ReplicationCapableConnection"]}
{"id": "C55", "title": "Recovery only runs on an empty database", "statement": "If the database holds any voucher when recovery is requested, recovery is refused and nothing changes.", "quantifier": "every database state", "why_tests_cant": "Universal over states.", "anchors": ["src/_zkapauthorizer/model.py:VoucherStore.call_if_empty", "src/_zkapauthorizer/resource.py:RecoverFactory"]}
{"id": "C56", "title": "Recovery never discards vouchers", "statement": "A voucher accepted while a recovery is downloading is not lost when the recovery completes.", "quantifier": "every interleaving of store operations with a running recovery", "why_tests_cant": "Interleavings with an open transaction.", "anchors": ["src/_zkapauthorizer/model.py:with_cursor_async", "src/_zkapauthorizer/model.py:with_cursor", "src/_zkapauthorizer/recover.py:recover_snapshot"]}
{"id": "C57", "title": "A failed recovery leaves the database unchanged", "statement": "If downloading or importing the replica fails, the local database is as it was before.", "quantifier": "every failure point in download and import", "why_tests_cant": "Failure in the middle of the import.", "anchors": ["src/_zkapauthorizer/recover.py:StatefulRecoverer.recover"]}
{"id": "C58", "title": "Recovery progress is reported truthfully and only once", "statement": "The reported stages always form a prefix of one of the documented stage sequences, succeeded is reported if and only if the import completed, and a recoverer that has left the inactive stage never runs again.", "quantifier": "every downloader behaviour, replica content and number of calls", "why_tests_cant": "All behaviours of the downloader.", "anchors": ["src/_zkapauthorizer/recover.py:StatefulRecoverer"]}
{"id": "C59", "title": "All recovery clients see the same progress", "statement": "Every websocket client that requested the active recovery receives every status update of that recovery in order, no matter when it connected, and a client asking for a different capability is refused.", "quantifier": "every interleaving of client requests and status changes", "why_tests_cant": "All schedules.", "anchors": ["src/_zkapauthorizer/resource.py:RecoverFactory.initiate_recovery", "src/_zkapauthorizer/resource.py:RecoverFactory._on_state_change"]}
{"id": "C60", "title": "A snapshot restores the database it was taken from", "statement": "Executing a snapshot against any database with no remaining rows recreates all tables and rows of the source, whatever the order of tables in the dump.", "quantifier": "every database content", "why_tests_cant": "Universal over contents and statement orders.", "anchors": ["src/_zkapauthorizer/recover.py:recover_snapshot", "src/_zkapauthorizer/replicate.py:snapshot"]}
{"id": "C61", "title": "The price calculator predicts upload cost", "statement": "The price reported for a list of file sizes is the sum over the files of total shares times the passes for one share of that file, is zero only for empty input or empty files, and never decreases when a file grows.", "quantifier": "every erasure coding configuration, pass value and list of sizes", "why_tests_cant": "Universal arithmetic.", "anchors": ["src/_zkapauthorizer/pricecalculator.py:PriceCalculator.calculate", "src/_zkapauthorizer/storage_common.py:share_size_for_data"]}
{"id": "C62", "title": "Schema upgrades reach the current version from any older version", "statement": "Opening a database of any supported older version yields the current version; opening it again changes nothing; upgrading in several steps is the same as upgrading at once; vouchers and tokens are preserved.", "quantifier": "every starting version and every database content", "why_tests_cant": "Universal over contents.", "anchors": ["src/_zkapauthorizer/schema.py:get_schema_upgrades", "src/_zkapauthorizer/schema.py:_UPGRADES", "src/_zkapauthorizer/model.py:initialize_database"]}
{"id": "C63", "title": "Tokens stay spendable across a schema upgrade", "statement": "Every unblinded token that could be spent before the redemption-groups upgrade can be spent after it.", "quantifier": "every database content at schema version 5", "why_tests_cant": "Depends on the contents.", "anchors": ["src/_zkapauthorizer/schema.py:_UPGRADES"]}
{"id": "C64", "title": "Vouchers stay readable across a schema upgrade", "statement": "Every voucher that could be read before the upgrade to timezone-aware timestamps can be read after it.", "quantifier": "every database content at schema version 7", "why_tests_cant": "Depends on the contents.", "anchors": ["src/_zkapauthorizer/schema.py:_UPGRADES", "src/_zkapauthorizer/model.py:Voucher.from_row"]}
{"id": "C65", "title": "Only holders of the API token reach the HTTP API", "statement": "A request reaches the resource tree if and only if its Authorization header names the tahoe-lafs scheme and carries exactly the configured token.", "quantifier": "every header value and token", "why_tests_cant": "Universal over byte strings.", "anchors": ["src/_zkapauthorizer/private.py:create_private_tree", "src/_zkapauthorizer/private.py:TokenChecker"]}
{"id": "C66", "title": "The price endpoint rejects malformed requests", "statement": "The calculate-price endpoint computes a price exactly for JSON objects with exactly the keys version and sizes, version 1 and a list of non-negative integers; every other body is answered with 400.", "quantifier": "every JSON value", "why_tests_cant": "Universal over JSON values.", "anchors": ["src/_zkapauthorizer/resource.py:_CalculatePrice.render_POST"]}
{"id": "C67", "title": "Capabilities are not leaked in error messages", "statement": "The URL shown in an API error reveals nothing of the capability but a short digest, whatever the API root, and scrubbing twice is the same as once.", "quantifier": "every URL path", "why_tests_cant": "Universal over paths.", "anchors": ["src/_zkapauthorizer/tahoe.py:_scrub_cap", "src/_zkapauthorizer/tahoe.py:_scrub_caps_from_url"]}
{"id": "C68", "title": "Retrying stops at the first definitive outcome", "statement": "A retried operation returns the first success, raises the first error that is not retryable, and performs no call after that.", "quantifier": "every sequence of outcomes", "why_tests_cant": "Unbounded sequences.", "anchors": ["src/_zkapauthorizer/tahoe.py:async_retry"]}
{"id": "C69", "title": "Overlapping configuration sections are merged", "statement": "Configuration sections of the same name from several sources are merged item by item.", "quantifier": "every list of configurations", "why_tests_cant": "Universal over dictionaries.", "anchors": ["src/_zkapauthorizer/configutil.py:config_string_from_sections", "src/_zkapauthorizer/configutil.py:_merge_dictionaries"]}
{"id": "C70", "title": "Disconnect notifications follow open bucket writers", "statement": "A connection holds exactly one disconnect registration for each bucket writer still open through it, and none for closed ones.", "quantifier": "every interleaving of allocations, closes and disconnects", "why_tests_cant": "All schedules.", "anchors": ["src/_zkapauthorizer/_storage_server.py:ZKAPAuthorizerStorageServer._bucket_writer_closed", "src/_zkapauthorizer/_storage_server.py:ZKAPAuthorizerStorageServer.remote_allocate_buckets"]}
{"id": "C71", "title": "Snapshots are taken when they save storage", "statement": "A new snapshot is scheduled if and only if ten times its cost is below the cost of the current replica.", "quantifier": "every snapshot size and replica size list", "why_tests_cant": "Universal arithmetic.", "anchors": ["src/_zkapauthorizer/_plugin.py:_CostBasedPolicy.should_snapshot", "src/_zkapauthorizer/replicate.py:_ReplicationService._do_consider_snapshot"]}
{"id": "C72", "title": "The in-memory grid behaves like immutable storage", "statement": "Distinct uploads get distinct capabilities, a download returns what was uploaded, and linking or unlinking one entry leaves all others unchanged.", "quantifier": "every sequence of grid operations", "why_tests_cant": "Unbounded histories.", "anchors": ["src/_zkapauthorizer/tahoe.py:MemoryGrid"]}
{"id": "C73", "title": "Base64 used for storage indexes and tokens is lossless", "statement": "Encoding any byte string to base64 and decoding it gives the byte string back, and distinct byte strings have distinct encodings.", "quantifier": "every byte string", "why_tests_cant": "Universal over byte strings.", "anchors": ["src/_zkapauthorizer/_base64.py:urlsafe_b64decode", "src/_zkapauthorizer/storage_common.py:_message_maker"]}
{"id": "C74", "title": "A lease gained by a mutable write is paid for in full", "statement": "A share that was not leased before a successful mutable write and is leased afterwards was charged for at its whole size.", "quantifier": "every slot, request, set of passes and time", "why_tests_cant": "Depends on the interplay of expired leases, existing size and write extent, for all of which the space is unbounded.", "anchors": ["src/_zkapauthorizer/_storage_server.py:get_writev_price", "src/_zkapauthorizer/_storage_server.py:add_leases_for_writev"]}
{"id": "C75", "title": "Everything stored was paid for", "statement": "Starting from an empty storage server, after any history of requests, uploads, aborts and disconnects the number of passes recorded as spent is at least the price of everything stored.", "quantifier": "every finite history of server operations and every set of storage indexes", "why_tests_cant": "An invariant over unbounded histories.", "anchors": ["src/_zkapauthorizer/_storage_server.py:ZKAPAuthorizerStorageServer", "src/_zkapauthorizer/server/spending.py:RecordingSpender"]}
{"id": "C76", "title": "An unreachable server does not stop maintenance of the others", "statement": "A maintenance run renews the leases that need it on every server that works, whatever the other servers do.", "quantifier": "every set of servers and every failure of some of them", "why_tests_cant": "All combinations and orders of failing servers.", "anchors": ["src/_zkapauthorizer/lease_maintenance.py:renew_leases", "src/_zkapauthorizer/lease_maintenance.py:renew_leases_on_server"]}
{"id": "C77", "title": "After a maintenance run every share has enough lease left", "statement": "After a completed maintenance run against storage servers running this plugin, every share at a visited storage index has a lease with at least the configured minimum time remaining (if that is at most the lease period of 31 days).", "quantifier": "every stored data, lease state and set of visited storage indexes", "why_tests_cant": "Joins the client loop with the server over all states.", "anchors": ["src/_zkapauthorizer/lease_maintenance.py:renew_leases", "src/_zkapauthorizer/_storage_server.py:ZKAPAuthorizerStorageServer.remote_add_lease", "src/_zkapauthorizer/_storage_server.py:ZKAPAuthorizerStorageServer.remote_stat_shares"]}
{"id": "C78", "title": "The stack limit is restored", "statement": "After running an operation with the raised stack limit the process has the limit it had before, whether the operation returned or raised.", "quantifier": "every operation and limit", "why_tests_cant": "Universal over operations and over whether they fail.", "anchors": ["src/_zkapauthorizer/_stack.py:less_limited_stack"]}
{"id": "C79", "title": "One failed upload does not end replication", "statement": "After any history of a node with replication set up, if from then on the grid carries out what it is asked, every important change reaches the replica without the node being started again.", "quantifier": "every history of store operations, failing calls, crashes, restarts, uploads and failing grid operations", "why_tests_cant": "A liveness property over unbounded histories and every place an operation can fail.", "anchors": ["src/_zkapauthorizer/replicate.py:_ReplicationService"]}
{"id": "C80", "title": "Recovered tokens can be spent", "statement": "Every unspent token in a recovered database that is not sequestered can be obtained for spending from the recovered node.", "quantifier": "every history of the source node and every replica it leaves", "why_tests_cant": "Depends on what the source was doing when it was lost, over all histories.", "anchors": ["src/_zkapauthorizer/recover.py:recover_event_stream", "src/_zkapauthorizer/model.py:VoucherStore.get_unblinded_tokens"]}
{"id": "C81", "title": "A crash during a schema upgrade can be recovered from", "statement": "If the process dies at any point while the database is being created or upgraded, opening the database again completes the upgrade.", "quantifier": "every starting version, database content and crash point", "why_tests_cant": "Crash points between statements of the upgrade; tests never stop in the middle.", "anchors": ["src/_zkapauthorizer/model.py:initialize_database", "src/_zkapauthorizer/schema.py:run_schema_upgrades", "src/_zkapauthorizer/schema.py:_UPGRADES", "src/_zkapauthorizer/model.py:open_database"]}
{"id": "C82", "title": "A repeated setup request is answered with the existing capability", "statement": "If replication is already set up, a request to set it up is answered with a conflict status and the recovery capability of the existing replica.", "quantifier": "every history of setup requests, failures and restarts", "why_tests_cant": "Universal over histories and capabilities.", "anchors": ["src/_zkapauthorizer/resource.py:ReplicateResource", "src/_zkapauthorizer/replicate.py:setup_tahoe_lafs_replication", "src/_zkapauthorizer/replicate.py:ReplicationAlreadySetup"]}
{"id": "C83", "title": "A recovered database can be used at once", "statement": "After a recovery from a replica of any supported schema version has succeeded, every voucher that software of that version could read can be read without starting the node again; after a restart the contents are those of the upgraded source.", "quantifier": "every source database of every schema version with replication and every order of its dump", "why_tests_cant": "Universal over versions and contents.", "anchors": ["src/_zkapauthorizer/recover.py:recover", "src/_zkapauthorizer/resource.py:RecoverFactory", "src/_zkapauthorizer/model.py:initialize_database", "src/_zkapauthorizer/model.py:Voucher.from_row"]}
{"id": "C84", "title": "Recovery clients are disconnected when the recovery is over", "statement": "When the recovery has ended, every connected client that asked for it has been sent all updates, then the end of the connection, and not before.", "quantifier": "every interleaving of client requests, disconnections and status changes", "why_tests_cant": "All schedules.", "anchors": ["src/_zkapauthorizer/resource.py:RecoverFactory.initiate_recovery", "src/_zkapauthorizer/resource.py:RecoverProtocol"]}
{"id": "C85", "title": "Replication can be set up after a crash during setup", "statement": "After the node is restarted, a request to set up replication starts a setup if there is no configuration yet, whenever the previous process died.", "quantifier": "every history of requests, failures, crashes and process numbers", "why_tests_cant": "Crash points and process numbers.", "anchors": ["src/_zkapauthorizer/replicate.py:setup_tahoe_lafs_replication"]}
{"id": "C86", "title": "Only valid passes are recorded as spent", "statement": "Whatever a storage server has recorded as spent was sent to it as a pass, in a request whose operation and storage index the pass verifies for, and is recorded at most as often as it was sent.", "quantifier": "every configuration, stored data and history of requests", "why_tests_cant": "An invariant over unbounded histories of requests, with every mix of valid and invalid passes.", "anchors": ["src/_zkapauthorizer/_storage_server.py:ZKAPAuthorizerStorageServer", "src/_zkapauthorizer/_storage_server.py:_ValidationResult", "src/_zkapauthorizer/server/spending.py:RecordingSpender"]}
{"id": "C87", "title": "The spending metric counts the passes spent", "statement": "After any history of requests, the values observed by the storage server's spending metric add up to the number of passes recorded as spent.", "quantifier": "every configuration, stored data and history of requests", "why_tests_cant": "An equation over unbounded histories.", "anchors": ["src/_zkapauthorizer/_storage_server.py:ZKAPAuthorizerStorageServer"]}
{"id": "C88", "title": "Redeemed tokens buy service", "statement": "If the issuer's answer to a redemption is accepted then, for every message, the resulting tokens turn into exactly as many passes as random tokens were sent, with the preimages of those random tokens; each pass has the wire length the protocol demands and is accepted by every storage server holding the signing key of the public key in the answer. An issuer that follows the protocol is always believed, and with as many redeemed tokens as a lease costs the server never asks for more.", "quantifier": "all issuers and answers, all lists of random tokens, messages, signing keys, server states; the cryptographic library is any that meets its documented laws and whose batch proof is sound", "why_tests_cant": "A test runs one key, one voucher size and one honest issuer; the claim is about every answer an issuer could send and every message.", "anchors": ["src/_zkapauthorizer/controller.py:RistrettoRedeemer.redeemWithCounter", "src/_zkapauthorizer/controller.py:RistrettoRedeemer.tokens_to_passes", "src/_zkapauthorizer/_storage_server.py:_ValidationResult._is_invalid_pass", "src/_zkapauthorizer/model.py:UnblindedToken"]}
{"id": "C89", "title": "The issuer's answer is read as documented", "statement": "Tokens are accepted only together with a proof that verifies for exactly the blinded tokens sent, as many signed tokens, and the public key reported. A voucher is taken to be spent exactly if the answer is an object not claiming success with reason \"double-spend\", unpaid exactly if the reason is \"unpaid\"; every other answer that is no valid success is reported as an error.", "quantifier": "all response bodies (JSON or not, any shape) and all lists of random tokens", "why_tests_cant": "The issuer is a remote party; the responses it can send cannot be enumerated.", "anchors": ["src/_zkapauthorizer/controller.py:RistrettoRedeemer.redeemWithCounter", "src/_zkapauthorizer/controller.py:PaymentController._redeem_failure"]}
{"id": "C90", "title": "The issuer learns nothing about the passes", "statement": "What is sent to the issuer is the voucher, the counter and one blinded token per random token. For every request and every list of as many preimages there are blinds with which the request would have been exactly the same.", "quantifier": "all vouchers, counters, lists of random tokens and of alternative preimages", "why_tests_cant": "Unlinkability is a statement about all preimages that could have led to one request.", "anchors": ["src/_zkapauthorizer/controller.py:RistrettoRedeemer.redeemWithCounter"]}
{"id": "C91", "title": "A voucher the HTTP API accepts is recorded", "statement": "A request to redeem a voucher is accepted exactly if its body is a JSON object with the one key \"voucher\" and a syntactically valid voucher number; a refused request changes nothing. When the answer to an accepted request is given, the voucher is in the database, and if it is new the request for its first group has been sent with random tokens that are in the database.", "quantifier": "all request bodies, all histories of the controller (including crashes), all configured token counts", "why_tests_cant": "Depends on the configured token count and on everything that happened before; unit tests use one configuration and a new store.", "anchors": ["src/_zkapauthorizer/resource.py:_VoucherCollection.render_PUT", "src/_zkapauthorizer/controller.py:PaymentController.redeem", "src/_zkapauthorizer/model.py:VoucherStore.add"]}
{"id": "C92", "title": "The voucher list and the view of one voucher agree", "statement": "After every history the list of vouchers can be read, names every recorded voucher exactly once, and the view of a single voucher shows exactly its entry in the list; a voucher is not found exactly if it is not in the list.", "quantifier": "all histories of the controller and all voucher numbers", "why_tests_cant": "Both views combine the database with transient state that depends on the whole history.", "anchors": ["src/_zkapauthorizer/resource.py:_VoucherCollection.render_GET", "src/_zkapauthorizer/resource.py:_VoucherCollection.getChild", "src/_zkapauthorizer/resource.py:VoucherView", "src/_zkapauthorizer/controller.py:PaymentController.incorporate_transient_state"]}
{"id": "C93", "title": "A malformed voucher address is a bad request", "statement": "Asking for a voucher at an address that has not 44 bytes is answered with Bad Request.", "quantifier": "all byte strings and all states", "why_tests_cant": "A statement about all byte strings, among them those that are not UTF-8.", "anchors": ["src/_zkapauthorizer/resource.py:_VoucherCollection.getChild", "src/_zkapauthorizer/resource.py:is_syntactic_voucher"]}
{"id": "C94", "title": "A genuine token is never thrown away as invalid", "statement": "If every token a client holds was made with one of the signing keys of its issuer, and every storage server it uses is one that checks passes with one of that issuer's keys and reports honestly which passes failed, then the client never puts a token into its table of invalid tokens.", "quantifier": "all key sets, all client histories of calls, answers, redemptions and restarts", "why_tests_cant": "Depends on which server is asked with which token over a whole history; tests use one key.", "anchors": ["src/_zkapauthorizer/_storage_client.py:call_with_passes_with_manual_spend", "src/_zkapauthorizer/_storage_client.py:invalidate_rejected_passes", "src/_zkapauthorizer/_storage_server.py:_ValidationResult.validate_passes", "src/_zkapauthorizer/_plugin.py:ZKAPAuthorizer.get_storage_client"]}
{"id": "C95", "title": "Passes only go to servers of the configured issuer", "statement": "A client with the default redeemer can use a storage server if and only if the server announces the very issuer URL the client is configured with; a server announcing another issuer is refused with a configuration mismatch, one announcing none is refused too.", "quantifier": "all client configurations and announcements", "why_tests_cant": "The configuration space is unbounded and the comparison is made once per announcement.", "anchors": ["src/_zkapauthorizer/_plugin.py:ZKAPAuthorizer.get_storage_client", "src/_zkapauthorizer/controller.py:RistrettoRedeemer.make", "src/_zkapauthorizer/controller.py:get_redeemer"]}
{"id": "C96", "title": "One connection and one replication service per node", "statement": "Within one process at most one connection is made to the database of a node, however often and by whomever the store is asked for, and at most one replication service works on it.", "quantifier": "all sequences of asking for stores, setting replication up and stores being garbage collected, over any number of nodes", "why_tests_cant": "Depends on when weakly referenced objects are collected.", "anchors": ["src/_zkapauthorizer/_plugin.py:ZKAPAuthorizer._get_store", "src/_zkapauthorizer/_plugin.py:ZKAPAuthorizer._add_replication_service", "src/_zkapauthorizer/_plugin.py:ZKAPAuthorizer.get_client_resource"]}
{"id": "C97", "title": "Lease maintenance runs exactly on nodes that enable the plugin", "statement": "If a node's database can be opened, the node has a lease maintenance service after start-up exactly if it had one before, or it names the plugin in its comma-separated list of storage plugins (white space ignored) and the service could be created; there is never more than one, no other service is touched, and failing to create it does not stop the node.", "quantifier": "all node configurations, service collections and creation outcomes", "why_tests_cant": "Text of configuration and outcome of creation are arbitrary.", "anchors": ["src/_zkapauthorizer/_plugin.py:_attach_zkapauthorizer_services", "src/_zkapauthorizer/_plugin.py:_maybe_attach_service", "src/_zkapauthorizer/_plugin.py:_is_client_plugin_enabled"]}
{"id": "C98", "title": "A node that does not enable the plugin is left alone", "statement": "A node that does not name the plugin among its storage plugins starts as if the plugin did not exist: no database is opened for it and no problem with that database keeps it from starting.", "quantifier": "all node configurations and outcomes of opening the database", "why_tests_cant": "The outcome of opening a database is arbitrary.", "anchors": ["src/_zkapauthorizer/_plugin.py:_attach_zkapauthorizer_services"]}
{"id": "C99", "title": "The leases of the replica are maintained", "statement": "Once replication is set up, each complete run of lease maintenance includes the directory the replica is kept in.", "quantifier": "all node configurations and directory graphs", "why_tests_cant": "The directory graph is arbitrary.", "anchors": ["src/_zkapauthorizer/_plugin.py:get_root_nodes", "src/_zkapauthorizer/lease_maintenance.py:visit_storage_indexes", "src/_zkapauthorizer/replicate.py:setup_tahoe_lafs_replication"]}
{"id": "C100", "title": "Every listed public key is allowed, and no other", "statement": "A client allows exactly the public keys its comma-separated allowed-public-keys item lists.", "quantifier": "all configuration texts and keys", "why_tests_cant": "The text is arbitrary.", "anchors": ["src/_zkapauthorizer/storage_common.py:get_configured_allowed_public_keys"]}
{"id": "C101", "title": "A server honours the public keys it announces", "statement": "A storage server that comes up announces the public key of its signing key, and accepts every pass made from tokens redeemed under an announced key, for every message; white space around the key in its file does not matter; it comes up exactly if its configuration is complete and its key readable.", "quantifier": "all server configurations, key files, redemptions and messages", "why_tests_cant": "Composes the announcement, the redemption and the check of passes for all keys.", "anchors": ["src/_zkapauthorizer/_plugin.py:ZKAPAuthorizer.get_storage_server", "src/_zkapauthorizer/_plugin.py:load_signing_key"]}
{"id": "C102", "title": "Client and server agree on the value of a pass", "statement": "A client that can use a storage server counts passes with the pass value of that server.", "quantifier": "all pairs of client and server configurations", "why_tests_cant": "Both are configured separately.", "anchors": ["src/_zkapauthorizer/_plugin.py:ZKAPAuthorizer.get_storage_server", "src/_zkapauthorizer/_plugin.py:ZKAPAuthorizer.get_storage_client", "src/_zkapauthorizer/storage_common.py:get_configured_pass_value"]}
{"id": "C103", "title": "A replica file is read back as it was written", "statement": "For all statements a node executes, with whatever arguments SQLite accepts, in whatever transactions: the recorded rows can be read back, the event stream file made from them is read by recovery, and recovery executes the same statements with the same arguments in the same order, leaving out only the statements that begin and end transactions. The statements of every snapshot are read back from its file, and rows recorded by the version without a column for arguments are replayed without arguments.", "quantifier": "all sequences of transactions, statements and arguments; all snapshots", "why_tests_cant": "Text, numbers, byte strings and times are unbounded, and lengths change the form of the encoding.", "anchors": ["src/_zkapauthorizer/replicate.py:EventStream.to_bytes", "src/_zkapauthorizer/replicate.py:EventStream.from_bytes", "src/_zkapauthorizer/replicate.py:add_events", "src/_zkapauthorizer/replicate.py:get_events", "src/_zkapauthorizer/replicate.py:statements_to_snapshot", "src/_zkapauthorizer/recover.py:statements_from_snapshot", "src/_zkapauthorizer/recover.py:recover_event_stream"]}
{"id": "C104", "title": "A file cut short is refused", "statement": "Every proper initial part of a snapshot or event stream file, as an interrupted transfer leaves it, is refused by recovery with an exception: it is never taken for a shorter file.", "quantifier": "all files and all places where they are cut", "why_tests_cant": "Every position in every file would have to be tried.", "anchors": ["src/_zkapauthorizer/replicate.py:EventStream.from_bytes", "src/_zkapauthorizer/recover.py:statements_from_snapshot", "src/_zkapauthorizer/tahoe.py:download"]}
{"id": "C105", "title": "A file of another format version is refused", "statement": "A snapshot or event stream file whose version number is not 1, or that has none, is refused with `ValueError`, whatever else it contains.", "quantifier": "all files that are CBOR maps", "why_tests_cant": "The rest of the file is arbitrary.", "anchors": ["src/_zkapauthorizer/replicate.py:EventStream.from_bytes", "src/_zkapauthorizer/recover.py:statements_from_snapshot"]}
{"id": "C106", "title": "Recovery writes only into the private directory", "statement": "Whatever entries the directory given to recovery has, the only local files that recovery's download creates or changes are in the node's private directory.", "quantifier": "all grids, directories and entry names, node directories and disk contents", "why_tests_cant": "Entry names are arbitrary text, and the client used by the tests refuses names that the real one accepts.", "anchors": ["src/_zkapauthorizer/recover.py:tahoe_lafs_downloader", "src/_zkapauthorizer/tahoe.py:Tahoe.get_private_path"]}
{"id": "C107", "title": "A downloaded file is complete or not there", "statement": "At every moment of a download of an object to a path, so also if the process dies then, the path has its previous content or all of the object's content; after a successful download it has all of it. A failed download leaves the path as it was, and no files other than the path and a temporary one next to it change.", "quantifier": "all disk contents, bodies and divisions into chunks, responses, and moments", "why_tests_cant": "Every chunk boundary is a possible crash point.", "anchors": ["src/_zkapauthorizer/tahoe.py:download"]}
{"id": "C108", "title": "A path is followed through directories to a file", "statement": "Downloading by a path of entry names gives the content of the file the path leads to through directories, and nothing else. Without a path `ValueError` is raised, for a missing entry `KeyError`, for a file in the middle `NotADirectoryError` and for a directory at the end `AssertionError`.", "quantifier": "all grids, directories and paths of any length", "why_tests_cant": "Directories nest to any depth.", "anchors": ["src/_zkapauthorizer/tahoe.py:download_child"]}
{"id": "C109", "title": "The replica holds exactly what was uploaded and not pruned", "statement": "After any history of uploads to a new replica directory and prunings of it, mixed with other uses of the grid that leave the directory alone, the directory lists exactly the names uploaded and not pruned since, in the order of first upload and with the right sizes, and each downloads as it was last uploaded. An upload fails only if the grid is full and pruning only if the predicate raises, which leaves that entry and the later ones in place.", "quantifier": "all histories, names, contents and predicates", "why_tests_cant": "Histories are unbounded and interleaved with other users of the grid.", "anchors": ["src/_zkapauthorizer/replicate.py:tahoe_lafs_uploader", "src/_zkapauthorizer/replicate.py:get_tahoe_lafs_direntry_uploader", "src/_zkapauthorizer/replicate.py:get_tahoe_lafs_direntry_pruner", "src/_zkapauthorizer/replicate.py:get_tahoe_lafs_direntry_lister"]}
{"id": "C110", "title": "Recovery fetches the snapshot and all event streams", "statement": "From a replica directory with any such history and no slash in its names, recovery writes the snapshot and every event stream to the private directory exactly as they were last uploaded, gives their paths in the order of the directory and changes no other file. If there is no snapshot it raises `KeyError` and changes nothing.", "quantifier": "all histories of the replica and disk contents", "why_tests_cant": "As C109, for any number of event streams.", "anchors": ["src/_zkapauthorizer/recover.py:tahoe_lafs_downloader", "src/_zkapauthorizer/replicate.py:get_tahoe_lafs_direntry_uploader"]}
{"id": "C111", "title": "Leases do not lapse between maintenance runs", "statement": "With any configuration of lease maintenance, after a completed run every share at a visited storage index on a server that carried out the renewals has a lease until the latest time at which the next run is to start.", "quantifier": "all configurations, servers and their states, storage indexes, and times up to the next run", "why_tests_cant": "Lapses depend on expiration times, intervals of weeks and the configuration together.", "anchors": ["src/_zkapauthorizer/lease_maintenance.py:renew_leases", "src/_zkapauthorizer/lease_maintenance.py:needs_lease_renewal", "src/_zkapauthorizer/lease_maintenance.py:LeaseMaintenanceConfig"]}
{"id": "C112", "title": "Maintenance takes place although the node is restarted", "statement": "Through any history of starts, stops, crashes and runs, a run is due no later than the longest configured interval after the last run ended, or after the node was first started if there was none, or at once at a start after that time; and no earlier than the shortest interval after the last run. The time of the last run is read back from disk as it was written.", "quantifier": "all configurations with non-negative intervals, histories and times", "why_tests_cant": "Weeks pass between the events and a restart may come at any of them.", "anchors": ["src/_zkapauthorizer/lease_maintenance.py:lease_maintenance_service", "src/_zkapauthorizer/lease_maintenance.py:calculate_initial_interval", "src/_zkapauthorizer/lease_maintenance.py:read_time_from_path", "src/_zkapauthorizer/lease_maintenance.py:write_time_to_path"]}
{"id": "C113", "title": "A failed maintenance run is not taken for a finished one", "statement": "The time from which a node counts to the next maintenance run, also after restarts, is that of the last run that succeeded.", "quantifier": "all histories of starts, stops, crashes and runs", "why_tests_cant": "As C112, with failures at any run.", "anchors": ["src/_zkapauthorizer/lease_maintenance.py:lease_maintenance_service"]}
{"id": "C114", "title": "A payment lasts as long as advertised", "statement": "If a maintenance run renewed an object on a server and a later run finds the object there as the first left it, the later run pays for it again only after more than the period shown with the price.", "quantifier": "all configurations with a minimum time remaining of up to 31 days, servers, objects and times", "why_tests_cant": "It is about two runs weeks apart and a third computation of the period.", "anchors": ["src/_zkapauthorizer/lease_maintenance.py:LeaseMaintenanceConfig.get_lease_duration", "src/_zkapauthorizer/lease_maintenance.py:needs_lease_renewal", "src/_zkapauthorizer/resource.py:_CalculatePrice"]}
{"id": "C115", "title": "Storage operations reach the server as they were asked for", "statement": "Every storage operation whose arguments the protocol has room for (storage index of at most 16 bytes, secrets of 32, share numbers below 2^31, sizes and offsets below 2^64, at most 256 shares allocated at once, at most 2^20 passes of 177 bytes) reaches the server's method with exactly the caller's arguments, each in its place; any other operation raises an error in the client and does not reach the server. In particular no operation with a price over 2^20 passes can be performed.", "quantifier": "all storage operations and all their arguments", "why_tests_cant": "Argument order, conversions and limits interact; a test tries a few shapes and sizes.", "anchors": ["src/_zkapauthorizer/foolscap.py:add_passes", "src/_zkapauthorizer/foolscap.py:add_arguments", "src/_zkapauthorizer/foolscap.py:RIPrivacyPassAuthorizedStorageServer", "src/_zkapauthorizer/_storage_client.py:ZKAPAuthorizerStorageClient", "src/_zkapauthorizer/_storage_server.py:ZKAPAuthorizerStorageServer"]}
{"id": "C116", "title": "A storage server cannot make an operation cost more than it is worth", "statement": "Whatever a storage server answers to the questions a client asks before it pays, a slot write costs at most what storing all the data written costs, and a lease renewal at most what the shares stored there cost.", "quantifier": "all answers, writes, pass values and times", "why_tests_cant": "Answers of a misbehaving server are unbounded and tests use the real one.", "anchors": ["src/_zkapauthorizer/_storage_client.py:ZKAPAuthorizerStorageClient.slot_testv_and_readv_and_writev", "src/_zkapauthorizer/_storage_client.py:ZKAPAuthorizerStorageClient.add_lease", "src/_zkapauthorizer/_storage_client.py:stat_shares", "src/_zkapauthorizer/_storage_client.py:get_share_sizes", "src/_zkapauthorizer/storage_common.py:get_required_new_passes_for_mutable_write", "src/_zkapauthorizer/foolscap.py:ShareStat"]}
{"id": "C117", "title": "A malformed answer of a storage server is refused", "statement": "If a storage server's answer is not of the form the operation calls for, the operation raises an error, and no passes are spent for it; if it is, the caller gets the answer as it was given.", "quantifier": "all answers to share_sizes, stat_shares, slot writes, get_buckets and allocate_buckets", "why_tests_cant": "The values a server may send are unbounded and tests use the real server.", "anchors": ["src/_zkapauthorizer/_storage_client.py:stat_shares", "src/_zkapauthorizer/_storage_client.py:get_share_sizes", "src/_zkapauthorizer/_storage_client.py:slot_testv_and_readv_and_writev", "src/_zkapauthorizer/_storage_client.py:ZKAPAuthorizerStorageClient.allocate_buckets", "src/_zkapauthorizer/_storage_client.py:ZKAPAuthorizerStorageClient.get_buckets", "src/_zkapauthorizer/foolscap.py:add_arguments"]}
{"id": "C118", "title": "The records of client and server agree", "statement": "Whenever no storage operation is in progress, every token a client ever had is either still in its store and not on record at the server as spent, or no longer in its store and on record at the server exactly once; the server has none of the client's tokens on record that the client never had. Whatever is lost on the way, the client discards a token only after the server recorded it.", "quantifier": "all interleavings of requests, answers, failing connections, restarts of the client, other operations of the client's store and other requests to the server", "why_tests_cant": "Two programs, any number of operations under way at once, and failures at any point between them.", "anchors": ["src/_zkapauthorizer/_storage_client.py:call_with_passes_with_manual_spend", "src/_zkapauthorizer/_storage_client.py:ZKAPAuthorizerStorageClient._spend_for_allocate_buckets", "src/_zkapauthorizer/_storage_server.py:ZKAPAuthorizerStorageServer.remote_allocate_buckets", "src/_zkapauthorizer/_storage_server.py:ZKAPAuthorizerStorageServer.remote_add_lease", "src/_zkapauthorizer/_storage_server.py:ZKAPAuthorizerStorageServer.remote_slot_testv_and_readv_and_writev", "src/_zkapauthorizer/spending.py:SpendingController"]}
{"id": "C119", "title": "Losing the node does not cost a voucher", "statement": "A voucher that is only redeemed by one installation is never refused by the issuer as double-spent: its requests can fail, answers can be lost, the node can crash, and it can be lost altogether and recovered from its replica, at any time; and once the voucher is redeemed all of its tokens have been obtained.", "quantifier": "all interleavings of events at the node, requests dealt with by the issuer, lost answers, failed requests, reports that the voucher is unpaid, uploads to the replica, and losses followed by a recovery", "why_tests_cant": "The moment of loss relative to the upload and to the issuer's work decides, and losses can follow each other.", "anchors": ["src/_zkapauthorizer/controller.py:PaymentController.redeem", "src/_zkapauthorizer/controller.py:PaymentController._perform_redeem", "src/_zkapauthorizer/model.py:VoucherStore.add", "src/_zkapauthorizer/recover.py:recover", "src/_zkapauthorizer/replicate.py:_ReplicationService"]}
{"id": "C120", "title": "Every pending voucher is redeemed in the end", "statement": "Whatever has happened before, once the node is started again and from then on the issuer signs what it is asked to sign, every pending voucher is redeemed after a bounded number of steps.", "quantifier": "all histories of calls, failures, reports that vouchers are unpaid, and crashes; all later interleavings of the node's work and the issuer's answers", "why_tests_cant": "The state the node is restarted in depends on the whole history, and the answers to several vouchers' requests interleave.", "anchors": ["src/_zkapauthorizer/controller.py:PaymentController.redeem", "src/_zkapauthorizer/controller.py:PaymentController._check_pending_vouchers", "src/_zkapauthorizer/controller.py:PaymentController._perform_redeem", "src/_zkapauthorizer/controller.py:PaymentController._redeem_success"]}
{"id": "C121", "title": "The SQL of the store does what its methods promise", "statement": "Whatever is called on a store that starts with an empty file, with restarts of the process in between, the SQL statements that are executed fit the schema of the file, give the answers the methods are specified to give, and leave exactly the specified records in the file: no statement touches rows of another voucher or another table, and the file stays one that SQLite can have written.", "quantifier": "all histories of calls, all arguments, all points of restart", "why_tests_cant": "Each statement selects rows by what earlier statements left behind; a wrong WHERE clause shows only with the right combination of rows.", "anchors": ["src/_zkapauthorizer/model.py:VoucherStore.add", "src/_zkapauthorizer/model.py:VoucherStore.insert_unblinded_tokens_for_voucher", "src/_zkapauthorizer/model.py:VoucherStore.get_unblinded_tokens", "src/_zkapauthorizer/model.py:VoucherStore.discard_unblinded_tokens", "src/_zkapauthorizer/model.py:VoucherStore.invalidate_unblinded_tokens", "src/_zkapauthorizer/model.py:VoucherStore.reset_unblinded_tokens", "src/_zkapauthorizer/model.py:VoucherStore.list", "src/_zkapauthorizer/model.py:VoucherStore.get", "src/_zkapauthorizer/model.py:initialize_database", "src/_zkapauthorizer/schema.py:_UPGRADES"]}
{"id": "C122", "title": "Snapshot and recorded SQL restore the file", "statement": "A snapshot of the file taken at any time, loaded in another process over whatever unused store is there, followed by the SQL statements recorded since then, gives a file with the records that the store had in the end; every statement succeeds although foreign keys are checked only at the end, where they hold.", "quantifier": "all histories before and after the snapshot, all orders of the tables in the dump, all unused target stores", "why_tests_cant": "The statements find their rows by contents of the restored file, and row numbers that SQLite assigns must come out as they did the first time.", "anchors": ["src/_zkapauthorizer/recover.py:recover", "src/_zkapauthorizer/recover.py:recover_snapshot", "src/_zkapauthorizer/recover.py:recover_event_stream", "src/_zkapauthorizer/replicate.py:_ReplicationCapableConnection", "src/_zkapauthorizer/replicate.py:connection_to_statements", "src/_zkapauthorizer/model.py:VoucherStore.add"]}
{"id": "C123", "title": "The changes that are only on this machine are few", "statement": "As long as replication runs, the recorded changes that are neither being uploaded nor about to be amount to less than 570000 characters of SQL. Recording a voucher makes an upload due at once; nothing else makes one due before that amount is reached.", "quantifier": "all histories of store calls, upload outcomes and restarts", "why_tests_cant": "The accounting of sizes spans many calls, uploads that fail and restarts; a change that is forgotten shows only when the machine is lost.", "anchors": ["src/_zkapauthorizer/replicate.py:_ReplicationService.observed_event", "src/_zkapauthorizer/replicate.py:_ReplicationService.should_upload_eventstream", "src/_zkapauthorizer/replicate.py:AccumulatedChanges.from_connection", "src/_zkapauthorizer/replicate.py:AccumulatedChanges.from_statements", "src/_zkapauthorizer/replicate.py:_ReplicationService._do_startup"]}
{"id": "C124", "title": "Only genuine passes buy service", "statement": "The storage server allocates, renews or grows nothing unless among the strings sent there are at least as many as the price that hold a token together with the signature on this operation that only someone whose token was signed by the issuer's key can make; otherwise the request fails and nothing changes. With that many, and nothing among them that is not a pass, no request fails for want of passes.", "quantifier": "all requests, all server states, all strings sent as passes, every lawful signature scheme", "why_tests_cant": "A pass can be malformed in many places; each of them must make it worthless and none may raise the count.", "anchors": ["src/_zkapauthorizer/_storage_server.py:_ValidationResult._is_invalid_pass", "src/_zkapauthorizer/_storage_server.py:_ValidationResult.validate_passes", "src/_zkapauthorizer/_storage_server.py:ZKAPAuthorizerStorageServer.remote_allocate_buckets", "src/_zkapauthorizer/_storage_server.py:ZKAPAuthorizerStorageServer.remote_add_lease", "src/_zkapauthorizer/_storage_server.py:ZKAPAuthorizerStorageServer.remote_slot_testv_and_readv_and_writev"]}
{"id": "C125", "title": "A slot write changes exactly what was asked for", "statement": "A paid slot write that succeeds: all its tests held; every byte of every share in it is afterwards the last one written there, else what was there before, else zero up to the end of the writes; all other data is untouched; the answer holds what was selected of the data before the write. One that is answered with failure: a test did not hold and no data changes. Adding leases never touches data.", "quantifier": "all server states, test, write and read vectors, all space limits", "why_tests_cant": "Overlapping writes, gaps and leases added in between combine without bound.", "anchors": ["src/_zkapauthorizer/_storage_server.py:ZKAPAuthorizerStorageServer._slot_testv_and_readv_and_writev", "src/_zkapauthorizer/_storage_server.py:add_leases_for_writev"]}
{"id": "C126", "title": "A Tahoe-LAFS node does for the plugin what the in-memory grid does", "statement": "Uploading, making a directory, listing, linking and unlinking through the HTTP API end with the same value or the same kind of exception as on the in-memory grid and leave the same grid, however often the node could not be reached or lacked servers before.", "quantifier": "all grids, all arguments, all finite sequences of refused connections and reports of missing servers", "why_tests_cant": "The tests of replication and recovery run on the in-memory grid; the node is reached through replies whose number and order are not bounded.", "anchors": ["src/_zkapauthorizer/tahoe.py:upload_bytes", "src/_zkapauthorizer/tahoe.py:list_directory", "src/_zkapauthorizer/tahoe.py:make_directory", "src/_zkapauthorizer/tahoe.py:link", "src/_zkapauthorizer/tahoe.py:unlink", "src/_zkapauthorizer/tahoe.py:async_retry", "src/_zkapauthorizer/tahoe.py:MemoryGrid"]}
{"id": "C127", "title": "An operation on the grid that is retried is done once", "statement": "If a request is reported as failed for want of servers although it was carried out, the retried operation still ends well, and the grid holds what it held before and the result of the operation.", "quantifier": "all histories of the grid, all sequences of hindrances, whatever was done before each", "why_tests_cant": "Whether the effect happened before the failure cannot be arranged with the in-memory grid.", "anchors": ["src/_zkapauthorizer/tahoe.py:async_retry", "src/_zkapauthorizer/tahoe.py:upload_bytes", "src/_zkapauthorizer/tahoe.py:make_directory", "src/_zkapauthorizer/tahoe.py:link", "src/_zkapauthorizer/tahoe.py:unlink"]}
{"id": "C128", "title": "Only a missing node and missing servers are waited for", "statement": "An operation on the grid is tried again exactly if the connection was refused or the node said that it lacks servers; any other answer ends it.", "quantifier": "all replies of all nodes, all arguments", "why_tests_cant": "The retries have no limit, so that an error taken for a temporary one blocks for ever.", "anchors": ["src/_zkapauthorizer/tahoe.py:_not_enough_servers", "src/_zkapauthorizer/tahoe.py:_connection_refused", "src/_zkapauthorizer/tahoe.py:async_retry", "src/_zkapauthorizer/tahoe.py:TahoeAPIError"]}
{"id": "C129", "title": "The vouchers of a recovered database are redeemed", "statement": "After a recovery every pending voucher of the recovered database is redeemed as the user left it, without the user submitting it again or starting the node again, provided the issuer signs what it is asked to sign.", "quantifier": "every history of the lost node and of the new node, every voucher, and everything that can happen after the recovery", "why_tests_cant": "It is about all later schedules: a test can only wait for a while and see that nothing has happened yet.", "anchors": ["src/_zkapauthorizer/controller.py:PaymentController._check_pending_vouchers", "src/_zkapauthorizer/controller.py:PaymentController._retry_redemption", "src/_zkapauthorizer/resource.py:RecoverFactory._recover", "src/_zkapauthorizer/recover.py:recover"]}
{"id": "C130", "title": "A storage server reports the shares in its directories and nothing else", "statement": "What a storage server says about the shares at a storage index - their numbers, sizes and lease expiration times - and what it charges for a lease or a write there depend only on the shares stored under it, whatever other files are in the directory.", "quantifier": "every set of directories, every share file, every other file, every set of storage indexes asked about", "why_tests_cant": "It is about every directory a server can have: a test creates a few.", "anchors": ["src/_zkapauthorizer/_storage_server.py:get_all_share_paths", "src/_zkapauthorizer/_storage_server.py:get_all_share_numbers", "src/_zkapauthorizer/_storage_server.py:get_share_stats", "src/_zkapauthorizer/_storage_server.py:get_share_sizes", "src/_zkapauthorizer/_storage_server.py:share_has_active_leases", "src/_zkapauthorizer/_storage_server.py:get_writev_price"]}
{"id": "C131", "title": "A damaged share affects only its own storage index", "statement": "If a share cannot be read, the server still answers questions about the shares at other storage indexes, and lease maintenance still renews their leases.", "quantifier": "every set of directories, every damaged share, every set of storage indexes asked about in one request, every maintenance run", "why_tests_cant": "A damaged share can be at any of the storage indexes and anywhere among the shares: the outcome depends on the order of the directory.", "anchors": ["src/_zkapauthorizer/_storage_server.py:ZKAPAuthorizerStorageServer.remote_stat_shares", "src/_zkapauthorizer/_storage_server.py:get_share_stats", "src/_zkapauthorizer/_storage_server.py:get_stat", "src/_zkapauthorizer/lease_maintenance.py:renew_leases_on_server"]}
{"id": "C132", "title": "Leases do not pile up and do not shrink", "statement": "Whatever clients ask of a storage server, no share has two leases with one secret, and a lease a share has got is never lost or shortened. Lease maintenance renews the lease with which the node stored the share instead of adding another one, and does not touch the leases of other nodes.", "quantifier": "every history of requests, uploads, lost connections; every share and lease; every node's secret, storage index and server", "why_tests_cant": "It is an invariant of all histories with any number of clients, and about what is derived from secrets that a test fixes.", "anchors": ["src/_zkapauthorizer/lease_maintenance.py:renew_lease", "src/_zkapauthorizer/_storage_server.py:ZKAPAuthorizerStorageServer.remote_add_lease", "src/_zkapauthorizer/_storage_server.py:add_leases_for_writev", "src/_zkapauthorizer/_storage_server.py:ZKAPAuthorizerStorageServer.remote_allocate_buckets"]}
{"id": "C133", "title": "Only orders with the token change a node", "statement": "A request to the HTTP API without the token of the node is refused and leaves no trace, at every address, with every method and body. With the token, only two kinds of request change anything: `PUT` of a voucher and `POST` to `replicate`; an address that is not documented is not found.", "quantifier": "every node state, request, and history of requests, messages and redemptions", "why_tests_cant": "There are infinitely many addresses, methods, headers and bodies; tests try the documented ones.", "anchors": ["src/_zkapauthorizer/resource.py:from_configuration", "src/_zkapauthorizer/resource.py:authorizationless_resource_tree", "src/_zkapauthorizer/resource.py:_VoucherCollection", "src/_zkapauthorizer/resource.py:_LeaseMaintenanceResource", "src/_zkapauthorizer/resource.py:_ProjectVersion", "src/_zkapauthorizer/resource.py:_CalculatePrice", "src/_zkapauthorizer/private.py:create_private_tree"]}
{"id": "C134", "title": "Lease maintenance is reported as documented", "statement": "`GET lease-maintenance` answers with the number of tokens that can be spent under `spendable`, and under `lease-maintenance-spending` with `null` or the time and the cost of the last finished run of lease maintenance, whatever happened to the node before.", "quantifier": "every history of the store", "why_tests_cant": "It is about the last of all runs in any history of runs, some of which never finished.", "anchors": ["src/_zkapauthorizer/resource.py:_LeaseMaintenanceResource.render_GET", "src/_zkapauthorizer/resource.py:_LeaseMaintenanceResource._lease_maintenance_activity", "src/_zkapauthorizer/model.py:VoucherStore.get_latest_lease_maintenance_activity"]}
{"id": "C135", "title": "A repeated request has no effect", "statement": "If the node answered `PUT voucher` with OK, the same request again has no effect.", "quantifier": "every history of the node and every voucher", "why_tests_cant": "It is about every state a voucher can have reached between the two requests.", "anchors": ["src/_zkapauthorizer/resource.py:_VoucherCollection.render_PUT", "src/_zkapauthorizer/controller.py:PaymentController.redeem", "src/_zkapauthorizer/model.py:VoucherStore.add"]}
{"id": "C136", "title": "Prices are those of the node", "statement": "The price the API calculates for files is, for each, the number of shares times the fewest passes that cover one share, with the shares and the pass value of the node's configuration file, or the documented defaults; the period is 31 days less the configured minimum of time remaining.", "quantifier": "every configuration with integer settings, every list of sizes, every state of the node", "why_tests_cant": "Sizes and settings are unbounded; a test can only compare a few with precomputed prices.", "anchors": ["src/_zkapauthorizer/resource.py:_CalculatePrice.render_POST", "src/_zkapauthorizer/resource.py:from_configuration", "src/_zkapauthorizer/resource.py:get_token_count", "src/_zkapauthorizer/config.py:get_configured_shares_needed", "src/_zkapauthorizer/config.py:get_configured_shares_total", "src/_zkapauthorizer/config.py:get_configured_pass_value", "src/_zkapauthorizer/config.py:get_configured_lease_duration", "src/_zkapauthorizer/lease_maintenance.py:lease_maintenance_config_from_dict"]}
{"id": "C137", "title": "The documented checkpoint can be fetched", "statement": "The address `unblinded-token`, from which the documentation says the checkpoint for a backup is read and to which it is restored, exists.", "quantifier": "every node state", "why_tests_cant": "That an address does not exist in any state cannot be shown by a test.", "anchors": ["src/_zkapauthorizer/resource.py:authorizationless_resource_tree"]}
{"id": "C138", "title": "A test redeemer brings vouchers only to what it is for", "statement": "Whatever the history of calls, answers and crashes, with each configured redeemer for tests a voucher is shown only as waiting, as in progress, or in the one state that redeemer is for: redeemed (`dummy`), double-spend (`double-spend`), unpaid (`unpaid`), or failed with exactly the configured text (`error`); with `non` nothing else. Except with `dummy`, no tokens to spend are ever stored; with `dummy`, all stored tokens are those it made up.", "quantifier": "every redeemer, configuration of groups, and history of the controller with it", "why_tests_cant": "Histories interleave any number of vouchers, retries, answers and crashes.", "anchors": ["src/_zkapauthorizer/controller.py:NonRedeemer", "src/_zkapauthorizer/controller.py:ErrorRedeemer", "src/_zkapauthorizer/controller.py:DoubleSpendRedeemer", "src/_zkapauthorizer/controller.py:UnpaidRedeemer", "src/_zkapauthorizer/controller.py:DummyRedeemer", "src/_zkapauthorizer/controller.py:get_redeemer", "src/_zkapauthorizer/controller.py:PaymentController"]}
{"id": "C139", "title": "Made-up tokens exist for every voucher and are distinct", "statement": "For every voucher that the API accepts the redeemers for tests make up as many random tokens as they are asked for; tokens made up for different vouchers, groups or positions are different; the dummy redeemer's unblinded tokens and passes have the length of real ones, and its passes for different tokens are different unless digests collide.", "quantifier": "every voucher, group below 10000, and count up to 10^60", "why_tests_cant": "It is about pairs of inputs from an unbounded domain.", "anchors": ["src/_zkapauthorizer/controller.py:dummy_random_tokens", "src/_zkapauthorizer/controller.py:DummyRedeemer.redeemWithCounter", "src/_zkapauthorizer/controller.py:DummyRedeemer.tokens_to_passes", "src/_zkapauthorizer/resource.py:is_syntactic_voucher"]}
{"id": "C140", "title": "Keeping the replica stays affordable", "statement": "Whenever the replication service is at rest, the replica on the grid has no event streams or costs at most ten times as many passes as a snapshot of the database would have when the replica became what it is; only the files of the replica are counted.", "quantifier": "every price, encoding, size of objects and history of a node with replication, with restarts and failures at any point", "why_tests_cant": "It depends on the order of uploads, queued work and restarts in a history of any length, and on the sizes of all objects in the directory.", "anchors": ["src/_zkapauthorizer/replicate.py:_do_consider_snapshot", "src/_zkapauthorizer/replicate.py:_replica_size", "src/_zkapauthorizer/replicate.py:_new_snapshot_size", "src/_zkapauthorizer/_plugin.py:_CostBasedPolicy", "src/_zkapauthorizer/replicate.py:get_tahoe_lafs_direntry_lister"]}
{"id": "C141", "title": "Uploaded immutable data can be read back by anyone", "statement": "Once an upload of an immutable share has been completed, every reader gets exactly the bytes that were uploaded, for free and forever: no request by anyone, paid or not, deletes a share or changes its bytes, and none prevents the reading.", "quantifier": "every history of requests to the storage server by any number of clients, before and after the upload", "why_tests_cant": "It ranges over all interleavings of requests of all clients, including hostile ones.", "anchors": ["src/_zkapauthorizer/_storage_server.py:remote_get_buckets", "src/_zkapauthorizer/_storage_server.py:remote_allocate_buckets", "src/_zkapauthorizer/_storage_server.py:remote_slot_testv_and_readv_and_writev"]}
{"id": "C142", "title": "Only holders of the write enabler change a slot", "statement": "As long as nobody sends a slot write with a mutable share's write enabler, the share keeps its data and anyone reads that data for free, whatever else is requested.", "quantifier": "every history of requests to the storage server by any number of clients", "why_tests_cant": "It ranges over all interleavings of requests of all clients, including hostile ones.", "anchors": ["src/_zkapauthorizer/_storage_server.py:remote_slot_readv", "src/_zkapauthorizer/_storage_server.py:remote_slot_testv_and_readv_and_writev", "src/_zkapauthorizer/_storage_server.py:remote_allocate_buckets"]}
{"id": "C143", "title": "The next token to be spent tells spent tokens from unspent ones", "statement": "Take a backup of the database when no token is in use. At any later time at which no token is in use, the next token to be spent is a checkpoint: the backup's tokens before it, in the order in which they are handed out, have been spent, and it and those after it have not (docs/source/backup.rst).", "quantifier": "every history of the store before and after the backup, every number of tokens", "why_tests_cant": "It ranges over all interleavings of storage operations that take, spend and give back tokens, and all crash points.", "anchors": ["src/_zkapauthorizer/model.py:get_unblinded_tokens", "src/_zkapauthorizer/model.py:discard_unblinded_tokens", "src/_zkapauthorizer/model.py:reset_unblinded_tokens", "src/_zkapauthorizer/model.py:insert_unblinded_tokens_for_voucher"]}
{"id": "C144", "title": "A node can be lost and recovered any number of times", "statement": "A node whose replication is set up is lost when everything has been uploaded; another recovers its replica; replication is set up on that one, it is used, lost and replaced in turn, any number of times. As long as nothing goes wrong every recovery succeeds and the last node has the vouchers, tokens and spending records of a node with the same history that was never lost, only started again (docs/source/designs/backup-recovery.rst).", "quantifier": "every number of losses, every history of each node between two of them, every order in which replicas are listed", "why_tests_cant": "It ranges over all histories of all successive nodes; recorded changes that a snapshot carries over must not be replayed a second time on any of them.", "anchors": ["src/_zkapauthorizer/replicate.py:_ReplicationService", "src/_zkapauthorizer/replicate.py:snapshot", "src/_zkapauthorizer/replicate.py:setup_tahoe_lafs_replication", "src/_zkapauthorizer/recover.py:recover", "src/_zkapauthorizer/recover.py:recover_event_streams"]}
{"id": "C145", "title": "A snapshot is read back whatever is stored", "statement": "A snapshot is a file of SQL text. From the file made of any database, whatever the text, numbers and bytes stored in it (quotes, commas, semicolons, other SQL, letters of any script), recovery reads the rows that were stored, and nothing in a value is taken for a statement.", "quantifier": "every database, every order of its tables, every value SQLite can store", "why_tests_cant": "It ranges over all strings: one badly quoted character would change a row or run as SQL.", "anchors": ["src/_zkapauthorizer/replicate.py:snapshot", "src/_zkapauthorizer/replicate.py:connection_to_statements", "src/_zkapauthorizer/replicate.py:statements_to_snapshot", "src/_zkapauthorizer/recover.py:statements_from_snapshot", "src/_zkapauthorizer/recover.py:recover_snapshot"]}
{"id": "C146", "title": "Any string can be the name of a table in a statement", "statement": "A name that is escaped for use in a statement (before a recovery every table is dropped by name) is read by SQLite as that name, for an arbitrary string.", "quantifier": "every string", "why_tests_cant": "It ranges over all strings.", "anchors": ["src/_zkapauthorizer/sql.py:escape_identifier", "src/_zkapauthorizer/recover.py:recover_snapshot"]}
{"id": "C147", "title": "Removing a public key stops the spending of its tokens", "statement": "The allowed public keys in the configuration are the only ones whose tokens are spent: when a key is taken out of the configuration and the node started again, tokens the issuer signed with that key can no longer be obtained.", "quantifier": "every sequence of configurations, every history of submissions, answers, crashes and storage calls under each", "why_tests_cant": "It ranges over all sequences of configurations and all histories under each of them.", "anchors": ["src/_zkapauthorizer/controller.py:PaymentController", "src/_zkapauthorizer/controller.py:_redeem_success", "src/_zkapauthorizer/model.py:insert_unblinded_tokens_for_voucher", "src/_zkapauthorizer/model.py:get_unblinded_tokens", "src/_zkapauthorizer/resource.py:from_configuration", "src/_zkapauthorizer/docs/source/configuration.rst"]}
{"id": "C148", "title": "Allowing a public key releases the tokens sequestered for it", "statement": "Tokens received with a public key that is not allowed are sequestered until some further action is taken: when the key is added to the configuration and the node started again, they can be obtained.", "quantifier": "every sequence of configurations, every history of submissions, answers, crashes and storage calls under each", "why_tests_cant": "It ranges over all sequences of configurations and all histories under each of them.", "anchors": ["src/_zkapauthorizer/controller.py:PaymentController", "src/_zkapauthorizer/controller.py:_redeem_success", "src/_zkapauthorizer/model.py:insert_unblinded_tokens_for_voucher", "src/_zkapauthorizer/model.py:get_unblinded_tokens", "src/_zkapauthorizer/docs/source/configuration.rst"]}
{"id": "C149", "title": "A voucher is redeemed for what it was submitted for", "statement": "The number of tokens a voucher is redeemed for is the one it was submitted with, or the configured one if none was given. It is not affected by later submissions or by later changes of the configuration: the requests still to be made ask for what is left of that number.", "quantifier": "every sequence of configurations, every history of submissions, answers, crashes and storage calls under each", "why_tests_cant": "It ranges over all sequences of configurations and all histories under each of them.", "anchors": ["src/_zkapauthorizer/controller.py:redeem", "src/_zkapauthorizer/controller.py:_get_random_tokens_for_voucher", "src/_zkapauthorizer/model.py:add", "src/_zkapauthorizer/resource.py:from_configuration"]}
{"id": "C150", "title": "A backup made for a new voucher saves its value", "statement": "If the database file is backed up whenever a new voucher has been submitted, as documented, then putting the backup in the place of the file at any later time does not cost any of the voucher's value: no request for it is refused by the issuer as double-spent.", "quantifier": "every history of submissions, answers of the issuer (also lost ones), failures, crashes, backups and restores", "why_tests_cant": "It ranges over all moments of backup and restore in all histories.", "anchors": ["src/_zkapauthorizer/docs/source/backup.rst", "src/_zkapauthorizer/controller.py:redeem", "src/_zkapauthorizer/controller.py:_get_random_tokens_for_voucher", "src/_zkapauthorizer/model.py:add", "src/_zkapauthorizer/model.py:insert_unblinded_tokens_for_voucher"]}
{"id": "C151", "title": "Storage operations go to ZKAPAuthorizer servers only", "statement": "With a reference to anything but a ZKAPAuthorizer storage server every storage operation raises an error at once: nothing is sent, no token is touched and nothing is left waiting; with a reference to such a server the operation is carried out. Free operations (version, download, shares' state, reads, corruption reports) neither touch nor need tokens, whatever happens to them.", "quantifier": "every operation, every reference, every state of the client, every answer of the server", "why_tests_cant": "It ranges over all operations in all states of the client and all references.", "anchors": ["src/_zkapauthorizer/_storage_client.py:with_rref", "src/_zkapauthorizer/_storage_client.py:_rref", "src/_zkapauthorizer/_storage_client.py:get_version", "src/_zkapauthorizer/_storage_client.py:IncorrectStorageServerReference"]}
{"id": "C152", "title": "No operation takes more tokens than its price", "statement": "Whatever storage servers answer, a request is never sent with more passes than the price of the operation: for an upload that of its shares, for a lease renewal that of shares of the sizes the server reported, for a write that of the growth of the shares the server reported.", "quantifier": "every history of storage operations, answers of servers, voucher operations and restarts of a client", "why_tests_cant": "It ranges over all answers of all servers in all histories, hostile servers included.", "anchors": ["src/_zkapauthorizer/_storage_client.py:add_lease", "src/_zkapauthorizer/_storage_client.py:get_share_sizes", "src/_zkapauthorizer/_storage_client.py:call_with_passes_with_manual_spend", "src/_zkapauthorizer/storage_common.py:required_passes", "src/_zkapauthorizer/model.py:get_unblinded_tokens", "src/_zkapauthorizer/foolscap.py:RIPrivacyPassAuthorizedStorageServer"]}
{"id": "C153", "title": "What an operation sends and what it costs", "statement": "Every remote call of a storage operation is the free one it begins with, about the same storage index, or the operation itself with exactly the caller's arguments and passes made for the message of this operation on this storage index. A token is held by at most one operation, and leaves the client's store only when the operation that sent it returns its result to the caller or the server names its pass as failing. With the result of a renewal or a write all tokens it held leave, with that of an upload as many as the new buckets cost.", "quantifier": "every history of storage operations, answers of servers, voucher operations and restarts of a client", "why_tests_cant": "It ranges over all interleavings of operations and all answers.", "anchors": ["src/_zkapauthorizer/_storage_client.py:ZKAPAuthorizerStorageClient", "src/_zkapauthorizer/_storage_client.py:call_with_passes_with_manual_spend", "src/_zkapauthorizer/spending.py:SpendingController", "src/_zkapauthorizer/spending.py:PassGroup"]}
{"id": "C154", "title": "A pass is sent one time", "statement": "No two remote calls of a client carry passes made of the same token, which servers could recognise by the preimage and use to link the operations.", "quantifier": "every history of storage operations, answers of servers, voucher operations and restarts of a client", "why_tests_cant": "It ranges over all interleavings of operations, all answers and all failures.", "anchors": ["src/_zkapauthorizer/model.py:Pass", "src/_zkapauthorizer/_storage_client.py:call_with_passes_with_manual_spend", "src/_zkapauthorizer/_storage_client.py:ZKAPAuthorizerStorageClient", "src/_zkapauthorizer/spending.py:PassGroup", "src/_zkapauthorizer/spending.py:SpendingController"]}
{"id": "C155", "title": "The status of a voucher is the outcome of its latest attempt", "statement": "What is shown of a voucher says when it was added, and its state is the outcome of the latest attempt to redeem it: redeeming since the time the attempt began, unpaid, double-spend or error with the time of the answer, redeemed with the time of the last group and the number of tokens for which it was redeemed, and otherwise pending; the counter is the number of groups redeemed so far.", "quantifier": "every history of calls, answers of the issuer, timers, restarts and other operations on the database, and every voucher", "why_tests_cant": "It ranges over all orders of attempts, answers and restarts.", "anchors": ["src/_zkapauthorizer/controller.py:PaymentController", "src/_zkapauthorizer/model.py:Voucher", "src/_zkapauthorizer/model.py:VoucherStore"]}
{"id": "C156", "title": "An operation that can be paid for is carried out", "statement": "When a client with good tokens enough for the price of an upload, a lease renewal or a slot write performs it on a server that would do it for a client who pays, and nobody else touches the storage index meanwhile, the call returns its result, tokens to the amount of the price leave the client's store, and the server records as many passes as spent.", "quantifier": "every history of the client, every state of the server, everything other clients do before each call arrives, and every operation that costs something", "why_tests_cant": "It ranges over all histories at both ends and over the times at which each of the two computes the price.", "anchors": ["src/_zkapauthorizer/_storage_client.py:ZKAPAuthorizerStorageClient", "src/_zkapauthorizer/_storage_client.py:call_with_passes", "src/_zkapauthorizer/_storage_server.py:ZKAPAuthorizerStorageServer"]}
{"id": "C157", "title": "Bad tokens do not prevent an operation", "statement": "When some of the client's tokens are ones whose passes the server does not accept, an upload, a lease renewal or a slot write is still carried out if there are good tokens enough for its price: the bad tokens the server points out are set aside as invalid with the reason, other tokens take their place, and after at most one round trip for each bad token the call returns its result. Passes to the amount of the price are recorded as spent, and no good token leaves the store beyond that.", "quantifier": "every history of the client, every mix of good and bad tokens, every order in which the database yields them, every state of the server and everything other clients do meanwhile away from the storage index, as long as its leases stay as they are, and every operation that costs something", "why_tests_cant": "It ranges over all mixes of tokens and over the number of round trips.", "anchors": ["src/_zkapauthorizer/_storage_client.py:call_with_passes", "src/_zkapauthorizer/_storage_client.py:invalidate_rejected_passes", "src/_zkapauthorizer/spending.py:PassGroup", "src/_zkapauthorizer/_storage_server.py:_ValidationResult"]}
{"id": "C158", "title": "What a client is told is what happened at the server", "statement": "When a storage call of a client returns, what it returns says what the server had and did in the call. An upload returns the shares the server has and writers for shares it has not, each with a lease of 31 days. A lease renewal returns only after every share at the index has a lease with the given secret for 31 days. A slot write returns whether its tests hold, the data that was there before, and every byte of the shares is as the write says if they hold and as before if they do not. Reads and questions about shares return the data, sizes, share numbers and last leases the server has, and change nothing.", "quantifier": "every operation, every history of the client, every state of the server with distinct share numbers, everything other clients do meanwhile, every time and every order in which the database yields tokens, with any number of round trips", "why_tests_cant": "It relates the answer the caller gets to the bytes and leases on the server for all states and all arguments, with retries between.", "anchors": ["src/_zkapauthorizer/_storage_client.py:ZKAPAuthorizerStorageClient", "src/_zkapauthorizer/_storage_server.py:ZKAPAuthorizerStorageServer", "src/_zkapauthorizer/foolscap.py:RIPrivacyPassAuthorizedStorageServer"]}
{"id": "C159", "title": "An operation that costs nothing is answered for nothing", "statement": "Asking for the version, the readers of shares, their sizes and leases, reading a slot, and reporting a corrupt share return after one round trip what the server has, whatever tokens the client holds, none included, and change neither the tokens of the client nor the server.", "quantifier": "every operation without a price whose arguments fit the protocol, every client, every state of the server with shares of the kind the operation is for, numbers of 31 bits and at most 256 readers, and everything other clients do before it", "why_tests_cant": "It ranges over all stored shares, all arguments and all clients.", "anchors": ["src/_zkapauthorizer/_storage_client.py:get_buckets", "src/_zkapauthorizer/_storage_client.py:slot_readv", "src/_zkapauthorizer/_storage_client.py:stat_shares", "src/_zkapauthorizer/_storage_client.py:advise_corrupt_share", "src/_zkapauthorizer/_storage_server.py:remote_get_buckets", "src/_zkapauthorizer/_storage_server.py:remote_slot_readv", "src/_zkapauthorizer/_storage_server.py:remote_stat_shares"]}
{"id": "C160", "title": "What a client wrote, every client reads", "statement": "After a slot write has returned that its tests held, a read of a written share by any client, with or without tokens, returns the bytes as the write left them, until somebody with the write enabler writes to the slot again or immutable shares are uploaded to its index, whatever else other clients do in between.", "quantifier": "every write, every history of the writer, every reader, every read vector, every state of the server, and every sequence of requests between the write and the read without a write by the holder of the enabler and without an upload to the index", "why_tests_cant": "It joins two conversations of different clients and all that other clients may do between them.", "anchors": ["src/_zkapauthorizer/_storage_client.py:slot_testv_and_readv_and_writev", "src/_zkapauthorizer/_storage_client.py:slot_readv", "src/_zkapauthorizer/_storage_server.py:remote_slot_testv_and_readv_and_writev", "src/_zkapauthorizer/_storage_server.py:remote_slot_readv"]}
{"id": "C161", "title": "An operation that fails has no effect", "statement": "When a storage call of a client ends with an exception, the server's shares, leases, open uploads and list of spent passes are as if the call had not been made, and the client has every token it had and can spend it, except for those the server has pointed out as not acceptable, which are recorded as such.", "quantifier": "every operation, every history of the client, every state of the server, everything other clients do meanwhile, every cause of the failure and any number of round trips before it", "why_tests_cant": "A failure can come at every step of a call, after any number of retries, from either side.", "anchors": ["src/_zkapauthorizer/_storage_client.py:call_with_passes", "src/_zkapauthorizer/_storage_client.py:slot_testv_and_readv_and_writev", "src/_zkapauthorizer/_storage_client.py:add_lease", "src/_zkapauthorizer/_storage_server.py:remote_add_lease", "src/_zkapauthorizer/_storage_server.py:remote_slot_testv_and_readv_and_writev", "src/_zkapauthorizer/_storage_server.py:add_leases_for_writev", "src/_zkapauthorizer/spending.py:SpendingController"]}
{"id": "C162", "title": "Operations at the same time do not get in each other's way", "statement": "When a client has good tokens enough for a number of paid operations together, and they are on different storage indexes or all but one at an index are uploads, then none of them ever fails, whatever the order in which they are started and their calls and answers arrive. Each makes two calls at most, every call that arrives is answered with what the operation needs, every answer brings the operation one round trip nearer to its end, no other event puts it back, and an operation that is over has returned its result.", "quantifier": "every list of operations, every interleaving of starts, arrivals of calls, arrivals of answers and actions of other clients that do not touch the indexes of renewals and writes, every history of the client and every order in which the database yields tokens", "why_tests_cant": "It ranges over all schedules of any number of operations in progress at once that take tokens from one store.", "anchors": ["src/_zkapauthorizer/_storage_client.py:call_with_passes_with_manual_spend", "src/_zkapauthorizer/_storage_client.py:ZKAPAuthorizerStorageClient", "src/_zkapauthorizer/model.py:get_unblinded_tokens", "src/_zkapauthorizer/spending.py:SpendingController", "src/_zkapauthorizer/_storage_server.py:ZKAPAuthorizerStorageServer"]}
{"id": "C163", "title": "What a client uploaded, every client reads", "statement": "When a client has asked to upload immutable shares and was given a writer for one of them, has written data through it and closed it, then every client that asks for the shares at the index, with or without tokens, is given a reader for this share, and what is read through it is exactly the data that was written, whatever other clients request before, in between and after, unless they write to a slot with the same index or end the upload. The tokens of the reading client stay as they are.", "quantifier": "every upload, every history of the server and of the uploading client, every interleaving with requests of other clients, every reading client and every later moment at which the server has at most 256 shares with numbers of 31 bits at the index", "why_tests_cant": "It joins two conversations of different clients, the transfer of the data and all that other clients may do around them.", "anchors": ["src/_zkapauthorizer/_storage_client.py:allocate_buckets", "src/_zkapauthorizer/_storage_client.py:get_buckets", "src/_zkapauthorizer/_storage_server.py:remote_allocate_buckets", "src/_zkapauthorizer/_storage_server.py:remote_get_buckets", "src/_zkapauthorizer/_storage_server.py:_bucket_writer_closed"]}
{"id": "C164", "title": "Bad tokens do not prevent operations that go on at the same time", "statement": "When only some of the tokens a client has are good, and the good ones are enough for a number of paid operations together (on different storage indexes, or all but one at an index uploads), then none of the operations ever fails, whatever the order in which they are started and their calls and answers arrive. Tokens the server points out are set aside, only bad ones are, and each only once; beyond two calls for each operation at most one is made for each bad token. Every answer brings the operation one round trip nearer to its end or sets a bad token aside. When all is over, the tokens gone from the store are the ones set aside and one for each pass the server has recorded.", "quantifier": "every list of operations, every interleaving of starts, arrivals of calls, arrivals of answers and actions of other clients that do not touch the indexes of renewals and writes, every choice of good tokens, every history of the client and every order in which the database yields tokens", "why_tests_cant": "It ranges over all schedules of operations that compete for the good tokens of one store while holding bad ones.", "anchors": ["src/_zkapauthorizer/_storage_client.py:call_with_passes_with_manual_spend", "src/_zkapauthorizer/_storage_client.py:invalidate_rejected_passes", "src/_zkapauthorizer/model.py:invalidate_unblinded_tokens", "src/_zkapauthorizer/spending.py:SpendingController", "src/_zkapauthorizer/spending.py:expand", "src/_zkapauthorizer/_storage_server.py:ZKAPAuthorizerStorageServer"]}
{"id": "C165", "title": "What a write request is said to do is what it asks for", "statement": "A request to write to the shares of a slot is said to have writes exactly when it has bytes for a share or sets the length of one. The shares it is said to write to are exactly those it has bytes for. If it has bytes for any share, the size it is said to need is the end of the bytes that are written furthest into a share: some write ends there and none beyond; otherwise the question is refused.", "quantifier": "every set of test and write vectors", "why_tests_cant": "It ranges over all request shapes: shares with several writes in any order, with none, with tests only and with a new length only.", "anchors": ["src/_zkapauthorizer/storage_common.py:has_writes", "src/_zkapauthorizer/storage_common.py:get_write_sharenums", "src/_zkapauthorizer/storage_common.py:get_allocated_size"]}
{"id": "C166", "title": "A maintenance run that can be paid for is carried out", "statement": "When a node has good tokens enough for the leases that are about to end, and the servers of the grid can be reached and have room for leases, then a lease maintenance run completes. Every share at the indexes of the run is then still there, with its data, and with a lease that has at least the configured time remaining. Exactly the price of the leases that had to be renewed has left the token store. The run is on record as started and finished, with the price of renewing everything as its cost.", "quantifier": "every history of the node, every number of servers, every list of storage indexes with any shares, sizes and leases, every order in which the database yields tokens, and any actions of other clients meanwhile at other indexes", "why_tests_cant": "It ranges over all states of all servers and of the token store, and over a sequence of conversations of any length that pay from one store.", "anchors": ["src/_zkapauthorizer/lease_maintenance.py:renew_leases", "src/_zkapauthorizer/lease_maintenance.py:renew_leases_on_server", "src/_zkapauthorizer/lease_maintenance.py:renew_lease", "src/_zkapauthorizer/lease_maintenance.py:needs_lease_renew", "src/_zkapauthorizer/lease_maintenance.py:soonest_expiration", "src/_zkapauthorizer/model.py:LeaseMaintenance", "src/_zkapauthorizer/model.py:VoucherStore", "src/_zkapauthorizer/_storage_client.py:add_lease", "src/_zkapauthorizer/_storage_client.py:stat_shares"]}
{"id": "C167", "title": "Only calls in the form of the protocol reach the methods of a storage server", "statement": "Whatever a client calls, with whatever arguments, a method of the storage server gets the call only if it is one of the nine of the protocol, with all its arguments and no others: at most 1048576 passes of 177 bytes each, storage indexes of at most 16 bytes, secrets of 32 bytes, at most 256 share numbers of 32 bits, sizes and offsets of 64 bits, vectors in which every element has its parts; and no number is negative.", "quantifier": "every method name and every list of values that Foolscap can carry", "why_tests_cant": "It ranges over all values a hostile client can put on the wire, of any nesting.", "anchors": ["src/_zkapauthorizer/foolscap.py:RIPrivacyPassAuthorizedStorageServer", "src/_zkapauthorizer/foolscap.py:add_passes", "src/_zkapauthorizer/foolscap.py:add_arguments", "src/_zkapauthorizer/_storage_server.py:check_pass_quantity_for_write"]}
{"id": "C168", "title": "A maintenance run with too few tokens renews what it can", "statement": "If a node has fewer tokens than the leases that need renewal cost, a maintenance run still leaves no lease to end that it could pay for with the tokens it has left.", "quantifier": "every node with any history and number of tokens, all servers, shares and leases", "why_tests_cant": "It depends on the order of the storage indexes, on the sizes of all shares on all servers and on the number of tokens.", "anchors": ["src/_zkapauthorizer/lease_maintenance.py:renew_leases", "src/_zkapauthorizer/lease_maintenance.py:renew_leases_on_server", "src/_zkapauthorizer/_storage_client.py:ZKAPAuthorizerStorageClient.add_lease", "src/_zkapauthorizer/model.py:VoucherStore.get_unblinded_tokens"]}
{"id": "C169", "title": "The tokens of redeemed vouchers buy what they are for", "statement": "Suppose all tokens a node ever stored came from answers of the issuer to the redemption of vouchers that the node accepted, with the public key that belongs to the signing key of the storage servers. Then the node can always make passes from its tokens, and the servers accept them: an upload, a lease renewal or a write for which there are enough tokens is carried out for exactly its price (apart from a lease ending during a write, see C156), operations that go on at the same time do not make each other fail, and a lease maintenance run for which there are enough tokens is carried out as in C166.", "quantifier": "every voucher, counter and answer of the issuer, every history of the node, every operation with all arguments, every state of the servers, every order in which tokens are taken, for every group, hash and encoding with the laws of the Ristretto library and a sound proof of knowledge", "why_tests_cant": "It joins the redemption, the database, the making of passes, the protocol and the check of signatures in one statement for all keys, tokens and messages; tests replace one side or the other by a fake that always works.", "anchors": ["src/_zkapauthorizer/controller.py:RistrettoRedeemer", "src/_zkapauthorizer/controller.py:RistrettoRedeemer.tokens_to_passes", "src/_zkapauthorizer/controller.py:RistrettoRedeemer.redeemWithCounter", "src/_zkapauthorizer/spending.py:SpendingController", "src/_zkapauthorizer/_storage_client.py:call_with_passes_with_manual_spend", "src/_zkapauthorizer/_storage_server.py:_is_invalid_pass", "src/_zkapauthorizer/lease_maintenance.py:renew_leases"]}
{"id": "C170", "title": "Data that is maintained stays leased", "statement": "A node runs lease maintenance again and again. If each run has enough tokens for the leases it has to renew and the servers take part, if each run finds at least what the ones before found, and if it comes to each server no later than the configured minimum remaining time (at most 31 days) after the visit before, then a share that was at a storage index at the first visit is there ever after and has a lease at every moment from each visit until the next, whatever anybody else asks of the server between the visits. (A share that is still being uploaded at the first visit is left out, see C132.)", "quantifier": "every number of maintenance runs, every history of the node before each run, every set of servers and shares, every sequence of requests of other clients between the runs, every clock reading", "why_tests_cant": "It is a statement about months of operation, all interleavings with other clients and any number of runs; tests look at one run against a fake server.", "anchors": ["src/_zkapauthorizer/lease_maintenance.py:renew_leases", "src/_zkapauthorizer/lease_maintenance.py:renew_leases_on_server", "src/_zkapauthorizer/lease_maintenance.py:needs_lease_renew", "src/_zkapauthorizer/_storage_server.py:ZKAPAuthorizerStorageServer.remote_add_lease", "src/_zkapauthorizer/_storage_server.py:ZKAPAuthorizerStorageServer._slot_testv_and_readv_and_writev", "src/_zkapauthorizer/_storage_server.py:ZKAPAuthorizerStorageServer.remote_allocate_buckets"]}
{"id": "C171", "title": "The vouchers a node redeems buy the storage it uses", "statement": "A node redeems vouchers with whatever issuer, uses storage servers, and crashes and starts again, in any order, from its first start on, with one database for all of this. It is configured to spend only tokens that come with the public key of one signing key. Then every operation on a storage server with that signing key is carried out, for exactly its price, if there are tokens for it; so are operations that go on at the same time, if there are tokens for all, and maintenance runs. (Assumed: the issuer does not give out again tokens that were found invalid, and as in C156 no lease ends during a write.)", "quantifier": "every history of vouchers, answers of the issuer, crashes, operations, random tokens; every group with the laws of the Ristretto library; every operation, set of concurrent operations or maintenance run after it", "why_tests_cant": "It composes redemption, the database, spending, the protocol and the server over all histories; tests cover the parts, each with the others faked.", "anchors": ["src/_zkapauthorizer/_plugin.py:ZKAPAuthorizer._get_store", "src/_zkapauthorizer/_plugin.py:ZKAPAuthorizer.get_storage_client", "src/_zkapauthorizer/_plugin.py:ZKAPAuthorizer.get_client_resource", "src/_zkapauthorizer/controller.py:PaymentController.redeem", "src/_zkapauthorizer/controller.py:PaymentController._redeem_success", "src/_zkapauthorizer/controller.py:RistrettoRedeemer.redeemWithCounter", "src/_zkapauthorizer/controller.py:RistrettoRedeemer.tokens_to_passes", "src/_zkapauthorizer/_storage_client.py:ZKAPAuthorizerStorageClient"]}
{"id": "C172", "title": "A token that was spent does not come back", "statement": "In the life of a node, from its first start on, a token that was in its database and has left it, because it was spent or found to be invalid, does not come into the database again, whatever the issuer answers, as long as the random numbers of the node are fresh.", "quantifier": "all lives of a node: redemption of any vouchers with any answers, storage operations with any replies, crashes at any point; all lawful groups and codecs", "why_tests_cant": "It depends on which random tokens are kept, deleted and sent again over the whole history, with restarts between any two transactions.", "anchors": ["src/_zkapauthorizer/controller.py:PaymentController.redeem", "src/_zkapauthorizer/model.py:VoucherStore.add", "src/_zkapauthorizer/model.py:VoucherStore.insert_unblinded_tokens_for_voucher", "src/_zkapauthorizer/model.py:Unpaid", "src/_zkapauthorizer/controller.py:RistrettoRedeemer.redeemWithCounter", "src/_zkapauthorizer/model.py:VoucherStore.discard_unblinded_tokens"]}
{"id": "C173", "title": "With a real issuer a voucher gives what it is for, and no more", "statement": "A node redeems vouchers, spends their tokens, crashes and starts again, in any order, from its first start on, and an issuer answers whatever it likes: signatures, wrong ones, too few, that a voucher is unpaid, errors. What a voucher has given at any time is the tokens of its first groups, of each group once, never more than the number it is for, and exactly that number if it is shown as redeemed. The token counts shown for it add up to what it has given. (Assumed: fresh random numbers, and either an issuer that redeems each group of a voucher for one list of random tokens, or that the voucher is not started again after it was called unpaid and some of its groups have been redeemed.)", "quantifier": "every history of vouchers, answers of the issuer, crashes, operations, random tokens; every group with the laws of the Ristretto library", "why_tests_cant": "The number of tokens of an answer is checked deep in the client and the groups of a voucher are spread over restarts; tests redeem vouchers in one go with issuers that answer in full.", "anchors": ["src/_zkapauthorizer/controller.py:PaymentController.redeem", "src/_zkapauthorizer/controller.py:PaymentController._redeem_success", "src/_zkapauthorizer/controller.py:RistrettoRedeemer.redeemWithCounter", "src/_zkapauthorizer/controller.py:token_count_for_group", "src/_zkapauthorizer/model.py:VoucherStore.insert_unblinded_tokens_for_voucher", "src/_zkapauthorizer/model.py:Unpaid"]}
{"id": "C174", "title": "The books of a node balance", "statement": "At any moment of the life of a node, from its first start on, the tokens its vouchers are recorded to have given, added over all vouchers, are exactly: what its storage operations that returned a result cost, plus the tokens that servers found to be invalid, plus what is left, which is the tokens that can be spent, those in use by operations that go on, and those sequestered because of their public key. So no token is lost and none appears, whatever fails or crashes. (Assumed as in C171: random numbers are fresh, and the issuer redeems each group of a voucher for one list of random tokens, or no voucher it called unpaid is started again after some of its groups have been redeemed.)", "quantifier": "all lives of a node: any vouchers with any answers of the issuer, any storage operations with any replies, at the same time or one after the other, crashes at any point; all lawful groups and codecs with a sound proof of knowledge; and for the storage client alone every signer and every history of its store", "why_tests_cant": "The sum has to be right after every history of redemptions, operations that fail half way, refused passes, partly successful uploads and crashes; tests look at a few calls with a store that was filled by the test.", "anchors": ["src/_zkapauthorizer/model.py:VoucherStore.insert_unblinded_tokens_for_voucher", "src/_zkapauthorizer/model.py:VoucherStore.discard_unblinded_tokens", "src/_zkapauthorizer/model.py:VoucherStore.invalidate_unblinded_tokens", "src/_zkapauthorizer/_storage_client.py:call_with_passes_with_manual_spend", "src/_zkapauthorizer/spending.py:PassGroup"]}
{"id": "C175", "title": "A node gets no more than its vouchers are for", "statement": "From its first start on and over all restarts, a node sends to storage servers no more different passes (that is, with different preimages, which is what a server can tell) than its vouchers are for, all together. What its storage operations that returned a result cost, the tokens found to be invalid and the tokens it has left are together no more than what the vouchers are for, and exactly that once all its vouchers are redeemed. (Assumed as in C173: random numbers are fresh, and the issuer redeems each group of a voucher for one list of random tokens, or no voucher it called unpaid is started again after some of its groups have been redeemed.)", "quantifier": "all lives of a node: any vouchers with any answers of the issuer, any storage operations with any replies, at the same time or one after the other, crashes at any point; all lawful groups and codecs with a sound proof of knowledge; and for the storage client alone every signer whose passes have the preimage of the token they are made of", "why_tests_cant": "It is about all passes sent in a whole life with retries, restarts, reset tokens and repeated redemptions; tests look at one call.", "anchors": ["src/_zkapauthorizer/model.py:VoucherStore.insert_unblinded_tokens_for_voucher", "src/_zkapauthorizer/model.py:VoucherStore.get_unblinded_tokens", "src/_zkapauthorizer/model.py:VoucherStore.reset_unblinded_tokens", "src/_zkapauthorizer/_storage_client.py:call_with_passes_with_manual_spend", "src/_zkapauthorizer/controller.py:PaymentController.redeem", "src/_zkapauthorizer/controller.py:RistrettoRedeemer.tokens_to_passes"]}
{"id": "C176", "title": "The metrics file shows what was spent", "statement": "If a storage server is configured to write metrics, its file shows, from each time it is written until the next, the spending of the server process up to that time: for each of the bounds 1, 2, 4, ..., 1024 and infinity the number of paid operations that took no more passes than the bound, and the number and the sum of all. The file is written again at multiples of the configured interval after the start, and that goes on although writing fails; a file that cannot be written stays as it was. Until the first interval is over the file has no samples. The sum is never more than the passes recorded as spent (C87). A configuration with an interval that is no number or negative is refused.", "quantifier": "all servers, configurations and histories of requests; all times at which the reactor makes the calls, on time or late; all patterns of writes that fail", "why_tests_cant": "The numbers have to be right for every history of requests with writes at any time between them; the test sets one gauge and writes twice.", "anchors": ["src/_zkapauthorizer/_storage_server.py:ZKAPAuthorizerStorageServer._get_spending_histogram_buckets", "src/_zkapauthorizer/_storage_server.py:ZKAPAuthorizerStorageServer._make_histogram", "src/_zkapauthorizer/_plugin.py:ZKAPAuthorizer.get_storage_server", "src/_zkapauthorizer/_plugin.py:make_safe_writer"]}
{"id": "C177", "title": "What a node keeps up can be read", "statement": "Data that can be read from a server, and is not being uploaded, can be read from then on, whatever is asked of the server by anyone, also writes to a slot with the same storage index. So can data whose upload to an index without slots is over. If a node has uploaded data, its maintenance runs find the index, it has enough tokens from its redeemed vouchers for each run, and comes to the server again within the configured minimum time, then at every time from its first visit until that time after the last one the data can be read and has a lease.", "quantifier": "all servers, uploads and requests of anyone before, between, during and after the runs; all numbers of runs; all lives of the node in which it gets the tokens", "why_tests_cant": "It has to hold for every later history of a server with many clients; tests look at one operation at a time.", "anchors": ["src/_zkapauthorizer/_storage_server.py:ZKAPAuthorizerStorageServer.remote_get_buckets", "src/_zkapauthorizer/_storage_server.py:ZKAPAuthorizerStorageServer.remote_slot_testv_and_readv_and_writev", "src/_zkapauthorizer/lease_maintenance.py:maintain_leases_from_root", "src/_zkapauthorizer/lease_maintenance.py:renew_leases_on_server"]}
{"id": "C178", "title": "Small files do not prevent lease maintenance", "statement": "Once the files and directories of the user have been found, a lease maintenance run over storage servers that work completes and renews every lease that expires soon, also when some of the files are so small that they have no storage index.", "quantifier": "all trees of files and directories, with and without storage index, all storage servers that answer, all orders in which storage indexes are visited", "why_tests_cant": "The nodes used in the tests always have a storage index; the failure needs a real node without one and the schema check of the remote call together.", "anchors": ["src/_zkapauthorizer/lease_maintenance.py:visit_storage_indexes", "src/_zkapauthorizer/lease_maintenance.py:iter_storage_indexes", "src/_zkapauthorizer/lease_maintenance.py:renew_leases_on_server", "src/_zkapauthorizer/_storage_client.py:stat_shares", "src/_zkapauthorizer/foolscap.py:RIPrivacyPassAuthorizedStorageServer"]}
{"id": "C179", "title": "An unreadable directory does not prevent maintenance of the rest", "statement": "Over a finite tree and storage servers that work, a lease maintenance run ends and renews the leases that expire soon of all files and directories that can be found, also when some other directory in the tree cannot be read.", "quantifier": "all finite trees of files and directories, any of them unreadable, all storage servers that answer, all orders in which storage indexes are visited", "why_tests_cant": "It concerns every tree and every place in it at which a directory may have been lost.", "anchors": ["src/_zkapauthorizer/lease_maintenance.py:visit_storage_indexes", "src/_zkapauthorizer/lease_maintenance.py:iter_storage_indexes", "src/_zkapauthorizer/lease_maintenance.py:renew_leases"]}
