# Formal model of ZKAPAuthorizer: design

## 1. What this is

`/verif/lean` holds an executable Lean 4 model of the ZKAPAuthorizer source in
`/repo/src/_zkapauthorizer` and proofs of the properties listed in
`properties.jsonl`.  The model is shallow: Python functions become total Lean
functions over `List`, `Nat`, `Int`, `Option` and plain structures, branch by
branch, with Python exceptions as `Except` values.

Layout of `lean/Verif`:

* `Model/*.lean`  definitions only; each cites the file and lines it models and
  states every simplification.
* `Spec/*.lean`   small specifications, written without the model's helpers.
* `Lemmas/*.lean` helper lemmas.
* `Props/*.lean`  the property theorems, each followed by an `example` showing a
  concrete non-trivial case meeting its hypotheses.

Where the code violates a property, the property's theorem is a proved negation
with a concrete witness (suffix `_fails`), and a `_partial` theorem proves the
property under the weakest hypothesis we found.

## 2. Trusted base

* Lean 4.33.0's kernel.
* Axioms: at most `propext`, `Classical.choice`, `Quot.sound`.  No axioms of our
  own, no `sorry`, no `native_decide`, no `bv_decide`.
* The reading of the Python source that produced the model.  Nothing is
  executed or extracted from the source.
* Behaviour of libraries, modelled by reading their documentation:
  - SQLite: rows of a table are a list; a constraint violation aborts the
    statement; a transaction is atomic; `SELECT` without `ORDER BY` may return
    rows in any order (a parameter of the model); negative `LIMIT` means no limit;
    `INTEGER PRIMARY KEY` rowids are max+1; `AUTOINCREMENT` never reuses numbers;
    temporary tables vanish when the connection closes.  The `sqlite3` module opens a
    transaction for `INSERT`, `UPDATE` and `DELETE` only (Python 3.6 and later).
    The store is modelled twice: as effects on typed tables (`Model/Store.lean`), and as the SQL
    statements it executes on tables as data (`Model/StoreSql.lean`); C121 proves that they agree.
    Parsing of the SQL text is modelled for snapshots only (`Model/SqlText.lean`, C145), table definitions
    excepted; elsewhere a statement is its parsed form.  `quote()` ends text at the first NUL.
  - `base64`: modelled concretely (alphabet, grouping, padding).
  - `cbor2`: modelled on bytes (`Model/Cbor.lean`) for the forms its encoder writes;
    reading back what was written is proved (C103), so that the other files can treat
    replica files as the values they contain.
  - `json`, `aniso8601`: serialisation followed by parsing is the
    identity on the values used; modelled at the level of the parsed value.
  - Twisted: callbacks run to completion; a coroutine runs until its next
    `await`; `DeferredQueue` is FIFO.
  - Tahoe-LAFS `get_private_path` joins with `os.path.join`, and Twisted's `FilePath` makes the
    result normal (C106); `treq.collect` ends without an error after `PotentialDataLoss` and
    with one after any other early end; renaming replaces a file in one step (C107).
  - The HTTP API of a Tahoe-LAFS node (C126-C128): the requests the client makes are answered as in `gateway` of
    `Model/TahoeApi.lean`, on the in-memory grid; the conversions of capabilities and of listings to text
    are a record with round-trip laws (`Spec/TahoeApi.lean`), which `exText` satisfies.  `str` of an exception whose
    class attrs does not make an exception class shows the arguments its constructor was called with.
  - Tahoe-LAFS storage server (`original`): an explicit small model of slots,
    buckets and leases.  Completing an upload renames the share file to its final place, replacing what is
    there; opening a mutable share file as an immutable one, or the reverse, raises (C141, C142).
  - Tahoe-LAFS nodes (C178): `get_storage_index()` is `None` for files and directories whose contents are in
    their capability, as the documentation of `IFilesystemNode.get_storage_index` says, and at most 16 bytes otherwise.
  - Foolscap (C156): `MorePassesRequired` raised by a remote method reaches the caller as itself, any other
    exception as a failure the client does not look into; answers arrive as the server encoded them.
  - Foolscap (C115-C117): constraints as in `Model/Wire.lean`, checked by the sender and the receiver of a
    call and by the receiver of an answer; `int` stands for 32 bits with sign; integer constraints
    take negative numbers and booleans; positional arguments are bound in order; a
    `RemoteMethodSchema` made from keyword arguments has no response constraint; values arrive
    as they were sent.  The schemas of `allmydata.interfaces.RIStorageServer` are copied there.
  - Cryptography (challenge-bypass-ristretto): in the server theorems signature validity
    is an arbitrary predicate of pass and message.  C88-C90 use a record of the library's
    operations with its documented laws, soundness of the batch proof among them, as
    hypotheses (`Spec/Ristretto.lean`); a small group satisfies them all.
* Time is an `Int` number of microseconds or seconds, given by the caller.

## 3. Not modelled

Logging (eliot), attrs/zope boilerplate, interface declarations, Foolscap's
serialisation of values and its connections, HTTP rendering other than the decision
logic, TLS, the Tahoe-LAFS web client's HTTP transport, prometheus registry
internals, real cryptography, performance and memory.

## 4. Plan per property

| id | model | proof |
|----|-------|-------|
| C01 | `required_passes` over `Int` lists | least-cover spec per share; sum, permutation, monotonicity by list induction |
| C02 | both price computations over share maps | equality for every state; spec price as a sum over written shares |
| C03 | same | corollaries of the spec price |
| C04 | server `allocate_buckets` as `State -> Except Err (State x Out)` | case analysis; counts against a spec of validity |
| C05 | server allocate and client spend on one pass list | both equal `take n`; joined with the token store |
| C06 | server `add_lease`, client `add_lease` | case analysis, equality of prices |
| C07 | server writev with lease model | pointwise over shares |
| C08 | server writev | case analysis |
| C09 | message maker with concrete base64 | injectivity of base64 plus label separation |
| C10 | spender plus histories | expected to FAIL: the spender only records. Witness history |
| C11 | server writev | expected to FAIL. Witness; partial: passing test and exact pass count |
| C12 | share file bytes as lists | layout round trip |
| C13 | `Pass` split/join | round trip for space-free parts; FAILS for parts containing a space, since the base64 validator never rejects |
| C14-C20 | `VoucherStore` over explicit tables, operation lists | invariants by induction over histories with restarts; C17 FAILS for negative requests |
| C21-C24 | client call loop against an arbitrary server strategy, on the store model | induction over attempts; C23 FAILS for a server naming only out-of-range positions |
| C25 | `token_count_for_group` | division arithmetic |
| C26-C33 | `PaymentController` as a step machine over the store model: redeem call, issuer answer, retry tick, crash | invariants by induction over event lists; C31 and C32 FAIL |
| C34 | voucher JSON values | case analysis; date parsing a parameter with stated law |
| C35 | `is_syntactic_voucher` | characterisation; FAILS for encodings of 31 and 33 bytes |
| C36 | store model | case analysis |
| C37 | any method as a program on the recording connection, where every statement, `BEGIN` and commit can fail (`Model/StoreConn.lean`) | FAILS. Induction on the program; without failures it refines the `transact` the other store theorems use |
| C38, C39 | lease maintenance tables | invariants; timestamps formatted concretely and compared lexicographically |
| C40-C44 | lease maintenance functions | list induction; accessibility for termination; state invariant of the timer; C41 FAILS to terminate on cyclic graphs; C42 FAILS for ranges over twice the mean; C43 FAILS when stopped during a run |
| C76, C77 | lease maintenance loop over servers, joined with the server model | list induction; C76 FAILS: one failing server ends the run |
| C45-C51 | SQL statement type, connection wrapper, event stream table, replication service as a step machine with explicit awaits, replica directory | replay determinism; invariant over schedules; C47, C48, C49 FAIL with witnesses; C51 also in the relational database: streams are sorted by number whatever order they are downloaded in (`C51_replayed_in_order`), numbers of removed events are not given again (`C51_never_reused`) |
| C52, C82, C85 | setup as a step machine with the lock, failures and restarts (`Model/Setup.lean`) | invariant over schedules; C82 and C85 FAIL |
| C53 | events with temporary-table statements | FAILS. Witness; replay without tokens in use |
| C54, C83 | the recording connection over the relational database; opening it and starting the service (`Model/StartUp.lean`) | FAIL. Simulation of the plain connection; statements do not depend on the order of tables (`Lemmas/Permuted.lean`) |
| C55-C58, C60 | the same relational database and connection, with the transaction a recovery holds while it downloads, the import, the recoverer and what it reports (`Model/Recovery.lean`) | invariant over all interleavings of store calls, requests, progress and downloads; symbolic execution of a dump in any order; snapshot followed by event streams in any file order restores the later database (`C60_with_events`, `Lemmas/ReplayDatabase.lean`); C56, C57 (import), C58 FAIL |
| C59, C84 | websocket factory and its clients on top of the recovery model (`Model/RecoverFactory.lean`) | invariant over all interleavings; C59 (other capabilities) and C84 (late clients) FAIL |
| C61 | price calculator | arithmetic |
| C62-C64, C81 | schema upgrades on a relational database with any contents (`Model/Database.lean`, `Schema.lean`), on a connection that knows which statements open a transaction (`Connection.lean`) | symbolic execution of each upgrade, generic lemmas on what a statement does to values; C63, C64 and C81 FAIL |
| C79, C80 | the same model | a weight that decreases with every answer of the grid; C79 and C80 FAIL with witnesses |
| C65-C73, C78 | small models of the functions named | case analysis and list induction; C66 (strictness), C67 (API roots with a path), C69 and C78 FAIL |
| C86 | server histories (`Spec/ServerSpent.lean`) | each step appends a sublist of the valid preimages of its request; induction |
| C87 | the same | induction over histories; FAILS for mutable writes with surplus passes |
| C88 | `Model/Ristretto.lean`: the library as a record of operations, the redeemer and the server's check of a pass | laws of the library as hypotheses (`Spec/Ristretto.lean`), shown consistent with a small group; inversion of the answer, then calculation |
| C89 | `redeem_response`, `to_answer` | case analysis over the JSON value and over the source of every exception |
| C90 | `redeem_request` | induction over the tokens, from the law that every point can be blinded to every other |
| C91 | `Model/VoucherWeb.lean`: the voucher resources on top of the controller machine | symbolic execution of the three pieces of work up to the first wait, using the controller's invariant; FAILS for small token counts |
| C92 | `render_GET`, `getChild` | invariant of the controller: every row can be turned into an object, numbers are unique |
| C93 | UTF-8 decoding as in Python, `getChild` | induction over the decoder; FAILS for addresses that are not UTF-8 |
| C94 | client history with the ristretto signer; `RefusedBy` for honest servers | invariant: every group holds the passes of its tokens, so a pass refused under `k` is of a token not made with `k`; FAILS with two keys |
| C95 | `get_storage_client`, `get_redeemer`, `RistrettoRedeemer.make` on configuration lookups | case analysis |
| C96 | the plugin's weak dictionary of stores and its services, with collection as a step | invariant over steps; FAILS after a collection |
| C97 | `_attach_zkapauthorizer_services`, `str.split`, `str.strip` | items of the list characterised by a separate specification; case analysis |
| C98 | as C97 | FAILS: witness; the services are proved unchanged |
| C99 | `get_root_nodes` with the traversal of C41 | FAILS: witness; composed with C41 for reachable replicas |
| C100 | `get_configured_allowed_public_keys` on lists of characters | FAILS for white space after a comma; otherwise equivalence with a specification of items |
| C101 | `get_storage_server`, `load_signing_key` | composition with C88 |
| C102 | `get_storage_server` against `get_storage_client` of its announcement | FAILS: witness; equality for equal items |
| C103 | `cbor2` encoder and decoder on bytes (heads, UTF-8, times, nested arrays and maps), event rows, files | the decoder inverts the encoder (induction on values); each layer is then inverted |
| C104 | as C103 | no proper prefix of an encoding can be decoded (induction on values) |
| C105 | as C103 | the decoder inverts the encoder; then the version check |
| C106 | grid, `tahoe_lafs_downloader`, `os.path.join` and normalisation of paths | witness for the failure; for names without a slash by induction on the listing |
| C107 | every state of the disk during `download`, with the ways a body can end | induction on the chunks |
| C108 | `download_child` on the grid of C72 | against an inductive relation, by induction on the path; every history that links what exists has no dangling entry |
| C109 | uploader, pruner and lister on the grid of C72 | refinement of a dictionary of contents, by induction on the history |
| C110 | as C106 and C109 | C109's refinement, and induction on the listing |
| C111 | a run and a storage server together as in C77, configuration as in C44 | witness for the failure; corollary of C77 |
| C112 | life of a node with its clock and the file of the last run; text of a time | invariant over the history; digits of a padded number read back |
| C113 | as C112, with the outcome of each run | as C112 |
| C114 | `get_lease_duration` with the run and server of C77 | expiration of a renewed lease, and C40 |
| C115 | values carried by Foolscap, its constraints and schemas, `callRemote` of each client method and the parameters of each remote method | constraints characterised; encoding and decoding are inverse |
| C116 | answers as in C115, parsed as the client does, and the price computed from them | witnesses for the failure; each share's growth is at most the price of its new size |
| C117 | as C115, with response constraints | case analysis of constraints and checks |
| C118 | a client (C21-C23) and a server (C05-C10) joined by requests that are processed and answers that are delivered or lost (`Model/Books.lean`) | an equation balancing the server's records of a token against the client's store, answers under way and answers lost, kept by every event |
| C119 | the controller (C25-C32) with an issuer that signs one set of tokens per group of a voucher, and a replica that restores a moment of the past (`Model/Loss.lean`) | invariant: what the issuer has signed is redeemed or stored in the replica; no event at the node loses it |
| C120 | the controller (C25-C32) | a measure that decreases with every event, and an invariant: a voucher is redeemed, or waits for its call, or is in the hands of exactly one coroutine at the right group |
| C121 | each method as the SQL it executes, on tables as data with the schema that the upgrades build | refinement: the tables as data and the typed tables of the store model stay in step under every statement, hence under every history |
| C122 | SQL of the store (C121), dump and recovery of databases (C46, C51) | the restored file has the same tables; replay by the refinement of C121 and the simulation of C45 |
| C123 | replication service of C49, C50 | invariant over all histories that relates accumulated size, queued jobs and recorded events |
| C124 | storage server of C04–C07 with the verification of C88 | verification is equivalent to genuineness; counting the genuine strings |
| C125 | slot writes of the wrapped server on bytes, with the plugin's leases | byte by byte, induction on the writes |
| C126 | requests, replies and their reading, over a model of the node's API on the in-memory grid; capability strings and JSON abstract with round-trip laws (satisfiable: `exText_laws`) | induction on the hindrances, round trip of listings; FAILS for capabilities of files |
| C127 | C126 with hindrances that come after the effect | idempotence of links, growth of the grid for uploads; FAILS for unlinking |
| C128 | the reading of replies of C126, errors as the text that `str` shows | exact condition for every reply; FAILS for names of entries that look like an error |
| C129 | the controller (C25-C32) with a recovery that replaces its tables (`Model/RecoverRedeem.lean`) | FAIL. Invariant: the controller knows nothing of the voucher; the events do not depend on the record of what happened, so the lemmas of C120 apply to the recovered node |
| C130 | directories as lists of names and file contents, read with Python's `int` (`Model/ShareDir.lean`); the leases of a file are an arbitrary function | FAIL. Refinement: a directory that holds a bucket, with other files whose names are no numbers, is read as the bucket of the server model |
| C131 | as C130, with the server as lease maintenance sees it | FAIL. By induction on the storage indexes asked about; the maintenance run follows from its definition |
| C132 | the server of C01-C08 with its leases; the secrets of a lease from arbitrary hashes (`Model/LeaseSecrets.lean`) | FAIL for shrinking. Invariants over all server operations: distinct secrets on each share; a share that exists is not uploaded again; each operation renews, appends or leaves a lease list. For other nodes: hashes without collisions |
| C133 | the whole HTTP API: resource tree, rendering, authorization, configuration (`Model/Api.lean`) | case analysis over addresses and methods; induction over histories: a history without the strangers' requests ends in the same node |
| C134 | the whole HTTP API: resource tree, rendering, authorization, configuration (`Model/Api.lean`) | FAIL for the names. The values: invariant of the store's histories that a finished time is written by the clock; the greatest is chosen |
| C135 | the whole HTTP API: resource tree, rendering, authorization, configuration (`Model/Api.lean`) | FAIL: a voucher that is not redeemed and not being redeemed is redeemed again, that is, sent to the issuer. What holds: no effect while it is redeemed or being redeemed; otherwise the store keeps all it has and at most the random tokens of the voucher are added |
| C136 | the whole HTTP API: resource tree, rendering, authorization, configuration (`Model/Api.lean`) | the lookups of each setting; the lemmas of C61 and C66 about the price |
| C137 | the whole HTTP API: resource tree, rendering, authorization, configuration (`Model/Api.lean`) | FAIL: instance of C133 for this address |
| C138 | the redeemers for tests: their answers and the tokens they make up (`Model/Redeemers.lean`), with the controller's histories | an invariant over histories of the controller, for any relation that the answers and random tokens obey; then the relation of each redeemer |
| C139 | the redeemers for tests: their answers and the tokens they make up (`Model/Redeemers.lean`), with the controller's histories | FAIL for vouchers without padding. Otherwise: fixed-width decimals and base64 are injective |
| C140 | Model/ReplicaCost.lean: the listing filter of `_replica_size`, the plugin's policy as the decision of the replication service | Invariant over the service's jobs: a replica with streams has been looked at, or looking at it or a snapshot is queued or in progress |
| C141 | Model/ServerReads.lean: the free reading methods, over the storage server model | Invariant: no two uploads to one place and none to a place holding an immutable share; what each request does to one place |
| C142 | Model/ServerReads.lean and the storage server model | What each request does to one place, induction over the history |
| C143 | Model/Store.lean: the store, with tokens taken in the order of their rows | Invariant: what was available is a spent part and a kept part, what is available is the kept part and new tokens; counterexample for two operations at once |
| C144 | Model/Generations.lean: the node that has recovered a replica, and a sequence of losses; on Model/Replication.lean | Induction over the losses: a recovered node is one on which replication was never set up, its recorded changes are numbered in order, its tables are those of the store's history; C46 for each generation; counterexample at the first loss |
| C145 | Model/SqlText.lean: the text `iterdump` writes, SQLite's tokenizer and the statements of a dump; the file is that of Model/Cbor.lean | Lemma per token that it is found in front of whatever may follow; induction over rows and statements; joined with C103 (bytes) and C60 (execution) |
| C146 | Model/SqlText.lean: `escape_identifier` and SQLite's tokenizer | Characterisation: length of what is read; counterexamples |
| C147 | Model/Configurations.lean: processes of a node one after the other, each with its own configuration; on Model/Controller.lean | Reverse induction over the processes: the store calls of a process store as spendable only what was sent to it with a key it allows; counterexample |
| C148 | Model/Configurations.lean | Invariant over store calls, events and processes: a stored token stays in a group with the same flag until a storage call reports it; counterexample |
| C149 | Model/Configurations.lean | Invariant about calls that are still to be carried out for unknown vouchers; rows keep their expected number; sizes of stored groups |
| C150 | Model/Loss.lean read with backups and restores | Invariant: what the issuer has signed is redeemed at the node or its tokens are stored there; counterexample |
| C151 | Model/StorageClient.lean: the client's methods from call to result, any number at once, any answers | case analysis of the methods |
| C152 | Model/StorageClient.lean | invariant over all histories; general counterexample |
| C153 | Model/StorageClient.lean | invariant over all histories with a log of what crosses the boundary of the client |
| C154 | Model/StorageClient.lean with a log of what crosses the boundary of the client | invariant over all histories: what has become of each token that was sent; counterexample |
| C155 | Model/Controller.lean; a diary of each voucher kept beside it (Spec/VoucherStatus.lean) | invariant over all histories relating the diary to the three dictionaries and the row; counterexamples |
| C156 | Model/Conversation.lean: the client of Model/StorageClient.lean and the server of Model/Server.lean at the two ends of a connection | the client's invariant gives fresh good passes; the answer of the server decodes to the shares it has; the two prices agree; a counterexample |
| C157 | Model/Conversation.lean | induction on the number of bad tokens: a rejected call parts the group, invalidates the bad ones, and goes on with a group of the same size and fewer bad tokens in the store |
| C158 | Model/Conversation.lean | invariant of a conversation: a result comes from an answer to the operation's request; then by operation, over the encoding of answers and the server's loops |
| C159 | Model/Conversation.lean | the answers meet the constraints of the protocol and the client's checks; C158 for what they say |
| C160 | Model/Conversation.lean | C158 for the write, induction over the requests in between, C159 for the read |
| C161 | Model/Conversation.lean | invariant of a conversation: what the operation holds, what it has set aside and where the server is; the server's answer to a call is either a result the client can use or an error without effect |
| C162 | Model/Traffic.lean | invariant of all jobs in progress: what each holds, what each will still need and what is left to be started is covered by disjoint tokens; preserved by every event |
| C163 | Model/Conversation.lean | a conversation is a list of requests at the server; C158 for the writer, invariant that it stays, C141 for the data; the encoding of the readers |
| C164 | Model/Traffic.lean | invariant: the good tokens that are stored cover the prices of all operations that are not over, and no operation holds more tokens than its price; tokens set aside and passes recorded are counted along |
| C165 | Model/Pricing.lean | induction over the folds that compute the maxima |
| C166 | Model/MaintRun.lean | induction over the servers and over the indexes of each; what is left to pay stays affordable, what was renewed stays renewed |
| C167 | Model/Calls.lean, Model/Wire.lean | the check of each constraint is characterised for all values, by induction over lists; then each method's schema |
| C168 | Model/MaintRun.lean | induction over servers and indexes: up to the first one that cannot be paid for the run is like one with enough tokens |
| C169 | Model/Ristretto.lean, Model/Plugin.lean, Model/Conversation.lean, Model/Traffic.lean, Model/MaintRun.lean | a client whose stored tokens are all genuine does the same with the real signer as with one that treats each token by itself and never raises; this transfers C156, C162 and C166 |
| C170 | Model/MaintRun.lean, Model/Server.lean | what a run leaves behind at a server is what some requests leave behind, leases and shares survive all requests (C132), and each run leaves enough lease (C166, C169); induction over the runs |
| C171 | Model/WholeNode.lean (controller and storage client on one store) | every step of the controller is at most one store operation, which makes spendable only tokens of an accepted answer with an allowed key; so the storage client sees one of the histories of C169; that no token found invalid is issued again follows from fresh random numbers and an issuer that redeems each group once (`C171_real_life`) |
| C172 | Model/WholeNode.lean | the life of the node is reduced to one of its controller with arbitrary other store operations; invariant: every token in the store is made of a preimage sent for the group it was stored for, and preimages belong to one group |
| C173 | Model/WholeNode.lean, Model/Ristretto.lean | the client makes one token of each random token or none, so every answer is full; with the invariant of C172 about issuers that sign once, an answer is only stored for the group the counter names, so the tokens stored are those of the first groups (C29) |
| C174 | the whole node of C171: controller and storage client at one store | each event shifts the sum by what it costs: the effects of the store operations on the rows (C20, C153), the invariant of sessions for the tokens held by operations, and C171's history for the signer; induction over the life |
| C175 | the whole node of C171: controller and storage client at one store | invariant: a list of as many tokens as the vouchers are recorded to have given contains every token stored now or shown in a remote call; a preimage belongs to one token; then C173 for each voucher and C174 for the sum |
| C176 | the histogram, the writer and the looping call around the server of C04-C11 (prometheus_client and LoopingCall as documented; exact numbers in place of floats) | the counters added up are the numbers of amounts within the bounds, which rise: induction over the amounts; the file by induction over the events; arithmetic for the schedule |
| C177 | the server of C04-C11 and C141, the maintenance runs of C166 and C170, the whole node of C171 | a share at an index with immutable shares only stays as it is except for its leases, by induction over the requests, since slot writes are refused there; the runs are such requests; leases by C170 and payment by C171 |
| C178 | Model/LiteralFiles.lean | the maintenance run over optional storage indexes, its `stat_shares` calls checked against the schema; with every index present it is the run of C40 and C76 |
| C179 | Model/LeaseMaintenance.lean | a traversal that succeeds has listed every directory; with all directories readable the run is that of C40, C41 and C76 |

## 5. Disagreements between code and property

Every entry is a property that the modelled code does not have, with the theorem
that refutes it and the theorem that proves what remains.

| id | what the code does | refuted by | what is proved |
|----|--------------------|------------|----------------|
| C10 | The server never compares a pass with those already spent; one pass pays for any number of calls, and one pass repeated in a call counts many times. | `C10_double_spend_fails`, `C10_repeated_pass_fails` | `C10_spent_recorded_partial` |
| C11 | A write whose test vector fails still spends the passes; surplus valid passes are spent. | `C11_failed_test_spends_fails`, `C11_overspend_fails` | `C11_spends_valid_partial` |
| C12 | A mutable share file truncated after its magic is given a wrong size; a tiny immutable file without leases is refused. | `C12_truncated_mutable_fails`, `C12_tiny_immutable_fails` | sizes of well-formed files |
| C13 | Pass components containing a space do not survive the round trip. | `C13_roundtrip_fails` | `C13_roundtrip_partial`, `C13_base64_roundtrip` |
| C17 | A negative number of tokens hands out every available token. | `C17_negative_request_fails` | `C17_exactly_as_many_partial` |
| C21 | If making passes from tokens raises, the tokens stay in use although no call is in progress. | `C21_signing_error_fails` | `C21_in_use_means_waiting_partial` and others |
| C23 | A server that rejects only positions outside the request is asked again for ever. | `C23_out_of_range_fails` | `C23_retries_are_bounded_partial` |
| C26 | After unpaid, partial success and error, the retry redeems the first group again and deletes the random tokens of the current group, which is then requested with new ones. | `C26_same_tokens_fails` | `C26_same_tokens_partial`; `C26_issued_partial` for issuers that redeem each group for one list of random tokens |
| C31 | A voucher in the error state is never retried in the same process: `Error.start_at_counter` raises. | `C31_never_retried`, `C31_error_retried_fails` | `C31_restart_retries_partial` |
| C32 | A voucher once reported unpaid starts at the first group in every later attempt of the same process. | `C32_resumes_after_unpaid_fails` | `C32_resumes_partial` |
| C35 | Voucher numbers that decode to 31 or 33 bytes are accepted. | `C35_exact_fails`, `C35_accepts_wrong_lengths_fails` | `C35_accepts_iff` |
| C74 | A short write renews the lease of a large expired share for the price of the write. | `C74_cheap_renewal_fails` | `C74_covering_write_partial` |
| C75 | Shares are stored without payment when adding the lease fails for lack of space. | `C75_nospace_fails` | `C75_everything_stored_was_paid_partial` |
| C41 | The traversal of a directory linked (however indirectly) into itself never ends, so no lease is renewed. | `C41_cycle_fails` | `C41_ends_partial`, `C41_visits_exactly_reachable` |
| C42 | With a crawl interval range over twice the mean a sampled delay can be negative; the reactor refuses it and maintenance silently ends. | `C42_range_fails` | `C42_next_run_partial`, `C42_delays` |
| C43 | Stopping the service during a run raises `AlreadyCalled`; the run then schedules the next one. | `C43_stop_fails` | `C43_stopped_partial`, `C43_stop_fails_while_running` |
| C76 | One unreachable storage server ends the whole maintenance run. | `C76_failing_server_fails` | `C76_before_first_failure_partial` |
| C66 | The price endpoint accepts extra keys, `true` or `1.0` as version and booleans as sizes. | `C66_strictness_fails` | `C66_price_iff_partial` |
| C67 | With a path in the API root, error messages show the whole capability. And with any root, `str` of the error shows the URL as it was before scrubbing (the exception keeps its constructor's arguments), which recovery reports as the reason of its failure. | `C67_api_root_path_fails`, `C67_str_fails`, `C67_str_shows` | `C67_digest_only_partial`, `C67_scrub_idempotent` |
| C69 | A configuration section replaces an earlier one of the same name with all its items. | `C69_merging_fails` | `C69_all_items_partial`, `C69_last_section_kept` |
| C78 | An exception skips the code that restores the stack limit. | `C78_restore_fails` | `C78_restored_on_success_partial` |
| C46 | A snapshot taken before the first change counts as covering change number 1; that change, made while the snapshot is uploaded, is dropped and recovery fails. | `C46_fails` | `C46_partial`, `C46_idle_has_snapshot` |
| C47 | Event streams older than the snapshot are replayed on it; streams overlap after a restart; a crash between the two transactions of a call loses its events. | `C47_fails`, `C47_overlap_fails`, `C47_lost_fails` | `C47_partial`, `C47_window` |
| C48 | Statements of a rolled back call are recorded with those of the next call that returns. | `C48_fails` | `C48_partial`, `C48_nothing_lost` |
| C49 | See C46. | `C49_fails` | `C49_partial` |
| C53 | A token taken before and again after a restart is noted as in use twice; replaying that fails. | `C53_fails` | `C53_partial` |
| C79 | An exception of one grid operation ends the replication loop until the node is started again. | `C79_fails` | `C79_partial` |
| C80 | Tokens in use at the source are in use in the recovered process although nothing uses them. | `C80_fails` | `C80_partial`, `C80_restart_partial` |
| C63 | The upgrade to redemption groups puts all tokens into group 1, which exists only if a voucher is marked as redeemed. | `C63_fails` | `C63_partial` |
| C64 | The upgrade to times with a time zone leaves out the time at which a voucher reached its final state. | `C64_fails` | `C64_partial` |
| C81 | Upgrade statements before the first data-changing one are not in a transaction; a crash between them leaves a database that cannot be opened. | `C81_fails`, `C81_stuck` | `C81_partial` |
| C56 | A method of the store that is called during the download ends the transaction of the recovery; vouchers added and redeemed after this are dropped by the import. | `C56_fails`, `C56_broken` | `C56_partial`, `C56_first_call` |
| C57 | An import that fails is committed as far as it got, which can be the state in which all tables are dropped. | `C57_fails`, `C57_emptied` | `C57_partial` |
| C58 | Success is reported before the transaction is committed; if that fails, failure is reported after it. | `C58_fails` | `C58_partial`, `C58_truthful` |
| C59 | A client that asks with a different capability is not refused: the method that is called does not exist, and the exception leaves the message handler with the client in the list. | `C59_fails`, `C59_other_updates` | `C59_partial`, `C59_others`, `C59_malformed` |
| C82 | A repeated setup request takes a digest of the write capability for the read capability and fails. | `C82_fails` | `C82_partial` |
| C84 | The connection of a client that asks after the recovery has ended is never closed. | `C84_fails` | `C84_partial` |
| C85 | A lock left over by a process that died counts as held if the new process has the same number. | `C85_fails`, `C85_stuck` | `C85_partial` |
| C54 | The schema is upgraded before anything observes the connection; the statements, and all changes before the replication service starts, are forgotten. | `C54_fails`, `C54_nothing_recorded`, `C54_early_lost` | `C54_partial`, `C54_opened` |
| C83 | A recovered database of an older schema version is not upgraded until the node is started again: vouchers cannot be read (version 7) and changes cannot be recorded (version 8). | `C83_fails`, `C83_unrecorded` | `C83_partial`, `C83_restart` |
| C37 | The changes of a method are committed before the transaction that records them, which is begun even if there is nothing to record; if that fails the method raises although its changes are made. | `C37_fails` | `C37_partial`, `C37_all_or_nothing`, `C37_crash`, `C37_transact` |
| C87 | For a mutable write the metric observes the price, while every valid pass sent is recorded as spent. | `C87_fails` | `C87_partial`, `C87_never_more` |
| C91 | With `default-token-count` below 16, a voucher is accepted with status 200 but the coroutine raises before anything is stored and nobody looks at its result. | `C91_small_count_fails` | `C91_accepted_iff`, `C91_refused_unchanged`, `C91_recorded_partial`, `C91_others_kept` |
| C93 | An address that is not valid UTF-8 raises `UnicodeDecodeError` in `getChild`, which is answered as an internal error. | `C93_not_utf8_fails` | `C93_utf8_partial` |
| C94 | The client does not look at the public keys a server announces: a server of the same issuer that holds another key rejects its passes, and the client gives the tokens up as invalid for good. | `C94_two_keys_fails` | `C94_one_key_partial`, `C94_invalid_under_some_key_partial`, `C94_server_refuses` |
| C96 | Stores are kept by weak references only, but a replication service keeps its connection: after the store is collected the next user opens a second connection and adds a second replication service. | `C96_collected_fails` | `C96_kept_partial`, `C96_unreplicated_partial` |
| C98 | The database is opened before the configuration is looked at, for every node; if that fails the node does not start. | `C98_database_fails` | `C98_services_partial` |
| C99 | Traversal starts from the `rootcap` file only; without it nothing is maintained, and the replica is only covered if the user linked it there. | `C99_no_rootcap_fails` | `C99_reachable_partial` |
| C100 | Items are not stripped: of `a, b` the keys `a` and ` b` are allowed, so tokens of `b` are kept from being spent. | `C100_space_fails` | `C100_no_space_partial`, `C100_missing` |
| C102 | The pass value is configured on both sides and not announced or compared. | `C102_not_announced_fails` | `C102_same_item_partial` |
| C106 | entry names are joined to the private directory and normalised without a check: the entry `event-stream-1/../../tahoe.cfg` overwrites `tahoe.cfg` of the node (the in-memory client of the tests uses `FilePath.child`, which refuses such names) | `C106_outside_fails` | `C106_private_only_partial`: with no slash in the names of event streams, only `private/snapshot` and `private/<name>` change |
| C107 | `treq.collect` treats the loss of the connection during a response without announced length as its end, so part of the object is moved into place and the download succeeds | `C107_complete_fails` | `C107_complete_partial` for all responses that announce a length; `C107_others` for all |
| C111 | by default leases are renewed only once they have expired (minimum time remaining 0) and runs are 24 to 28 days apart, so leases lapse in between | `C111_no_lapse_fails` | `C111_no_lapse_partial`: no lapse if mean + range/2 ≤ minimum time remaining ≤ 31 days |
| C112 | without a record of a run each start waits for a whole interval: a node that is restarted every three weeks never maintains its leases | `C112_due_fails` | `C112_due_partial` after the first run, and relative to the last start before it; `C112_time_round_trips` |
| C113 | the time is written in a `finally` block: after a run that failed at once, for example because a storage server was away, the next attempt is 24 to 28 days later | `C113_failed_runs_fails` | `C113_last_end_partial`: the end of the last run that ended; with no failures, of the last that succeeded |
| C116 | sizes in a `ShareStat` are not checked: with a negative one the client pays any number of passes (up to 2^20, C115) to write one byte; sizes for lease renewals are taken from the server as they are | `C116_overcharge_fails`, `C116_any_price`, `C116_lease_fails` | `C116_write_partial`: no reported size negative |
| C117 | `add_arguments` makes a schema without the response constraint of the original, and the client looks at no answer of `allocate_buckets`: passes are spent for the length of whatever is in the place of the buckets; the attributes of a `ShareStat` are not checked | `C117_allocate_fails`, `C117_stat_fails` | `C117_sizes_partial`, `C117_write_partial`, `C117_buckets_partial` |
| C118 | a call that fails, for whatever reason, gives all its tokens back, and the server does not look up whether a pass was spent before: after a lost answer the client has tokens that are on record at the server | `C118_lost_answer_fails` | `C118_books_agree_partial`: no answer saying accepted is lost; `C118_balance` and `C118_discarded_is_recorded` hold for every history |
| C119 | the random tokens are sent to the issuer without waiting for their upload; if the node is lost in between the voucher is submitted with other tokens and refused, and its value is gone. The same happens without any loss to a voucher once reported unpaid, after a later failure (C32) | `C119_lost_node_fails`, `C119_unpaid_retry_fails` | `C119_never_refused_partial`, `C119_value_partial`, `C119_signed_is_safe_partial`; `C119_resumes_after_loss` for every history |
| C120 | a voucher whose first group is redeemed twice, as can happen after a report that it is unpaid (C32), has all of its groups counted without being marked redeemed. It is pending for ever: the loop over its groups is empty | `C120_stuck_fails` | `C120_groups_left_partial`, `C120_redeemed_partial`; `C120_issued_partial` for issuers that redeem each group for one list of random tokens; `C120_bounded`, `C120_goes_on`, `C120_finishes` for every history |
| C126 | Unlinking from what is not a directory raises `NotADirectoryError` with a node and `NotWriteableError` in memory; linking raises `TahoeAPIError` and `NotWriteableError`. A comment in the tests notes the first. | `C126_unlink_file_fails` | `C126_same_partial`, `C126_file_capability` |
| C127 | The entry is removed, the retried removal gets 404 and raises `TahoeAPIError`, which (C79) ends replication until the node is restarted. | `C127_unlink_fails` | `C127_once_partial`, `C127_unlink` |
| C128 | `_not_enough_servers` searches `str(exc)`, which shows the URL too: with an entry called `allmydata.interfaces.NoServersError` every error is retried for ever. The plugin uses no such name. | `C128_name_fails` | `C128_ends_partial`, `C128_retried_iff`, `C128_names` |
| C129 | the controller looks for pending vouchers only when it is created and is not told of a recovery; until the node is started again or the voucher is submitted again a recovered voucher stays pending | `C129_fails`, `C129_never` | `C129_restarted_partial`, `C129_submitted_partial`; `C129_finishes`, `C129_goes_on` |
| C130 | a share is any file whose name Python's `int` reads, but it is opened under its decimal number: the file `03` hides the share `3`, and without a share `3` it makes writes to it fail | `C130_stray_file_fails`, `C130_stray_size`, `C130_stray_breaks_write` | `C130_reads_bucket_partial`, `C130_stray_file_partial`; `C130_unreadable` |
| C131 | `remote_stat_shares` raises for the whole list if the first share of one index is shorter than 32 bytes or has an unknown header; a maintenance run asks about all indexes at once, so it renews nothing on that server nor on those after it | `C131_damaged_share_fails`, `C131_no_answer`, `C131_no_renewal`, `C131_same_index` | `C131_others_partial` |
| C132 | an upload of an immutable share that began before a slot was created at its storage index replaces the slot's share and its leases when it is closed; an upload of an empty share is free | `C132_upload_replaces_fails` | `C132_never_shortened_partial`; `C132_one_lease_each`, `C132_maintenance_renews`, `C132_others_untouched` |
| C134 | `docs/source/interface.rst` documents the keys `spendable` and `lease-maintenance-spending`; the code answers with `total` and `spending` | `C134_names_fail` | `C134_values_partial` |
| C135 | `docs/source/interface.rst`: "a repeated request with the same body will have no effect"; a voucher whose redemption failed is submitted to the issuer again | `C135_unpaid_fails` | `C135_no_effect_partial`, `C135_nothing_lost_partial` |
| C137 | `docs/source/backup.rst` documents `GET` and `PATCH` of `unblinded-token`; there is no such resource | `C137_no_checkpoint_fails` | `C137_not_found_partial` |
| C139 | A voucher of 44 base64 digits without padding decodes to 33 bytes; the API accepts it (200), but `dummy_random_tokens` raises `ValueError`, because its random tokens have 132 characters: with a redeemer for tests the voucher is never recorded (`C139_never_recorded`) | `C139_long_voucher_fails` | `C139_random_tokens_partial`, `C139_random_tokens_distinct`, `C139_unblinded`, `C139_passes` |
| C140 | That the replica is to be looked at is remembered in memory only; a service that starts does not look. A process that ends after an upload, often enough, leaves any number of event streams | C140_fails | C140_partial, C140_after_upload, C140_restored, C140_decision, C140_listing |
| C141 | The storage server lets a slot be created at a storage index while immutable shares are uploaded to it; the wrapped server then refuses to open the mixed directory | C141_fails | C141_partial, C177_uploaded, C141_uploaded, C141_immutable, C141_never_deleted |
| C142 | Completing an upload moves the uploaded share to its place without looking whether a slot's share has appeared there since, and replaces it | C142_fails | C142_partial, C142_quiet_partial, C142_who |
| C143 | Tokens are spent in the order in which storage operations finish, and tokens of a failed operation become available again: of two operations at once the second may succeed and the first fail | C143_fails | C143_order, C143_partial |
| C144 | A change made while a snapshot taken before the first change is uploaded is pruned without having been uploaded (see C46), so that the first recovery fails | C144_fails | C144_partial, C144_recorded, C144_recorded_kept |
| C145 | SQLite's `quote()`, which `iterdump` uses, ends text at the first NUL, so that the rest is not in the snapshot | C145_fails | C145_partial, C145_recovered |
| C146 | `escape_identifier` puts the string between single quotes without writing the single quotes in it twice | C146_fails, C146_other_fails | C146_partial, C146_plugin |
| C147 | whether tokens may be spent is decided when they arrive and stored with them; the configuration is not looked at again, so tokens of a removed key are still spent | C147_fails | C147_partial, C147_ignored |
| C148 | no code changes the flag of a redemption group, so nothing releases sequestered tokens; the issuer sending them again does not either, as they are already stored | C148_fails | C148_partial, C148_decided_once |
| C150 | random tokens are made group by group; a backup made when the voucher was submitted does not have those of later groups, so after a restore other tokens are submitted for groups already signed and the issuer refuses them | C150_fails | C150_partial, C150_redeemed, C150_tokens |
| C152 | sizes reported for a lease renewal may be negative; the price is then negative, `LIMIT` with a negative number is no limit, and the renewal carries passes made from every token available; if the server accepts, all of them are discarded | C152_negative_size_fails, C152_takes_everything | C152_exact_partial |
| C154 | passes of an upload for shares the server already has, passes of an operation that failed (a lost connection, say) and passes under way at a restart are given back to the store although they were sent, and are sent again, with another signature but the same preimage, in later operations, to other servers as well | C154_surplus_fails | C154_sent_again_partial, C154_spent_never_sent_again_partial |
| C155 | a report that a voucher is unpaid is never forgotten by the running process and takes precedence over later failures, so a voucher of which part has been redeemed since is shown as unpaid at the old time; and the token-count shown for a redeemed voucher leaves out sequestered tokens | C155_unpaid_hides_failure_fails, C155_sequestered_not_counted_fails | C155_created, C155_redeeming, C155_state_partial, C155_full_partial |
| C156 | the client computes the price of a write from the leases at its own time and the server at a later one; when a lease ends in between, the client has offered too few passes, none of which is bad, and gives up with MorePassesRequired although it has tokens enough | C156_lease_ends_fails | C156_carried_out_partial |
| C161 | leases are added after the work has been done and one share at a time; when there is no room for one the call fails, with the bytes written or some of the leases renewed, and no passes spent | `C161_written_fails`, `C161_half_renewed_fails` | `C161_no_effect_partial`: servers that have room for leases |
| C167 | the constraints of the interface limit the magnitude of numbers and not their sign; a negative size costs a negative number of passes, so an allocation of it is passed on to the storage underneath without a pass | `C167_negative_fails`, `C167_negative_is_free_fails` | `C167_form_partial`: everything but the sign of numbers |
| C168 | the first lease that costs more than the tokens left raises `NotEnoughTokens`, which ends the run for all later indexes and servers, also for leases that cost less than the tokens left | `C168_dear_lease_fails` | `C168_in_order_partial`: everything before the first lease that cannot be paid for is renewed, nothing after it is touched, only the price of these renewals is spent and the run is not recorded as finished; `C168_either_partial`: a run ends in this way or succeeds as in C166 |
| C172 | a voucher that the issuer once called unpaid is started again with group 0 until the next restart of the process, also after groups were redeemed; storing the signatures deletes the random tokens of the group the counter points to, not of the group that was redeemed, so the random tokens of group 0 are sent again and, if the issuer signs them again, the same tokens are stored again, although they may have been spent | `C172_fails` | `C172_once_partial`: it holds if no group of a voucher is stored twice; `C172_partial`: it holds if no voucher that was called unpaid is started again after some of its groups have been redeemed; `C172_issuer_partial`: it holds with an issuer that never signs other random tokens for a group it has signed some for |
| C178 | `get_storage_index()` of a file of up to 55 bytes is `None`; it is put among the storage indexes and sent to the servers in `stat_shares`, whose schema allows byte strings only, so the call is a `Violation`: as long as one such file is in the tree, every run fails at the first server and no lease is renewed | `C178_fails`, `C178_nothing_renewed`, `C178_no_renewals` | `C178_partial`: the run completes and renews exactly the leases that expire soon if every node found has a storage index |
| C179 | all storage indexes are collected before any lease is looked at, and an error from listing one directory ends the run: once a single directory is lost, the leases of all other files and directories lapse as well | `C179_fails`, `C179_nothing_done` | `C179_partial`: over a finite tree of readable directories the run ends, completes and renews exactly the leases that expire soon |
