import Verif.Model.Server

/-!
What travels between storage client and storage server: `foolscap.py`, the remote calls of
`_storage_client.py` and the parameters of the remote methods of `_storage_server.py`.

Foolscap and `allmydata.interfaces` are not in this repository; definitions that model them say so.
-/
namespace ZKAP

/-- Python values that Foolscap carries.  `stat` is a `ShareStat` with the attributes it has. -/
inductive Wire where
  | none
  | bool (b : Bool)
  | int (n : Int)
  | bytes (b : Bytes)
  | list (l : List Wire)
  | tuple (l : List Wire)
  | set (l : List Wire)
  | dict (d : List (Wire × Wire))
  | stat (attributes : List (String × Wire))
  | ref (id : Nat)

/-! ### Constraints -/

/-- Foolscap's constraint objects, as far as used. `int` is what the type `int` stands for: 32 bits. -/
inductive Constraint where
  | any
  | none
  | bool
  | int
  | integer (maxBytes : Nat)
  | bytes (maxLength : Option Nat) (minLength : Nat)
  | ref
  | listOf (c : Constraint) (maxLength : Option Nat)
  | setOf (c : Constraint) (maxLength : Option Nat)
  | dictOf (k v : Constraint) (maxKeys : Option Nat)
  | tuple2 (a b : Constraint)
  | tuple3 (a b c : Constraint)
  | tuple4 (a b c d : Constraint)
  | choice (a b : Constraint)

/-- `isinstance(x, int)`; Python's `bool` is a subclass. -/
def Wire.asInt : Wire → Option Int
  | .int n => some n
  | .bool b => some (if b then 1 else 0)
  | _ => Option.none

/-- A limit that may be absent. -/
def within (limit : Option Nat) (n : Nat) : Bool :=
  match limit with
  | .none => true
  | some m => decide (n ≤ m)

/-- Foolscap's `checkObject`: whether the object satisfies the constraint. -/
def Constraint.check : Constraint → Wire → Bool
  | .any, _ => true
  | .none, w => match w with | .none => true | _ => false
  | .bool, w => match w with | .bool _ => true | _ => false
  | .int, w => match w.asInt with | some n => decide (-2 ^ 31 ≤ n ∧ n < 2 ^ 31) | _ => false
  | .integer m, w => match w.asInt with | some n => decide (n.natAbs < 2 ^ (8 * m)) | _ => false
  | .bytes max min, w =>
    match w with | .bytes b => within max b.length && decide (min ≤ b.length) | _ => false
  | .ref, w => match w with | .ref _ => true | _ => false
  | .listOf c max, w => match w with | .list l => within max l.length && l.all c.check | _ => false
  | .setOf c max, w => match w with | .set l => within max l.length && l.all c.check | _ => false
  | .dictOf k v max, w =>
    match w with
    | .dict d => within max d.length && d.all (fun kv => k.check kv.1 && v.check kv.2)
    | _ => false
  | .tuple2 a b, w => match w with | .tuple [x, y] => a.check x && b.check y | _ => false
  | .tuple3 a b c, w =>
    match w with | .tuple [x, y, z] => a.check x && b.check y && c.check z | _ => false
  | .tuple4 a b c d, w =>
    match w with | .tuple [x, y, z, t] => a.check x && b.check y && c.check z && d.check t | _ => false
  | .choice a b, w => a.check w || b.check w

/-! ### Schemas -/

/-- Foolscap's `RemoteMethodSchema`. Without a response constraint every answer is let through. -/
structure MethodSchema where
  argumentNames : List String
  argConstraints : Dict String Constraint
  response : Option Constraint

/-- Foolscap: a schema from the arguments of a method in order, and what it returns. -/
def schema_of (args : Dict String Constraint) (response : Constraint) : MethodSchema :=
  ⟨args.keys, args, some response⟩

/-- `foolscap.py:104-132` `add_arguments`.  `RemoteMethodSchema(**new_kwargs)` has no response
constraint; its argument names are those given and are then replaced. -/
def add_arguments (schema : MethodSchema) (kwargs : Dict String Constraint) : MethodSchema :=
  let new_kwargs := Dict.update schema.argConstraints kwargs
  ⟨kwargs.map (·.1) ++ schema.argumentNames, new_kwargs, none⟩

/-- `foolscap.py:88`. -/
def PassConstraint : Constraint := .bytes (some _PASS_LENGTH) _PASS_LENGTH
/-- `foolscap.py:89`. -/
def PassListConstraint : Constraint := .listOf PassConstraint (some _MAXIMUM_PASSES_PER_CALL)

/-- `foolscap.py:92-101` `add_passes`. -/
def add_passes (schema : MethodSchema) : MethodSchema :=
  add_arguments schema [("passes", PassListConstraint)]

/-! From `allmydata.interfaces`. -/

def StorageIndexConstraint : Constraint := .bytes (some 16) 0
def HashConstraint : Constraint := .bytes (some 32) 32
def ShareDataConstraint : Constraint := .bytes none 0
def OffsetConstraint : Constraint := .integer 8
def TestVectorConstraint : Constraint :=
  .listOf (.tuple4 OffsetConstraint .int (.bytes none 0) (.bytes none 0)) none
def ReadVectorConstraint : Constraint := .listOf (.tuple2 OffsetConstraint .int) none
def DataVectorConstraint : Constraint := .listOf (.tuple2 OffsetConstraint ShareDataConstraint) none
def TestAndWriteVectorsConstraint : Constraint :=
  .dictOf .int (.tuple3 TestVectorConstraint DataVectorConstraint (.choice .none OffsetConstraint)) none
def ReadDataConstraint : Constraint := .listOf ShareDataConstraint none
def MAX_BUCKETS : Nat := 256

/-- `allmydata.interfaces.RIStorageServer`. -/
def RIStorageServer (name : String) : Option MethodSchema :=
  if name = "get_version" then some (schema_of [] (.dictOf (.bytes none 0) .any none))
  else if name = "allocate_buckets" then
    some (schema_of [("storage_index", StorageIndexConstraint), ("renew_secret", HashConstraint),
      ("cancel_secret", HashConstraint), ("sharenums", .setOf .int (some MAX_BUCKETS)),
      ("allocated_size", OffsetConstraint), ("canary", .ref)]
      (.tuple2 (.setOf .int (some MAX_BUCKETS)) (.dictOf .int .ref (some MAX_BUCKETS))))
  else if name = "add_lease" then
    some (schema_of [("storage_index", StorageIndexConstraint), ("renew_secret", HashConstraint),
      ("cancel_secret", HashConstraint)] .any)
  else if name = "get_buckets" then
    some (schema_of [("storage_index", StorageIndexConstraint)] (.dictOf .int .ref (some MAX_BUCKETS)))
  else if name = "slot_readv" then
    some (schema_of [("storage_index", StorageIndexConstraint), ("shares", .listOf .int none),
      ("readv", ReadVectorConstraint)] (.dictOf .int ReadDataConstraint none))
  else if name = "slot_testv_and_readv_and_writev" then
    some (schema_of [("storage_index", StorageIndexConstraint),
      ("secrets", .tuple3 HashConstraint HashConstraint HashConstraint),
      ("tw_vectors", TestAndWriteVectorsConstraint), ("r_vector", ReadVectorConstraint)]
      (.tuple2 .bool (.dictOf .int ReadDataConstraint none)))
  else if name = "advise_corrupt_share" then
    some (schema_of [("share_type", .bytes none 0), ("storage_index", StorageIndexConstraint),
      ("shnum", .int), ("reason", .bytes none 0)] .any)
  else none

/-- `foolscap.py:135-193` `RIPrivacyPassAuthorizedStorageServer`. -/
def RIPrivacyPassAuthorizedStorageServer (name : String) : Option MethodSchema :=
  if name = "get_version" then RIStorageServer "get_version"
  else if name = "allocate_buckets" then (RIStorageServer "allocate_buckets").map add_passes
  else if name = "add_lease" then (RIStorageServer "add_lease").map add_passes
  else if name = "get_buckets" then RIStorageServer "get_buckets"
  else if name = "share_sizes" then
    some (schema_of [("storage_index_or_slot", StorageIndexConstraint), ("sharenums", .any)]
      (.dictOf .int OffsetConstraint none))
  else if name = "stat_shares" then
    some (schema_of [("storage_indexes_or_slots", .listOf StorageIndexConstraint none)]
      (.listOf (.dictOf .int .any none) none))
  else if name = "slot_readv" then RIStorageServer "slot_readv"
  else if name = "slot_testv_and_readv_and_writev" then
    (RIStorageServer "slot_testv_and_readv_and_writev").map add_passes
  else if name = "advise_corrupt_share" then RIStorageServer "advise_corrupt_share"
  else none

/-- Foolscap: positional arguments are checked against the constraints of the argument names in
order.  All arguments are required. -/
def MethodSchema.checkArgs (s : MethodSchema) (args : List Wire) : Bool :=
  args.length == s.argumentNames.length &&
    (s.argumentNames.zip args).all fun na =>
      match s.argConstraints.lookup na.1 with
      | some c => c.check na.2
      | none => false

/-! ### Requests -/

/-- The storage operations, with the arguments the caller of the storage client gives and the
passes the storage client adds. -/
inductive StorageRequest where
  | getVersion
  | allocateBuckets (passes : List Bytes) (storage_index renew_secret cancel_secret : Bytes)
      (sharenums : List Nat) (allocated_size : Nat) (canary : Nat)
  | addLease (passes : List Bytes) (storage_index renew_secret cancel_secret : Bytes)
  | getBuckets (storage_index : Bytes)
  | shareSizes (storage_index : Bytes)
  | statShares (storage_indexes : List Bytes)
  | readv (storage_index : Bytes) (shares : List Nat) (r_vector : List (Nat × Nat))
  | writev (passes : List Bytes) (storage_index : Bytes) (secrets : Bytes × Bytes × Bytes)
      (tw_vectors : TWVectors) (r_vector : List (Nat × Nat))
  | adviseCorruptShare (share_type storage_index : Bytes) (shnum : Nat) (reason : Bytes)
  deriving DecidableEq, Repr

/-- `b"eq"`. -/
def eq_operator : Bytes := [101, 113]

/-- `_storage_client.py:596-611`: one element of a test vector gets its operator. -/
def test_item_to_wire (t : TestItem) : Wire :=
  .tuple [.int t.offset, .int t.length, .bytes eq_operator, .bytes t.specimen]

/-- `_storage_client.py:596-611`: test and write vectors in the format of the network. -/
def tw_to_wire (kv : Nat × TW) : Wire × Wire :=
  (.int kv.1, .tuple [.list (kv.2.testv.map test_item_to_wire),
    .list (kv.2.datav.map fun d => .tuple [.int d.1, .bytes d.2]),
    match kv.2.new_length with | none => .none | some n => .int n])

def read_vector_to_wire (rv : List (Nat × Nat)) : Wire := .list (rv.map fun r => .tuple [.int r.1, .int r.2])

def byte_strings_to_wire (l : List Bytes) : Wire := .list (l.map Wire.bytes)

/-- The `callRemote` of each method of the storage client, `_storage_client.py:260-263`, `289-293`, `317-324`,
`418-420`, `484-493`, `513-516`, `542-548`, `574-580`, `671-676`: the name of the remote method and its
positional arguments.  Passes are encoded by `_encode_passes`, lines 248-254. -/
def client_call : StorageRequest → String × List Wire
  | .getVersion => ("get_version", [])
  | .allocateBuckets passes storage_index renew_secret cancel_secret sharenums allocated_size canary =>
    ("allocate_buckets", [byte_strings_to_wire passes, .bytes storage_index, .bytes renew_secret,
      .bytes cancel_secret, .set (sharenums.map fun n : Nat => .int n), .int allocated_size, .ref canary])
  | .addLease passes storage_index renew_secret cancel_secret =>
    ("add_lease", [byte_strings_to_wire passes, .bytes storage_index, .bytes renew_secret,
      .bytes cancel_secret])
  | .getBuckets storage_index => ("get_buckets", [.bytes storage_index])
  | .shareSizes storage_index => ("share_sizes", [.bytes storage_index, .none])
  | .statShares storage_indexes => ("stat_shares", [byte_strings_to_wire storage_indexes])
  | .readv storage_index shares r_vector =>
    ("slot_readv", [.bytes storage_index, .list (shares.map fun n : Nat => .int n), read_vector_to_wire r_vector])
  | .writev passes storage_index secrets tw_vectors r_vector =>
    ("slot_testv_and_readv_and_writev", [byte_strings_to_wire passes, .bytes storage_index,
      .tuple [.bytes secrets.1, .bytes secrets.2.1, .bytes secrets.2.2],
      .dict (tw_vectors.map tw_to_wire), read_vector_to_wire r_vector])
  | .adviseCorruptShare share_type storage_index shnum reason =>
    ("advise_corrupt_share", [.bytes share_type, .bytes storage_index, .int shnum, .bytes reason])

/-! ### The server's side -/

def wire_nat : Wire → Option Nat
  | .int n => if 0 ≤ n then some n.toNat else none
  | _ => none

def wire_bytes : Wire → Option Bytes
  | .bytes b => some b
  | _ => none

def wire_each {α} (f : Wire → Option α) : List Wire → Option (List α)
  | [] => some []
  | w :: ws =>
    match f w, wire_each f ws with
    | some a, some as => some (a :: as)
    | _, _ => none

def wire_list {α} (f : Wire → Option α) : Wire → Option (List α)
  | .list l => wire_each f l
  | _ => none

def wire_set {α} (f : Wire → Option α) : Wire → Option (List α)
  | .set l => wire_each f l
  | _ => none

def wire_read_item : Wire → Option (Nat × Nat)
  | .tuple [a, b] => match wire_nat a, wire_nat b with | some a, some b => some (a, b) | _, _ => none
  | _ => none

def wire_data_item : Wire → Option (Nat × Bytes)
  | .tuple [a, b] => match wire_nat a, wire_bytes b with | some a, some b => some (a, b) | _, _ => none
  | _ => none

/-- Tahoe-LAFS requires the operator to be `b"eq"`. -/
def wire_test_item : Wire → Option TestItem
  | .tuple [a, b, op, c] =>
    match wire_nat a, wire_nat b, wire_bytes op, wire_bytes c with
    | some a, some b, some op, some c => if op = eq_operator then some ⟨a, b, c⟩ else none
    | _, _, _, _ => none
  | _ => none

def wire_new_length : Wire → Option (Option Nat)
  | .none => some none
  | w => (wire_nat w).map some

def wire_tw : Wire → Option TW
  | .tuple [t, d, n] =>
    match wire_list wire_test_item t, wire_list wire_data_item d, wire_new_length n with
    | some t, some d, some n => some ⟨t, d, n⟩
    | _, _, _ => none
  | _ => none

def wire_tws : List (Wire × Wire) → Option TWVectors
  | [] => some []
  | (k, v) :: rest =>
    match wire_nat k, wire_tw v, wire_tws rest with
    | some k, some v, some rest => some ((k, v) :: rest)
    | _, _, _ => none

/-- The parameters of the server's remote methods in order, `_storage_server.py:316`, `330-339`,
`422-424`, `439-445`, `470-472`, `483-485`, `494-496`, `502-509`, `625-627`. -/
def server_parameters (name : String) : List String :=
  if name = "allocate_buckets" then
    ["passes", "storage_index", "renew_secret", "cancel_secret", "sharenums", "allocated_size", "canary"]
  else if name = "add_lease" then ["passes", "storage_index", "renew_secret", "cancel_secret"]
  else if name = "get_buckets" then ["storage_index"]
  else if name = "share_sizes" then ["storage_index_or_slot", "sharenums"]
  else if name = "stat_shares" then ["storage_indexes_or_slots"]
  else if name = "slot_readv" then ["storage_index", "shares", "readv"]
  else if name = "slot_testv_and_readv_and_writev" then
    ["passes", "storage_index", "secrets", "tw_vectors", "r_vector"]
  else if name = "advise_corrupt_share" then ["share_type", "storage_index", "shnum", "reason"]
  else []

/-- Foolscap's `doRemoteCall`: positional arguments are bound to the parameters in order. What the
method then works with, as a typed value; `none` if the values are not of the kinds expected
there (which raises somewhere in the method). -/
def server_receives (name : String) (args : List Wire) : Option StorageRequest := do
  let bound := (server_parameters name).zip args
  let arg (n : String) : Option Wire := bound.lookup n
  if name = "get_version" then some .getVersion
  else if name = "allocate_buckets" then
    let passes ← wire_list wire_bytes (← arg "passes")
    let storage_index ← wire_bytes (← arg "storage_index")
    let renew_secret ← wire_bytes (← arg "renew_secret")
    let cancel_secret ← wire_bytes (← arg "cancel_secret")
    let sharenums ← wire_set wire_nat (← arg "sharenums")
    let allocated_size ← wire_nat (← arg "allocated_size")
    match ← arg "canary" with
    | .ref canary =>
      some (.allocateBuckets passes storage_index renew_secret cancel_secret sharenums allocated_size canary)
    | _ => none
  else if name = "add_lease" then
    some (.addLease (← wire_list wire_bytes (← arg "passes")) (← wire_bytes (← arg "storage_index"))
      (← wire_bytes (← arg "renew_secret")) (← wire_bytes (← arg "cancel_secret")))
  else if name = "get_buckets" then some (.getBuckets (← wire_bytes (← arg "storage_index")))
  else if name = "share_sizes" then
    match ← arg "sharenums" with
    | .none => some (.shareSizes (← wire_bytes (← arg "storage_index_or_slot")))
    | _ => none
  else if name = "stat_shares" then
    some (.statShares (← wire_list wire_bytes (← arg "storage_indexes_or_slots")))
  else if name = "slot_readv" then
    some (.readv (← wire_bytes (← arg "storage_index")) (← wire_list wire_nat (← arg "shares"))
      (← wire_list wire_read_item (← arg "readv")))
  else if name = "slot_testv_and_readv_and_writev" then
    match ← arg "secrets", ← arg "tw_vectors" with
    | .tuple [.bytes a, .bytes b, .bytes c], .dict d =>
      some (.writev (← wire_list wire_bytes (← arg "passes")) (← wire_bytes (← arg "storage_index")) (a, b, c)
        (← wire_tws d) (← wire_list wire_read_item (← arg "r_vector")))
    | _, _ => none
  else if name = "advise_corrupt_share" then
    some (.adviseCorruptShare (← wire_bytes (← arg "share_type")) (← wire_bytes (← arg "storage_index"))
      (← wire_nat (← arg "shnum")) (← wire_bytes (← arg "reason")))
  else none

/-- Foolscap's `Violation`. -/
def violation : PyErr := .other 40
/-- Other failures of the remote method. -/
def remoteFailure : PyErr := .other 41

/-- A call of the storage client on its way to the server: checked against the schema when it is sent
and again when it is received, and then handed to the remote method. -/
def transmit (r : StorageRequest) : Except PyErr StorageRequest :=
  let (name, args) := client_call r
  match RIPrivacyPassAuthorizedStorageServer name with
  | none => .error violation
  | some schema =>
    if schema.checkArgs args then
      match server_receives name args with
      | some r' => .ok r'
      | none => .error remoteFailure
    else .error violation

/-! ### Answers -/

/-- Whether Foolscap lets an answer to a call through to the caller. -/
def response_ok (name : String) (answer : Wire) : Bool :=
  match RIPrivacyPassAuthorizedStorageServer name with
  | none => false
  | some schema => match schema.response with | none => true | some c => c.check answer

/-- `isinstance(k, int)` for the keys of a dict, and something for the values. -/
def int_items {α} (value : Wire → Option α) : List (Wire × Wire) → Except PyErr (Dict Int α)
  | [] => .ok []
  | (k, v) :: rest =>
    match k.asInt, value v with
    | some k, some v =>
      match int_items value rest with
      | .ok rest => .ok ((k, v) :: rest)
      | .error e => .error e
    | _, _ => .error .valueError

/-- The loops that copy a dict item by item, `_storage_client.py:274-282`, `294-302`, `340-356`, `517-525`. -/
def known_items {α} (value : Wire → Option α) (d : List (Wire × Wire)) : Except PyErr (Dict Int α) :=
  match int_items value d with
  | .ok items => .ok (Dict.ofItems items)
  | .error e => .error e

/-- `isinstance(stat, ShareStat)`. -/
def wire_stat : Wire → Option (Dict String Wire)
  | .stat a => some a
  | _ => none

/-- The loop of `_storage_client.py:268-282`. -/
def stat_items : List Wire → Except PyErr (List (Dict Int (Dict String Wire)))
  | [] => .ok []
  | .dict d :: rest =>
    match known_items wire_stat d with
    | .error e => .error e
    | .ok s =>
      match stat_items rest with
      | .ok ss => .ok (s :: ss)
      | .error e => .error e
  | _ :: _ => .error .valueError

/-- `_storage_client.py:257-283` `stat_shares`. -/
def client_stat_shares (answer : Wire) : Except PyErr (List (Dict Int (Dict String Wire))) :=
  if response_ok "stat_shares" answer then
    match answer with
    | .list l => stat_items l
    | _ => .error .valueError
  else .error violation

/-- `_storage_client.py:286-306` `get_share_sizes`. -/
def client_share_sizes (answer : Wire) : Except PyErr (Dict Int Int) :=
  if response_ok "share_sizes" answer then
    match answer with
    | .dict d => known_items Wire.asInt d
    | _ => .error .valueError
  else .error violation

/-- `_storage_client.py:326-357`: the answer to `slot_testv_and_readv_and_writev`. Unpacking a tuple of
another length is a `ValueError`. -/
def client_writev_answer (answer : Wire) : Except PyErr (Bool × Dict Int (List Bytes)) :=
  if response_ok "slot_testv_and_readv_and_writev" answer then
    match answer with
    | .tuple [.bool ok, .dict d] =>
      match known_items (wire_list wire_bytes) d with
      | .ok d => .ok (ok, d)
      | .error e => .error e
    | _ => .error .valueError
  else .error violation

/-- `_storage_client.py:507-528` `get_buckets`. -/
def client_get_buckets (answer : Wire) : Except PyErr (Dict Int Wire) :=
  if response_ok "get_buckets" answer then
    match answer with
    | .dict d => known_items some d
    | _ => .error .valueError
  else .error violation

/-- `_storage_client.py:664-679` `slot_readv`: the answer is not looked at. -/
def client_slot_readv (answer : Wire) : Except PyErr Wire :=
  if response_ok "slot_readv" answer then .ok answer else .error violation

/-- Python's iteration over a value in an assignment to two names, `alreadygot, buckets = ...`. -/
def unpack2 : Wire → Except PyErr (Wire × Wire)
  | .tuple [a, b] => .ok (a, b)
  | .list [a, b] => .ok (a, b)
  | .set [a, b] => .ok (a, b)
  | .dict [(a, _), (b, _)] => .ok (a, b)
  | .bytes [a, b] => .ok (.int a.toNat, .int b.toNat)
  | .tuple _ | .list _ | .set _ | .dict _ | .bytes _ => .error .valueError
  | _ => .error .typeError

/-- Python's `len`. -/
def py_len : Wire → Except PyErr Nat
  | .tuple l | .list l | .set l => .ok l.length
  | .dict d => .ok d.length
  | .bytes b => .ok b.length
  | _ => .error .typeError

/-- `_storage_client.py:483-494` and `457-463`: the answer to `allocate_buckets`, and for how many shares
passes are spent. -/
def client_allocate_answer (answer : Wire) : Except PyErr ((Wire × Wire) × Nat) :=
  if response_ok "allocate_buckets" answer then
    match unpack2 answer with
    | .error e => .error e
    | .ok (alreadygot, bucketwriters) =>
      match py_len bucketwriters with
      | .error e => .error e
      | .ok n => .ok ((alreadygot, bucketwriters), n)
  else .error violation

/-! ### Prices from answers -/

/-- `_storage_client.py:538-539`: the price of `add_lease` from the answer to `share_sizes`. -/
def client_add_lease_price (pass_value : Int) (answer : Wire) : Except PyErr Int :=
  match client_share_sizes answer with
  | .error e => .error e
  | .ok sizes => .ok (required_passes pass_value sizes.values)

/-- Python's `AttributeError`. -/
def attributeError : PyErr := .other 42

/-- A `ShareStat` has the attributes that were sent and no others (`setCopyableState`, `foolscap.py:49-50`).
Simplification: attributes that are not integers raise a `TypeError` at once; the code does so
when it compares or divides. -/
def stat_number (attributes : Dict String Wire) (name : String) : Except PyErr Int :=
  match attributes.lookup name with
  | none => .error attributeError
  | some w =>
    match w.asInt with
    | some n => .ok n
    | none => .error .typeError

/-- The dict comprehension of `_storage_client.py:629-636`, item by item. -/
def stat_current_sizes (write_sharenums : List Nat) (now : Int) :
    Dict Int (Dict String Wire) → Except PyErr (Dict Nat Int)
  | [] => .ok []
  | (sharenum, stat) :: rest =>
    match stat_number stat "lease_expiration" with
    | .error e => .error e
    | .ok lease_expiration =>
      if lease_expiration > now ∧ 0 ≤ sharenum ∧ sharenum.toNat ∈ write_sharenums then
        match stat_number stat "size", stat_current_sizes write_sharenums now rest with
        | .ok size, .ok sizes => .ok ((sharenum.toNat, size) :: sizes)
        | .error e, _ => .error e
        | _, .error e => .error e
      else stat_current_sizes write_sharenums now rest

/-- `_storage_client.py:585-642`: the price of a slot write from the answer to `stat_shares`. -/
def client_writev_price (pass_value : Int) (answer : Wire) (tw : TWVectors) (now : Int) : Except PyErr Int :=
  let write_sharenums := get_write_sharenums tw
  if write_sharenums.length > 0 then
    match client_stat_shares answer with
    | .error e => .error e
    | .ok [stats] =>
      match stat_current_sizes write_sharenums now stats with
      | .error e => .error e
      | .ok current_sizes => .ok (get_required_new_passes_for_mutable_write pass_value current_sizes tw)
    | .ok _ => .error .valueError
  else .ok 0

end ZKAP
