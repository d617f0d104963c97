import Verif.Model.Spending
import Verif.Model.ClientPrice
import Verif.Model.Wire

/-!
The storage client as a whole: the methods of `ZKAPAuthorizerStorageClient`
(`_storage_client.py:361-679`) from the call to the result, with any number of them in progress, and with a
server at the other end that may answer anything.

A method runs from one `await` of a remote call to the next.  What it does in between is modelled elsewhere:
pass groups in `Model/Spending.lean`, what the protocol lets through and how answers are read in
`Model/Wire.lean`.  Here these parts are put together in the order the methods do them in.
-/
namespace ZKAP

/-- What the caller of the storage client asks for, with its arguments: `_storage_client.py:417`, `469-478`,
`507-511`, `531-537`, `559-561`, `566-573`, `585-592`, `664-670`. -/
inductive StorageOp where
  | getVersion
  | allocateBuckets (storage_index renew_secret cancel_secret : Bytes) (sharenums : List Nat)
      (allocated_size : Nat) (canary : Nat)
  | getBuckets (storage_index : Bytes)
  | addLease (storage_index renew_secret cancel_secret : Bytes)
  | statShares (storage_indexes : List Bytes)
  | adviseCorruptShare (share_type storage_index : Bytes) (shnum : Nat) (reason : Bytes)
  | writev (storage_index : Bytes) (secrets : Bytes × Bytes × Bytes) (tw_vectors : TWVectors)
      (r_vector : List (Nat × Nat))
  | readv (storage_index : Bytes) (shares : List Nat) (r_vector : List (Nat × Nat))
  deriving DecidableEq, Repr

/-- The remote call that does what was asked for, with these passes:
`_storage_client.py:418-420`, `484-493`, `512-515`, `542-548`, `562`, `574-580`, `644-652`, `671-676`. -/
def StorageOp.request (passes : List Bytes) : StorageOp → StorageRequest
  | .getVersion => .getVersion
  | .allocateBuckets si renew cancel sharenums size canary =>
    .allocateBuckets passes si renew cancel sharenums size canary
  | .getBuckets si => .getBuckets si
  | .addLease si renew cancel => .addLease passes si renew cancel
  | .statShares sis => .statShares sis
  | .adviseCorruptShare share_type si shnum reason => .adviseCorruptShare share_type si shnum reason
  | .writev si secrets tw rv => .writev passes si secrets tw rv
  | .readv si shares rv => .readv si shares rv

/-- The message the passes are made for: `_storage_client.py:496`, `554`, `657-660`.  The other methods
get no passes. -/
def StorageOp.message : StorageOp → Bytes
  | .allocateBuckets si .. => allocate_buckets_message si
  | .addLease si .. => add_lease_message si
  | .writev si .. => slot_testv_and_readv_and_writev_message si
  | _ => []

/-- What is done with the passes after a success: `_storage_client.py:497-504` for an upload;
`551-555` and `654-661` go through `call_with_passes`. -/
def StorageOp.on_success (pass_value : Int) : StorageOp → OnSuccess
  | .allocateBuckets _ _ _ _ size _ => .allocate pass_value size
  | _ => .spendAll

/-! ### The reference to the server -/

/-- What `_get_rref` gives: whether it is a Foolscap `RemoteReference`, and the name of the remote interface
the other side gave when the reference was made (`None` if none). -/
structure RRef where
  is_remote_reference : Bool
  interfaceName : Option String
  deriving DecidableEq, Repr

/-- `_storage_client.py:385-387` `_expected_remote_interface_name`. -/
def expected_remote_interface_name : String :=
  "RIPrivacyPassAuthorizedStorageServer.tahoe.privatestorage.io"

/-- `IncorrectStorageServerReference`, `_storage_client.py:59-69`, without its text. -/
def incorrectStorageServerReference : PyErr := .other 60

/-- `_storage_client.py:396-414` `_rref`. -/
def client_rref (get_rref : Except PyErr RRef) : Except PyErr RRef :=
  match get_rref with
  | .error e => .error e
  | .ok rref =>
    if rref.is_remote_reference then
      if rref.interfaceName ≠ some expected_remote_interface_name then
        .error incorrectStorageServerReference
      else .ok rref
    else .error .assertionError

/-! ### Results -/

/-- What the methods return. -/
inductive OpResult where
  | none
  | version (d : Dict Bytes Wire)
  | allocated (alreadygot bucketwriters : Wire)
  | buckets (d : Dict Int Wire)
  | stats (l : List (Dict Int (Dict String Wire)))
  | written (ok : Bool) (data : Dict Int (List Bytes))
  | read (w : Wire)

/-- The loop of `_storage_client.py:422-429`. -/
def version_items : List (Wire × Wire) → Except PyErr (Dict Bytes Wire)
  | [] => .ok []
  | (k, v) :: rest =>
    match wire_bytes k with
    | none => .error .valueError
    | some k =>
      match version_items rest with
      | .ok items => .ok ((k, v) :: items)
      | .error e => .error e

/-- `_storage_client.py:416-433` `get_version`: what is made of the answer. -/
def client_get_version (answer : Wire) : Except PyErr (Dict Bytes Wire) :=
  if response_ok "get_version" answer then
    match answer with
    | .dict d =>
      match version_items d with
      | .ok items => .ok (Dict.ofItems items)
      | .error e => .error e
    | _ => .error .valueError
  else .error violation

/-- What the methods without passes make of the answer: `_storage_client.py:416-433`, `506-528`, `558-562`,
`564-581`, `663-679`. -/
def free_result (answer : Wire) : StorageOp → Except PyErr OpResult
  | .getVersion => (client_get_version answer).map .version
  | .getBuckets _ => (client_get_buckets answer).map .buckets
  | .statShares _ => (client_stat_shares answer).map .stats
  | .readv .. => (client_slot_readv answer).map .read
  | .adviseCorruptShare .. =>
    if response_ok "advise_corrupt_share" answer then .ok .none else .error violation
  | _ => .ok .none

/-- What the methods with passes make of the answer, and the number of bucket writers in it:
`_storage_client.py:483-494` with `457`, `541-549`, `326-357`. -/
def paid_result (answer : Wire) : StorageOp → Except PyErr (OpResult × Nat)
  | .allocateBuckets .. =>
    match client_allocate_answer answer with
    | .error e => .error e
    | .ok ((alreadygot, bucketwriters), n) => .ok (.allocated alreadygot bucketwriters, n)
  | .addLease .. => if response_ok "add_lease" answer then .ok (.none, 0) else .error violation
  | .writev .. =>
    match client_writev_answer answer with
    | .error e => .error e
    | .ok (ok, data) => .ok (.written ok data, 0)
  | _ => .ok (.none, 0)

/-! ### The methods -/

/-- What a remote call comes to. -/
inductive Reply where
  | result (w : Wire)
  /-- `MorePassesRequired` with this `signature_check_failed` -/
  | morePassesRequired (signature_check_failed : List Nat)
  /-- any other exception, including a lost connection -/
  | failure (e : PyErr)

/-- What happens at the boundary of the storage client. -/
inductive Out where
  /-- a reply that came in for an operation, and when -/
  | got (op : StorageOp) (reply : Reply) (now : Int)
  /-- a remote call that went out for an operation -/
  | sent (op : StorageOp) (r : StorageRequest)
  /-- the operation is over -/
  | returned (op : StorageOp) (r : OpResult)
  | raised (op : StorageOp) (e : PyErr)
  /-- the process ended and another one began -/
  | restarted

/-- Where a method is: waiting for the answer to a remote call without passes, waiting for the answer to a
call with passes, or over. -/
inductive OpState where
  | asked
  | paying (c : Call)
  | over
  deriving DecidableEq, Repr

/-- What a method did until it waits again: its state, what happened at the boundary, the store. -/
abbrev Moved := OpState × List Out × Tables

/-- A remote call without passes.  Arguments that do not fit the schema raise here. -/
def send_free (op : StorageOp) (r : StorageRequest) (t : Tables) : Moved :=
  match transmit r with
  | .ok r => (.asked, [.sent op r], t)
  | .error e => (.over, [.raised op e], t)

/-- `_storage_client.py:157` with the `call` functions of `483-494`, `541-549` and `644-652`: the remote call
with the encoded passes (`_encode_passes`, lines 248-254).  Arguments that do not fit the schema raise here, and
the suite of lines 177-180 runs. -/
def send_paid (op : StorageOp) (c : Call) (t : Tables) : Moved :=
  match transmit (op.request (c.pass_group.passes.map Pass.pass_bytes)) with
  | .ok r => (.paying c, [.sent op r], t)
  | .error e =>
    match give_up c.pass_group e t with
    | (.raised e', t1) => (.over, [.raised op e'], t1)
    | (_, t1) => (.over, [.raised op e], t1)

/-- What `call_with_passes_with_manual_spend` does next. -/
def settle (op : StorageOp) (c : Call) (result : OpResult) (s : CallState) (t : Tables) : Moved :=
  match s with
  | .waiting g => send_paid op { c with pass_group := g } t
  | .returned => (.over, [.returned op result], t)
  | .raised e => (.over, [.raised op e], t)

/-- `_storage_client.py:151-157`: passes are obtained for the operation and sent with it. -/
def pay (sign : Signer) (o : Order) (pass_value : Int) (op : StorageOp) (num_passes : Int) (t : Tables) :
    Moved :=
  let (s, t1) := call_start sign o op.message num_passes t
  settle op ⟨op.on_success pass_value, num_passes, ⟨op.message, []⟩⟩ .none s t1

/-- The start of a method, up to the first `await`: `with_rref`, `_storage_client.py:220-245`, then
the beginning of each method: `479-504`, `538` (with `289-293`), `593-624` (with `260-263`) and for the rest
the remote call at once. -/
def op_start (sign : Signer) (o : Order) (pass_value : Int) (get_rref : Except PyErr RRef) (op : StorageOp)
    (t : Tables) : Moved :=
  match client_rref get_rref with
  | .error e => (.over, [.raised op e], t)
  | .ok _ =>
    match op with
    | .allocateBuckets _ _ _ sharenums size _ =>
      pay sign o pass_value op (client_allocate_num_passes pass_value sharenums size) t
    | .addLease si _ _ => send_free op (.shareSizes si) t
    | .writev si _ tw _ =>
      if (get_write_sharenums tw).length > 0 then send_free op (.statShares [si]) t
      else pay sign o pass_value op 0 t
    | op => send_free op (op.request []) t

/-- The end of an `await` that is not in the `try` of `_storage_client.py:153-180`. -/
def Reply.value : Reply → Except PyErr Wire
  | .result w => .ok w
  | .morePassesRequired _ => .error ZKAP.morePassesRequired
  | .failure e => .error e

/-- A method when the answer to its remote call without passes arrives at time `now`: the price is computed and
paid (`_storage_client.py:538-555`, `624-661`), or the answer is the result. -/
def op_asked (sign : Signer) (o : Order) (pass_value : Int) (now : Int) (op : StorageOp) (reply : Reply)
    (t : Tables) : Moved :=
  match reply.value with
  | .error e => (.over, [.raised op e], t)
  | .ok w =>
    match op with
    | .addLease .. =>
      match client_add_lease_price pass_value w with
      | .error e => (.over, [.raised op e], t)
      | .ok num_passes => pay sign o pass_value op num_passes t
    | .writev _ _ tw _ =>
      match client_writev_price pass_value w tw now with
      | .error e => (.over, [.raised op e], t)
      | .ok num_passes => pay sign o pass_value op num_passes t
    | op =>
      match free_result w op with
      | .error e => (.over, [.raised op e], t)
      | .ok r => (.over, [.returned op r], t)

/-- What a reply means for a call with passes, and the result of the method if that is the end. -/
def Reply.for_call (op : StorageOp) : Reply → CallAnswer × OpResult
  | .result w =>
    match paid_result w op with
    | .ok (r, n) => (.ok n, r)
    | .error e => (.error e, .none)
  | .morePassesRequired failed => (.rejected failed, .none)
  | .failure e => (.error e, .none)

/-- A method when the answer to its remote call with passes arrives: `_storage_client.py:153-183`. -/
def op_paid (sign : Signer) (o : Order) (op : StorageOp) (c : Call) (reply : Reply) (t : Tables) : Moved :=
  let (a, result) := reply.for_call op
  let (s, t1) := call_answer sign o c.on_success c.num_passes c.pass_group a t
  settle op c result s t1

/-! ### Many at once -/

/-- A client process: its store, the operations that wait for an answer to a call without passes, those that
wait for an answer to a call with passes, and what happened so far. -/
structure StorageSession where
  store : Tables := {}
  asked : List StorageOp := []
  paying : List (StorageOp × Call) := []
  log : List Out := []

/-- What can happen. -/
inductive SessionEvent where
  /-- an operation is started; what `_get_rref` gives -/
  | start (op : StorageOp) (get_rref : Except PyErr RRef) (o : Order)
  /-- a reply to the `i`-th operation waiting without passes -/
  | answer (i : Nat) (reply : Reply) (now : Int) (o : Order)
  /-- a reply to the `i`-th operation waiting with passes -/
  | answerPaid (i : Nat) (reply : Reply) (now : Int) (o : Order)
  /-- another operation of the client's store -/
  | other (op : StoreOp)
  | restart

/-- The operation, if it waits without passes. -/
def still_asked (op : StorageOp) : OpState → List StorageOp
  | .asked => [op]
  | _ => []

/-- The operation and its call, if it waits with passes. -/
def still_paying (op : StorageOp) : OpState → List (StorageOp × Call)
  | .paying c => [(op, c)]
  | _ => []

/-- One event.  `pass_value` is the client's idea of the value of a pass. -/
def StorageSession.step (sign : Signer) (pass_value : Int) (s : StorageSession) : SessionEvent → StorageSession
  | .start op get_rref o =>
    let (state, out, t) := op_start sign o pass_value get_rref op s.store
    ⟨t, s.asked ++ still_asked op state, s.paying ++ still_paying op state, s.log ++ out⟩
  | .answer i reply now o =>
    match s.asked[i]? with
    | none => s
    | some op =>
      let (state, out, t) := op_asked sign o pass_value now op reply s.store
      ⟨t, s.asked.take i ++ still_asked op state ++ s.asked.drop (i + 1),
        s.paying ++ still_paying op state, s.log ++ .got op reply now :: out⟩
  | .answerPaid i reply now o =>
    match s.paying[i]? with
    | none => s
    | some (op, c) =>
      let (state, out, t) := op_paid sign o op c reply s.store
      ⟨t, s.asked, s.paying.take i ++ still_paying op state ++ s.paying.drop (i + 1),
        s.log ++ .got op reply now :: out⟩
  | .other op => if outside op then { s with store := (op.step s.store).2 } else s
  | .restart => ⟨(StoreOp.restart.step s.store).2, [], [], s.log ++ [.restarted]⟩

/-- A history. -/
def StorageSession.run (sign : Signer) (pass_value : Int) (s : StorageSession) (events : List SessionEvent) : StorageSession :=
  events.foldl (StorageSession.step sign pass_value) s

end ZKAP
