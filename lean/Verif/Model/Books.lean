import Verif.Model.Spending
import Verif.Model.Server
import Verif.Model.ClientPrice
import Verif.Model.Wire

/-!
A client and a storage server talking to each other: the requests that carry passes
(`_storage_client.py:468-664`) as they are made by the client, processed by the server and
answered, with the connection failing and the client restarting at any time.

The three parts are modelled elsewhere: the client's handling of passes in `Model/Spending.lean`,
the server's methods in `Model/Server.lean`, what the protocol lets through in `Model/Wire.lean`.
Here they are put together.  Simplification: the arguments and answers arrive as they were sent
(`Model/Wire.lean` says when that is so); requests without passes, which touch neither side's
record of passes, are left out on the client's side.
-/
namespace ZKAP

/-- A request that is paid with passes: the arguments the client sends besides the passes.
`num_passes` of `add_lease` and of a mutable write is what the client computed from earlier
answers of the server (`_storage_client.py:538-539`, `593-642`): any number. -/
inductive PaidRequest where
  | allocate (storage_index : SI) (renew_secret : Secret) (sharenums : List Nat)
      (allocated_size : Nat) (canary : Nat)
  | addLease (storage_index : SI) (renew_secret : Secret) (num_passes : Int)
  | writev (storage_index : SI) (write_enabler renew_secret : Secret) (tw_vectors : TWVectors)
      (r_vector : List (Nat × Nat)) (num_passes : Int)

/-- The message the client signs: `_storage_client.py:496` (allocate), `554` (add lease),
`657-660` (mutable write). -/
def PaidRequest.message : PaidRequest → Bytes
  | .allocate si .. => allocate_buckets_message si
  | .addLease si .. => add_lease_message si
  | .writev si .. => slot_testv_and_readv_and_writev_message si

/-- How many passes the client gets: `_storage_client.py:479-481`, `538-539`, `593-642`. -/
def PaidRequest.num_passes (pass_value : Int) : PaidRequest → Int
  | .allocate _ _ sharenums size _ => client_allocate_num_passes pass_value sharenums size
  | .addLease _ _ num => num
  | .writev _ _ _ _ _ num => num

/-- What the client does with the passes when the request succeeded: `_storage_client.py:497-504`
for an allocation; `551-555` and `654-661` go through `call_with_passes`, which spends all. -/
def PaidRequest.on_success (pass_value : Int) : PaidRequest → OnSuccess
  | .allocate _ _ _ size _ => .allocate pass_value size
  | _ => .spendAll

/-- An answer of the server as the client's call sees it: a result, `MorePassesRequired`, or
another exception. -/
def answer_of {α} (bucketwriters : α → Nat) : Except SErr α → CallAnswer
  | .ok r => .ok (bucketwriters r)
  | .error (.morePassesRequired _ _ failed) => .rejected failed
  | .error _ => .error remoteFailure

/-- The server processes the request, sent with these passes (`_encode_passes`,
`_storage_client.py:248-254`), at time `now`; `room` says what the wrapped server has space for. -/
def PaidRequest.serve (cfg : ServerConfig) (passes : List Bytes) (now : Int) (room : Nat → Bool)
    (s : Server) : PaidRequest → Server × CallAnswer
  | .allocate si renew sharenums size canary =>
    let r := remote_allocate_buckets cfg ⟨passes, si, renew, sharenums, size, canary, now, room⟩ s
    (r.1, answer_of (fun x => x.2.length) r.2)
  | .addLease si renew _ =>
    let r := remote_add_lease cfg ⟨passes, si, renew, now, room⟩ s
    (r.1, answer_of (fun _ => 0) r.2)
  | .writev si we renew tw rv _ =>
    let r := remote_slot_writev cfg ⟨passes, si, we, renew, tw, rv, now, room⟩ s
    (r.1, answer_of (fun _ => 0) r.2)

/-- A call in progress: the client's part, the request, and the server's answer once the server
has processed the request and the answer is on its way. -/
structure Pending where
  call : Call
  request : PaidRequest
  answer : Option CallAnswer

/-- A client and a server. -/
structure Books where
  store : Tables := {}
  calls : List Pending := []
  server : Server

/-- The client alone. -/
def Books.client (b : Books) : Client := ⟨b.store, b.calls.map Pending.call⟩

/-- What can happen.  Calls in progress are named by their position. -/
inductive BooksEvent where
  /-- the client makes a request -/
  | start (r : PaidRequest) (o : Order)
  /-- the request of a call reaches the server, which processes it -/
  | serve (i : Nat) (now : Int) (room : Nat → Bool)
  /-- the answer of the server reaches the client -/
  | deliver (i : Nat) (o : Order)
  /-- the connection fails: the request, or the answer, is lost and the call fails with `e` -/
  | lose (i : Nat) (e : PyErr) (o : Order)
  /-- another operation of the client's store -/
  | other (op : StoreOp)
  /-- something else happens at the server -/
  | foreign (op : ServerOp)
  /-- the client stops and starts again -/
  | restart

/-- One event.  `pass_value` is the client's idea of the value of a pass. -/
def Books.step (sign : Signer) (cfg : ServerConfig) (pass_value : Int) (b : Books) : BooksEvent → Books
  | .start r o =>
    let (s, t) := call_start sign o r.message (r.num_passes pass_value) b.store
    { b with
      store := t
      calls := b.calls ++ (place ⟨r.on_success pass_value, r.num_passes pass_value, ⟨r.message, []⟩⟩ s).map
        (fun c => ⟨c, r, none⟩) }
  | .serve i now room =>
    match b.calls[i]? with
    | some ⟨c, r, none⟩ =>
      let (server, a) := r.serve cfg (c.pass_group.passes.map Pass.pass_bytes) now room b.server
      { b with server := server, calls := b.calls.take i ++ [⟨c, r, some a⟩] ++ b.calls.drop (i + 1) }
    | _ => b
  | .deliver i o =>
    match b.calls[i]? with
    | some ⟨c, r, some a⟩ =>
      let (s, t) := call_answer sign o c.on_success c.num_passes c.pass_group a b.store
      { b with
        store := t
        calls := b.calls.take i ++ (place c s).map (fun c => ⟨c, r, none⟩) ++ b.calls.drop (i + 1) }
    | _ => b
  | .lose i e o =>
    match b.calls[i]? with
    | some ⟨c, r, _⟩ =>
      let (s, t) := call_answer sign o c.on_success c.num_passes c.pass_group (.error e) b.store
      { b with
        store := t
        calls := b.calls.take i ++ (place c s).map (fun c => ⟨c, r, none⟩) ++ b.calls.drop (i + 1) }
    | none => b
  | .other op => if outside op then { b with store := (op.step b.store).2 } else b
  | .foreign op => { b with server := b.server.step cfg op }
  | .restart => { b with store := (StoreOp.restart.step b.store).2, calls := [] }

/-- A history. -/
def Books.run (sign : Signer) (cfg : ServerConfig) (pass_value : Int) (b : Books)
    (events : List BooksEvent) : Books :=
  events.foldl (Books.step sign cfg pass_value) b

end ZKAP
