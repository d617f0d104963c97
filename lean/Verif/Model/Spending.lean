import Verif.Model.Store
import Verif.Model.Pass

/-!
Pass groups and storage calls paid with passes: `spending.py` and the top half of
`_storage_client.py`.

Several calls can be in progress at once: each runs synchronously from one `await` of the
remote method to the next.  A call that is waiting for the server is kept in
`Client.active`; the answer may come at any later time, with other calls and store
operations in between.
-/
namespace ZKAP

/-- `spending.py:118-177` `PassGroup`; `_factory` is the store. -/
structure PassGroup where
  message : Bytes
  tokens : List (String × Pass)
  deriving DecidableEq, Repr

/-- `spending.py:140-142` `passes`. -/
def PassGroup.passes (self : PassGroup) : List Pass := self.tokens.map Prod.snd

/-- `spending.py:144-146` `unblinded_tokens`. -/
def PassGroup.unblinded_tokens (self : PassGroup) : List String := self.tokens.map Prod.fst

/-- The loop of `spending.py:148-159` over `enumerate(self._tokens)`, counting from `idx`. -/
def split_loop {α} (select : Nat → Bool) : Nat → List α → List α × List α
  | _, [] => ([], [])
  | idx, t :: ts =>
    let (selected, unselected) := split_loop select (idx + 1) ts
    if select idx then (t :: selected, unselected) else (selected, t :: unselected)

/-- `spending.py:148-159` `PassGroup.split`; the container is its membership test. -/
def PassGroup.split (self : PassGroup) (select : Nat → Bool) : PassGroup × PassGroup :=
  let (selected, unselected) := split_loop select 0 self.tokens
  ({ self with tokens := selected }, { self with tokens := unselected })

/-- `spending.py:164-168` `PassGroup.__add__`. -/
def PassGroup.add (self other : PassGroup) : PassGroup :=
  { self with tokens := self.tokens ++ other.unblinded_tokens.zip other.passes }

/-- `IRedeemer.tokens_to_passes`: signs the message with each token.  May raise. -/
abbrev Signer := Bytes → List String → Except PyErr (List Pass)

/-- `spending.py:209-216` `SpendingController.get`. -/
def spending_get (sign : Signer) (o : Order) (message : Bytes) (num_passes : Int) (t : Tables) :
    Except PyErr PassGroup × Tables :=
  match transact (store_get_unblinded_tokens o num_passes) t with
  | (.error e, t') => (.error e, t')
  | (.ok unblinded_tokens, t') =>
    match sign message unblinded_tokens with
    | .error e => (.error e, t')
    | .ok passes => (.ok ⟨message, unblinded_tokens.zip passes⟩, t')

/-- `spending.py:170-171,218-222` `PassGroup.mark_spent`. -/
def PassGroup.mark_spent (self : PassGroup) (t : Tables) : Except PyErr Unit × Tables :=
  transact (store_discard self.unblinded_tokens) t

/-- `spending.py:173-174,224-229` `PassGroup.mark_invalid`. -/
def PassGroup.mark_invalid (self : PassGroup) (reason : String) (t : Tables) :
    Except PyErr Unit × Tables :=
  transact (store_invalidate reason self.unblinded_tokens) t

/-- `spending.py:176-177,231-235` `PassGroup.reset`. -/
def PassGroup.reset (self : PassGroup) (t : Tables) : Except PyErr Unit × Tables :=
  transact (store_reset self.unblinded_tokens) t

/-- `spending.py:161-162` `PassGroup.expand`. -/
def PassGroup.expand (sign : Signer) (o : Order) (self : PassGroup) (by_amount : Int)
    (t : Tables) : Except PyErr PassGroup × Tables :=
  match spending_get sign o self.message by_amount t with
  | (.error e, t') => (.error e, t')
  | (.ok more, t') => (.ok (self.add more), t')

/-! ### Calls with passes -/

/-- What the server's answer means for the call. -/
inductive CallAnswer where
  /-- the method succeeded; the number of bucket writers it returned, if any -/
  | ok (bucketwriters : Nat)
  /-- `MorePassesRequired` with `signature_check_failed` -/
  | rejected (signature_check_failed : List Nat)
  /-- any other exception, including a lost connection -/
  | error (e : PyErr)
  deriving DecidableEq, Repr

/-- The `on_success` argument: `call_with_passes` spends the whole group
(`_storage_client.py:186-203`), `allocate_buckets` what the new buckets cost. -/
inductive OnSuccess where
  | spendAll
  | allocate (pass_value allocated_size : Int)
  deriving DecidableEq, Repr

/-- `_storage_client.py:435-466` `_spend_for_allocate_buckets`. -/
def spend_for_allocate_buckets (pass_value allocated_size : Int) (bucketwriters : Nat)
    (pass_group : PassGroup) (t : Tables) : Except PyErr Unit × Tables :=
  match required_passesE pass_value (List.replicate bucketwriters allocated_size) with
  | .error e => (.error e, t)
  | .ok actual_passes =>
    let (to_spend, to_reset) := pass_group.split (fun i => decide ((i : Int) < actual_passes))
    match to_spend.mark_spent t with
    | (.error e, t1) => (.error e, t1)
    | (.ok (), t1) => to_reset.reset t1

/-- Running the `on_success` callback. -/
def OnSuccess.run (self : OnSuccess) (bucketwriters : Nat) (pass_group : PassGroup) (t : Tables) :
    Except PyErr Unit × Tables :=
  match self with
  | .spendAll => pass_group.mark_spent t
  | .allocate pass_value allocated_size =>
    spend_for_allocate_buckets pass_value allocated_size bucketwriters pass_group t

/-- A call after one of its steps: waiting for the server with a group, or over. -/
inductive CallState where
  | waiting (pass_group : PassGroup)
  | returned
  | raised (e : PyErr)
  deriving DecidableEq, Repr

/-- `MorePassesRequired` reaching the caller. -/
def morePassesRequired : PyErr := .other 1

/-- `_storage_client.py:72-113` `invalidate_rejected_passes`. -/
def invalidate_rejected_passes (passes : PassGroup) (signature_check_failed : List Nat)
    (t : Tables) : Except PyErr (Option PassGroup) × Tables :=
  if signature_check_failed.length = 0 then (.ok none, t)
  else
    let (rejected_passes, okay_passes) := passes.split (fun i => signature_check_failed.contains i)
    match rejected_passes.mark_invalid "signature check failed" t with
    | (.error e, t1) => (.error e, t1)
    | (.ok (), t1) => (.ok (some okay_passes), t1)

/-- The `except:` suite of `_storage_client.py:177-180`. -/
def give_up (pass_group : PassGroup) (e : PyErr) (t : Tables) : CallState × Tables :=
  match pass_group.reset t with
  | (.error e', t1) => (.raised e', t1)
  | (.ok (), t1) => (.raised e, t1)

/-- `_storage_client.py:151-152` the start of `call_with_passes_with_manual_spend`, up to the
first `await`. -/
def call_start (sign : Signer) (o : Order) (message : Bytes) (num_passes : Int) (t : Tables) :
    CallState × Tables :=
  match spending_get sign o message num_passes t with
  | (.error e, t1) => (.raised e, t1)
  | (.ok pass_group, t1) => (.waiting pass_group, t1)

/-- `_storage_client.py:153-183`: what the call does when the server's answer arrives, up to
the next `await` or the end. -/
def call_answer (sign : Signer) (o : Order) (on_success : OnSuccess) (num_passes : Int)
    (pass_group : PassGroup) (answer : CallAnswer) (t : Tables) : CallState × Tables :=
  match answer with
  | .ok bucketwriters =>
    match on_success.run bucketwriters pass_group t with
    | (.error e, t1) => give_up pass_group e t1
    | (.ok (), t1) => (.returned, t1)
  | .error e => give_up pass_group e t
  | .rejected failed =>
    match invalidate_rejected_passes pass_group failed t with
    | (.error e, t1) => give_up pass_group e t1
    | (.ok none, t1) => give_up pass_group morePassesRequired t1
    | (.ok (some okay_pass_group), t1) =>
      match okay_pass_group.expand sign o (num_passes - okay_pass_group.passes.length) t1 with
      | (.error e, t2) => give_up okay_pass_group e t2
      | (.ok expanded, t2) => (.waiting expanded, t2)

/-! ### Many calls at once -/

/-- A call waiting for the server. -/
structure Call where
  on_success : OnSuccess
  num_passes : Int
  pass_group : PassGroup
  deriving DecidableEq, Repr

/-- A client process: its store and the calls in progress. -/
structure Client where
  store : Tables := {}
  active : List Call := []
  deriving DecidableEq, Repr

/-- What can happen in a client process.  `answer i` is the server's answer to the `i`-th
active call. -/
inductive ClientEvent where
  | start (on_success : OnSuccess) (message : Bytes) (num_passes : Int) (o : Order)
  | answer (i : Nat) (a : CallAnswer) (o : Order)
  | other (op : StoreOp)
  | restart

/-- Store operations made outside of storage calls.  The four operations on unblinded
tokens in use are only made through `SpendingController` (`spending.py:196-207`, the only
use of these methods outside tests). -/
def outside : StoreOp → Bool
  | .getTokens .. | .discard .. | .invalidate .. | .reset .. | .restart => false
  | _ => true

/-- Placing a call's new state. -/
def place (c : Call) : CallState → List Call
  | .waiting g => [{ c with pass_group := g }]
  | _ => []

/-- One event. -/
def Client.step (sign : Signer) (w : Client) : ClientEvent → Client
  | .start on_success message num_passes o =>
    let (s, t) := call_start sign o message num_passes w.store
    { store := t, active := w.active ++ place ⟨on_success, num_passes, ⟨message, []⟩⟩ s }
  | .answer i a o =>
    match w.active[i]? with
    | none => w
    | some c =>
      let (s, t) := call_answer sign o c.on_success c.num_passes c.pass_group a w.store
      { store := t, active := w.active.take i ++ place c s ++ w.active.drop (i + 1) }
  | .other op => if outside op then { w with store := (op.step w.store).2 } else w
  | .restart => { store := (StoreOp.restart.step w.store).2, active := [] }

/-- A client process over a list of events. -/
def Client.run (sign : Signer) (w : Client) (events : List ClientEvent) : Client :=
  events.foldl (Client.step sign) w

end ZKAP
