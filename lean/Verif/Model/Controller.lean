import Verif.Model.Voucher

/-!
The redemption of vouchers: `PaymentController`, `controller.py:722-1103`.

`redeem` is a coroutine.  It runs without interruption from one `await` to the next, but the
process can crash between any two transactions.  The model is therefore a machine that
does one piece of work at a time: `todo` lists the work that the running code will do
before it gives control back to the reactor, and `waiting` holds the coroutines suspended in
`await self.redeemer.redeemWithCounter(...)`.
-/
namespace ZKAP

/-- `controller.py:722-754` `token_count_for_group`. -/
def token_count_for_group (num_groups total_tokens group_number : Int) : Except PyErr Int :=
  if total_tokens < num_groups then .error .valueError
  else if group_number ≥ num_groups || group_number < 0 then .error .valueError
  else if num_groups = 0 then .error .zeroDivision
  else
    let group_size := total_tokens.fdiv num_groups
    let remainder := total_tokens.fmod num_groups
    if group_number < remainder then .ok (group_size + 1)
    else .ok group_size

/-- The configuration of the controller, `controller.py:803-812`. -/
structure RedeemCfg where
  num_redemption_groups : Nat := 16
  default_token_count : Nat
  allowed_public_keys : List String

/-- The issuer's answer to `redeemWithCounter`: the result, or an exception
(`AlreadySpent`, `Unpaid` or any other). -/
inductive IssuerAnswer where
  | success (public_key : String) (unblinded_tokens : List String)
  | alreadySpent
  | unpaid
  | failed (details : String)
  deriving DecidableEq, Repr

/-- The local variables of a `redeem` coroutine: the voucher, `real_num_tokens` and the loop
variable `counter`. -/
structure Frame where
  voucher : String
  total : Nat
  counter : Nat
  deriving DecidableEq, Repr

/-- A coroutine suspended in the `await` of `controller.py:1000`, with the random tokens it
sent. -/
structure Suspended where
  frame : Frame
  tokens : List String
  deriving DecidableEq, Repr

/-- A piece of work, done without interruption. -/
inductive Task where
  /-- a call of `redeem`, `controller.py:911` -/
  | redeem (voucher : String) (num_tokens : Option Nat)
  /-- one iteration of `_retry_redemption`, `controller.py:850-854` -/
  | retry (voucher : String)
  /-- the start of an iteration of the loop of `redeem`, `controller.py:944` -/
  | iterate (f : Frame)
  /-- the same iteration after the random tokens have been stored, `controller.py:966` -/
  | perform (f : Frame) (tokens : List String)
  /-- the coroutine has been resumed with the issuer's answer, `controller.py:1000` -/
  | answered (f : Frame) (a : IssuerAnswer)
  deriving DecidableEq, Repr

/-- What happened, in the order in which it happened.  This is not part of the program's
state; it is recorded to be able to speak about it. -/
inductive Happening where
  /-- redemption of a voucher has begun with some group -/
  | begun (voucher : String) (counter : Nat)
  /-- a request was sent to the issuer -/
  | sent (voucher : String) (counter : Nat) (tokens : List String)
  /-- the issuer's answer arrived -/
  | answer (voucher : String) (counter : Nat) (a : IssuerAnswer)
  /-- the unblinded tokens from such an answer were stored -/
  | stored (voucher : String) (counter : Nat) (public_key : String) (tokens : List String)
  /-- the process was restarted -/
  | restarted
  deriving DecidableEq, Repr

/-- A `PaymentController` with its store. -/
structure Controller where
  store : Tables := {}
  /-- `_error`: when, and the details -/
  error : Dict String (String × String) := []
  /-- `_unpaid`: when -/
  unpaid : Dict String String := []
  /-- `_active`: since when, and the counter -/
  active : Dict String (String × Nat) := []
  waiting : List Suspended := []
  todo : List Task := []
  log : List Happening := []
  deriving DecidableEq, Repr

/-- What the surroundings provide during a piece of work: the time, the order of rows from
the database and the random tokens the redeemer makes up.  Redeemers return as many tokens as
they are asked for, or raise (`controller.py:416-430,614-622`). -/
structure Env where
  now : String
  order : Order
  random : String → Nat → Nat → Except PyErr (List String)
  random_length : ∀ v c n ts, random v c n = .ok ts → ts.length = n

/-- `del d[k]` for a key that is present. -/
def Dict.del {κ α} [BEq κ] (d : Dict κ α) (k : κ) : Dict κ α := d.filter (fun p => !(p.1 == k))

/-- Times are passed on as text. -/
def sameText : String → Except PyErr String := .ok

/-- `VoucherStore.get` with the conversion to an object, `model.py:391-413`. -/
def get_object (voucher : String) (t : Tables) : Except PyErr (Voucher String) :=
  match (transact (store_get voucher) t).1 with
  | .error e => .error e
  | .ok r => Voucher.from_row sameText r

/-- `controller.py:1080-1103` `incorporate_transient_state`. -/
def incorporate_transient_state (c : Controller) (v : Voucher String) : Voucher String :=
  match v.state with
  | .pending _ =>
    match c.active.lookup v.number with
    | some (started, counter) => { v with state := .redeeming started counter }
    | none =>
      match c.unpaid.lookup v.number with
      | some finished => { v with state := .unpaid finished }
      | none =>
        match c.error.lookup v.number with
        | some (finished, details) => { v with state := .error finished details }
        | none => v
  | _ => v

/-- `controller.py:1075-1078` `get_voucher`. -/
def get_voucher (c : Controller) (number : String) : Except PyErr (Voucher String) :=
  match get_object number c.store with
  | .error e => .error e
  | .ok v => .ok (incorporate_transient_state c v)

/-- `controller.py:911-944`: `redeem` up to its loop.  An exception ends the coroutine. -/
def redeem_start (cfg : RedeemCfg) (voucher : String) (num_tokens : Option Nat)
    (c : Controller) : Except PyErr (Option Frame) :=
  match get_voucher c voucher with
  | .error .keyError => .ok (some ⟨voucher, num_tokens.getD cfg.default_token_count, 0⟩)
  | .error e => .error e
  | .ok obj =>
    if obj.state.should_start_redemption then
      match obj.state.start_at_counter with
      | .error e => .error e
      | .ok counter_start => .ok (some ⟨voucher, obj.expected_tokens, counter_start⟩)
    else .ok none

/-- `controller.py:944-964`: getting the random tokens of a group. -/
def get_random_tokens (cfg : RedeemCfg) (env : Env) (f : Frame) (t : Tables) :
    Except PyErr (List String) × Tables :=
  match token_count_for_group cfg.num_redemption_groups f.total f.counter with
  | .error e => (.error e, t)
  | .ok n =>
    transact (store_add env.order env.now f.voucher f.total f.counter
      (env.random f.voucher f.counter n.toNat)) t

/-- `controller.py:966-1002`: reloading the voucher and contacting the issuer. -/
def contact_issuer (env : Env) (f : Frame) (tokens : List String) (c : Controller) : Controller :=
  match get_object f.voucher c.store with
  | .error _ => c
  | .ok obj =>
    match obj.state with
    | .pending counter =>
      { c with
        active := c.active.set f.voucher (env.now, counter)
        waiting := c.waiting ++ [⟨f, tokens⟩]
        log := c.log ++ [.sent f.voucher f.counter tokens] }
    | _ => c

/-- `controller.py:1024-1042` `_redeem_success`. -/
def redeem_success (cfg : RedeemCfg) (env : Env) (voucher : String) (counter : Nat)
    (public_key : String) (unblinded_tokens : List String) (t : Tables) :
    Except PyErr Unit × Tables :=
  transact (store_insert_unblinded env.now voucher public_key unblinded_tokens
    (counter + 1 == cfg.num_redemption_groups)
    (decide (public_key ∈ cfg.allowed_public_keys))) t

/-- `controller.py:1044-1066` `_redeem_failure`.  The exception of a failed
`mark_voucher_double_spent` ends the coroutine, which at this point ends anyway. -/
def redeem_failure (env : Env) (voucher : String) (a : IssuerAnswer) (c : Controller) : Controller :=
  match a with
  | .alreadySpent => { c with store := (transact (store_mark_double_spent env.now voucher) c.store).2 }
  | .unpaid => { c with unpaid := c.unpaid.set voucher env.now }
  | .failed details => { c with error := c.error.set voucher (env.now, details) }
  | .success _ _ => c

/-- `controller.py:1000-1022,966-975`: what a coroutine does with the issuer's answer. -/
def resume (cfg : RedeemCfg) (env : Env) (f : Frame) (a : IssuerAnswer) (c : Controller) :
    Controller :=
  match a with
  | .success public_key unblinded_tokens =>
    match redeem_success cfg env f.voucher f.counter public_key unblinded_tokens c.store with
    | (.error _, t) => { c with store := t, active := c.active.del f.voucher }
    | (.ok (), t) =>
      { c with
        store := t
        active := c.active.del f.voucher
        todo := .iterate { f with counter := f.counter + 1 } :: c.todo
        log := c.log ++ [.stored f.voucher f.counter public_key unblinded_tokens] }
  | a =>
    let c' := redeem_failure env f.voucher a c
    { c' with active := c'.active.del f.voucher }

/-- One piece of work. -/
def Task.run (cfg : RedeemCfg) (env : Env) (task : Task) (c : Controller) : Controller :=
  match task with
  | .redeem voucher num_tokens =>
    match redeem_start cfg voucher num_tokens c with
    | .error _ => c
    | .ok none => c
    | .ok (some f) =>
      { c with todo := .iterate f :: c.todo, log := c.log ++ [.begun f.voucher f.counter] }
  | .retry voucher =>
    if (c.active.lookup voucher).isSome then c
    else
      match get_voucher c voucher with
      | .error _ => { c with todo := [] }
      | .ok obj =>
        if obj.state.should_start_redemption then { c with todo := .redeem voucher none :: c.todo }
        else c
  | .iterate f =>
    if f.counter < cfg.num_redemption_groups then
      match get_random_tokens cfg env f c.store with
      | (.error _, t) => { c with store := t }
      | (.ok tokens, t) => { c with store := t, todo := .perform f tokens :: c.todo }
    else c
  | .perform f tokens => contact_issuer env f tokens c
  | .answered f a => resume cfg env f a c

/-- `controller.py:856-875` `_check_pending_vouchers`: the calls of `redeem` it makes. -/
def check_pending_vouchers (t : Tables) : List Task :=
  match (transact store_list t).1 with
  | .error _ => []
  | .ok rows =>
    match rows.mapM (Voucher.from_row sameText) with
    | .error _ => []
    | .ok vouchers =>
      (vouchers.filter (·.state.should_start_redemption)).map fun v => .redeem v.number none

/-- `controller.py:850`: the iterations of `_retry_redemption`. -/
def retry_redemption (c : Controller) : List Task :=
  (c.error.keys ++ c.unpaid.keys).map .retry

/-- What can happen.  `redeem`, `timer` and `other` come from the reactor, when no
code is running.  The answer to a request may also come while the code that started the
coroutine is still running (a redeemer that does not wait), but not in the middle of a
coroutine's work.  `crash` can happen at any time; the process is started again at once. -/
inductive RedeemEvent where
  | redeem (voucher : String) (num_tokens : Option Nat)
  | timer
  | answer (i : Nat) (a : IssuerAnswer)
  | work (env : Env)
  | other (op : StoreOp)
  | crash

/-- Store operations that are not made by the controller.  Only the controller calls `add`,
`insert_unblinded_tokens_for_voucher` and `mark_voucher_double_spent`. -/
def notRedeeming : StoreOp → Bool
  | .add .. | .insert .. | .doubleSpent .. | .restart => false
  | _ => true

/-- Is this a call that has not started? -/
def Task.isCall : Task → Bool
  | .redeem .. | .retry .. => true
  | _ => false

/-- One event. -/
def Controller.step (cfg : RedeemCfg) (c : Controller) : RedeemEvent → Controller
  | .redeem voucher num_tokens =>
    if c.todo.isEmpty then { c with todo := [.redeem voucher num_tokens] } else c
  | .timer => if c.todo.isEmpty then { c with todo := retry_redemption c } else c
  | .answer i a =>
    match c.waiting[i]? with
    | none => c
    | some s =>
      if c.todo.all (·.isCall) then
        { c with
          waiting := c.waiting.take i ++ c.waiting.drop (i + 1)
          todo := .answered s.frame a :: c.todo
          log := c.log ++ [.answer s.frame.voucher s.frame.counter a] }
      else c
  | .work env =>
    match c.todo with
    | [] => c
    | task :: todo => task.run cfg env { c with todo := todo }
  | .other op =>
    if c.todo.isEmpty && notRedeeming op then { c with store := (op.step c.store).2 } else c
  | .crash =>
    let t := (StoreOp.restart.step c.store).2
    { store := t, todo := check_pending_vouchers t, log := c.log ++ [.restarted] }

/-- A controller over a list of events. -/
def Controller.run (cfg : RedeemCfg) (c : Controller) (events : List RedeemEvent) : Controller :=
  events.foldl (Controller.step cfg) c

end ZKAP
