import Verif.Model.Server
import Verif.Model.Decimal

/-!
Lease maintenance: `lease_maintenance.py`.  Durations (`timedelta`) and times (naive UTC
`datetime`) are integers, in microseconds; times count from the POSIX epoch.
-/
namespace ZKAP

/-! ### Finding the storage indexes -/

/-- The nodes of a grid as the client sees them: the storage index of a node and, for a
directory, its entries (`IFilesystemNode`, `IDirectoryNode`).  `elem.list()` may fail. -/
structure NodeGraph (ν σ : Type) where
  storage_index : ν → σ
  list : ν → Except PyErr (Option (Dict String ν))

/-- An entry put in its place among entries sorted by name. -/
def insert_by_name {ν} (x : String × ν) : Dict String ν → Dict String ν
  | [] => [x]
  | y :: ys => if x.1 ≤ y.1 then x :: y :: ys else y :: insert_by_name x ys

/-- `lease_maintenance.py:103-106`: the children sorted by name.  Names in a directory are
distinct, so only names are compared. -/
def stable_children {ν} (children : Dict String ν) : List ν :=
  (children.foldr insert_by_name []).map (·.2)

/-- The loop of `lease_maintenance.py:97-107` `visit_storage_indexes`.  The head of the list is
the top of the stack.  The result lists the calls of `visit`; it is `none` when the loop has
not ended after the given number of iterations. -/
def visit_loop {ν σ} (g : NodeGraph ν σ) : Nat → List ν → Option (Except PyErr (List σ))
  | _, [] => some (.ok [])
  | 0, _ :: _ => none
  | fuel + 1, elem :: stack =>
    match g.list elem with
    | .error e => some (.error e)
    | .ok none =>
      match visit_loop g fuel stack with
      | some (.ok visited) => some (.ok (g.storage_index elem :: visited))
      | r => r
    | .ok (some children) =>
      match visit_loop g fuel ((stable_children children).reverse ++ stack) with
      | some (.ok visited) => some (.ok (g.storage_index elem :: visited))
      | r => r

/-- `lease_maintenance.py:69-107` `visit_storage_indexes`.  The type checks of lines 82-95 are
left out. -/
def visit_storage_indexes {ν σ} (g : NodeGraph ν σ) (fuel : Nat) (root_nodes : List ν) :
    Option (Except PyErr (List σ)) :=
  visit_loop g fuel root_nodes.reverse

/-- `lease_maintenance.py:110-126` `iter_storage_indexes`: the distinct storage indexes.  The
order of the members of a Python set is arbitrary; it is given by `order`. -/
def iter_storage_indexes {ν σ} [BEq σ] (order : List σ → List σ) (g : NodeGraph ν σ) (fuel : Nat)
    (root_nodes : List ν) : Option (Except PyErr (List σ)) :=
  match visit_storage_indexes g fuel root_nodes with
  | some (.ok visited) => some (.ok (order visited.eraseDups))
  | r => r

/-! ### Renewing leases -/

/-- A storage server, by its answers during a maintenance run; `now` is the time read when the
work on the server begins (`lease_maintenance.py:182`). -/
structure LeaseServer (σ : Type) where
  stat_shares : List σ → Except PyErr (List (Dict Nat ShareStat))
  add_lease : σ → Except PyErr Unit
  now : Int

/-- What a maintenance run does: calls of the observer and of `add_lease`.  Servers are
numbered in the order in which they are visited. -/
inductive MaintCall (σ : Type) where
  | observe (sizes : List Int)
  | renew (server : Nat) (storage_index : σ)
  | finish
  deriving DecidableEq, Repr

/-- `datetime.utcfromtimestamp` of a whole number of seconds: the years 1 to 9999. -/
def utcfromtimestamp (t : Int) : Except PyErr Int :=
  if -62135596800 ≤ t ∧ t ≤ 253402300799 then .ok (t * 1000000) else .error .valueError

/-- `lease_maintenance.py:243-252` `soonest_expiration`. -/
def soonest_expiration : List ShareStat → Except PyErr ShareStat
  | [] => .error .valueError
  | s :: ss => .ok (ss.foldl (fun m x => if x.lease_expiration < m.lease_expiration then x else m) s)

/-- `lease_maintenance.py:299-316` `needs_lease_renew`. -/
def needs_lease_renew (min_lease_remaining : Int) (stat : ShareStat) (now : Int) :
    Except PyErr Bool :=
  match utcfromtimestamp stat.lease_expiration with
  | .error e => .error e
  | .ok expiration => .ok (decide (expiration - now < min_lease_remaining))

/-- The loop of `lease_maintenance.py:219-240`. -/
def renew_loop {σ} (min_lease_remaining : Int) (idx : Nat) (server : LeaseServer σ) :
    List (σ × Dict Nat ShareStat) → List (MaintCall σ) × Except PyErr Unit
  | [] => ([], .ok ())
  | (storage_index, stat_dict) :: rest =>
    if stat_dict.isEmpty then renew_loop min_lease_remaining idx server rest
    else
      let observed := MaintCall.observe (stat_dict.values.map (·.size))
      match soonest_expiration stat_dict.values with
      | .error e => ([observed], .error e)
      | .ok most_endangered =>
        match needs_lease_renew min_lease_remaining most_endangered server.now with
        | .error e => ([observed], .error e)
        | .ok false =>
          let (calls, r) := renew_loop min_lease_remaining idx server rest
          (observed :: calls, r)
        | .ok true =>
          match server.add_lease storage_index with
          | .error e => ([observed, .renew idx storage_index], .error e)
          | .ok () =>
            let (calls, r) := renew_loop min_lease_remaining idx server rest
            (observed :: .renew idx storage_index :: calls, r)

/-- `lease_maintenance.py:187-240` `renew_leases_on_server`. -/
def renew_leases_on_server {σ} (min_lease_remaining : Int) (storage_indexes : List σ) (idx : Nat)
    (server : LeaseServer σ) : List (MaintCall σ) × Except PyErr Unit :=
  match server.stat_shares storage_indexes with
  | .error e => ([], .error e)
  | .ok stats => renew_loop min_lease_remaining idx server (storage_indexes.zip stats)

/-- The loop of `lease_maintenance.py:172-184`. -/
def renew_servers {σ} (min_lease_remaining : Int) (storage_indexes : List σ) :
    Nat → List (LeaseServer σ) → List (MaintCall σ) × Except PyErr Unit
  | _, [] => ([.finish], .ok ())
  | idx, server :: servers =>
    match renew_leases_on_server min_lease_remaining storage_indexes idx server with
    | (calls, .error e) => (calls, .error e)
    | (calls, .ok ()) =>
      let (more, r) := renew_servers min_lease_remaining storage_indexes (idx + 1) servers
      (calls ++ more, r)

/-- `lease_maintenance.py:129-184` `renew_leases`, after the storage indexes have been found. -/
def renew_leases {σ} (min_lease_remaining : Int) (storage_indexes : List σ)
    (servers : List (LeaseServer σ)) : List (MaintCall σ) × Except PyErr Unit :=
  renew_servers min_lease_remaining storage_indexes 0 servers

/-- `lease_maintenance.py:690-738` `maintain_leases_from_root`: one maintenance run.  `none` if the
traversal of the directories does not end. -/
def maintain_leases {ν σ} [BEq σ] (order : List σ → List σ) (g : NodeGraph ν σ) (fuel : Nat)
    (root_nodes : List ν) (min_lease_remaining : Int) (servers : List (LeaseServer σ)) :
    Option (List (MaintCall σ) × Except PyErr Unit) :=
  match iter_storage_indexes order g fuel root_nodes with
  | none => none
  | some (.error e) => some ([], .error e)
  | some (.ok storage_indexes) => some (renew_leases min_lease_remaining storage_indexes servers)

/-! ### Configuration -/

/-- `lease_maintenance.py:475-493` `LeaseMaintenanceConfig`. -/
structure LeaseMaintenanceConfig where
  crawl_interval_mean : Int
  crawl_interval_range : Int
  min_lease_remaining : Int
  deriving DecidableEq, Repr

/-- `lease_maintenance.py:583-584` `_format_duration`; `int` rounds towards zero. -/
def format_duration (td : Int) : String := str_int (td.tdiv 1000000)

/-- `lease_maintenance.py:587-588` `_parse_duration`; also `config.py:118-139` `read_duration` for
an option that is present. -/
def parse_duration (s : String) : Except PyErr Int :=
  match int_str s with
  | .error e => .error e
  | .ok n => .ok (n * 1000000)

/-- `lease_maintenance.py:567-580` `lease_maintenance_config_to_dict`. -/
def lease_maintenance_config_to_dict (c : LeaseMaintenanceConfig) : Dict String String :=
  [("lease.crawl-interval.mean", format_duration c.crawl_interval_mean),
   ("lease.crawl-interval.range", format_duration c.crawl_interval_range),
   ("lease.min-time-remaining", format_duration c.min_lease_remaining)]

/-- `d[k]` followed by `_parse_duration`. -/
def get_duration (d : Dict String String) (k : String) : Except PyErr Int :=
  match d.lookup k with
  | none => .error .keyError
  | some s => parse_duration s

/-- `lease_maintenance.py:591-596` `lease_maintenance_config_from_dict`. -/
def lease_maintenance_config_from_dict (d : Dict String String) :
    Except PyErr LeaseMaintenanceConfig :=
  match get_duration d "lease.crawl-interval.mean" with
  | .error e => .error e
  | .ok mean =>
    match get_duration d "lease.crawl-interval.range" with
    | .error e => .error e
    | .ok range =>
      match get_duration d "lease.min-time-remaining" with
      | .error e => .error e
      | .ok min => .ok ⟨mean, range, min⟩

/-- `config.py:118-139` `read_duration`. -/
def read_duration (d : Dict String String) (option : String) (default : Int) : Except PyErr Int :=
  match d.lookup option with
  | none => .ok default
  | some s => parse_duration s

/-- `lease_maintenance.py:495-532` `LeaseMaintenanceConfig.from_node_config`. -/
def lease_maintenance_config_from_node (d : Dict String String) :
    Except PyErr LeaseMaintenanceConfig :=
  match read_duration d "lease.crawl-interval.mean" (26 * 86400 * 1000000) with
  | .error e => .error e
  | .ok mean =>
    match read_duration d "lease.crawl-interval.range" (4 * 86400 * 1000000) with
    | .error e => .error e
    | .ok range =>
      match read_duration d "lease.min-time-remaining" 0 with
      | .error e => .error e
      | .ok min => .ok ⟨mean, range, min⟩

/-! ### Scheduling -/

/-- `lease_maintenance.py:428`: `interval_range // 2`. -/
def halfrange (c : LeaseMaintenanceConfig) : Int := c.crawl_interval_range.fdiv 2

/-- The values `lease_maintenance.py:430-436` `sample_interval_distribution` can return:
`random.uniform(a, b)` lies between `a` and `b`, whichever is the larger. -/
def Sampled (c : LeaseMaintenanceConfig) (s : Int) : Prop :=
  min (c.crawl_interval_mean - halfrange c) (c.crawl_interval_mean + halfrange c) ≤ s ∧
  s ≤ max (c.crawl_interval_mean - halfrange c) (c.crawl_interval_mean + halfrange c)

/-- `lease_maintenance.py:741-756` `calculate_initial_interval`. -/
def calculate_initial_interval (sample last_run now : Int) : Int :=
  let since_last_run := now - last_run
  sample - since_last_run

/-- `lease_maintenance.py:444-456`: the initial interval. -/
def initial_interval (sample : Int) (last_run : Option Int) (now : Int) : Int :=
  match last_run with
  | none => sample
  | some last_run => max (calculate_initial_interval sample last_run now) 0

/-- `lease_maintenance.py:322-390` `_FuzzyTimerService` and the reactor: the calls that are
scheduled, by number and delay; the call `_call` refers to; the number of operations in
progress; and the delays asked for so far. -/
structure FuzzyTimer where
  running : Bool := false
  call : Option Nat := none
  pending : List (Nat × Int) := []
  next : Nat := 0
  in_progress : Nat := 0
  runs : Nat := 0
  deriving DecidableEq, Repr

/-- `self._call = self.reactor.callLater(delay, self._iterate)`.  The reactor refuses negative
delays (`AssertionError`). -/
def FuzzyTimer.callLater (t : FuzzyTimer) (delay : Int) : Except PyErr FuzzyTimer :=
  if delay < 0 then .error .assertionError
  else .ok { t with
    call := some t.next
    pending := t.pending ++ [(t.next, delay)]
    next := t.next + 1 }

/-- `lease_maintenance.py:357-362` `startService`. -/
def FuzzyTimer.startService (t : FuzzyTimer) (initial : Int) : Except PyErr Unit × FuzzyTimer :=
  let t1 := { t with running := true }
  match t1.callLater initial with
  | .error e => (.error e, t1)
  | .ok t2 => (.ok (), t2)

/-- `lease_maintenance.py:364-368` `stopService`.  `IDelayedCall.cancel` raises `AlreadyCalled`
for a call that has been made. -/
def FuzzyTimer.stopService (t : FuzzyTimer) : Except PyErr Unit × FuzzyTimer :=
  match t.call with
  | none => (.ok (), { t with running := false })
  | some id =>
    if id ∈ t.pending.map (·.1) then
      (.ok (), { t with
        pending := t.pending.filter (fun p => !(p.1 == id))
        call := none
        running := false })
    else (.error (.other 7), t)

/-- What can happen to the service: it is started (only while it is not running) with some
initial interval, it is stopped, a scheduled call is made, or an operation ends (it does
not matter how) and the next interval is sampled. -/
inductive TimerEvent where
  | start (initial : Int)
  | stop
  | fire (id : Nat)
  | done (sample : Int)
  deriving DecidableEq, Repr

/-- One event; `_iterate` and `_schedule` are `lease_maintenance.py:370-390`.  If scheduling
raises, the coroutine `go` ends. -/
def FuzzyTimer.step (t : FuzzyTimer) : TimerEvent → FuzzyTimer
  | .start initial => if t.running then t else (t.startService initial).2
  | .stop => t.stopService.2
  | .fire id =>
    if id ∈ t.pending.map (·.1) then
      { t with
        pending := t.pending.filter (fun p => !(p.1 == id))
        in_progress := t.in_progress + 1
        runs := t.runs + 1 }
    else t
  | .done sample =>
    if t.in_progress = 0 then t
    else
      let t1 := { t with in_progress := t.in_progress - 1 }
      match t1.callLater sample with
      | .error _ => t1
      | .ok t2 => t2

/-- A service over a list of events. -/
def FuzzyTimer.run (t : FuzzyTimer) (events : List TimerEvent) : FuzzyTimer :=
  events.foldl FuzzyTimer.step t

end ZKAP
