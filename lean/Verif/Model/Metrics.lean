import Verif.Model.Plugin

/-!
The metrics of a storage server: the histogram of `_storage_server.py:279-306` and the file `_plugin.py:253-264` has written
again and again.  Modelled from `prometheus_client`: `Histogram` and `write_to_textfile`; from Twisted: `LoopingCall`.
-/
namespace ZKAP

/-- An upper bound of the histogram; `none` is `float("inf")`. -/
abbrev Bound := Option Int

/-- `_storage_server.py:279-297` `_get_spending_histogram_buckets`. -/
def _get_spending_histogram_buckets : List Bound := (List.range 11).map (fun n => some (2 ^ n)) ++ [none]

/-- `amount <= bound` in `prometheus_client`'s `Histogram.observe`, called from `_storage_server.py:399`, `467` and `620`. -/
def in_bound : Int → Bound → Bool
  | _, none => true
  | amount, some b => decide (amount ≤ b)

/-- `prometheus_client.Histogram`, made at `_storage_server.py:299-306`: a counter for each bound, and the sum.  Simplified:
the numbers are exact, not floats. -/
structure Histogram where
  counters : List (Bound × Nat)
  sum : Int

/-- `_storage_server.py:299-306` `_make_histogram`. -/
def _make_histogram : Histogram := ⟨_get_spending_histogram_buckets.map (·, 0), 0⟩

/-- The loop of `prometheus_client`'s `Histogram.observe` (see `_storage_server.py:399`): the first counter with a bound that is large enough. -/
def count_up (amount : Int) : List (Bound × Nat) → List (Bound × Nat)
  | [] => []
  | (b, n) :: rest => if in_bound amount b then (b, n + 1) :: rest else (b, n) :: count_up amount rest

/-- `prometheus_client`'s `Histogram.observe`, called at `_storage_server.py:399`, `467` and `620`. -/
def Histogram.observe (self : Histogram) (amount : Int) : Histogram :=
  ⟨count_up amount self.counters, self.sum + amount⟩

/-- What `prometheus_client` writes of a histogram (`_plugin.py:360`): the samples `_bucket`, `_count` and `_sum`. -/
structure Samples where
  buckets : List (Bound × Nat)
  count : Nat
  sum : Int
  deriving DecidableEq

/-- The loop of `prometheus_client`'s `Histogram._child_samples` (for `_plugin.py:360`): the counters are added up. -/
def add_up (acc : Nat) : List (Bound × Nat) → List (Bound × Nat)
  | [] => []
  | (b, n) :: rest => (b, acc + n) :: add_up (acc + n) rest

/-- `prometheus_client`'s `Histogram._child_samples`, for `_plugin.py:360`. -/
def Histogram.samples (self : Histogram) : Samples :=
  ⟨add_up 0 self.counters, (self.counters.map (·.2)).sum, self.sum⟩

/-- `_plugin.py:255-264`: whether the file is to be written, and how often.  `LoopingCall.start` refuses a negative
interval. -/
def metrics_interval (configuration : Dict String String) : Except PyErr (Option Int) :=
  match configuration.lookup "prometheus-metrics-interval", configuration.lookup "prometheus-metrics-path" with
  | some interval, some _ =>
    match int_str interval with
    | .error e => .error e
    | .ok n => if n < 0 then .error .valueError else .ok (some n)
  | _, _ => .ok none

/-- A storage server process with its metrics, `_plugin.py:248-292`: when the `LoopingCall` was started and when it is to
call next, and what is in the file, if there is one: the samples of the histograms that were registered. -/
structure MeteredServer where
  server : Server
  interval : Int
  started : Int
  next : Int
  file : Option (List Samples)

/-- The histogram that the server's calls of `observe` have made (`_storage_server.py:399`, `467`, `620`). -/
def histogram_of (observed : List Int) : Histogram := observed.foldl Histogram.observe _make_histogram

/-- `twisted.internet.task.LoopingCall._scheduleFrom` (for `_plugin.py:261-263`): the next multiple of the interval.
Simplified: the times are exact, not floats. -/
def schedule_from (started interval now : Int) : Int :=
  if interval = 0 then now else now + (interval - (now - started) % interval)

/-- `_plugin.py:352-362` `safe_writer`: `write_to_textfile` writes another file and moves it to the path, or raises, which
is ignored. -/
def safe_writer (works : Bool) (registry : List Samples) (file : Option (List Samples)) : Option (List Samples) :=
  if works then some registry else file

/-- `_plugin.py:253-292`: the process starts, at a time, with a file that may be there from before.  The first call is made
at once, when no histogram is registered (`_plugin.py:263` is before `278-285`). -/
def MeteredServer.start (server : Server) (interval now : Int) (works : Bool) (file : Option (List Samples)) : MeteredServer :=
  ⟨server, interval, now, schedule_from now interval now, safe_writer works [] file⟩

/-- What happens to the process: a request (`_storage_server.py`), or the reactor makes the call it was asked for
(`_plugin.py:261-263`), at a time when it is due, and writing works or not. -/
inductive MetricsEvent where
  | request (op : ServerOp)
  | call (now : Int) (works : Bool)

/-- One event (`_plugin.py:253-264`).  The reactor does not call before it is due. -/
def MeteredServer.step (cfg : ServerConfig) (s : MeteredServer) : MetricsEvent → MeteredServer
  | .request op => { s with server := s.server.step cfg op }
  | .call now works =>
    if now < s.next then s
    else { s with
      next := schedule_from s.started s.interval now
      file := safe_writer works [(histogram_of s.server.observed).samples] s.file }

/-- A list of events (`_plugin.py:253-264`). -/
def MeteredServer.run (cfg : ServerConfig) (s : MeteredServer) (events : List MetricsEvent) : MeteredServer :=
  events.foldl (MeteredServer.step cfg) s

end ZKAP
