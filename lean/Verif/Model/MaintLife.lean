import Verif.Model.LeaseMaintenance
import Verif.Model.Cbor

/-!
The lease maintenance service over the life of a node with restarts: `lease_maintenance.py:393-472`
and `599-628`.
-/
namespace ZKAP

/-! ### The time of the last run -/

/-- `datetime.isoformat()` of a time without time zone. -/
def naive_stamp (t : DateTime) : List Char :=
  padded 4 t.year ++ '-' :: (padded 2 t.month ++ '-' :: (padded 2 t.day ++ 'T' ::
    (padded 2 t.hour ++ ':' :: (padded 2 t.minute ++ ':' :: (padded 2 t.second ++
      (if t.microsecond = 0 then [] else '.' :: padded 6 t.microsecond))))))

/-- Fractions of a second as `isoformat` writes them. -/
def read_naive_fraction : List Char → Option Nat
  | [] => some 0
  | '.' :: ds =>
    match take_digits 6 0 ds with
    | some (n, []) => some n
    | _ => none
  | _ => none

/-- `aniso8601.parse_datetime`, for the one form `isoformat` writes; the others are left out. -/
def parse_naive_datetime (cs : List Char) : Option DateTime := do
  let (year, cs) ← take_digits 4 0 cs
  let cs ← expect_char '-' cs
  let (month, cs) ← take_digits 2 0 cs
  let cs ← expect_char '-' cs
  let (day, cs) ← take_digits 2 0 cs
  let cs ← expect_char 'T' cs
  let (hour, cs) ← take_digits 2 0 cs
  let cs ← expect_char ':' cs
  let (minute, cs) ← take_digits 2 0 cs
  let cs ← expect_char ':' cs
  let (second, cs) ← take_digits 2 0 cs
  let microsecond ← read_naive_fraction cs
  if datetime_valid ⟨year, month, day, hour, minute, second, microsecond⟩ then
    some ⟨year, month, day, hour, minute, second, microsecond⟩
  else none

/-- `lease_maintenance.py:599-607` `write_time_to_path`: what the file contains.  `setContent`
replaces it in one step. -/
def write_time_to_path (w : DateTime) : Bytes := utf8_encode (String.ofList (naive_stamp w))

/-- `lease_maintenance.py:610-628` `read_time_from_path`; `none` is a path without a file.  Bytes that
are not ASCII raise in `decode`. -/
def read_time_from_path : Option Bytes → Except PyErr (Option DateTime)
  | none => .ok none
  | some content =>
    if content.all (fun b => b.toNat < 128) then
      match parse_naive_datetime (content.map fun b => Char.ofNat b.toNat) with
      | some t => .ok (some t)
      | none => .error .valueError
    else .error .valueError

/-! ### The life of a node -/

/-- What the maintenance service is doing. -/
inductive MaintPhase where
  | down
  | waiting (due : Int)
  | running
  deriving DecidableEq, Repr

/-- A node with its clock and the time in the file.  Only `now`, `last_run` and `phase` are
state; the rest records, for the properties, when the node was first started, when it was last
started, and the last time a run ended and the last time one succeeded, or `none`. -/
structure MaintLife where
  now : Int
  last_run : Option Int := none
  phase : MaintPhase := .down
  first_start : Option Int := none
  up_since : Int := 0
  last_end : Option Int := none
  last_success : Option Int := none
  deriving DecidableEq, Repr

/-- What happens to a node: time passes; it is started, and an interval is sampled; the timer
fires; a run ends, successfully or not, and the next interval is sampled; the node is stopped or
dies. -/
inductive LifeEvent where
  | tick (dt : Nat)
  | start (sample : Int)
  | fire
  | finish (ok : Bool) (sample : Int)
  | stop
  deriving DecidableEq, Repr

/-- `lease_maintenance.py:444-472` and `_FuzzyTimerService`, `357-390`.  While a call is due no time
passes before it is made.  `startService` and `_schedule` with a negative delay raise and no call is
made: the service then is as good as down.  The end of a run is recorded however the run ends
(`finally`, lines 462-467); a run that the end of the process cuts off is not. -/
def MaintLife.step (n : MaintLife) : LifeEvent → MaintLife
  | .tick dt =>
    match n.phase with
    | .waiting due => if n.now + dt ≤ due then { n with now := n.now + dt } else n
    | _ => { n with now := n.now + dt }
  | .start sample =>
    match n.phase with
    | .down =>
      let first := n.first_start.getD n.now
      if initial_interval sample n.last_run n.now < 0 then
        { n with first_start := some first, up_since := n.now }
      else
        { n with
          phase := .waiting (n.now + initial_interval sample n.last_run n.now)
          first_start := some first
          up_since := n.now }
    | _ => n
  | .fire =>
    match n.phase with
    | .waiting due => if due ≤ n.now then { n with phase := .running } else n
    | _ => n
  | .finish ok sample =>
    match n.phase with
    | .running =>
      { n with
        last_run := some n.now
        phase := if sample < 0 then .down else .waiting (n.now + sample)
        last_end := some n.now
        last_success := if ok then some n.now else n.last_success }
    | _ => n
  | .stop => { n with phase := .down }

def MaintLife.run (n : MaintLife) (events : List LifeEvent) : MaintLife := events.foldl MaintLife.step n

/-! ### The period a payment is for -/

/-- `lease_maintenance.py:534-564` `get_lease_duration`, in seconds; `int` cuts off towards zero. -/
def get_lease_duration (c : LeaseMaintenanceConfig) : Int :=
  (31 * 24 * 60 * 60 * 1000000 - c.min_lease_remaining).tdiv 1000000

end ZKAP
