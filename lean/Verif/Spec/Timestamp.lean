import Verif.Model.Timestamp

/-! The proleptic Gregorian calendar, for saying which of two UTC times is the later. -/
namespace ZKAP.Spec

def leap (y : Nat) : Bool := (y % 4 = 0 ∧ y % 100 ≠ 0) ∨ y % 400 = 0

def daysInMonth (y m : Nat) : Nat :=
  match m with
  | 1 => 31 | 2 => if leap y then 29 else 28 | 3 => 31 | 4 => 30 | 5 => 31 | 6 => 30
  | 7 => 31 | 8 => 31 | 9 => 30 | 10 => 31 | 11 => 30 | 12 => 31
  | _ => 0

/-- The values Python's `datetime` accepts. -/
structure Valid (t : DateTime) : Prop where
  year : 1 ≤ t.year ∧ t.year ≤ 9999
  month : 1 ≤ t.month ∧ t.month ≤ 12
  day : 1 ≤ t.day ∧ t.day ≤ daysInMonth t.year t.month
  hour : t.hour < 24
  minute : t.minute < 60
  second : t.second < 60
  microsecond : t.microsecond < 1000000

/-- Days of the months before month `m` of year `y`. -/
def daysBeforeMonth (y : Nat) : Nat → Nat
  | 0 => 0
  | 1 => 0
  | m + 1 => daysBeforeMonth y m + daysInMonth y m

/-- Days of the years before year `y`, counted from year 1. -/
def daysBeforeYear : Nat → Nat
  | 0 => 0
  | 1 => 0
  | y + 1 => daysBeforeYear y + (if leap y then 366 else 365)

/-- Microseconds since the start of year 1. -/
def instant (t : DateTime) : Nat :=
  ((((daysBeforeYear t.year + daysBeforeMonth t.year t.month + t.day) * 24 + t.hour) * 60 +
    t.minute) * 60 + t.second) * 1000000 + t.microsecond

end ZKAP.Spec
