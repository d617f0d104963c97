/-!
Timestamps as the store writes them.

`sqlite3`'s default adapter for `datetime` values bound to a statement writes
`value.isoformat(" ")`.  The store is given `now` functions that return UTC times
(`_plugin.py:199-218` passes `datetime.now(tz=UTC)`; `model.py:306-323` only checks that there is
some time zone).
-/
namespace ZKAP

/-- A `datetime` with time zone UTC. -/
structure DateTime where
  year : Nat
  month : Nat
  day : Nat
  hour : Nat
  minute : Nat
  second : Nat
  microsecond : Nat
  deriving DecidableEq, Repr

/-- A decimal digit. -/
def digit (d : Nat) : Char := Char.ofNat (48 + d)

/-- `"%0wd" % n` for `n < 10^w`. -/
def padded : Nat → Nat → List Char
  | 0, _ => []
  | w + 1, n => digit (n / 10 ^ w % 10) :: padded w (n % 10 ^ w)

/-- The characters of `datetime.isoformat(" ")`: microseconds only if they are not zero. -/
def isoformat_chars (t : DateTime) : List Char :=
  padded 4 t.year ++ '-' :: (padded 2 t.month ++ '-' :: (padded 2 t.day ++ ' ' ::
    (padded 2 t.hour ++ ':' :: (padded 2 t.minute ++ ':' :: (padded 2 t.second ++
      (if t.microsecond = 0 then ['+', '0', '0', ':', '0', '0']
       else '.' :: (padded 6 t.microsecond ++ ['+', '0', '0', ':', '0', '0'])))))))

/-- `datetime.isoformat(" ")`. -/
def isoformat (t : DateTime) : String := String.ofList (isoformat_chars t)

end ZKAP
