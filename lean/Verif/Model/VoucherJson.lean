import Verif.Model.Json
import Verif.Model.Decimal
import Verif.Model.Voucher

/-! The JSON form of vouchers, `model.py:1295-1369`, and the text form of their times. -/
namespace ZKAP

/-- The characters of `datetime.isoformat(delimiter)` for a UTC time. -/
def iso_chars (delimiter : Char) (t : DateTime) : List Char :=
  padded 4 t.year ++ '-' :: (padded 2 t.month ++ '-' :: (padded 2 t.day ++ delimiter ::
    (padded 2 t.hour ++ ':' :: (padded 2 t.minute ++ ':' :: (padded 2 t.second ++
      (if t.microsecond = 0 then ['+', '0', '0', ':', '0', '0']
       else '.' :: (padded 6 t.microsecond ++ ['+', '0', '0', ':', '0', '0'])))))))

/-- `datetime.isoformat()`. -/
def isoformatT (t : DateTime) : String := String.ofList (iso_chars 'T' t)

/-- A number of exactly `w` digits. -/
def parse_fixed : Nat → Nat → List Char → Option (Nat × List Char)
  | 0, acc, cs => some (acc, cs)
  | _ + 1, _, [] => none
  | w + 1, acc, c :: cs =>
    match digit_value c with
    | none => none
    | some d => parse_fixed w (acc * 10 + d) cs

/-- A given character. -/
def parse_char (c : Char) : List Char → Option (List Char)
  | [] => none
  | c' :: cs => if c' = c then some cs else none

/-- The number of days of a month (`calendar.monthrange`). -/
def month_days (y m : Nat) : Nat :=
  if m = 2 then (if (y % 4 = 0 ∧ y % 100 ≠ 0) ∨ y % 400 = 0 then 29 else 28)
  else if m = 4 ∨ m = 6 ∨ m = 9 ∨ m = 11 then 30 else 31

/-- The checks of the `datetime` constructor. -/
def check_datetime (t : DateTime) : Bool :=
  1 ≤ t.year ∧ t.year ≤ 9999 ∧ 1 ≤ t.month ∧ t.month ≤ 12 ∧ 1 ≤ t.day ∧
    t.day ≤ month_days t.year t.month ∧ t.hour < 24 ∧ t.minute < 60 ∧ t.second < 60 ∧
    t.microsecond < 1000000

/-- Year to second. -/
def parse_fields (delimiter : Char) (cs : List Char) : Option (DateTime × List Char) :=
  (parse_fixed 4 0 cs).bind fun (year, cs) => (parse_char '-' cs).bind fun cs =>
  (parse_fixed 2 0 cs).bind fun (month, cs) => (parse_char '-' cs).bind fun cs =>
  (parse_fixed 2 0 cs).bind fun (day, cs) => (parse_char delimiter cs).bind fun cs =>
  (parse_fixed 2 0 cs).bind fun (hour, cs) => (parse_char ':' cs).bind fun cs =>
  (parse_fixed 2 0 cs).bind fun (minute, cs) => (parse_char ':' cs).bind fun cs =>
  (parse_fixed 2 0 cs).bind fun (second, cs) => some (⟨year, month, day, hour, minute, second, 0⟩, cs)

/-- The fraction of a second, if there is one. -/
def parse_fraction (t : DateTime) (cs : List Char) : Option (DateTime × List Char) :=
  match parse_char '.' cs with
  | none => some (t, cs)
  | some cs => (parse_fixed 6 0 cs).bind fun (us, cs) => some ({ t with microsecond := us }, cs)

/-- `aniso8601.parse_datetime(text, delimiter)` followed by the check that there is a time zone.
Simplification: only the form written by `isoformat` for UTC times is accepted; the library
reads other ISO 8601 forms too. -/
def parse_datetime (delimiter : Char) (text : String) : Except PyErr DateTime :=
  match (parse_fields delimiter text.toList).bind fun (t, cs) => parse_fraction t cs with
  | none => .error .valueError
  | some (t, cs) =>
    if cs = ['+', '0', '0', ':', '0', '0'] ∧ check_datetime t = true then .ok t
    else .error .valueError

/-- `to_json_v1` of the state classes, `model.py:1080,1104,1132,1150,1173,1197`. -/
def state_to_json : VoucherState DateTime → Json
  | .pending counter => .obj [("name", .str "pending"), ("counter", .int counter)]
  | .redeeming started counter =>
    .obj [("name", .str "redeeming"), ("started", .str (isoformatT started)), ("counter", .int counter)]
  | .redeemed finished token_count =>
    .obj [("name", .str "redeemed"), ("finished", .str (isoformatT finished)),
      ("token-count", .int token_count)]
  | .doubleSpend finished => .obj [("name", .str "double-spend"), ("finished", .str (isoformatT finished))]
  | .unpaid finished => .obj [("name", .str "unpaid"), ("finished", .str (isoformatT finished))]
  | .error finished details =>
    .obj [("name", .str "error"), ("finished", .str (isoformatT finished)), ("details", .str details)]

/-- `model.py:1360-1369` `Voucher.to_json_v1`. -/
def voucher_to_json (v : Voucher DateTime) : Json :=
  .obj [("number", .str v.number), ("expected-tokens", .int v.expected_tokens),
    ("created", match v.created with
      | none => .null
      | some t => .str (isoformatT t)),
    ("state", state_to_json v.state), ("version", .int 1)]

/-- `non_negative_integer`, `validators.py`: a count.  Used for `token-count` as well, which the
code does not check. -/
def json_count (j : Json) : Except PyErr Nat :=
  match j.asInt with
  | none => .error .valueError
  | some n => if n < 0 then .error .valueError else .ok n.toNat

/-- `parse_datetime` of a JSON value. -/
def json_datetime (j : Json) : Except PyErr DateTime :=
  match j with
  | .str s => parse_datetime 'T' s
  | _ => .error .typeError

/-- A string value. -/
def json_str (j : Json) : Except PyErr String :=
  match j with
  | .str s => .ok s
  | _ => .error .assertionError

/-- The state part of `from_json_v1`, `model.py:1306-1340`.  Simplification: the details of an
error must be a string. -/
def state_from_json (j : Json) : Except PyErr (VoucherState DateTime) := do
  let name ← j.get "name"
  match name with
  | .str name =>
    if name = "pending" then
      let counter ← json_count (← j.get "counter")
      .ok (.pending counter)
    else if name = "redeeming" then
      let started ← json_datetime (← j.get "started")
      let counter ← json_count (← j.get "counter")
      .ok (.redeeming started counter)
    else if name = "double-spend" then
      let finished ← json_datetime (← j.get "finished")
      .ok (.doubleSpend finished)
    else if name = "redeemed" then
      let finished ← json_datetime (← j.get "finished")
      let token_count ← json_count (← j.get "token-count")
      .ok (.redeemed finished token_count)
    else if name = "unpaid" then
      let finished ← json_datetime (← j.get "finished")
      .ok (.unpaid finished)
    else if name = "error" then
      let finished ← json_datetime (← j.get "finished")
      let details ← json_str (← j.get "details")
      .ok (.error finished details)
    else .error .valueError
  | _ => .error .valueError

/-- The validator of `Voucher.number`, `model.py:1235`, after `number.encode("ascii")`: 44 bytes.
The base64 check never rejects anything (see `Props/Encoding.lean`, C13). -/
def check_number (number : String) : Except PyErr String :=
  if number.toList.all (fun c => c.toNat < 128) then
    if number.length = 44 then .ok number else .error .valueError
  else .error .valueError

/-- The optional creation time. -/
def created_from_json (j : Json) : Except PyErr (Option DateTime) :=
  match j with
  | .null => .ok none
  | j =>
    match json_datetime j with
    | .ok t => .ok (some t)
    | .error e => .error e

/-- `positive_integer`, after the assertion that the value is an integer. -/
def json_positive (j : Json) : Except PyErr Nat :=
  match j.asInt with
  | none => .error .assertionError
  | some n => if n < 1 then .error .valueError else .ok n.toNat

/-- `model.py:1306-1353` `Voucher.from_json_v1`. -/
def voucher_from_json_v1 (j : Json) : Except PyErr (Voucher DateTime) := do
  let state ← state_from_json (← j.get "state")
  let number ← json_str (← j.get "number")
  let expected_tokens ← json_positive (← j.get "expected-tokens")
  let created ← created_from_json (← j.get "created")
  let number ← check_number number
  .ok { number := number, expected_tokens := expected_tokens, created := created, state := state }

/-- `model.py:1295-1303` `Voucher.from_json` after parsing: dispatch on the version. -/
def voucher_from_json (j : Json) : Except PyErr (Voucher DateTime) := do
  let version ← j.get "version"
  match version with
  | .int n => if n = 1 then voucher_from_json_v1 j else .error (.other 8)
  | .str s => if s = "1" then voucher_from_json_v1 j else .error (.other 8)
  | _ => .error (.other 8)

end ZKAP
