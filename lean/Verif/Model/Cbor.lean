import Verif.Model.Timestamp
import Verif.Model.VoucherWeb

/-!
The files of a replica as bytes: the part of CBOR (RFC 8949) that `cbor2` is used for in
`replicate.py:227-261,556-566,683-724` and `recover.py:196-236`.

Encoding is what `cbor2.dumps` does for integers that SQLite can store (64 bits), finite floats,
text, byte strings, booleans, `None`, sequences, dicts and UTC `datetime`s.  Decoding is what
`cbor2.load` does with those forms.  Left out of decoding, and an error here: indefinite lengths,
half and single precision floats, simple values other than `false`, `true` and `null`, tags other
than 0 and time zones other than UTC.  Nothing the encoder writes contains them.
-/
namespace ZKAP

/-- `CBORDecodeEOF`: the data ends too early. -/
def cbor_eof : PyErr := .other 110
/-- A form of CBOR that is left out. -/
def cbor_left_out : PyErr := .other 111
/-- The decoder has used up its fuel; it never does (`cbor_loads_fuel`). -/
def cbor_fuel : PyErr := .other 112

/-- A value `cbor2` reads or writes.  A float is its 64 bits in the IEEE 754 format. -/
inductive Cbor where
  | int (n : Int)
  | bytes (b : Bytes)
  | text (s : String)
  | array (items : List Cbor)
  | map (items : List (Cbor × Cbor))
  | datetime (t : DateTime)
  | float (bits : Nat)
  | bool (b : Bool)
  | null

/-! ### Text -/

/-- One code point in UTF-8. -/
def utf8_point (c : Nat) : List Nat :=
  if c < 128 then [c]
  else if c < 2048 then [192 + c / 64, 128 + c % 64]
  else if c < 65536 then [224 + c / 4096, 128 + c / 64 % 64, 128 + c % 64]
  else [240 + c / 262144, 128 + c / 4096 % 64, 128 + c / 64 % 64, 128 + c % 64]

/-- `str.encode("utf-8")`. -/
def utf8_encode (s : String) : Bytes := ((points_of s).flatMap utf8_point).map UInt8.ofNat

/-! ### Heads -/

/-- `n` as `w` bytes, the highest first. -/
def cbor_be : Nat → Nat → Bytes
  | 0, _ => []
  | w + 1, n => UInt8.ofNat (n / 256 ^ w % 256) :: cbor_be w (n % 256 ^ w)

/-- The number in some bytes, the highest first. -/
def cbor_of_be (bs : Bytes) : Nat := bs.foldl (fun acc b => acc * 256 + b.toNat) 0

/-- `encode_length` of `cbor2`: the major type and its argument in the shortest form. -/
def cbor_head (major n : Nat) : Bytes :=
  if n < 24 then [UInt8.ofNat (major * 32 + n)]
  else if n < 256 then UInt8.ofNat (major * 32 + 24) :: cbor_be 1 n
  else if n < 65536 then UInt8.ofNat (major * 32 + 25) :: cbor_be 2 n
  else if n < 4294967296 then UInt8.ofNat (major * 32 + 26) :: cbor_be 4 n
  else UInt8.ofNat (major * 32 + 27) :: cbor_be 8 n

/-- Read exactly `w` bytes. -/
def cbor_take (w : Nat) (bs : Bytes) : Except PyErr (Bytes × Bytes) :=
  if bs.length < w then .error cbor_eof else .ok (bs.take w, bs.drop w)

/-- The argument of a head: the number and the rest of the data. -/
def cbor_argument (info : Nat) (bs : Bytes) : Except PyErr (Nat × Bytes) :=
  if info < 24 then .ok (info, bs)
  else
    if info ≤ 27 then
      match cbor_take (2 ^ (info - 24)) bs with
      | .error e => .error e
      | .ok (n, rest) => .ok (cbor_of_be n, rest)
    else .error cbor_left_out

/-! ### Timestamps -/

/-- `value.isoformat().replace("+00:00", "Z")`, `encode_datetime` of `cbor2`. -/
def cbor_stamp (t : DateTime) : List Char :=
  padded 4 t.year ++ '-' :: (padded 2 t.month ++ '-' :: (padded 2 t.day ++ 'T' ::
    (padded 2 t.hour ++ ':' :: (padded 2 t.minute ++ ':' :: (padded 2 t.second ++
      (if t.microsecond = 0 then ['Z'] else '.' :: (padded 6 t.microsecond ++ ['Z'])))))))

/-- `\d{w}`: the number and the rest of the text. -/
def take_digits : Nat → Nat → List Char → Option (Nat × List Char)
  | 0, acc, cs => some (acc, cs)
  | _ + 1, _, [] => none
  | w + 1, acc, c :: cs =>
    if c.isDigit then take_digits w (acc * 10 + (c.toNat - 48)) cs else none

/-- The given character. -/
def expect_char (c : Char) : List Char → Option (List Char)
  | [] => none
  | d :: cs => if d = c then some cs else none

/-- `(?:\.(\d{1,6})\d*)?(?:Z|\+00:00)$`: the microseconds. -/
def read_fraction (cs : List Char) : Option Nat :=
  match cs with
  | '.' :: ds =>
    if ds.takeWhile Char.isDigit = [] then none
    else if ds.dropWhile Char.isDigit = ['Z'] ∨
        ds.dropWhile Char.isDigit = ['+', '0', '0', ':', '0', '0'] then
      (take_digits 6 0 ((ds.takeWhile Char.isDigit).take 6 ++
        List.replicate (6 - (ds.takeWhile Char.isDigit).length) '0')).map Prod.fst
    else none
  | rest => if rest = ['Z'] ∨ rest = ['+', '0', '0', ':', '0', '0'] then some 0 else none

/-- The number of days of a month. -/
def days_in_month (y m : Nat) : Nat :=
  match m with
  | 1 => 31 | 2 => if (y % 4 = 0 ∧ y % 100 ≠ 0) ∨ y % 400 = 0 then 29 else 28
  | 3 => 31 | 4 => 30 | 5 => 31 | 6 => 30 | 7 => 31 | 8 => 31 | 9 => 30 | 10 => 31 | 11 => 30
  | 12 => 31
  | _ => 0

/-- The arguments the constructor `datetime` accepts. -/
def datetime_valid (t : DateTime) : Bool :=
  decide ((1 ≤ t.year ∧ t.year ≤ 9999) ∧ (1 ≤ t.month ∧ t.month ≤ 12) ∧
    (1 ≤ t.day ∧ t.day ≤ days_in_month t.year t.month) ∧ t.hour < 24 ∧ t.minute < 60 ∧
    t.second < 60 ∧ t.microsecond < 1000000)

/-- `decode_datetime_string` of `cbor2`. -/
def read_stamp (cs : List Char) : Option DateTime := do
  let (year, cs) ← take_digits 4 0 cs
  let cs ← expect_char '-' cs
  let (month, cs) ← take_digits 2 0 cs
  let cs ← expect_char '-' cs
  let (day, cs) ← take_digits 2 0 cs
  let cs ← expect_char 'T' cs
  let (hour, cs) ← take_digits 2 0 cs
  let cs ← expect_char ':' cs
  let (minute, cs) ← take_digits 2 0 cs
  let cs ← expect_char ':' cs
  let (second, cs) ← take_digits 2 0 cs
  let microsecond ← read_fraction cs
  if datetime_valid ⟨year, month, day, hour, minute, second, microsecond⟩ then
    some ⟨year, month, day, hour, minute, second, microsecond⟩
  else none

/-! ### Values -/

mutual
/-- `cbor2.dumps`. -/
def Cbor.encode : Cbor → Bytes
  | .int n => if 0 ≤ n then cbor_head 0 n.toNat else cbor_head 1 (-1 - n).toNat
  | .bytes b => cbor_head 2 b.length ++ b
  | .text s => cbor_head 3 (utf8_encode s).length ++ utf8_encode s
  | .array items => cbor_head 4 items.length ++ encode_items items
  | .map items => cbor_head 5 items.length ++ encode_pairs items
  | .datetime t =>
    cbor_head 6 0 ++ (cbor_head 3 (utf8_encode (String.ofList (cbor_stamp t))).length ++
      utf8_encode (String.ofList (cbor_stamp t)))
  | .float bits => 251 :: cbor_be 8 bits
  | .bool b => if b then [245] else [244]
  | .null => [246]
/-- The items of an array. -/
def encode_items : List Cbor → Bytes
  | [] => []
  | x :: xs => x.encode ++ encode_items xs
/-- The items of a map. -/
def encode_pairs : List (Cbor × Cbor) → Bytes
  | [] => []
  | (k, v) :: kvs => k.encode ++ (v.encode ++ encode_pairs kvs)
end

/-- `decode_string` of `cbor2` once the bytes have been read. -/
def cbor_text (b : Bytes) : Except PyErr Cbor :=
  match utf8_decode b with
  | none => .error .valueError
  | some cs => .ok (.text (of_points cs))

/-- `decode_semantic` of `cbor2` for tag 0: the tagged value must be the text of a time. -/
def cbor_datetime : Cbor → Except PyErr Cbor
  | .text s =>
    match read_stamp s.toList with
    | some t => .ok (.datetime t)
    | none => .error .valueError
  | _ => .error .typeError

mutual
/-- `CBORDecoder.decode`: one value and the data after it. -/
def cbor_decode : Nat → Bytes → Except PyErr (Cbor × Bytes)
  | 0, _ => .error cbor_fuel
  | _ + 1, [] => .error cbor_eof
  | fuel + 1, b :: bs =>
    if b.toNat / 32 = 7 then
      if b.toNat = 244 then .ok (.bool false, bs)
      else if b.toNat = 245 then .ok (.bool true, bs)
      else if b.toNat = 246 then .ok (.null, bs)
      else if b.toNat = 251 then
        match cbor_take 8 bs with
        | .error e => .error e
        | .ok (bits, rest) => .ok (.float (cbor_of_be bits), rest)
      else .error cbor_left_out
    else
      match cbor_argument (b.toNat % 32) bs with
      | .error e => .error e
      | .ok (n, bs) =>
        if b.toNat / 32 = 0 then .ok (.int n, bs)
        else if b.toNat / 32 = 1 then .ok (.int (-1 - n), bs)
        else if b.toNat / 32 = 2 then
          match cbor_take n bs with
          | .error e => .error e
          | .ok (s, rest) => .ok (.bytes s, rest)
        else if b.toNat / 32 = 3 then
          match cbor_take n bs with
          | .error e => .error e
          | .ok (s, rest) =>
            match cbor_text s with
            | .error e => .error e
            | .ok v => .ok (v, rest)
        else if b.toNat / 32 = 4 then
          match decode_items fuel n bs with
          | .error e => .error e
          | .ok (items, rest) => .ok (.array items, rest)
        else if b.toNat / 32 = 5 then
          match decode_pairs fuel n bs with
          | .error e => .error e
          | .ok (items, rest) => .ok (.map items, rest)
        else
          match cbor_decode fuel bs with
          | .error e => .error e
          | .ok (v, rest) =>
            if n = 0 then
              match cbor_datetime v with
              | .error e => .error e
              | .ok t => .ok (t, rest)
            else .error cbor_left_out
/-- That many values. -/
def decode_items : Nat → Nat → Bytes → Except PyErr (List Cbor × Bytes)
  | _, 0, bs => .ok ([], bs)
  | 0, _ + 1, _ => .error cbor_fuel
  | fuel + 1, count + 1, bs =>
    match cbor_decode fuel bs with
    | .error e => .error e
    | .ok (x, rest) =>
      match decode_items fuel count rest with
      | .error e => .error e
      | .ok (xs, rest) => .ok (x :: xs, rest)
/-- That many keys and values. -/
def decode_pairs : Nat → Nat → Bytes → Except PyErr (List (Cbor × Cbor) × Bytes)
  | _, 0, bs => .ok ([], bs)
  | 0, _ + 1, _ => .error cbor_fuel
  | fuel + 1, count + 1, bs =>
    match cbor_decode fuel bs with
    | .error e => .error e
    | .ok (k, rest) =>
      match cbor_decode fuel rest with
      | .error e => .error e
      | .ok (v, rest) =>
        match decode_pairs fuel count rest with
        | .error e => .error e
        | .ok (kvs, rest) => .ok ((k, v) :: kvs, rest)
end

/-- `cbor2.load` and `cbor2.loads`: the first value; data after it is ignored. -/
def cbor_loads (bs : Bytes) : Except PyErr Cbor :=
  match cbor_decode (2 * bs.length + 1) bs with
  | .error e => .error e
  | .ok (v, _) => .ok v

/-! ### The files of a replica -/

/-- A value bound to a SQL statement, `sql.py:18-19`.  `True` and `False` are integers in Python. -/
inductive SqlType where
  | none
  | int (n : Int)
  | bool (b : Bool)
  | float (bits : Nat)
  | str (s : String)
  | bytes (b : Bytes)
  | datetime (t : DateTime)
  deriving DecidableEq, Repr

/-- The value `cbor2` is given. -/
def SqlType.toCbor : SqlType → Cbor
  | .none => .null
  | .int n => .int n
  | .bool b => .bool b
  | .float bits => .float bits
  | .str s => .text s
  | .bytes b => .bytes b
  | .datetime t => .datetime t

/-- `isinstance(value, SQLRuntimeType)`, and the value. -/
def Cbor.sql : Cbor → Option SqlType
  | .null => some .none
  | .int n => some (.int n)
  | .bool b => some (.bool b)
  | .float bits => some (.float bits)
  | .text s => some (.str s)
  | .bytes b => some (.bytes b)
  | .datetime t => some (.datetime t)
  | .array _ => none
  | .map _ => none

/-- `replicate.py:176-205` `Change`.  The validator checks the arguments only; the annotations of
the other attributes are not enforced, so these can be any value. -/
structure ChangeRecord where
  sequence : Cbor
  statement : Cbor
  arguments : List SqlType
  important : Cbor

/-- The items of `iter(value)`; `TypeError` for what is not iterable. -/
def Cbor.iter : Cbor → Except PyErr (List Cbor)
  | .array items => .ok items
  | .map items => .ok (items.map Prod.fst)
  | .text s => .ok (s.toList.map fun c => .text (String.ofList [c]))
  | .bytes b => .ok (b.map fun x => .int x.toNat)
  | _ => .error .typeError

/-- `data.get(key, None)` and `data[key]` of a dict: of equal keys the last one counts. -/
def cbor_get (items : List (Cbor × Cbor)) (key : String) : Option Cbor :=
  (items.reverse.find? fun kv => match kv.1 with | .text s => s == key | _ => false).map Prod.snd

/-- `value == 1` in Python. -/
def Cbor.isOne : Cbor → Bool
  | .int n => n == 1
  | .bool b => b
  | .float bits => bits == 0x3FF0000000000000
  | _ => false

/-- `replicate.py:227-246` `EventStream.to_bytes`. -/
def event_stream_to_bytes (changes : List ChangeRecord) : Bytes :=
  (Cbor.map [(.text "version", .int 1),
    (.text "events", .array (changes.map fun event =>
      .array [event.sequence, event.statement, .array (event.arguments.map SqlType.toCbor),
        event.important]))]).encode

/-- The arguments of a `Change`, `replicate.py:193-205`: `TypeError` if they are not iterable,
`ValueError` if one is no SQL value. -/
def sql_arguments (value : Cbor) : Except PyErr (List SqlType) :=
  match value.iter with
  | .error e => .error e
  | .ok items => if items.all (fun o => o.sql.isSome) then .ok (items.filterMap Cbor.sql) else .error .valueError

/-- `Change(*args)`, `replicate.py:261`. -/
def change_of (args : Cbor) : Except PyErr ChangeRecord :=
  match args.iter with
  | .error e => .error e
  | .ok [sequence, statement, arguments, important] =>
    match sql_arguments arguments with
    | .error e => .error e
    | .ok arguments => .ok ⟨sequence, statement, arguments, important⟩
  | .ok _ => .error .typeError

/-- `[Change(*args) for args in data["events"]]`, `replicate.py:261`. -/
def changes_of : List Cbor → Except PyErr (List ChangeRecord)
  | [] => .ok []
  | args :: rest =>
    match change_of args with
    | .error e => .error e
    | .ok change =>
      match changes_of rest with
      | .error e => .error e
      | .ok changes => .ok (change :: changes)

/-- `replicate.py:248-261` `EventStream.from_bytes`. -/
def event_stream_from_bytes (bs : Bytes) : Except PyErr (List ChangeRecord) :=
  match cbor_loads bs with
  | .error e => .error e
  | .ok (.map data) =>
    if (cbor_get data "version").any Cbor.isOne then
      match cbor_get data "events" with
      | none => .error .keyError
      | some events =>
        match events.iter with
        | .error e => .error e
        | .ok items => changes_of items
    else .error .valueError
  | .ok _ => .error (.other 100)      -- `AttributeError`: no `get`

/-- `replicate.py:556-566` `statements_to_snapshot`. -/
def statements_to_snapshot (statements : List String) : Bytes :=
  (Cbor.map [(.text "version", .int 1), (.text "statements", .array (statements.map Cbor.text))]).encode

/-- `recover.py:211-216` `_str_statements`: the statements it yields and the exception it ends
with, if any. -/
def str_statements : List Cbor → List String × Option PyErr
  | [] => ([], none)
  | .text s :: rest => (s :: (str_statements rest).1, (str_statements rest).2)
  | _ :: _ => ([], some .valueError)

/-- `recover.py:196-208` `statements_from_snapshot`. -/
def statements_from_snapshot (bs : Bytes) : Except PyErr (List String × Option PyErr) :=
  match cbor_loads bs with
  | .error e => .error e
  | .ok (.map data) =>
    if (cbor_get data "version").any Cbor.isOne then
      match cbor_get data "statements" with
      | none => .error .keyError
      | some (.array items) => .ok (str_statements items)
      | some _ => .error .valueError
    else .error .valueError
  | .ok _ => .error (.other 100)

/-- A row of the table `event-stream`, `schema.py:215-230`. -/
structure EventRow where
  sequence : Nat
  statement : String
  serialized_arguments : Bytes
  important : Bool
  deriving DecidableEq, Repr

/-- `replicate.py:683-703` `add_events`: the rows it inserts; `next` is the next number the
`AUTOINCREMENT` column gives. -/
def add_event_rows (next : Nat) (important : Bool) : List (String × List SqlType) → List EventRow
  | [] => []
  | (sql, args) :: rest =>
    ⟨next, sql, (Cbor.array (args.map SqlType.toCbor)).encode, important⟩ ::
      add_event_rows (next + 1) important rest

/-- `replicate.py:706-724` `get_events`, on the rows in the order of their numbers.  SQLite has no
boolean type: `important` is read as an integer. -/
def get_event_rows : List EventRow → Except PyErr (List ChangeRecord)
  | [] => .ok []
  | row :: rest =>
    match cbor_loads row.serialized_arguments with
    | .error e => .error e
    | .ok args =>
      match sql_arguments args with
      | .error e => .error e
      | .ok args =>
        match get_event_rows rest with
        | .error e => .error e
        | .ok changes =>
          .ok (⟨.int row.sequence, .text row.statement, args, .int (if row.important then 1 else 0)⟩
            :: changes)

/-- `recover.py:255-264` `recover_event_stream`: the statements it executes, with their arguments.
A statement that is no text raises in `execute`. -/
def replayed_statements : List ChangeRecord → List (Cbor × List SqlType)
  | [] => []
  | change :: rest =>
    match change.statement with
    | .text s =>
      if s = "BEGIN TRANSACTION;" ∨ s = "COMMIT;" then replayed_statements rest
      else (.text s, change.arguments) :: replayed_statements rest
    | other => (other, change.arguments) :: replayed_statements rest

end ZKAP
