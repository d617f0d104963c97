import Verif.Model.Cbor
import Verif.Model.Decimal
import Verif.Model.Recovery

/-!
Statements of a snapshot as text: what `sqlite3.Connection.iterdump` writes (`replicate.py:568-574`) and
what SQLite reads when `recover.py:313-322` executes it; and the names that `recover.py:283` puts into a statement.
-/
namespace ZKAP

/-! ### Writing -/

/-- Write a quote character twice. -/
def doubled (q : Char) (cs : List Char) : List Char := cs.flatMap fun c => if c = q then [q, q] else [c]

/-- SQLite handles text as a C string here: it ends at the first NUL. -/
def until_nul (cs : List Char) : List Char := cs.takeWhile fun c => c.toNat ≠ 0

/-- A hexadecimal digit. -/
def hex_digit (n : Nat) : Char := Char.ofNat (if n < 10 then 48 + n else 55 + n)

/-- Two digits for each byte. -/
def hex (b : Bytes) : List Char := b.flatMap fun x => [hex_digit (x.toNat / 16), hex_digit (x.toNat % 16)]

/-- SQLite's `quote()`. -/
def quote_value : Value → List Char
  | .null => ['N', 'U', 'L', 'L']
  | .int n => if n < 0 then '-' :: decimal n.natAbs else decimal n.natAbs
  | .text s => '\'' :: doubled '\'' (until_nul s.toList) ++ ['\'']
  | .blob b => 'X' :: '\'' :: hex b ++ ['\'']

/-- Values with commas between them. -/
def quote_row : Row → List Char
  | [] => []
  | [v] => quote_value v
  | v :: vs => quote_value v ++ ',' :: quote_row vs

/-- `INSERT INTO "` … `" VALUES(` … `);`.  The name is as it is after its double quotes were written twice; `iterdump`
puts it between the single quotes of a literal and fails if it contains one, which no table of the plugin does. -/
def insert_text (name : String) (row : Row) : List Char :=
  ['I', 'N', 'S', 'E', 'R', 'T', ' ', 'I', 'N', 'T', 'O', ' ', '"'] ++ doubled '"' name.toList ++
    ['"', ' ', 'V', 'A', 'L', 'U', 'E', 'S', '('] ++ quote_row row ++ [')', ';']

/-- The text of table definitions in `sqlite_master`.  SQLite keeps the text of the `CREATE TABLE` statement and
changes it for `ALTER TABLE`; how it does is left open. -/
structure DdlText where
  write : TableDef → List Char
  read : List Char → Option TableDef

/-- What `iterdump` writes.  Statements that are not in a dump have no text here. -/
def write_sql (ddl : DdlText) : Sql → List Char
  | .createTable d => ddl.write d
  | .insert table row => insert_text table row
  | .insertSequence name number => insert_text "sqlite_sequence" [.text name, .int number]
  | .clearSequence => ['D', 'E', 'L', 'E', 'T', 'E', ' ', 'F', 'R', 'O', 'M', ' ', '"', 's', 'q', 'l', 'i', 't', 'e', '_',
      's', 'e', 'q', 'u', 'e', 'n', 'c', 'e', '"', ';']
  | .beginTransaction => ['B', 'E', 'G', 'I', 'N', ' ', 'T', 'R', 'A', 'N', 'S', 'A', 'C', 'T', 'I', 'O', 'N', ';']
  | .commit => ['C', 'O', 'M', 'M', 'I', 'T', ';']
  | _ => []

/-! ### Reading -/

inductive Keyword where
  | insert | into | values | null | begin | transaction | commit | delete | from
  deriving DecidableEq, Repr

/-- What SQLite's tokenizer finds in these statements. -/
inductive SqlToken where
  | keyword (k : Keyword)
  | name (s : List Char)      -- between double quotes
  | text (s : List Char)      -- between single quotes
  | blob (b : Bytes)
  | number (n : Nat)
  | minus | comma | opening | closing | semicolon
  deriving DecidableEq, Repr

/-- The text up to the closing quote character, and what comes after it.  Two of them stand for one. -/
def read_quoted (q : Char) : List Char → Option (List Char × List Char)
  | [] => none
  | [c] => if c = q then some ([], []) else none
  | c :: d :: cs =>
    if c = q then
      if d = q then (read_quoted q cs).map fun r => (q :: r.1, r.2)
      else some ([], d :: cs)
    else (read_quoted q (d :: cs)).map fun r => (c :: r.1, r.2)

/-- The value of a hexadecimal digit. -/
def hex_value (c : Char) : Option Nat :=
  if 48 ≤ c.toNat ∧ c.toNat ≤ 57 then some (c.toNat - 48)
  else if 65 ≤ c.toNat ∧ c.toNat ≤ 70 then some (c.toNat - 55)
  else if 97 ≤ c.toNat ∧ c.toNat ≤ 102 then some (c.toNat - 87)
  else none

def read_hex : List Char → Option Bytes
  | [] => some []
  | [_] => none
  | a :: b :: cs =>
    match hex_value a, hex_value b, read_hex cs with
    | some x, some y, some r => some (UInt8.ofNat (16 * x + y) :: r)
    | _, _, _ => none

def is_letter (c : Char) : Bool := (65 ≤ c.toNat && c.toNat ≤ 90) || (97 ≤ c.toNat && c.toNat ≤ 122)

def is_decimal (c : Char) : Bool := 48 ≤ c.toNat && c.toNat ≤ 57

/-- Keywords.  SQLite does not distinguish small and capital letters; only capital ones occur here. -/
def keyword_of (w : List Char) : Option Keyword :=
  if w = ['I', 'N', 'S', 'E', 'R', 'T'] then some .insert
  else if w = ['I', 'N', 'T', 'O'] then some .into
  else if w = ['V', 'A', 'L', 'U', 'E', 'S'] then some .values
  else if w = ['N', 'U', 'L', 'L'] then some .null
  else if w = ['B', 'E', 'G', 'I', 'N'] then some .begin
  else if w = ['T', 'R', 'A', 'N', 'S', 'A', 'C', 'T', 'I', 'O', 'N'] then some .transaction
  else if w = ['C', 'O', 'M', 'M', 'I', 'T'] then some .commit
  else if w = ['D', 'E', 'L', 'E', 'T', 'E'] then some .delete
  else if w = ['F', 'R', 'O', 'M'] then some .from
  else none

/-- The next token and the text after it; `none` if there is none that these statements use.  White space was
skipped. -/
def next_token : List Char → Option (SqlToken × List Char)
  | [] => none
  | c :: cs =>
    if c = '(' then some (.opening, cs)
    else if c = ')' then some (.closing, cs)
    else if c = ',' then some (.comma, cs)
    else if c = ';' then some (.semicolon, cs)
    else if c = '-' then some (.minus, cs)
    else if c = '\'' then (read_quoted '\'' cs).map fun r => (.text r.1, r.2)
    else if c = '"' then (read_quoted '"' cs).map fun r => (.name r.1, r.2)
    else if (c = 'X' ∨ c = 'x') ∧ cs.head? = some '\'' then
      match read_quoted '\'' cs.tail with
      | none => none
      | some r => (read_hex r.1).map fun b => (.blob b, r.2)
    else if is_decimal c then
      match read_digits 0 ((c :: cs).takeWhile is_decimal) with
      | none => none
      | some n => some (.number n, (c :: cs).dropWhile is_decimal)
    else if is_letter c then
      (keyword_of ((c :: cs).takeWhile is_letter)).map fun k => (.keyword k, (c :: cs).dropWhile is_letter)
    else none

/-- White space. -/
def is_space (c : Char) : Bool := c = ' ' || c = '\n' || c = '\t' || c = '\r'

/-- All tokens, with a bound on the number of steps that the length of the text satisfies. -/
def tokens_of : Nat → List Char → Option (List SqlToken)
  | 0, _ => none
  | _ + 1, [] => some []
  | fuel + 1, c :: cs =>
    if is_space c then tokens_of fuel cs
    else
      match next_token (c :: cs) with
      | none => none
      | some (t, rest) => (tokens_of fuel rest).map fun ts => t :: ts

/-- A positive number.  One that does not fit into 64 bits is read as a floating point number, which the model does
not have. -/
def literal_number (n : Nat) : Option Value := if n < 2 ^ 63 then some (.int n) else none

/-- A number after a minus sign. -/
def literal_negative (n : Nat) : Option Value := if n ≤ 2 ^ 63 then some (.int (-n)) else none

/-- A literal of one token. -/
def literal : SqlToken → Option Value
  | .keyword .null => some .null
  | .text s => some (.text (String.ofList s))
  | .blob b => some (.blob b)
  | .number n => literal_number n
  | _ => none

/-- Literals with commas between them, then `);` and the end. -/
def parse_row : List SqlToken → Option Row
  | .minus :: .number n :: .comma :: rest =>
    match literal_negative n, parse_row rest with
    | some v, some vs => some (v :: vs)
    | _, _ => none
  | [.minus, .number n, .closing, .semicolon] => (literal_negative n).map fun v => [v]
  | t :: .comma :: rest =>
    match literal t, parse_row rest with
    | some v, some vs => some (v :: vs)
    | _, _ => none
  | [t, .closing, .semicolon] => (literal t).map fun v => [v]
  | _ => none

/-- The text starts with `CREATE TABLE`, `recover.py:314`. -/
def starts_with_create_table (text : List Char) : Bool :=
  ['C', 'R', 'E', 'A', 'T', 'E', ' ', 'T', 'A', 'B', 'L', 'E'].isPrefixOf text

/-- A statement made of these tokens. -/
def parse_tokens : List SqlToken → Sql
  | .keyword .insert :: .keyword .into :: .name table :: .keyword .values :: .opening :: rest =>
    match parse_row rest with
    | none => .invalid
    | some row =>
      if String.ofList table = "sqlite_sequence" then
        match row with
        | [.text name, .int number] => .insertSequence name number
        | _ => .invalid
      else .insert (String.ofList table) row
  | [.keyword .delete, .keyword .from, .name table, .semicolon] =>
    if String.ofList table = "sqlite_sequence" then .clearSequence else .delete (String.ofList table) []
  | [.keyword .begin, .keyword .transaction, .semicolon] => .beginTransaction
  | [.keyword .commit, .semicolon] => .commit
  | _ => .invalid

/-- The statement SQLite finds in a text. -/
def read_sql (ddl : DdlText) (text : List Char) : Sql :=
  if starts_with_create_table text then
    match ddl.read text with
    | none => .invalid
    | some d => .createTable d
  else
    match tokens_of (text.length + 1) text with
    | none => .invalid
    | some ts => parse_tokens ts

/-! ### Files -/

/-- `replicate.py:568-580` `snapshot`: the file made of a dump. -/
def snapshot_file (ddl : DdlText) (dump : List Sql) : Bytes :=
  statements_to_snapshot (dump.map fun s => String.ofList (write_sql ddl s))

/-- What recovery finds in the file, `recover.py:196-216`. -/
def read_snapshot_file (ddl : DdlText) (file : Bytes) : Except PyErr (List (Option Sql)) :=
  match statements_from_snapshot file with
  | .error e => .error e
  | .ok (ss, ending) => .ok (ss.map (fun s => some (read_sql ddl s.toList)) ++
      match ending with
      | none => []
      | some _ => [none])

/-! ### Names -/

/-- `sql.py:265-269` `escape_identifier`. -/
def escape_identifier (name : String) : List Char := '\'' :: name.toList ++ ['\'']

/-- The name in `DROP TABLE '…'` (`recover.py:283`): SQLite takes text in single quotes for a name there.  `none` if
something else follows, which is a syntax error. -/
def read_identifier (text : List Char) : Option String :=
  match next_token text with
  | some (.text s, []) => some (String.ofList s)
  | some (.name s, []) => some (String.ofList s)
  | _ => none

end ZKAP
