import Verif.Model.Py

/-! The Tahoe-LAFS client helpers of `tahoe.py` and its in-memory grid. -/
namespace ZKAP

/-! ### Retries -/

/-- `tahoe.py:90-116` `async_retry`: the attempts of the decorated function are a sequence of
outcomes, `attempt` is the number of the next one.  The result is the outcome and the number
of attempts made, or `none` if the loop has not ended after `fuel` attempts. -/
def retry_loop {ε α} (matchers : List (ε → Bool)) (f : Nat → Except ε α) :
    Nat → Nat → Option (Except ε α × Nat)
  | 0, _ => none
  | fuel + 1, attempt =>
    match f attempt with
    | .ok result => some (.ok result, attempt + 1)
    | .error e =>
      if matchers.any (fun m => m e) then retry_loop matchers f fuel (attempt + 1)
      else some (.error e, attempt + 1)

/-- `tahoe.py:90-116` `async_retry`. -/
def async_retry {ε α} (matchers : List (ε → Bool)) (f : Nat → Except ε α) (fuel : Nat) :
    Option (Except ε α × Nat) := retry_loop matchers f fuel 0

/-- `text in body` for Python strings. -/
def isInfix (text body : List Char) : Bool :=
  match body with
  | [] => text.isEmpty
  | c :: cs => text.isPrefixOf (c :: cs) || isInfix text cs

/-! ### URLs in errors -/

/-- `tahoe.py:139-146` `_scrub_cap`; `digest` stands for the first six characters of the base32
form of the SHA-256 of the capability, as Python shows a byte string. -/
def scrub_cap (digest : String → String) (cap : String) : String := "URI:SCRUBBED:" ++ digest cap

/-- `tahoe.py:149-165` `_scrub_caps_from_url`, on the path of the URL. -/
def scrub_path (digest : String → String) (path : List String) : List String :=
  match path with
  | first :: cap :: rest =>
    if first = "uri" ∧ ¬ "URI:SCRUBBED:".toList.isPrefixOf cap.toList then
      first :: scrub_cap digest cap :: rest
    else path
  | _ => path

/-- `hyperlink.DecodedURL.child`: an empty last segment is replaced. -/
def url_child (path : List String) (segment : String) : List String :=
  if path.getLast? = some "" then path.dropLast ++ [segment] else path ++ [segment]

/-- The URLs of the API requests that name a capability: `tahoe.py:266` (download), `305-310`
(list), `366-371` (link) and `406-410` (unlink). -/
def download_path (api_root : List String) (cap : String) : List String :=
  url_child (url_child api_root "uri") cap
def list_path (api_root : List String) (cap : String) : List String :=
  url_child (url_child (url_child api_root "uri") cap) ""
def entry_path (api_root : List String) (cap entry_name : String) : List String :=
  url_child (url_child (url_child api_root "uri") cap) entry_name

/-- The path shown by a `TahoeAPIError`, `tahoe.py:168-180`: the converter of the attribute. -/
def error_path (digest : String → String) (path : List String) : List String := scrub_path digest path

/-! ### The in-memory grid -/

/-- The capabilities `MemoryGrid` makes.  They are derived from a counter, which is part of them
(`tahoe.py:613-619,634-640`), so the counter stands for the derived keys.  The read key of a
directory is a hash of its write key; that no two are equal is assumed. -/
inductive Cap where
  | chk (n : Nat)
  | dirWrite (n : Nat)
  | dirRead (n : Nat)
  deriving DecidableEq, Repr

/-- `reader` of a directory capability. -/
def Cap.reader : Cap → Cap
  | .dirWrite n => .dirRead n
  | c => c

/-- `tahoe.py:575-593` `MemoryGrid`.  A directory object is in `_objects` under its write and its
read capability; here it is stored once, by number. -/
structure MemoryGrid where
  counter : Nat := 0
  files : Dict Nat Bytes := []
  dirs : Dict Nat (Dict String Cap) := []
  deriving DecidableEq, Repr

/-- `tahoe.py:607-623` `upload`.  `int.to_bytes(16)` overflows at `2 ^ 128`. -/
def MemoryGrid.upload (g : MemoryGrid) (data : Bytes) : Except PyErr Cap × MemoryGrid :=
  if g.counter < 2 ^ 128 then
    (.ok (.chk g.counter),
      { g with files := g.files.set g.counter data, counter := g.counter + 1 })
  else (.error .valueError, g)

/-- `tahoe.py:625-628` `download`. -/
def MemoryGrid.download (g : MemoryGrid) (cap : Cap) : Except PyErr Bytes :=
  match cap with
  | .chk n =>
    match g.files.lookup n with
    | some data => .ok data
    | none => .error .keyError
  | .dirWrite n | .dirRead n =>
    match g.dirs.lookup n with
    | some _ => .error .assertionError
    | none => .error .keyError

/-- `tahoe.py:630-644` `make_directory`. -/
def MemoryGrid.make_directory (g : MemoryGrid) : Except PyErr Cap × MemoryGrid :=
  if g.counter < 2 ^ 128 then
    (.ok (.dirWrite g.counter),
      { g with dirs := g.dirs.set g.counter [], counter := g.counter + 1 })
  else (.error .valueError, g)

/-- `tahoe.py:646-663` `link`. -/
def MemoryGrid.link (g : MemoryGrid) (dir_cap : Cap) (entry_name : String) (entry_cap : Cap) :
    Except PyErr Unit × MemoryGrid :=
  match dir_cap with
  | .dirWrite n =>
    match g.dirs.lookup n with
    | none => (.error .keyError, g)
    | some children => (.ok (), { g with dirs := g.dirs.set n (children.set entry_name entry_cap) })
  | _ => (.error (.other 10), g)      -- `NotWriteableError`

/-- `tahoe.py:665-673` `unlink`. -/
def MemoryGrid.unlink (g : MemoryGrid) (dir_cap : Cap) (entry_name : String) :
    Except PyErr Unit × MemoryGrid :=
  match dir_cap with
  | .dirWrite n =>
    match g.dirs.lookup n with
    | none => (.error .keyError, g)
    | some children =>
      match children.lookup entry_name with
      | none => (.error .keyError, g)
      | some _ =>
        (.ok (), { g with dirs := g.dirs.set n (children.filter (fun kv => kv.1 != entry_name)) })
  | _ => (.error (.other 10), g)

/-- `FileNode` and `DirectoryNode`, `tahoe.py:278-287`. -/
inductive DirEntry where
  | file (size : Nat) (ro : Cap)
  | directory (ro : Cap)
  deriving DecidableEq, Repr

/-- `describe` of `tahoe.py:676-697`. -/
def MemoryGrid.describe (g : MemoryGrid) (cap : Cap) : Except PyErr DirEntry :=
  match cap with
  | .chk n =>
    match g.files.lookup n with
    | some data => .ok (.file data.length (.chk n))
    | none => .error .keyError
  | .dirWrite n | .dirRead n =>
    match g.dirs.lookup n with
    | some _ => .ok (.directory (.dirRead n))
    | none => .error .keyError

/-- The entries of a directory, described in order. -/
def MemoryGrid.describe_all (g : MemoryGrid) : Dict String Cap → Except PyErr (Dict String DirEntry)
  | [] => .ok []
  | (name, cap) :: rest =>
    match g.describe cap with
    | .error e => .error e
    | .ok entry =>
      match g.describe_all rest with
      | .error e => .error e
      | .ok entries => .ok ((name, entry) :: entries)

/-- `tahoe.py:675-704` `list_directory`. -/
def MemoryGrid.list_directory (g : MemoryGrid) (dir_cap : Cap) : Except PyErr (Dict String DirEntry) :=
  match dir_cap with
  | .chk n =>
    match g.files.lookup n with
    | some _ => .error .valueError
    | none => .error .keyError
  | .dirWrite n | .dirRead n =>
    match g.dirs.lookup n with
    | none => .error .keyError
    | some children => g.describe_all children

/-- The operations that change the grid. -/
inductive GridOp where
  | upload (data : Bytes)
  | make_directory
  | link (dir_cap : Cap) (entry_name : String) (entry_cap : Cap)
  | unlink (dir_cap : Cap) (entry_name : String)
  deriving DecidableEq, Repr

/-- The grid after an operation. -/
def MemoryGrid.step (g : MemoryGrid) : GridOp → MemoryGrid
  | .upload data => (g.upload data).2
  | .make_directory => g.make_directory.2
  | .link d n c => (g.link d n c).2
  | .unlink d n => (g.unlink d n).2

def MemoryGrid.run (g : MemoryGrid) (ops : List GridOp) : MemoryGrid := ops.foldl MemoryGrid.step g

end ZKAP
