import Verif.Model.Tahoe
import Verif.Model.Json
import Verif.Model.Cbor

/-! The client of the HTTP API of a Tahoe-LAFS node: `tahoe.py:117-421`, and what such a node does with the
requests, on the grid of `Model/Tahoe.lean`. -/
namespace ZKAP

/-! ### Text -/

/-- Conversions that are done by libraries: the strings of capabilities (`tahoe_capabilities`) and JSON. -/
structure ApiText where
  show_cap : Cap → String                  -- `danger_real_capability_string`
  parse_cap : String → Option Cap
  dumps : Json → String
  loads : String → Option Json

/-- `.decode("utf-8")`. -/
def py_decode (b : Bytes) : Option String := (utf8_decode b).map of_points

/-- `readable_from_string`: the capabilities here that are data to read are those of immutable files. -/
def ApiText.readable (T : ApiText) (s : String) : Option Cap :=
  match T.parse_cap s with
  | some (.chk n) => some (.chk n)
  | _ => none

/-- `writeable_directory_from_string`. -/
def ApiText.writeable_directory (T : ApiText) (s : String) : Option Cap :=
  match T.parse_cap s with
  | some (.dirWrite n) => some (.dirWrite n)
  | _ => none

/-- `readonly_directory_from_string`. -/
def ApiText.readonly_directory (T : ApiText) (s : String) : Option Cap :=
  match T.parse_cap s with
  | some (.dirRead n) => some (.dirRead n)
  | _ => none

/-- `is_directory`. -/
def Cap.is_directory : Cap → Bool
  | .chk _ => false
  | _ => true

/-! ### Requests, replies and errors -/

/-- A request: method, the path and the query of the URL, and the body. -/
structure ApiRequest where
  method : String
  path : List String
  query : List (String × String)
  body : Bytes
  deriving DecidableEq, Repr

/-- What `await client.put(...)` and `await treq.content(resp)` give. -/
inductive ApiReply where
  | refused                                  -- `ConnectionRefusedError`
  | failed (code : Nat)                      -- any other exception
  | reply (status : Nat) (body : Bytes)
  deriving DecidableEq, Repr

/-- The exceptions of the API functions. `api` is `TahoeAPIError`, `tahoe.py:168-180`, with the arguments it was
made with. -/
inductive TahoeErr where
  | api (method : String) (path : List String) (query : List (String × String)) (status : Nat) (body : String)
  | notWriteable
  | notADirectory
  | connectionRefused
  | valueError                               -- also `UnicodeDecodeError`, `JSONDecodeError`
  | lookupError                              -- `KeyError`, `TypeError` on looking into JSON
  | notRecognized                            -- of `tahoe_capabilities`
  | failed (code : Nat)
  deriving DecidableEq, Repr

/-- `str(exc)` of a `TahoeAPIError`, `tahoe.py:168-180`. The class is not made an attrs exception
(`auto_exc=False`) and has no `__str__`, so this is the one of `BaseException`, which shows the arguments that the
constructor was called with: the URL among them is the one before the converter
`_scrub_caps_from_url`.  Simplification: a list of the pieces of the text, without the punctuation between them. -/
def api_error_str (method : String) (path : List String) (query : List (String × String)) (status : Nat)
    (body : String) : List String :=
  method :: path ++ query.flatMap (fun kv => [kv.1, kv.2]) ++ [toString status, body]

/-- The two names that `_not_enough_servers` looks for. -/
def no_servers_text : String := "allmydata.interfaces.NoServersError"
def not_enough_text : String := "allmydata.mutable.common.NotEnoughServersError"

/-- `text in str(exc)`.  Neither of the texts searched for has a character that stands between
the pieces of `api_error_str` (`'`, `/`, `,`, a space, `=`, `?`), so it is in the text if it is in a piece. -/
def in_pieces (text : String) (pieces : List String) : Bool := pieces.any fun p => isInfix text.toList p.toList

/-- `tahoe.py:119-127` `_not_enough_servers`. -/
def not_enough_servers : TahoeErr → Bool
  | .api method path query status body =>
    in_pieces no_servers_text (api_error_str method path query status body) ||
      in_pieces not_enough_text (api_error_str method path query status body)
  | _ => false

/-- `tahoe.py:130-136` `_connection_refused`. -/
def connection_refused : TahoeErr → Bool
  | .connectionRefused => true
  | _ => false

/-- `tahoe.py:195` `_common_tahoe_errors`, as `async_retry` applies them. -/
def common_tahoe_error (e : TahoeErr) : Bool := [not_enough_servers, connection_refused].any fun matcher => matcher e

/-! ### The functions -/

/-- A call: the request that is sent, and what is made of the reply. -/
structure ApiCall (α : Type) where
  request : ApiRequest
  read : ApiReply → Except TahoeErr α

/-- The part common to all calls: exceptions of the HTTP client, `(await treq.content(resp)).decode("utf-8")`. -/
def read_reply {α} (reply : ApiReply) (f : Nat → String → Except TahoeErr α) : Except TahoeErr α :=
  match reply with
  | .refused => .error .connectionRefused
  | .failed code => .error (.failed code)
  | .reply status body =>
    match py_decode body with
    | none => .error .valueError
    | some content => f status content

def api_error {α} (r : ApiRequest) (status : Nat) (content : String) : Except TahoeErr α :=
  .error (.api r.method r.path r.query status content)

def recognized {α} : Option α → Except TahoeErr α
  | some a => .ok a
  | none => .error .notRecognized

/-- `tahoe.py:198-234` `upload_bytes`. -/
def upload_call (T : ApiText) (api_root : List String) (data : Bytes) : ApiCall Cap :=
  let r : ApiRequest := ⟨"put", url_child api_root "uri", [], data⟩
  ⟨r, fun reply => read_reply reply fun status content =>
    if status = 200 ∨ status = 201 then recognized (T.readable content) else api_error r status content⟩

/-- `tahoe.py:328-341` `make_directory`. -/
def mkdir_call (T : ApiText) (api_root : List String) : ApiCall Cap :=
  let r : ApiRequest := ⟨"post", url_child api_root "uri", [("t", "mkdir")], []⟩
  ⟨r, fun reply => read_reply reply fun status content =>
    if status = 200 then recognized (T.writeable_directory content) else api_error r status content⟩

/-- `"allmydata.mutable.common.NotWriteableError" in content`. -/
def says_not_writeable (content : String) : Bool :=
  isInfix "allmydata.mutable.common.NotWriteableError".toList content.toList

/-- `"Files have no children named" in content`. -/
def says_no_children (content : String) : Bool := isInfix "Files have no children named".toList content.toList

/-- `tahoe.py:344-380` `link`. -/
def link_call (T : ApiText) (api_root : List String) (dir_cap : Cap) (entry_name : String) (entry_cap : Cap) :
    ApiCall Unit :=
  let r : ApiRequest := ⟨"put", entry_path api_root (T.show_cap dir_cap) entry_name, [("t", "uri")],
    utf8_encode (T.show_cap entry_cap)⟩
  ⟨r, fun reply => read_reply reply fun status content =>
    if status = 200 then .ok ()
    else if status = 500 ∧ says_not_writeable content then .error .notWriteable
    else api_error r status content⟩

/-- `tahoe.py:383-421` `unlink`. -/
def unlink_call (T : ApiText) (api_root : List String) (dir_cap : Cap) (entry_name : String) : ApiCall Unit :=
  let r : ApiRequest := ⟨"delete", entry_path api_root (T.show_cap dir_cap) entry_name, [], []⟩
  ⟨r, fun reply => read_reply reply fun status content =>
    if status = 200 then .ok ()
    else if status = 500 ∧ says_not_writeable content then .error .notWriteable
    else if status = 400 ∧ says_no_children content then .error .notADirectory
    else api_error r status content⟩

/-- `entry["ro_uri"]`, parsed. -/
def entry_ro (parse : String → Option Cap) (entry : Json) : Except TahoeErr Cap :=
  match entry.get "ro_uri" with
  | .ok (.str s) => recognized (parse s)
  | .ok _ => .error .notRecognized
  | .error _ => .error .lookupError

/-- `filenode` and `dirnode` and the body of the loop, `tahoe.py:313-325`. Simplification: a size that is not a
natural number is refused at once; the code keeps it. -/
def read_entry (T : ApiText) (item : Json) : Except TahoeErr DirEntry :=
  match item with
  | .arr [.str kind, entry] =>
    if kind = "filenode" then
      match entry.get "size" with
      | .ok (.int (.ofNat n)) =>
        match entry_ro T.readable entry with
        | .ok cap => .ok (.file n cap)
        | .error e => .error e
      | .ok _ => .error .valueError
      | .error _ => .error .lookupError
    else
      match entry_ro T.readonly_directory entry with
      | .ok cap => .ok (.directory cap)
      | .error e => .error e
  | .arr [_, entry] =>
    match entry_ro T.readonly_directory entry with
    | .ok cap => .ok (.directory cap)
    | .error e => .error e
  | .arr _ => .error .valueError
  | _ => .error .lookupError

/-- The loop of `tahoe.py:320-325`. -/
def read_entries (T : ApiText) : List (String × Json) → Except TahoeErr (Dict String DirEntry)
  | [] => .ok []
  | (name, item) :: rest =>
    match read_entry T item with
    | .error e => .error e
    | .ok entry =>
      match read_entries T rest with
      | .error e => .error e
      | .ok entries => .ok ((name, entry) :: entries)

/-- `kind, details = loads(content)` and what follows, `tahoe.py:310-325`. -/
def read_listing (T : ApiText) (content : String) : Except TahoeErr (Dict String DirEntry) :=
  match T.loads content with
  | none => .error .valueError
  | some (.arr [_, details]) =>
    match details.get "children" with
    | .ok (.obj items) => read_entries T items
    | _ => .error .lookupError
  | some (.arr _) => .error .valueError
  | some _ => .error .lookupError

/-- `tahoe.py:290-327` `list_directory`, after the check of the capability. -/
def list_call (T : ApiText) (api_root : List String) (dir_cap : Cap) : ApiCall (Dict String DirEntry) :=
  let r : ApiRequest := ⟨"get", list_path api_root (T.show_cap dir_cap), [("t", "json")], []⟩
  ⟨r, fun reply => read_reply reply fun status content =>
    if status = 200 then read_listing T content else api_error r status content⟩

/-- `async_retry(_common_tahoe_errors)` (`tahoe.py:90-116`, `195`) around a call, where `send` is the world that
answers requests.  `none` if it has not ended after `fuel` attempts. -/
def call_api {W α} (send : ApiRequest → W → ApiReply × W) (c : ApiCall α) : Nat → W → Option (Except TahoeErr α × W)
  | 0, _ => none
  | fuel + 1, w =>
    match send c.request w with
    | (reply, w) =>
      match c.read reply with
      | .ok a => some (.ok a, w)
      | .error e => if common_tahoe_error e then call_api send c fuel w else some (.error e, w)

/-- `tahoe.py:290-327` `list_directory`. -/
def list_directory_api {W} (T : ApiText) (api_root : List String) (send : ApiRequest → W → ApiReply × W)
    (dir_cap : Cap) (fuel : Nat) (w : W) : Option (Except TahoeErr (Dict String DirEntry) × W) :=
  if dir_cap.is_directory then call_api send (list_call T api_root dir_cap) fuel w
  else some (.error .valueError, w)

/-! ### The node at the other end

As the API of Tahoe-LAFS is documented, on the grid of `Model/Tahoe.lean`; not part of the repository. -/

/-- What the JSON form of a directory says about an entry. -/
def entry_json (T : ApiText) : DirEntry → Json
  | .file size ro => .arr [.str "filenode", .obj [("mutable", .bool false), ("size", .int size),
      ("ro_uri", .str (T.show_cap ro))]]
  | .directory ro => .arr [.str "dirnode", .obj [("mutable", .bool true), ("ro_uri", .str (T.show_cap ro))]]

/-- The JSON form of a directory. -/
def listing_json (T : ApiText) (entries : Dict String DirEntry) : Json :=
  .arr [.str "dirnode", .obj [("mutable", .bool true),
    ("children", .obj (entries.map fun kv => (kv.1, entry_json T kv.2)))]]

def html (status : Nat) (text : String) : ApiReply := .reply status (utf8_encode text)

/-- `PUT /uri`, `POST /uri?t=mkdir`, `GET /uri/CAP/?t=json`, `PUT /uri/CAP/NAME?t=uri` and `DELETE /uri/CAP/NAME`. -/
def gateway (T : ApiText) (g : MemoryGrid) (r : ApiRequest) : ApiReply × MemoryGrid :=
  if r.path.head? ≠ some "uri" then (html 404 "no such resource", g)
  else
  match r.path with
  | [_] =>
    if r.method = "put" ∧ r.query = [] then
      match g.upload r.body with
      | (.ok cap, g) => (html 201 (T.show_cap cap), g)
      | (.error _, g) => (html 500 "cannot upload", g)
    else if r.method = "post" ∧ r.query = [("t", "mkdir")] then
      match g.make_directory with
      | (.ok cap, g) => (html 200 (T.show_cap cap), g)
      | (.error _, g) => (html 500 "cannot make directory", g)
    else (html 400 "bad request", g)
  | [_, cap, name] =>
    match T.parse_cap cap with
    | none => (html 400 "bad capability", g)
    | some (.chk _) => (html 400 ("Files have no children named " ++ name), g)
    | some dir =>
      if r.method = "get" ∧ name = "" ∧ r.query = [("t", "json")] then
        match g.list_directory dir with
        | .ok entries => (html 200 (T.dumps (listing_json T entries)), g)
        | .error _ => (html 410 "gone", g)
      else if r.method = "put" ∧ r.query = [("t", "uri")] ∧ name ≠ "" then
        match (py_decode r.body).bind T.parse_cap with
        | none => (html 400 "bad capability", g)
        | some entry =>
          match g.link dir name entry with
          | (.ok (), g) => (html 200 (T.show_cap entry), g)
          | (.error (.other 10), g) => (html 500 "allmydata.mutable.common.NotWriteableError: read-only", g)
          | (.error _, g) => (html 410 "gone", g)
      else if r.method = "delete" ∧ r.query = [] ∧ name ≠ "" then
        match g.unlink dir name with
        | (.ok (), g) => (html 200 (T.show_cap dir), g)
        | (.error (.other 10), g) => (html 500 "allmydata.mutable.common.NotWriteableError: read-only", g)
        | (.error _, g) => (html 404 "no such child", g)
      else (html 400 "bad request", g)
  | _ => (html 404 "no such resource", g)

/-- What can come between client and node: the node does not listen; it is not connected to enough
servers and says so, before or after the request has had its effect. -/
inductive Hindrance where
  | refused
  | noServers (status : Nat) (text : String) (done : Bool)
  deriving DecidableEq, Repr

/-- A node whose next requests are hindered. -/
def hindered (T : ApiText) (r : ApiRequest) : MemoryGrid × List Hindrance → ApiReply × (MemoryGrid × List Hindrance)
  | (g, []) => ((gateway T g r).1, (gateway T g r).2, [])
  | (g, .refused :: hs) => (.refused, g, hs)
  | (g, .noServers status text done :: hs) =>
    (html status text, if done then (gateway T g r).2 else g, hs)

end ZKAP
