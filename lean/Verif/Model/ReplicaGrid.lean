import Verif.Model.Tahoe
import Verif.Model.Replication

/-!
The replica as a directory on a grid, and how recovery fetches it: `replicate.py:583-680`,
`tahoe.py:237-275,783-823` and `recover.py:325-351`.  The grid is the one of `Model/Tahoe.lean`.
-/
namespace ZKAP

/-! ### Writing the replica -/

/-- `replicate.py:583-598` `tahoe_lafs_uploader`, `601-620` `get_tahoe_lafs_direntry_uploader`: the
exception or nothing, and the grid afterwards. -/
def direntry_upload (g : MemoryGrid) (directory_mutable_cap : Cap) (entry_name : String) (data : Bytes) :
    Except PyErr Unit × MemoryGrid :=
  match g.upload data with
  | (.error e, g) => (.error e, g)
  | (.ok cap, g) => g.link directory_mutable_cap entry_name cap

/-- The loop of `maybe_unlink`, `replicate.py:642-644`. -/
def prune_entries (predicate : String → Except PyErr Bool) (directory_mutable_cap : Cap) :
    List String → MemoryGrid → Except PyErr Unit × MemoryGrid
  | [], g => (.ok (), g)
  | name :: names, g =>
    match predicate name with
    | .error e => (.error e, g)
    | .ok false => prune_entries predicate directory_mutable_cap names g
    | .ok true =>
      match g.unlink directory_mutable_cap name with
      | (.error e, g) => (.error e, g)
      | (.ok _, g) => prune_entries predicate directory_mutable_cap names g

/-- `replicate.py:623-646` `get_tahoe_lafs_direntry_pruner`. -/
def direntry_prune (g : MemoryGrid) (directory_mutable_cap : Cap) (predicate : String → Except PyErr Bool) :
    Except PyErr Unit × MemoryGrid :=
  match g.list_directory directory_mutable_cap.reader with
  | .error e => (.error e, g)
  | .ok entries => prune_entries predicate directory_mutable_cap entries.keys g

/-- `DirectoryEntry`, `tahoe.py:60-70`. -/
structure DirectoryEntry where
  kind : String
  size : Nat
  deriving DecidableEq, Repr

/-- `replicate.py:649-667` `get_tahoe_lafs_direntry_lister`. -/
def direntry_list (g : MemoryGrid) (directory_mutable_cap : Cap) : Except PyErr (Dict String DirectoryEntry) :=
  match g.list_directory directory_mutable_cap.reader with
  | .error e => .error e
  | .ok entries => .ok (entries.map fun kv =>
      (kv.1, match kv.2 with
        | .file size _ => ⟨"filenode", size⟩
        | .directory _ => ⟨"dirnode", 0⟩))

/-! ### Reading the replica -/

/-- `NotADirectoryError`, `tahoe.py:188-192`. -/
def not_a_directory : PyErr := .other 11

/-- `tahoe.py:783-823` `download_child`: the content that is written to the given path. -/
def download_child (g : MemoryGrid) (dircap : Cap) (child_path : List String) : Except PyErr Bytes :=
  match child_path with
  | [] => .error .valueError
  | p :: remaining_path =>
    match g.list_directory dircap with
    | .error e => .error e
    | .ok children =>
      match children.lookup p with
      | none => .error .keyError
      | some child =>
        if remaining_path ≠ [] then
          match child with
          | .directory ro_uri => download_child g ro_uri remaining_path
          | .file _ _ => .error not_a_directory
        else
          match child with
          | .file _ ro_uri => g.download ro_uri
          | .directory _ => .error .assertionError

/-- An absolute path in the local file system, as its segments. -/
abbrev FilePath := List String

/-- The contents of the files. -/
abbrev Disk := Dict FilePath Bytes

/-- `name.split("/")`, on characters. -/
def split_slash : List Char → List (List Char)
  | [] => [[]]
  | c :: cs =>
    if c = '/' then [] :: split_slash cs
    else match split_slash cs with
      | [] => [[c]]
      | s :: ss => (c :: s) :: ss

/-- `os.path.normpath` of an absolute path, segment by segment: `done` is what has been read, the
last segment first. -/
def normpath (done : FilePath) : List String → FilePath
  | [] => done.reverse
  | s :: rest =>
    if s = "" ∨ s = "." then normpath done rest
    else if s = ".." then normpath done.tail rest
    else normpath (s :: done) rest

/-- `tahoe.py:531-535` `Tahoe.get_private_path`: Tahoe-LAFS joins the node directory, `private` and
the name with `os.path.join`, which drops what comes before a name that starts with a slash;
`FilePath` makes the path absolute and normal (`os.path.abspath`).  A leading `//`, which POSIX
keeps apart from `/`, is not. -/
def get_private_path (nodedir : FilePath) (name : String) : FilePath :=
  if (split_slash name.toList).head? = some [] ∧ name ≠ "" then
    normpath [] ((split_slash name.toList).map String.ofList)
  else normpath [] (nodedir ++ "private" :: (split_slash name.toList).map String.ofList)

/-- The loop of `recover.py:341-346` (each download is the last state of `download_states` below): the files it writes and the paths it collects. -/
def download_streams (g : MemoryGrid) (nodedir : FilePath) :
    Dict String DirEntry → Disk → Disk × Except PyErr (List FilePath)
  | [], disk => (disk, .ok [])
  | (name, .file _ ro_uri) :: rest, disk =>
    if "event-stream-".toList.isPrefixOf name.toList then
      match g.download ro_uri with
      | .error e => (disk, .error e)
      | .ok data =>
        match download_streams g nodedir rest (Dict.set disk (get_private_path nodedir name) data) with
        | (disk, .error e) => (disk, .error e)
        | (disk, .ok paths) => (disk, .ok (get_private_path nodedir name :: paths))
    else download_streams g nodedir rest disk
  | (_, .directory _) :: rest, disk => download_streams g nodedir rest disk

/-- `recover.py:325-351` `tahoe_lafs_downloader`: the files written to the disk, and the paths of
the snapshot and of the event streams or an exception. -/
def tahoe_lafs_downloader (g : MemoryGrid) (nodedir : FilePath) (recovery_cap : Cap) (disk : Disk) :
    Disk × Except PyErr (FilePath × List FilePath) :=
  match g.list_directory recovery_cap with
  | .error e => (disk, .error e)
  | .ok entries =>
    match download_child g recovery_cap ["snapshot"] with
    | .error e => (disk, .error e)
    | .ok data =>
      match download_streams g nodedir entries (Dict.set disk (get_private_path nodedir "snapshot") data) with
      | (disk, .error e) => (disk, .error e)
      | (disk, .ok paths) => (disk, .ok (get_private_path nodedir "snapshot", paths))

/-! ### One download over HTTP -/

/-- How the body of a response ends: completely; with the connection, when the server announced
no length (`PotentialDataLoss`); or too early. -/
inductive BodyEnd where
  | done
  | potentialDataLoss
  | failed
  deriving DecidableEq, Repr

/-- What `await client.get(uri)` gives: an exception, or a response whose body arrives in chunks. -/
inductive HttpResult where
  | failed (code : Nat)
  | response (status : Nat) (chunks : List Bytes) (finish : BodyEnd)
  deriving DecidableEq, Repr

/-- The writes of `treq.collect(resp, f.write)`, `tahoe.py:271-272`: the disk after each chunk. -/
def collect_states (temp : FilePath) (disk : Disk) : Bytes → List Bytes → List Disk
  | _, [] => []
  | written, chunk :: chunks =>
    Dict.set disk temp (written ++ chunk) :: collect_states temp disk (written ++ chunk) chunks

/-- `tahoe.py:237-275` `download`: every state of the disk it goes through, the last one included,
and whether it raised.  `temp` is the path chosen by `temporarySibling`.  Opening a file for writing
empties it; `moveTo` renames, which replaces the target in one step.  `treq.collect` ends normally
when the body is complete and also after `PotentialDataLoss`.  Errors of the local disk are left
out. -/
def download_states (disk : Disk) (temp outpath : FilePath) (r : HttpResult) :
    List Disk × Except PyErr Unit :=
  match r with
  | .failed code => ([disk], .error (.other code))
  | .response status chunks finish =>
    if status = 200 then
      if finish = .failed then
        (disk :: Dict.set disk temp [] :: collect_states temp disk [] chunks, .error (.other 120))
      else
        (disk :: Dict.set disk temp [] :: collect_states temp disk [] chunks ++
          [Dict.set (disk.filter fun kv => kv.1 != temp) outpath chunks.flatten], .ok ())
    else ([disk], .error (.other 121))

end ZKAP
