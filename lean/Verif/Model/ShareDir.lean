import Verif.Model.ShareFile
import Verif.Model.Decimal
import Verif.Model.LeaseMaintenance
import Verif.Model.Plugin

/-!
The directories in which a storage server keeps its shares, as the plugin reads them:
`_storage_server.py:725-830,914-928,1003-1030`.

`Model/Server.lean` starts from the shares of a storage index.  Here they are found: a directory is a list
of names with the contents of the files, in the order of `listdir`.  Left out: entries that are not
files, and changes while a directory is being read.
-/
namespace ZKAP

/-- Is this a decimal digit? -/
def is_digit (c : Char) : Bool := (digit_value c).isSome

/-- A number without the single underscores between its digits.  Others stay where they are. -/
def ungroup : List Char → List Char
  | c :: d :: e :: cs =>
    if is_digit c && d == '_' && is_digit e then c :: ungroup (e :: cs) else c :: ungroup (d :: e :: cs)
  | cs => cs

/-- `int(s)`, with the white space and the underscores that `int_str` leaves out.  `none` is a
`ValueError`.  The digits of other scripts are still left out. -/
def py_int (s : String) : Option Int :=
  match int_str (String.ofList (ungroup (py_strip s.toList))) with
  | .ok n => some n
  | .error _ => none

/-- What `listdir` gives: an `errno`, or names, with the contents of the files. -/
abbrev Listing := Except Nat (List (String × Bytes))

/-- `errno.ENOENT`. -/
def ENOENT : Nat := 2

/-- An `OSError`. -/
def os_error : PyErr := .other 130

/-- `_storage_server.py:725-754` `get_all_share_paths`.  A file stands for its path. -/
def get_all_share_paths : Listing → Except PyErr (List (Int × Bytes))
  | .error errno => if errno = ENOENT then .ok [] else .error os_error
  | .ok contents => .ok (contents.filterMap fun c => (py_int c.1).map fun n => (n, c.2))

/-- `_storage_server.py:757-771` `get_all_share_numbers`. -/
def get_all_share_numbers (dir : Listing) : Except PyErr (List Int) :=
  match get_all_share_paths dir with
  | .error e => .error e
  | .ok paths => .ok (paths.map (·.1))

/-- `_storage_server.py:890-928` `stat_bucket`, `stat_slot` and `get_lease_expiration`.  Reading the leases of
a share file is done by Tahoe-LAFS: `leases` gives their expiration times, or its exception. -/
def stat_path (leases : Bytes → Except PyErr (List Int)) (kind : StatKind) (file : Bytes) :
    Except PyErr ShareStat :=
  match (match kind with
    | .bucket => get_storage_index_share_size file
    | .slot => get_slot_share_size file) with
  | .error e => .error e
  | .ok size =>
    match leases file with
    | .error e => .error e
    | .ok [] => .ok ⟨size, 0⟩
    | .ok (l :: ls) => .ok ⟨size, ls.foldl max l⟩

/-- The loop of `_storage_server.py:821-830`: the kind is taken from the first share, whether it is asked for
or not. -/
def stat_paths (leases : Bytes → Except PyErr (List Int)) (sharenums : Option (List Int)) :
    Option StatKind → List (Int × Bytes) → Except PyErr (List (Int × ShareStat))
  | _, [] => .ok []
  | stat, (sharenum, file) :: rest =>
    match (match stat with
      | none => get_stat file
      | some kind => .ok kind) with
    | .error e => .error e
    | .ok kind =>
      if (match sharenums with
        | none => true
        | some l => l.contains sharenum) then
        match stat_path leases kind file with
        | .error e => .error e
        | .ok info =>
          match stat_paths leases sharenums (some kind) rest with
          | .error e => .error e
          | .ok r => .ok ((sharenum, info) :: r)
      else stat_paths leases sharenums (some kind) rest

/-- `_storage_server.py:800-830` `get_share_stats`. -/
def dir_share_stats (leases : Bytes → Except PyErr (List Int)) (dir : Listing)
    (sharenums : Option (List Int)) : Except PyErr (List (Int × ShareStat)) :=
  match get_all_share_paths dir with
  | .error e => .error e
  | .ok paths => stat_paths leases sharenums none paths

/-- `_storage_server.py:778-797` `get_share_sizes`. -/
def dir_share_sizes (leases : Bytes → Except PyErr (List Int)) (dir : Listing)
    (sharenums : Option (List Int)) : Except PyErr (List (Int × Int)) :=
  match dir_share_stats leases dir sharenums with
  | .error e => .error e
  | .ok stats => .ok (stats.map fun s => (s.1, s.2.size))

/-- `_storage_server.py:494-500` `remote_stat_shares`, over the directories of the server. -/
def dir_stat_shares (leases : Bytes → Except PyErr (List Int)) (dirs : SI → Listing) :
    List SI → Except PyErr (List (Dict Int ShareStat))
  | [] => .ok []
  | si :: sis =>
    match dir_share_stats leases (dirs si) none with
    | .error e => .error e
    | .ok stats =>
      match dir_stat_shares leases dirs sis with
      | .error e => .error e
      | .ok r => .ok (Dict.ofItems stats :: r)

/-- `_storage_server.py:1003-1015` `get_share_path`, and opening the file. -/
def open_share (dir : Listing) (sharenum : Int) : Except PyErr Bytes :=
  match dir with
  | .error _ => .error os_error
  | .ok contents =>
    match contents.lookup (str_int sharenum) with
    | some file => .ok file
    | none => .error os_error

/-- `_storage_server.py:1018-1030` `share_has_active_leases`. -/
def dir_has_active_leases (leases : Bytes → Except PyErr (List Int)) (dir : Listing) (sharenum now : Int) :
    Except PyErr Bool :=
  match open_share dir sharenum with
  | .error e => .error e
  | .ok file =>
    match leases file with
    | .error e => .error e
    | .ok ls => .ok (ls.any fun l => decide (l > now))

/-- The price of a lease at a storage index before it is compared with the passes,
`_storage_server.py:688-696` in `check_pass_quantity_for_lease`. -/
def dir_lease_price (leases : Bytes → Except PyErr (List Int)) (dir : Listing) (pass_value : Int) :
    Except PyErr Int :=
  match get_all_share_numbers dir with
  | .error e => .error e
  | .ok numbers =>
    match dir_share_sizes leases dir (some numbers) with
    | .error e => .error e
    | .ok sizes => .ok (required_passes pass_value (Dict.ofItems sizes).values)

/-- The comprehension `_storage_server.py:1056-1067`: the shares to count as empty. -/
def dir_unleased (leases : Bytes → Except PyErr (List Int)) (dir : Listing) (now : Int) :
    List Int → Except PyErr (List (Int × Int))
  | [] => .ok []
  | sharenum :: rest =>
    match dir_has_active_leases leases dir sharenum now with
    | .error e => .error e
    | .ok active =>
      match dir_unleased leases dir now rest with
      | .error e => .error e
      | .ok r => .ok (if active then r else (sharenum, 0) :: r)

/-- `_storage_server.py:1033-1075` `get_writev_price`.  The share numbers of the write vectors are natural
numbers, so those of the sizes are. -/
def dir_writev_price (leases : Bytes → Except PyErr (List Int)) (dir : Listing) (pass_value : Int)
    (tw : TWVectors) (now : Int) : Except PyErr Int :=
  match dir_share_sizes leases dir (some ((get_write_sharenums tw).map Int.ofNat)) with
  | .error e => .error e
  | .ok sizes =>
    let current_sizes := Dict.ofItems sizes
    match dir_unleased leases dir now current_sizes.keys with
    | .error e => .error e
    | .ok unleased =>
      .ok (get_required_new_passes_for_mutable_write pass_value
        ((current_sizes.update unleased).map fun kv => (kv.1.toNat, kv.2)) tw)

/-- A server as lease maintenance sees it (`lease_maintenance.py:215`): what `stat_shares` gives is what is in
the directories.  Share numbers on the wire are natural numbers. -/
def dir_lease_server (leases : Bytes → Except PyErr (List Int)) (dirs : SI → Listing)
    (add_lease : SI → Except PyErr Unit) (now : Int) : LeaseServer SI where
  stat_shares sis :=
    match dir_stat_shares leases dirs sis with
    | .error e => .error e
    | .ok r => .ok (r.map fun d => d.map fun kv => (kv.1.toNat, kv.2))
  add_lease := add_lease
  now := now

end ZKAP
