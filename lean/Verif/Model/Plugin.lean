import Verif.Model.Ristretto
import Verif.Model.Spending
import Verif.Model.Decimal
import Verif.Model.LeaseMaintenance

/-!
The plugin that glues everything into Tahoe-LAFS: `_plugin.py`, with the configuration it reads
(`storage_common.py:73-138`, `controller.py:1106-1128`).
-/
namespace ZKAP

/-! ### Text -/

/-- `str.isspace` of one character. -/
def py_space (c : Char) : Bool :=
  let n := c.toNat
  (9 ≤ n && n ≤ 13) || (28 ≤ n && n ≤ 32) || n == 133 || n == 160 || n == 5760 ||
    (8192 ≤ n && n ≤ 8202) || n == 8232 || n == 8233 || n == 8239 || n == 8287 || n == 12288

/-- `str.lstrip()`. -/
def py_lstrip (s : List Char) : List Char := s.dropWhile py_space

/-- `str.strip()`. -/
def py_strip (s : List Char) : List Char := (py_lstrip (py_lstrip s).reverse).reverse

/-- `str.split(",")`. -/
def py_split_comma : List Char → List (List Char)
  | [] => [[]]
  | c :: cs =>
    if c = ',' then [] :: py_split_comma cs
    else match py_split_comma cs with
      | [] => [[c]]
      | h :: t => (c :: h) :: t

/-! ### Configuration -/

/-- `allmydata.node._Config`, as far as it is used: the directory of the node, the items of
`tahoe.cfg` and the files of the private directory. -/
structure NodeConfig where
  path : String
  option : String → String → Option String
  private_file : String → Option String

/-- `allmydata.node.MissingConfigEntry`. -/
def missingConfigEntry : PyErr := .other 20
/-- `controller.py:520-546` `IssuerConfigurationMismatch`. -/
def issuerConfigurationMismatch : PyErr := .other 21

/-- `get_config` without a default. -/
def NodeConfig.get_config (c : NodeConfig) (section_name option : String) : Except PyErr String :=
  match c.option section_name option with
  | none => .error missingConfigEntry
  | some v => .ok v

/-- `NAME`, `__init__.py`. -/
def NAME : String := "privatestorageio-zkapauthz-v2"
/-- `storage_common.py:113` and `controller.py:1112`. -/
def client_section : String := "storageclient.plugins.privatestorageio-zkapauthz-v2"
/-- `int(get_config(section, option, default))`. -/
def NodeConfig.get_int (c : NodeConfig) (section_name option : String) (default : Int) : Except PyErr Int :=
  match c.option section_name option with
  | none => .ok default
  | some v => int_str v

/-- `storage_common.py:73-86` `get_configured_shares_needed`. -/
def get_configured_shares_needed (c : NodeConfig) : Except PyErr Int := c.get_int "client" "shares.needed" 3

/-- `storage_common.py:89-102` `get_configured_shares_total`. -/
def get_configured_shares_total (c : NodeConfig) : Except PyErr Int := c.get_int "client" "shares.total" 10

/-- `storage_common.py:105-120` `get_configured_pass_value`. -/
def get_configured_pass_value (c : NodeConfig) : Except PyErr Int :=
  c.get_int client_section "pass-value" BYTES_PER_PASS

/-- `storage_common.py:123-137` `get_configured_allowed_public_keys`; the set as a list. -/
def get_configured_allowed_public_keys (c : NodeConfig) : Except PyErr (List String) :=
  match c.get_config client_section "allowed-public-keys" with
  | .error e => .error e
  | .ok v => .ok ((py_split_comma (py_strip v.toList)).map String.ofList)

/-- `_plugin.py:477-485` `_is_client_plugin_enabled`. -/
def _is_client_plugin_enabled (c : NodeConfig) : Bool :=
  let storage_plugins := (c.option "client" "storage.plugins").getD ""
  let plugin_names := (py_split_comma storage_plugins.toList).map py_strip
  plugin_names.contains NAME.toList

/-! ### The storage client -/

/-- The announcement of a storage server, `_plugin.py:268-271`: the keys of a JSON object; the public
keys are left out, since no client reads them. -/
abbrev Announcement := Dict String String

/-- `controller.py:567-600` `RistrettoRedeemer.make`: the issuer the redeemer speaks to. -/
def ristretto_make (c : NodeConfig) (announcement : Option Announcement) : Except PyErr String :=
  match c.get_config client_section "ristretto-issuer-root-url" with
  | .error e => .error e
  | .ok configured_issuer =>
    match announcement with
    | none => .ok configured_issuer
    | some a =>
      match a.lookup "ristretto-issuer-root-url" with
      | none => .error .keyError
      | some announced_issuer =>
        if announced_issuer ≠ configured_issuer then .error issuerConfigurationMismatch
        else .ok configured_issuer

/-- What `get_redeemer` (`controller.py:1106-1128`) returns: the redeemer for an issuer or one of those
for tests. -/
inductive Redeemer where
  | ristretto (issuer : String)
  | dummy (issuer_public_key : String)
  | non
  | doubleSpend
  | unpaid
  | error (details : String)
  deriving DecidableEq, Repr

/-- `controller.py:1106-1128` `get_redeemer`, with the `make` of each kind (`controller.py:250-257`,
`289-300`, `329-336`, `363-370`, `453-465`). -/
def get_redeemer (c : NodeConfig) (announcement : Option Announcement) : Except PyErr Redeemer :=
  let redeemer_kind := (c.option client_section "redeemer").getD "ristretto"
  if redeemer_kind = "non" then .ok .non
  else if redeemer_kind = "dummy" then
    match c.get_config client_section "issuer-public-key" with
    | .error e => .error e
    | .ok k => .ok (.dummy k)
  else if redeemer_kind = "double-spend" then .ok .doubleSpend
  else if redeemer_kind = "unpaid" then .ok .unpaid
  else if redeemer_kind = "error" then
    match c.get_config client_section "details" with
    | .error e => .error e
    | .ok d => .ok (.error d)
  else if redeemer_kind = "ristretto" then
    match ristretto_make c announcement with
    | .error e => .error e
    | .ok issuer => .ok (.ristretto issuer)
  else .error .keyError

/-- `SpendingController.for_store(tokens_to_passes=redeemer.tokens_to_passes)`, `_plugin.py:308-311`: how
the storage client makes passes.  The kind of the exception is not kept. -/
def ristretto_signer (L : Ristretto) : Signer := fun message unblinded_tokens =>
  match tokens_to_passes L message (unblinded_tokens.map ascii) with
  | .error _ => .error .valueError
  | .ok passes => .ok passes

/-- A storage client, `_plugin.py:312-316`: what it charges itself for, and how it pays. -/
structure StorageClient where
  pass_value : Int
  redeemer : Redeemer
  deriving DecidableEq, Repr

/-- `_plugin.py:294-316` `get_storage_client`, apart from the database (see `Plugin.get_store`). -/
def get_storage_client (c : NodeConfig) (announcement : Announcement) : Except PyErr StorageClient :=
  match get_redeemer c (some announcement) with
  | .error e => .error e
  | .ok redeemer =>
    match get_configured_pass_value c with
    | .error e => .error e
    | .ok pass_value => .ok ⟨pass_value, redeemer⟩

/-! ### The storage server -/

/-- `bytes.isspace` of one byte. -/
def byte_space (b : UInt8) : Bool := (9 ≤ b && b ≤ 13) || b == 32

/-- `bytes.strip()`. -/
def bytes_strip (s : Bytes) : Bytes := ((s.dropWhile byte_space).reverse.dropWhile byte_space).reverse

/-- `_plugin.py:506-523` `load_signing_key`: `content` is what the file holds, `decode` is
`SigningKey.decode_base64`. -/
def load_signing_key {K} (decode : Bytes → Option K) (content : Bytes) : Except RedeemErr K :=
  match decode (bytes_strip content) with
  | none => .error .decode
  | some k => .ok k

/-- What `get_storage_server` returns: the announcement, the announced public keys and the server. -/
structure AnnouncedServer where
  announcement : Announcement
  public_keys : List Bytes
  config : ServerConfig

/-- `_plugin.py:266`. -/
def server_pass_value (configuration : Dict String String) : Except PyErr Int :=
  match configuration.lookup "pass-value" with
  | none => .ok BYTES_PER_PASS
  | some v => int_str v

/-- `_plugin.py:248-292` `get_storage_server`, without the metrics (lines 253-264, see `Verif.Model.Metrics`).  `files` are the
contents of the files on disk. -/
def get_storage_server (L : Ristretto) (decode : Bytes → Option L.Scalar) (files : String → Option Bytes)
    (configuration : Dict String String) : Except RedeemErr AnnouncedServer :=
  match configuration.lookup "ristretto-issuer-root-url" with
  | none => .error (.py .keyError)
  | some root_url =>
    match server_pass_value configuration with
    | .error e => .error (.py e)
    | .ok pass_value =>
      match configuration.lookup "ristretto-signing-key-path" with
      | none => .error (.py .keyError)
      | some key_path =>
        match files key_path with
        | none => .error (.py (.other 22))        -- `FileNotFoundError`
        | some content =>
          match load_signing_key decode content with
          | .error e => .error e
          | .ok signing_key =>
            .ok ⟨[("ristretto-issuer-root-url", root_url)], [L.points.encode (L.public_key signing_key)],
              server_with_key L pass_value signing_key⟩

/-! ### Services of the node -/

/-- `_plugin.py:404-436` `_maybe_attach_service`: `services` are the named services of the node,
`make_service` is what creating the service comes to. -/
def _maybe_attach_service {S} (name : String) (make_service : Except PyErr S) (services : Dict String S) :
    Dict String S :=
  match services.lookup name with
  | some _ => services
  | none =>
    match make_service with
    | .error _ => services
    | .ok service => services ++ [(name, service)]

/-- `lease_maintenance.py:62`. -/
def MAINTENANCE_SERVICE_NAME : String := "lease maintenance service"

/-- `_plugin.py:494-503` `get_root_nodes`: where lease maintenance starts.  `create_node` is
`create_node_from_uri`. -/
def get_root_nodes {ν} (create_node : String → ν) (c : NodeConfig) : List ν :=
  match c.private_file "rootcap" with
  | none => []
  | some rootcap => [create_node rootcap]

/-! ### The database -/

/-- The plugin, as far as databases are concerned.  Connections are numbered in the order in which
they are made. -/
structure Plugin where
  /-- Directories of nodes for which replication is set up. -/
  replicated : List String := []
  /-- `_stores`: the stores in existence, by node directory, with their connections.  The references
  are weak: an entry disappears with its store. -/
  stores : Dict String Nat := []
  /-- The replication services, `_service`: the node directory and the connection. -/
  services : List (String × Nat) := []
  /-- How many connections have been made. -/
  next : Nat := 0
  deriving DecidableEq, Repr

/-- `_plugin.py:199-218` `_get_store`.  `opened`: whether the database can be opened; `added`: whether
`_add_replication_service` (`_plugin.py:220-236`) succeeds.  A connection that nothing refers to any more is
closed. -/
def Plugin.get_store (p : Plugin) (dir : String) (opened added : Except PyErr Unit) :
    Plugin × Except PyErr Nat :=
  match p.stores.lookup dir with
  | some conn => (p, .ok conn)
  | none =>
    match opened with
    | .error e => (p, .error e)
    | .ok () =>
      if p.replicated.contains dir then
        match added with
        | .error e => ({ p with next := p.next + 1 }, .error e)
        | .ok () =>
          ({ p with stores := p.stores ++ [(dir, p.next)], services := p.services ++ [(dir, p.next)],
                    next := p.next + 1 }, .ok p.next)
      else ({ p with stores := p.stores ++ [(dir, p.next)], next := p.next + 1 }, .ok p.next)

/-- `_plugin.py:327-333` `setup_replication`, given to the HTTP resource of a node whose store exists;
the setup itself succeeds at most once for a node (`Model/Setup.lean`). -/
def Plugin.setup_replication (p : Plugin) (dir : String) : Plugin :=
  match p.stores.lookup dir with
  | none => p
  | some conn =>
    if p.replicated.contains dir then p
    else { p with replicated := p.replicated ++ [dir], services := p.services ++ [(dir, conn)] }

/-- The last reference to the store of a node is dropped and the store collected. -/
def Plugin.drop (p : Plugin) (dir : String) : Plugin :=
  { p with stores := p.stores.filter (fun kv => kv.1 != dir) }

/-- What can happen to the plugin in one process. -/
inductive PluginStep where
  | getStore (dir : String) (opened added : Except PyErr Unit)
  | setup (dir : String)
  | drop (dir : String)

def Plugin.step (p : Plugin) : PluginStep → Plugin
  | .getStore dir opened added => (p.get_store dir opened added).1
  | .setup dir => p.setup_replication dir
  | .drop dir => p.drop dir

def Plugin.run (p : Plugin) (steps : List PluginStep) : Plugin := steps.foldl Plugin.step p

/-- The connections to the database of a node that are open: that of its store and those of its
replication services. -/
def Plugin.connections (p : Plugin) (dir : String) : List Nat :=
  ((p.stores.filter (fun kv => kv.1 == dir)).map Prod.snd ++
    (p.services.filter (fun s => s.1 == dir)).map Prod.snd).eraseDups

/-- A node when `init_storage` is called. -/
structure TahoeNode (S : Type) where
  config : NodeConfig
  services : Dict String S

/-- `_plugin.py:370-398` `_attach_zkapauthorizer_services`, after the original `init_storage`. -/
def _attach_zkapauthorizer_services {S} (p : Plugin) (node : TahoeNode S)
    (opened added : Except PyErr Unit) (make_service : Except PyErr S) :
    Plugin × TahoeNode S × Except PyErr Unit :=
  match p.get_store node.config.path opened added with
  | (p, .error e) => (p, node, .error e)
  | (p, .ok _) =>
    if _is_client_plugin_enabled node.config then
      (p, { node with services := _maybe_attach_service MAINTENANCE_SERVICE_NAME make_service node.services }, .ok ())
    else (p, node, .ok ())

end ZKAP
