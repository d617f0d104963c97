import Verif.Model.Web
import Verif.Model.VoucherWeb
import Verif.Model.VoucherJson
import Verif.Model.Setup
import Verif.Model.RecoverFactory
import Verif.Model.Plugin
import Verif.Model.LeaseMaintenance
import Verif.Model.MaintLife

/-!
The whole HTTP API of a client node: `resource.py:83-194` (`from_configuration`),
`resource.py:436-489` (`authorizationless_resource_tree`) and the resources in it, behind the
authorization of `private.py`.

Finding a resource and choosing the method that renders it are Twisted's: `twisted.web.resource`
(`getChildForRequest`, `Resource.render`, `Resource.render_HEAD`, `ErrorPage`, `NoResource`),
`twisted.web.guard.HTTPAuthSessionWrapper` and `twisted.web.server.Request.render`, as documented
there.

Left out: the texts of error pages, headers of answers, `Content-Length` and the bytes of a
request that Twisted itself refuses.
-/
namespace ZKAP

/-! ### Configuration -/

/-- `resource.py:83-105` `get_token_count`. -/
def get_token_count (c : NodeConfig) : Except PyErr Int :=
  c.get_int client_section "default-token-count" (2 ^ 15)

/-- The options `lease_maintenance.py:500-532` `from_node_config` reads with `config.py:118-139`. -/
def lease_options (c : NodeConfig) : Dict String String :=
  ["lease.crawl-interval.mean", "lease.crawl-interval.range", "lease.min-time-remaining"].filterMap
    fun o => (c.option client_section o).map fun v => (o, v)

/-- What the resources are made with. -/
structure ApiCfg where
  redeem : RedeemCfg
  shares_needed : Int
  shares_total : Int
  pass_value : Int
  lease_period : Int

/-- `resource.py:108-194` `from_configuration`, without the redeemer and the clock.  A
negative token count, like `0`, is less than the number of groups, so `toNat` changes nothing. -/
def from_configuration (c : NodeConfig) : Except PyErr ApiCfg :=
  match get_token_count c with
  | .error e => .error e
  | .ok count =>
    match get_configured_allowed_public_keys c with
    | .error e => .error e
    | .ok keys =>
      match get_configured_shares_needed c with
      | .error e => .error e
      | .ok needed =>
        match get_configured_shares_total c with
        | .error e => .error e
        | .ok total =>
          match get_configured_pass_value c with
          | .error e => .error e
          | .ok pass_value =>
            match lease_maintenance_config_from_node (lease_options c) with
            | .error e => .error e
            | .ok lease =>
              .ok ⟨{ default_token_count := count.toNat, allowed_public_keys := keys }, needed, total,
                pass_value, get_lease_duration lease⟩

/-! ### Requests -/

/-- A request.  `path` are the segments below the address of the plugin, unquoted; `body` is the
parsed body, `none` if it is not JSON; `websocket`: it is an opening handshake of a WebSocket. -/
structure NodeRequest where
  method : String
  path : List Bytes
  authorization : Option Bytes := none
  content_type : Option String := none
  body : Option Json := none
  websocket : Bool := false

/-- The content of an answer. -/
inductive ApiBody where
  | empty
  | json (j : Json)
  | voucher (v : Voucher String)
  | vouchers (vs : List (Voucher String))

/-- The answer to a request. -/
inductive ApiAnswer where
  /-- 200 -/
  | ok (body : ApiBody)
  /-- 400 -/
  | badRequest
  /-- 401 -/
  | unauthorized
  /-- 404 -/
  | notFound
  /-- 405 -/
  | notAllowed
  /-- 500 -/
  | serverError
  /-- 501 -/
  | notImplemented
  /-- given when the work is done, see `Model/Setup.lean` -/
  | later
  /-- 101: the connection is a WebSocket from now on -/
  | switched

/-- A node, as far as the API is concerned.  `token` is the content of `private/api_auth_token`, read
for each request (`resource.py:172-175`).  Simplification: the recovery has its own copy of the
database; `Model/RecoverRedeem.lean` is about the two together. -/
structure ApiNode (ω ρ κ : Type) where
  token : Option Bytes
  version : String
  controller : Controller := {}
  setup : SetupNode ω ρ
  recover : RecoverFactory κ
  /-- The open WebSockets. -/
  sockets : List Nat := []

/-! ### Finding the resource -/

/-- The resources of the tree. -/
inductive ApiResource where
  | root
  | recover
  | replicate
  | collection
  | maintenance
  | version
  | price
  | view (v : Voucher String)
  /-- `ErrorPage` and `NoResource`: the answer is the same for each method and each child. -/
  | page (a : ApiAnswer)

/-- `resource.py:457-488`: the children of the root. -/
def root_child (segment : Bytes) : ApiResource :=
  if segment = ascii "recover" then .recover
  else if segment = ascii "replicate" then .replicate
  else if segment = ascii "voucher" then .collection
  else if segment = ascii "lease-maintenance" then .maintenance
  else if segment = ascii "version" then .version
  else if segment = ascii "calculate-price" then .price
  else .page .notFound

/-- `getChildWithDefault`.  `resource.py:706-714` `getChild` of the collection; the other resources
have no children. -/
def ApiResource.child (c : Controller) (segment : Bytes) : ApiResource → ApiResource
  | .root => root_child segment
  | .collection =>
    match getChild c segment with
    | .badRequest => .page .badRequest
    | .notFound => .page .notFound
    | .serverError => .page .serverError
    | .view v => .view v
  | .page a => .page a
  | _ => .page .notFound

/-- `getChildForRequest`; a `WebSocketResource` is a leaf. -/
def ApiResource.locate (c : Controller) : List Bytes → ApiResource → ApiResource
  | [], r => r
  | segment :: path, r =>
    match r with
    | .recover => .recover
    | r => ApiResource.locate c path (r.child c segment)

/-! ### Rendering -/

/-- `resource.py:644-652` `_lease_maintenance_activity`; the times are parsed in `model.py:917-922`. -/
def maintenance_activity (t : Tables) : Except PyErr Json :=
  match (transact store_latest_activity t).1 with
  | .error e => .error e
  | .ok none => .ok .null
  | .ok (some (started, count, finished)) =>
    match parse_datetime ' ' started with
    | .error e => .error e
    | .ok _ =>
      match parse_datetime ' ' finished with
      | .error e => .error e
      | .ok finished => .ok (.obj [("when", .str (isoformatT finished)), ("count", .int count)])

/-- `resource.py:632-642` `_LeaseMaintenanceResource.render_GET`. -/
def render_maintenance (t : Tables) : Except PyErr Json :=
  match (transact store_count_unblinded_tokens t).1 with
  | .error e => .error e
  | .ok total =>
    match maintenance_activity t with
    | .error e => .error e
    | .ok spending => .ok (.obj [("total", .int total), ("spending", spending)])

/-- `resource.py:512-576` `_CalculatePrice.render_POST`, with the exception of a division by zero
(`pricecalculator.py:54-69`): there is one if any size is given. -/
def render_price (cfg : ApiCfg) (content_type : Option String) (body : Option Json) : ApiAnswer :=
  match calculate_price (fun ns => ns.length) cfg.lease_period content_type body with
  | .badRequest => .badRequest
  | .price number _ =>
    if number ≠ 0 ∧ (cfg.shares_needed = 0 ∨ (0 < cfg.shares_total ∧ cfg.pass_value = 0)) then .serverError
    else
      match calculate_price (price_calculate cfg.shares_needed cfg.shares_total.toNat cfg.pass_value)
          cfg.lease_period content_type body with
      | .badRequest => .badRequest
      | .price price period => .ok (.json (.obj [("price", .int price), ("period", .int period)]))

/-- What a method that is not there is answered with, `Request.render`. -/
def unsupported (method : String) : ApiAnswer :=
  if method = "GET" ∨ method = "HEAD" ∨ method = "POST" then .notAllowed else .notImplemented

/-- The answer to **GET** of the resources that have it, `resource.py:616-624`, `632-642`, `695-704`
and `757-759`; `none` for those that do not. -/
def ApiResource.get {ω ρ κ} (n : ApiNode ω ρ κ) : ApiResource → Option ApiAnswer
  | .collection =>
    match render_GET n.controller with
    | .error _ => some .serverError
    | .ok vs => some (.ok (.vouchers vs))
  | .maintenance =>
    match render_maintenance n.controller.store with
    | .error _ => some .serverError
    | .ok j => some (.ok (.json j))
  | .version => some (.ok (.json (.obj [("version", .str n.version)])))
  | .view v => some (.ok (.voucher v))
  | _ => none

/-- The answer to **HEAD** has no content. -/
def ApiAnswer.bare : ApiAnswer → ApiAnswer
  | .ok _ => .ok .empty
  | a => a

/-- `Resource.render` of the resource that was found.  `Resource.render_HEAD` calls `render_GET`, and
if there is none raises `AttributeError`; `resource.py:499` removes both for the price endpoint. -/
def ApiResource.render {ω ρ κ} (digested : ω → String) (readonly : String → Option ρ) (cfg : ApiCfg)
    (env : Env) (id : Nat) (req : NodeRequest) (n : ApiNode ω ρ κ) (r : ApiResource) :
    ApiNode ω ρ κ × ApiAnswer :=
  match r with
  | .page a => (n, a)
  | .recover =>
    -- `autobahn.twisted.resource.WebSocketResource.render`
    if req.websocket ∧ req.method = "GET" then ({ n with sockets := n.sockets ++ [id] }, .switched)
    else (n, .badRequest)
  | .replicate =>
    if req.method = "POST" then ({ n with setup := n.setup.post digested readonly id }, .later)
    else if req.method = "HEAD" then (n, .serverError)
    else (n, unsupported req.method)
  | .price =>
    if req.method = "POST" then (n, render_price cfg req.content_type req.body)
    else (n, unsupported req.method)
  | r =>
    if req.method = "GET" then (n, (r.get n).getD .notAllowed)
    else if req.method = "HEAD" then (n, ((r.get n).map ApiAnswer.bare).getD .serverError)
    else
      match r with
      | .collection =>
        if req.method = "PUT" then
          match render_PUT cfg.redeem env req.body n.controller with
          | (.accepted, c) => ({ n with controller := c }, .ok .empty)
          | (.badRequest, c) => ({ n with controller := c }, .badRequest)
        else (n, unsupported req.method)
      | _ => (n, unsupported req.method)

/-- `private.py:104-132` with a token that may be missing: `get_private_config` then raises, which
matters only for requests whose header has the right scheme. -/
def api_access (token : Option Bytes) (header : Option Bytes) : Except PyErr Access :=
  match token with
  | some t => .ok (private_tree t header)
  | none =>
    match header with
    | none => .ok .unauthorized
    | some [] => .ok .unauthorized
    | some h => if lower (split_first_space h).1 = SCHEME then .error missingConfigEntry else .ok .unauthorized

/-- A request to the API. -/
def ApiNode.serve {ω ρ κ} (digested : ω → String) (readonly : String → Option ρ) (cfg : ApiCfg) (env : Env)
    (id : Nat) (req : NodeRequest) (n : ApiNode ω ρ κ) : ApiNode ω ρ κ × ApiAnswer :=
  match api_access n.token req.authorization with
  | .error _ => (n, .serverError)
  | .ok .unauthorized => (n, .unauthorized)
  | .ok .granted =>
    (ApiResource.locate n.controller req.path .root).render digested readonly cfg env id req n

/-! ### The life of a node -/

/-- What happens at a node: requests, messages on WebSockets, and everything else that moves the
redemption and the setup of replication on. -/
inductive ApiEvent (ω : Type) where
  | request (id : Nat) (env : Env) (req : NodeRequest)
  | message (id : Nat) (payload : Option Json)
  | redemption (e : RedeemEvent)
  | made (id : Nat) (r : Except PyErr ω)

/-- One event: the node afterwards and the answer, if there is one. -/
def ApiNode.step {ω ρ κ} [DecidableEq κ] (reader : ω → ρ) (digested : ω → String) (readonly : String → Option ρ)
    (readcap : String → Option κ) (cfg : ApiCfg) (n : ApiNode ω ρ κ) :
    ApiEvent ω → ApiNode ω ρ κ × List (Nat × ApiAnswer)
  | .request id env req =>
    match n.serve digested readonly cfg env id req with
    | (n, a) => (n, [(id, a)])
  | .message id payload =>
    if id ∈ n.sockets then ({ n with recover := (n.recover.on_message readcap id payload).1 }, [])
    else (n, [])
  | .redemption e => ({ n with controller := n.controller.step cfg.redeem e }, [])
  | .made id r => ({ n with setup := n.setup.made reader id r }, [])

/-- Several events: the node and the answers, in order. -/
def ApiNode.run {ω ρ κ} [DecidableEq κ] (reader : ω → ρ) (digested : ω → String) (readonly : String → Option ρ)
    (readcap : String → Option κ) (cfg : ApiCfg) (n : ApiNode ω ρ κ) :
    List (ApiEvent ω) → ApiNode ω ρ κ × List (Nat × ApiAnswer)
  | [] => (n, [])
  | e :: es =>
    match n.step reader digested readonly readcap cfg e with
    | (n', answers) =>
      match ApiNode.run reader digested readonly readcap cfg n' es with
      | (n'', more) => (n'', answers ++ more)

end ZKAP
