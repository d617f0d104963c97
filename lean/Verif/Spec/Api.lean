import Verif.Model.Api
import Verif.Spec.Misc
import Verif.Spec.VoucherWeb
import Verif.Spec.Store
import Verif.Spec.Pricing
import Verif.Spec.Timestamp

/-! What a user of the HTTP API relies on. -/
namespace ZKAP.Spec

/-- The header says `tahoe-lafs`, in any case, and then the token. -/
def Authorized (token : Bytes) (header : Option Bytes) : Prop :=
  ∃ scheme, lower scheme = ascii "tahoe-lafs" ∧
    (header = some (scheme ++ [32] ++ token) ∨ (token = [] ∧ header = some scheme))

/-- The header says `tahoe-lafs`, in any case, and perhaps something more. -/
def NamesScheme (header : Option Bytes) : Prop :=
  ∃ scheme, lower scheme = ascii "tahoe-lafs" ∧ (header = some scheme ∨ ∃ rest, header = some (scheme ++ [32] ++ rest))

/-- The addresses of the API. -/
def endpoints : List Bytes :=
  ["recover", "replicate", "voucher", "lease-maintenance", "version", "calculate-price"].map ascii

/-- The only two requests that are orders: to take a voucher, to set up replication. -/
def IsOrder (req : NodeRequest) : Prop :=
  (req.method = "PUT" ∧ req.path = [ascii "voucher"]) ∨ (req.method = "POST" ∧ req.path = [ascii "replicate"])

/-- The request opens a WebSocket for a recovery. -/
def Opens (token : Bytes) (req : NodeRequest) : Prop :=
  Authorized token req.authorization ∧ req.websocket = true ∧ req.method = "GET" ∧
    ∃ rest, req.path = ascii "recover" :: rest

/-- The node has neither more nor less than before: vouchers, tokens, replication, recovery. -/
def SameNode {ω ρ κ} (a b : ApiNode ω ρ κ) : Prop :=
  a.token = b.token ∧ a.version = b.version ∧ a.controller = b.controller ∧ a.setup = b.setup ∧
    a.recover = b.recover

/-- What is in the configuration file as a number, or else the default. -/
def Setting (c : NodeConfig) (section_name option : String) (default value : Int) : Prop :=
  (c.option section_name option = none ∧ value = default) ∨
    c.option section_name option = some (str_int value)

/-- The price of one file: `total` shares, each the smallest of which `needed` carry the file, each
paid for with the fewest passes that cover it. -/
def FilePrice (needed total pass_value size price : Int) : Prop :=
  ∃ share passes, LeastCover needed size share ∧ LeastCover pass_value share passes ∧ price = total * passes

/-- The price of several files. -/
inductive Price (needed total pass_value : Int) : List Nat → Int → Prop where
  | none : Price needed total pass_value [] 0
  | file {size : Nat} {sizes p q} : FilePrice needed total pass_value size p → Price needed total pass_value sizes q →
    Price needed total pass_value (size :: sizes) (p + q)

/-- The value under a key of a JSON object. -/
def HasItem (j : Json) (key : String) (value : Json) : Prop :=
  ∃ items, j = .obj items ∧ (key, value) ∈ items

/-- The record of a finished run of lease maintenance after which no other finished: when it did, and
the passes it needed. -/
def LastRun (t : Tables) (finished : DateTime) (count : Int) : Prop :=
  (∃ r ∈ t.app.maint, r.finished = some (isoformat finished) ∧ r.count = count) ∧
    ∀ r ∈ t.app.maint, ∀ f, r.finished = some f → ∃ T, f = isoformat T ∧ instant T ≤ instant finished

/-- What the documentation promises under the key for spending: `null`, if maintenance has never
run, or the time and the number of passes of the last run. -/
def Spending (t : Tables) (j : Json) : Prop :=
  (j = .null ∧ ∀ r ∈ t.app.maint, r.finished = none) ∨
    ∃ finished count, LastRun t finished count ∧ HasItem j "when" (.str (isoformatT finished)) ∧
      HasItem j "count" (.int count)

/-- Times are written by a clock. -/
def ClockTimes (history : List StoreOp) : Prop :=
  (∀ op ∈ history, ∀ now m, op = .maintStart now m → ∃ T, Valid T ∧ now = isoformat T) ∧
    ∀ op ∈ history, ∀ now m, op = .maintFinish now m → ∃ T, Valid T ∧ now = isoformat T

/-- The bytes of a voucher number in an address. -/
def segmentOf (voucher : String) : Bytes := ascii voucher

end ZKAP.Spec
