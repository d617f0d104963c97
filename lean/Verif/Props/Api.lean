import Verif.Lemmas.Api
import Verif.Props.Controller
import Verif.Props.Maintenance
import Verif.Props.VoucherJson
import Verif.Props.VoucherWeb
import Verif.Spec.RecoverFactory
import Verif.Props.Recovery

/-! C133–C136: the whole HTTP API. -/
namespace ZKAP
open Spec

variable {ω ρ κ : Type} (reader : ω → ρ) (digested : ω → String) (readonly : String → Option ρ)
  (readcap : String → Option κ)

/-! ### Examples -/

/-- A node with the token `s3`. -/
def exApiNode : ApiNode String String String :=
  { token := some (ZKAP.ascii "s3"), version := "1.0", setup := newSetupNode 7, recover := startedFactory newDatabase }

/-- Its configuration, with two groups of redemption. -/
def exApiCfg : ApiCfg := ⟨exRedeemCfg, 3, 10, 1000, 2678400⟩

/-- A request with the token. -/
def exAsked (method : String) (path : List String) (body : Option Json := none) : NodeRequest :=
  { method, path := path.map ZKAP.ascii, authorization := some (ZKAP.ascii "Tahoe-LAFS s3")
    content_type := some "application/json", body }

theorem exAsked_ok (method : String) (path : List String) (body : Option Json) :
    Authorized (ZKAP.ascii "s3") (exAsked method path body).authorization :=
  ⟨ZKAP.ascii "Tahoe-LAFS", by decide, .inl (show some (ZKAP.ascii "Tahoe-LAFS s3") = some (ZKAP.ascii "Tahoe-LAFS" ++ [32] ++ ZKAP.ascii "s3") by
    decide)⟩

/-- The same with another token. -/
def exStranger (req : NodeRequest) : NodeRequest := { req with authorization := some (ZKAP.ascii "tahoe-lafs s4") }

theorem exStranger_not (req : NodeRequest) : ¬ Authorized (ZKAP.ascii "s3") (exStranger req).authorization := by
  intro h
  have := (access_granted (ZKAP.ascii "s3") _).mpr h
  exact absurd this (by
    rw [show (exStranger req).authorization = some (ZKAP.ascii "tahoe-lafs s4") from rfl]
    rw [access_some]
    intro he
    have := Except.ok.inj he
    exact absurd this (by decide +kernel))

/-! ### C133: without the token there is nothing to see and nothing to do -/

/-- **C133**: whatever the node holds and whatever is asked for, a request without the token is
answered with 401 and changes nothing. -/
theorem C133_without_token (cfg : ApiCfg) (env : Env) (id : Nat) (req : NodeRequest) (n : ApiNode ω ρ κ)
    (t : Bytes) (ht : n.token = some t) (hn : ¬ Authorized t req.authorization) :
    n.serve digested readonly cfg env id req = (n, .unauthorized) :=
  serve_refused digested readonly cfg env id req n t ht hn

/-- **C133**: with the token the answer is never 401. -/
theorem C133_with_token (cfg : ApiCfg) (env : Env) (id : Nat) (req : NodeRequest) (n : ApiNode ω ρ κ)
    (t : Bytes) (ht : n.token = some t) (ha : Authorized t req.authorization) :
    (n.serve digested readonly cfg env id req).2 ≠ .unauthorized := by
  rw [serve_granted digested readonly cfg env id req n t ht ha]
  apply render_quiet
  rcases located n.controller req.path with ⟨_, h⟩ | ⟨_, h⟩ | ⟨h, _, _⟩
  · rw [h]; trivial
  · rw [h]; trivial
  · exact h

/-- The event is a request without the token. -/
def FromStranger (t : Bytes) : ApiEvent ω → Prop
  | .request _ _ req => ¬ Authorized t req.authorization
  | _ => False

/-- **C133**, for the whole life of a node: leave out all requests without the token, and the node
becomes the same and gives the same answers to all others.  In particular no WebSocket is opened
without the token, and messages on a WebSocket that was not opened do nothing. -/
theorem C133_strangers_leave_no_trace [DecidableEq κ] (cfg : ApiCfg) (t : Bytes) (history : List (ApiEvent ω))
    (n : ApiNode ω ρ κ) (ht : n.token = some t) (keep : ApiEvent ω → Bool)
    (hk : ∀ e ∈ history, keep e = false ↔ FromStranger t e) :
    (n.run reader digested readonly readcap cfg (history.filter keep)).1 =
      (n.run reader digested readonly readcap cfg history).1 ∧
    (n.run reader digested readonly readcap cfg (history.filter keep)).2 =
      (n.run reader digested readonly readcap cfg history).2.filter
        (fun a => match a.2 with | .unauthorized => false | _ => true) := by
  induction history generalizing n with
  | nil => exact ⟨rfl, rfl⟩
  | cons e es ih =>
    have hke := hk e List.mem_cons_self
    have ih' := fun m hm => ih m hm (fun e he => hk e (List.mem_cons_of_mem _ he))
    cases hkeep : keep e with
    | false =>
      have hs := hke.mp hkeep
      cases e with
      | request id env req =>
        have hst : n.step reader digested readonly readcap cfg (.request id env req) = (n, [(id, .unauthorized)]) := by
          show (match n.serve digested readonly cfg env id req with | (n, a) => (n, [(id, a)])) = _
          rw [C133_without_token digested readonly cfg env id req n t ht hs]
        rw [List.filter_cons_of_neg (by rw [hkeep]; decide)]
        have hr : n.run reader digested readonly readcap cfg (.request id env req :: es) =
            ((n.run reader digested readonly readcap cfg es).1,
              (id, .unauthorized) :: (n.run reader digested readonly readcap cfg es).2) := by
          show (match n.step reader digested readonly readcap cfg (.request id env req) with
            | (n', answers) => match ApiNode.run reader digested readonly readcap cfg n' es with
              | (n'', more) => (n'', answers ++ more)) = _
          rw [hst]
          rfl
        rw [hr, List.filter_cons_of_neg (by nofun)]
        exact ih' n ht
      | message => exact hs.elim
      | redemption => exact hs.elim
      | made => exact hs.elim
    | true =>
      rw [List.filter_cons_of_pos hkeep]
      have hr : ∀ l, n.run reader digested readonly readcap cfg (e :: l) =
          (((n.step reader digested readonly readcap cfg e).1.run reader digested readonly readcap cfg l).1,
            (n.step reader digested readonly readcap cfg e).2 ++
            ((n.step reader digested readonly readcap cfg e).1.run reader digested readonly readcap cfg l).2) := fun l => rfl
      rw [hr, hr]
      have hih := ih' (n.step reader digested readonly readcap cfg e).1 (by
        rw [node_step_token]; exact ht)
      refine ⟨hih.1, ?_⟩
      dsimp only
      rw [List.filter_append, hih.2]
      congr 1
      cases e with
      | request id env req =>
        have ha : Authorized t req.authorization := by
          apply Classical.byContradiction
          intro hna
          have := hke.mpr hna
          rw [hkeep] at this
          exact nomatch this
        have hq := C133_with_token digested readonly cfg env id req n t ht ha
        show [(id, (n.serve digested readonly cfg env id req).2)] =
          List.filter _ [(id, (n.serve digested readonly cfg env id req).2)]
        rw [List.filter_cons_of_pos]
        · rfl
        · dsimp only
          split
          · rename_i h; exact (hq h).elim
          · rfl
      | message id payload =>
        show (n.step reader digested readonly readcap cfg (.message id payload)).2 = _
        have : (n.step reader digested readonly readcap cfg (.message id payload)).2 = [] := by
          simp only [ApiNode.step]
          split <;> rfl
        rw [this]
        rfl
      | redemption e => rfl
      | made id r => rfl

/-- **C133**: a recovery is only ever started over a WebSocket that a request with the token has opened.
If no message arrives on such a connection, there is no recovery, whatever else happens. -/
theorem C133_recovery_needs_token [DecidableEq κ] (cfg : ApiCfg) (t : Bytes) (history : List (ApiEvent ω))
    (n : ApiNode ω ρ κ) (ht : n.token = some t) (hs : n.sockets = [])
    (hm : ∀ id payload, .message id payload ∈ history → ∀ env req, .request id env req ∈ history → ¬ Opens t req) :
    (n.run reader digested readonly readcap cfg history).1.recover = n.recover := by
  replace hs : ∀ id payload, .message id payload ∈ history → id ∉ n.sockets := by
    intro id _ _ h; rw [hs] at h; exact nomatch h
  induction history generalizing n with
  | nil => rfl
  | cons e es ih =>
    show ((n.step reader digested readonly readcap cfg e).1.run reader digested readonly readcap cfg es).1.recover = _
    have hm' : ∀ id payload, .message id payload ∈ es → ∀ env req, .request id env req ∈ es → ¬ Opens t req :=
      fun id payload h env req h' => hm id payload (List.mem_cons_of_mem _ h) env req (List.mem_cons_of_mem _ h')
    have key : ∀ m : ApiNode ω ρ κ, m = (n.step reader digested readonly readcap cfg e).1 → m.recover = n.recover →
        (∀ id payload, .message id payload ∈ es → id ∉ m.sockets) →
        (m.run reader digested readonly readcap cfg es).1.recover = n.recover := by
      intro m hm1 hm2 hm3
      rw [ih m (by rw [hm1, node_step_token]; exact ht) hm' hm3, hm2]
    apply key _ rfl
    · cases e with
      | request id env req => exact (serve_recover digested readonly cfg env id req n t ht).1
      | message id payload =>
        simp only [ApiNode.step]
        rw [if_neg (hs id payload List.mem_cons_self)]
      | redemption e => rfl
      | made id r => rfl
    · intro id payload hmem
      have hid := hs id payload (List.mem_cons_of_mem _ hmem)
      cases e with
      | request id' env req =>
        show id ∉ (n.serve digested readonly cfg env id' req).1.sockets
        rcases (serve_recover digested readonly cfg env id' req n t ht).2 with h | ⟨ho, h⟩
        · rw [h]; exact hid
        · rw [h]
          intro hin
          rcases List.mem_append.mp hin with hin | hin
          · exact hid hin
          · rw [List.mem_singleton] at hin
            subst hin
            exact hm id payload (List.mem_cons_of_mem _ hmem) env req List.mem_cons_self ho
      | message id' payload' =>
        simp only [ApiNode.step]
        split
        · exact hid
        · exact hid
      | redemption e => exact hid
      | made id r => exact hid

/-- A message on a connection that was never opened, and one on a connection a stranger tried to
open: the hypotheses are met, and only then. -/
example : ¬ Opens (ZKAP.ascii "s3") (exStranger { exAsked "GET" ["recover"] with websocket := true }) ∧
    Opens (ZKAP.ascii "s3") { exAsked "GET" ["recover"] with websocket := true } :=
  ⟨fun h => exStranger_not _ h.1, exAsked_ok "GET" ["recover"] none, rfl, rfl, [], rfl⟩

/-- **C133**: of the requests with the token only two can change anything but the list of open
WebSockets: the submission of a voucher and the setup of replication. -/
theorem C133_only_orders_change (cfg : ApiCfg) (env : Env) (id : Nat) (req : NodeRequest) (n : ApiNode ω ρ κ)
    (hn : ¬ IsOrder req) : SameNode (n.serve digested readonly cfg env id req).1 n := by
  unfold ApiNode.serve
  split
  · exact ⟨rfl, rfl, rfl, rfl, rfl⟩
  · exact ⟨rfl, rfl, rfl, rfl, rfl⟩
  · apply render_same
    · intro h hm
      rcases located n.controller req.path with ⟨hp, _⟩ | ⟨_, h'⟩ | ⟨_, h', _⟩
      · exact hn (.inr ⟨hm, hp⟩)
      · rw [h] at h'; exact nomatch h'
      · exact h' h
    · intro h hm
      rcases located n.controller req.path with ⟨_, h'⟩ | ⟨hp, _⟩ | ⟨_, _, h'⟩
      · rw [h] at h'; exact nomatch h'
      · exact hn (.inl ⟨hm, hp⟩)
      · exact h' h

/-- **C133**: an address that is not one of the API's is not found, whatever the method. -/
theorem C133_unknown_address (cfg : ApiCfg) (env : Env) (id : Nat) (req : NodeRequest) (n : ApiNode ω ρ κ)
    (t : Bytes) (ht : n.token = some t) (ha : Authorized t req.authorization) (segment : Bytes) (rest : List Bytes)
    (hp : req.path = segment :: rest) (hs : segment ∉ endpoints) :
    n.serve digested readonly cfg env id req = (n, .notFound) := by
  rw [serve_granted digested readonly cfg env id req n t ht ha, hp]
  show ApiResource.render digested readonly cfg env id req n (ApiResource.locate n.controller rest (root_child segment)) = _
  rw [root_child_other segment hs, locate_page]
  rfl

/-- **C133**: on a node whose token is missing, no request is granted: it is refused, and one that comes
with a token fails. -/
theorem C133_missing_token (cfg : ApiCfg) (env : Env) (id : Nat) (req : NodeRequest) (n : ApiNode ω ρ κ)
    (ht : n.token = none) :
    (NamesScheme req.authorization → n.serve digested readonly cfg env id req = (n, .serverError)) ∧
    (¬ NamesScheme req.authorization → n.serve digested readonly cfg env id req = (n, .unauthorized)) := by
  unfold ApiNode.serve
  rw [ht]
  constructor
  · intro h
    rw [access_missing_scheme h]
  · intro h
    rw [access_missing_other h]

/-- **C133**: the version endpoint tells the version of the node. -/
theorem C133_version (cfg : ApiCfg) (env : Env) (id : Nat) (req : NodeRequest) (n : ApiNode ω ρ κ)
    (t : Bytes) (ht : n.token = some t) (ha : Authorized t req.authorization) (hm : req.method = "GET")
    (hp : req.path = [Spec.ascii "version"]) :
    n.serve digested readonly cfg env id req = (n, .ok (.json (.obj [("version", .str n.version)]))) := by
  rw [serve_granted digested readonly cfg env id req n t ht ha, hp]
  have : ApiResource.locate n.controller [Spec.ascii "version"] .root = .version := rfl
  rw [this]
  simp only [ApiResource.render, hm, if_pos]
  rfl

/-- **C133**: of the endpoints that can only be read, other methods get nothing: 405 for **POST**, 501 for
the rest. -/
theorem C133_methods (cfg : ApiCfg) (env : Env) (id : Nat) (req : NodeRequest) (n : ApiNode ω ρ κ)
    (t : Bytes) (ht : n.token = some t) (ha : Authorized t req.authorization)
    (hm : req.method ≠ "GET" ∧ req.method ≠ "HEAD")
    (hp : req.path = [Spec.ascii "version"] ∨ req.path = [Spec.ascii "lease-maintenance"]) :
    (n.serve digested readonly cfg env id req).1 = n ∧
      (req.method = "POST" → (n.serve digested readonly cfg env id req).2 = .notAllowed) ∧
      (req.method ≠ "POST" → (n.serve digested readonly cfg env id req).2 = .notImplemented) := by
  rw [serve_granted digested readonly cfg env id req n t ht ha]
  have hr : ∀ r, r = ApiResource.version ∨ r = ApiResource.maintenance →
      r.render digested readonly cfg env id req n = (n, unsupported req.method) := by
    intro r hr
    rcases hr with rfl | rfl <;> simp only [ApiResource.render, if_neg hm.1, if_neg hm.2]
  have hloc : ApiResource.locate n.controller req.path .root = .version ∨
      ApiResource.locate n.controller req.path .root = .maintenance := by
    rcases hp with hp | hp
    · rw [hp]; exact .inl rfl
    · rw [hp]; exact .inr rfl
  rw [hr _ hloc]
  refine ⟨rfl, ?_, ?_⟩
  · intro h
    show unsupported req.method = _
    unfold unsupported
    rw [if_pos (.inr (.inr h))]
  · intro h
    show unsupported req.method = _
    unfold unsupported
    rw [if_neg (by simp only [hm.1, hm.2, h, or_self, not_false_eq_true])]

/-- The scheme in capitals, with a guess; another scheme. -/
example : NamesScheme (some (ZKAP.ascii "TAHOE-LAFS guess")) ∧ ¬ NamesScheme (some (ZKAP.ascii "Basic xyz")) := by
  refine ⟨⟨ZKAP.ascii "TAHOE-LAFS", by decide +kernel, .inr ⟨ZKAP.ascii "guess", by decide +kernel⟩⟩, ?_⟩
  intro h
  have := (names_scheme_iff _).mp h
  revert this
  decide +kernel

/-- A stranger submits a voucher: 401, and the node is as before.  With the token it is accepted. -/
example : exApiNode.serve id some exApiCfg (exEnv "p") 0 (exStranger (exAsked "PUT" ["voucher"]
      (some (.obj [("voucher", .str exWebVoucher)])))) = (exApiNode, .unauthorized) :=
  C133_without_token id some exApiCfg (exEnv "p") 0 _ exApiNode _ rfl (exStranger_not _)

example : Recorded (exApiNode.serve id some exApiCfg (exEnv "p") 0 (exAsked "PUT" ["voucher"]
      (some (.obj [("voucher", .str exWebVoucher)])))).1.controller exWebVoucher := by
  rw [serve_granted id some exApiCfg (exEnv "p") 0 _ exApiNode _ rfl (exAsked_ok _ _ _), recorded_iff]
  exact ⟨newRow "p" exWebVoucher 5, by decide +kernel⟩

/-- Prices are asked for with POST; this changes nothing. -/
example : ¬ IsOrder (exAsked "POST" ["calculate-price"]) := by
  unfold IsOrder
  decide +kernel

example : Spec.ascii "vouchers" ∉ endpoints := by decide +kernel

/-- The methods: 405 for **GET** of the price endpoint, 501 for **DELETE**; **HEAD** of the
replication endpoint raises. -/
example : (exApiNode.serve id some exApiCfg (exEnv "p") 0 (exAsked "GET" ["calculate-price"])).2 = .notAllowed ∧
    (exApiNode.serve id some exApiCfg (exEnv "p") 0 (exAsked "DELETE" ["voucher"])).2 = .notImplemented ∧
    (exApiNode.serve id some exApiCfg (exEnv "p") 0 (exAsked "HEAD" ["replicate"])).2 = .serverError ∧
    (exApiNode.serve id some exApiCfg (exEnv "p") 0 (exAsked "HEAD" ["version"])).2 = .ok .empty ∧
    (exApiNode.serve id some exApiCfg (exEnv "p") 0 (exAsked "GET" ["version", "x"])).2 = .notFound ∧
    (exApiNode.serve id some exApiCfg (exEnv "p") 0 (exAsked "GET" ["recover"])).2 = .badRequest := by
  refine ⟨?_, ?_, ?_, ?_, ?_, ?_⟩ <;>
    (rw [serve_granted id some exApiCfg (exEnv "p") 0 _ exApiNode _ rfl (exAsked_ok _ _ _)]; rfl)

/-! ### C134: the maintenance endpoint -/

/-- **C134** in full, as documented: the answer has the number of tokens that can be spent under
`spendable`, and the last run of lease maintenance under `lease-maintenance-spending`. -/
def C134_statement : Prop :=
  ∀ (cfg : ApiCfg) (env : Env) (id : Nat) (n : ApiNode Nat Nat Nat) (digested : Nat → String)
    (readonly : String → Option Nat) (t : Bytes) (req : NodeRequest) (history : List StoreOp),
    n.token = some t → Authorized t req.authorization → req.method = "GET" →
    req.path = [Spec.ascii "lease-maintenance"] → n.controller.store = after history → ClockTimes history →
    ∃ j, (n.serve digested readonly cfg env id req).2 = .ok (.json j) ∧
      (∃ k : Nat, CountIs (Available (after history)) k ∧ HasItem j "spendable" (.int k)) ∧
      ∃ s, Spending (after history) s ∧ HasItem j "lease-maintenance-spending" s

theorem maintenance_served (cfg : ApiCfg) (env : Env) (id : Nat) (n : ApiNode ω ρ κ) (t : Bytes) (req : NodeRequest)
    (ht : n.token = some t) (ha : Authorized t req.authorization) (hm : req.method = "GET")
    (hp : req.path = [Spec.ascii "lease-maintenance"]) :
    (n.serve digested readonly cfg env id req).2 =
      match render_maintenance n.controller.store with
      | .error _ => .serverError
      | .ok j => .ok (.json j) := by
  rw [serve_granted digested readonly cfg env id req n t ht ha, hp]
  have : ApiResource.locate n.controller [Spec.ascii "lease-maintenance"] .root = .maintenance := by
    show root_child (Spec.ascii "lease-maintenance") = .maintenance
    rfl
  rw [this]
  simp only [ApiResource.render, ApiResource.get]
  rw [if_pos hm]
  split
  · rename_i h; simp only [h]; rfl
  · rename_i h; simp only [h]; rfl

/-- **C134**: the keys are other ones. -/
theorem C134_names_fail : ¬ C134_statement := by
  intro h
  obtain ⟨j, hj, ⟨k, _, items, hi, hm⟩, _⟩ := h exApiCfg (exEnv "p") 0
    { token := some [], version := "", setup := newSetupNode 0, recover := startedFactory newDatabase } (fun _ => "")
    (fun _ => none) [] { method := "GET", path := [Spec.ascii "lease-maintenance"], authorization := some SCHEME } []
    rfl ⟨SCHEME, by decide, .inr ⟨rfl, rfl⟩⟩ rfl rfl rfl ⟨by simp, by simp⟩
  rw [maintenance_served _ _ _ _ _ _ [] _ rfl ⟨SCHEME, by decide, .inr ⟨rfl, rfl⟩⟩ rfl rfl] at hj
  have e : j = .obj [("total", .int 0), ("spending", .null)] := by
    have : render_maintenance ({} : Tables) = .ok (.obj [("total", .int 0), ("spending", .null)]) := rfl
    rw [show (ApiNode.controller _).store = ({} : Tables) from rfl, this] at hj
    injection hj with hj
    injection hj with hj
    exact hj.symm
  rw [e] at hi
  injection hi with hi
  rw [← hi] at hm
  simp at hm

/-- **C134**, what holds: under the key `total` is the number of tokens that can be spent, and under
`spending` what is promised about the last run. -/
theorem C134_values_partial (cfg : ApiCfg) (env : Env) (id : Nat) (n : ApiNode ω ρ κ) (t : Bytes) (req : NodeRequest)
    (ht : n.token = some t) (ha : Authorized t req.authorization) (hm : req.method = "GET")
    (hp : req.path = [Spec.ascii "lease-maintenance"]) (history : List StoreOp)
    (hs : n.controller.store = after history) (times : ClockTimes history) :
    ∃ j, (n.serve digested readonly cfg env id req).2 = .ok (.json j) ∧
      (∃ k : Nat, CountIs (Available (after history)) k ∧ HasItem j "total" (.int k)) ∧
      ∃ s, Spending (after history) s ∧ HasItem j "spending" s := by
  rw [maintenance_served digested readonly cfg env id n t req ht ha hm hp, hs]
  obtain ⟨k, hk, hc, _⟩ := C16_count_is_exact history
  have hlat := C39_latest_activity history
  have hstart := started_from_history history (t := {}) (P := fun f => ∃ T, Valid T ∧ f = isoformat T) times.1 (by simp)
  have hfin := finished_from_history history (t := {}) (P := fun f => ∃ T, Valid T ∧ f = isoformat T) times.2 (by simp)
  suffices hsp : ∃ s, maintenance_activity (after history) = .ok s ∧ Spending (after history) s by
    obtain ⟨s, h1, h2⟩ := hsp
    refine ⟨.obj [("total", .int k), ("spending", s)], ?_, ⟨k, hc, _, rfl, by simp⟩, s, h2, _, rfl, by simp⟩
    unfold render_maintenance
    rw [hk]
    dsimp only
    rw [h1]
  unfold maintenance_activity
  cases hr : (transact store_latest_activity (after history)).1 with
  | error e => rw [hr] at hlat; exact hlat.elim
  | ok o =>
    cases o with
    | none =>
      rw [hr] at hlat
      exact ⟨.null, rfl, .inl ⟨rfl, hlat⟩⟩
    | some x =>
      obtain ⟨started, count, finished⟩ := x
      rw [hr] at hlat
      obtain ⟨⟨r, hrm, h1, h2, h3⟩, _⟩ := hlat
      obtain ⟨S, hS, hS'⟩ := hstart r hrm
      obtain ⟨T, hT, hfe, hex, hlast⟩ := C39_latest_in_time history times.2 started finished count hr
      refine ⟨.obj [("when", .str (isoformatT T)), ("count", .int count)], ?_, .inr ⟨T, count, ?_, ⟨_, rfl, by simp⟩,
        _, rfl, by simp⟩⟩
      · dsimp only
        rw [← h1, hS', C34_stored_times_round_trip S hS, hfe, C34_stored_times_round_trip T hT]
      · refine ⟨?_, ?_⟩
        · obtain ⟨r, hrm, _, h2, h3⟩ := hex
          exact ⟨r, hrm, h3, h2⟩
        · intro r' hr' f hf
          obtain ⟨T', _, h1, h2⟩ := hlast r' hr' f hf
          exact ⟨T', h1, h2⟩

/-- The history of the examples of the store, with two runs of which the second took longer. -/
example : render_maintenance (after (exHistory ++ [.maintStart "2024-02-29 23:59:59+00:00" {},
      .maintObserve 10 [11, 25] ⟨some 1⟩, .maintFinish "2024-03-01 00:00:01+00:00" ⟨some 1⟩])) =
    .ok (.obj [("total", .int 3), ("spending",
      .obj [("when", .str "2024-03-01T00:00:01+00:00"), ("count", .int 5)])]) := by rfl

/-! ### C135: submitting a voucher again -/

/-- **C135** in full: a voucher that has been accepted can be submitted again without effect. -/
def C135_statement : Prop :=
  ∀ (cfg : RedeemCfg) (history : List RedeemEvent) (env : Env) (v : String), Acceptable v →
    (controllerAfter cfg history).todo = [] → Recorded (controllerAfter cfg history) v →
    (render_PUT cfg env (some (.obj [("voucher", .str v)])) (controllerAfter cfg history)).2 = controllerAfter cfg history

/-- The issuer said that the voucher is not paid for. -/
def exUnpaidHistory : List RedeemEvent :=
  [.redeem exWebVoucher none] ++ exSend "p" ++ [.answer 0 .unpaid, .work (exEnv "q")]

/-- **C135**: if it is not paid for yet, the issuer is asked again. -/
theorem C135_unpaid_fails : ¬ C135_statement := by
  intro h
  have := h exRedeemCfg exUnpaidHistory (exEnv "r") exWebVoucher exWebVoucher_ok (by decide +kernel) (by
    rw [recorded_iff]
    exact ⟨newRow "p" exWebVoucher 5, by decide +kernel⟩)
  have hl := congrArg (fun c => c.log.length) this
  exact absurd hl (by decide +kernel)

/-- **C135**, what holds: a voucher that the API shows as being redeemed, redeemed or spent before is
accepted again without any effect. -/
theorem C135_no_effect_partial (cfg : RedeemCfg) (c : Controller) (env : Env) (v : String) (hv : Acceptable v)
    (hidle : c.todo = []) (shown : Voucher String) (hview : getChild c (segmentOf v) = .view shown)
    (hstate : (∃ t k, shown.state = .redeeming t k) ∨ (∃ t k, shown.state = .redeemed t k) ∨
      ∃ t, shown.state = .doubleSpend t) :
    render_PUT cfg env (some (.obj [("voucher", .str v)])) c = (.accepted, c) := by
  unfold render_PUT
  rw [(submitted_iff _ v).mpr ⟨rfl, hv⟩]
  dsimp only
  rw [show getChild c (segmentOf v) = getChild c (v.toList.map (fun ch => UInt8.ofNat ch.toNat)) from rfl,
    child_of c v hv] at hview
  cases ho : get_object v c.store with
  | error e =>
    rw [ho] at hview
    cases e <;> exact nomatch hview
  | ok o =>
    rw [ho] at hview
    injection hview with hview
    rw [put_refused_start cfg env c v hidle (redeem_start_none cfg c v o ho (by
      rw [hview]
      rcases hstate with ⟨t, k, h⟩ | ⟨t, k, h⟩ | ⟨t, h⟩ <;> rw [h] <;> rfl))]

/-- **C135**: whatever state it is in, submitting a voucher again changes the record of no voucher and
no unblinded token. -/
theorem C135_nothing_lost_partial (cfg : RedeemCfg) (history : List RedeemEvent) (env : Env) (v : String)
    (hidle : (controllerAfter cfg history).todo = []) (hrec : Recorded (controllerAfter cfg history) v) :
    let before := controllerAfter cfg history
    let later := (render_PUT cfg env (some (.obj [("voucher", .str v)])) before).2
    later.store.app.vouchers = before.store.app.vouchers ∧
    later.store.app.unblinded = before.store.app.unblinded ∧
    later.store.app.groups = before.store.app.groups ∧
    (∀ r ∈ before.store.app.tokens, r ∈ later.store.app.tokens) := by
  intro before later
  have key : later.store = before.store ∨ ∃ now expected k ts, later.store = added now v expected k ts before.store := by
    show (render_PUT cfg env (some (.obj [("voucher", .str v)])) before).2.store = before.store ∨ ∃ now expected k ts,
      (render_PUT cfg env (some (.obj [("voucher", .str v)])) before).2.store = added now v expected k ts before.store
    unfold render_PUT
    split
    · exact .inl rfl
    · rename_i w hw
      have := ((submitted_iff _ w).mp hw).1
      have hwv : w = v := by unfold Submits at this; cases this; rfl
      subst hwv
      exact put_store cfg env before w hidle
  obtain ⟨row, hr⟩ := (recorded_iff _ v).mp hrec
  have hm : v ∈ before.store.app.vouchers.map (·.number) := by
    apply Classical.byContradiction
    intro hn
    rw [voucherRow_none.mpr hn] at hr
    exact nomatch hr
  rcases key with h | ⟨now, expected, k, ts, h⟩
  · rw [h]; exact ⟨rfl, rfl, rfl, fun _ h => h⟩
  · rw [h]
    unfold added
    dsimp only
    rw [if_pos hm]
    exact ⟨rfl, rfl, rfl, fun r hr => List.mem_append_left _ hr⟩

example : Recorded (controllerAfter exRedeemCfg exUnpaidHistory) exWebVoucher ∧
    (controllerAfter exRedeemCfg exUnpaidHistory).todo = [] ∧
    (render_PUT exRedeemCfg (exEnv "r") (some (.obj [("voucher", .str exWebVoucher)]))
      (controllerAfter exRedeemCfg exUnpaidHistory)).2.log.length =
      (controllerAfter exRedeemCfg exUnpaidHistory).log.length + 2 :=
  ⟨(recorded_iff _ _).mpr ⟨newRow "p" exWebVoucher 5, by decide +kernel⟩, by decide +kernel, by decide +kernel⟩

/-- Before the issuer answers, the voucher is being redeemed and a second submission has no effect. -/
example : render_PUT exRedeemCfg (exEnv "r") (some (.obj [("voucher", .str exWebVoucher)]))
      (controllerAfter exRedeemCfg ([.redeem exWebVoucher none] ++ exSend "p")) =
    (.accepted, controllerAfter exRedeemCfg ([.redeem exWebVoucher none] ++ exSend "p")) :=
  C135_no_effect_partial exRedeemCfg _ (exEnv "r") exWebVoucher exWebVoucher_ok (by decide +kernel)
    ⟨exWebVoucher, 5, some "p", .redeeming "p" 0⟩ (by decide +kernel) (.inl ⟨_, _, rfl⟩)

/-! ### C136: prices are those of this node -/

/-- A node configuration with the given settings: the number of tokens of a voucher, the shares a
file needs, the shares a file gets, the value of a pass and, in seconds, the three durations of
lease maintenance.  Each may be left out, which means the value in parentheses. -/
structure Configured (c : NodeConfig) (count needed total value mean range remaining : Int) (keys : List String) : Prop where
  count : Setting c "storageclient.plugins.privatestorageio-zkapauthz-v2" "default-token-count" 32768 count
  needed : Setting c "client" "shares.needed" 3 needed
  total : Setting c "client" "shares.total" 10 total
  value : Setting c "storageclient.plugins.privatestorageio-zkapauthz-v2" "pass-value" 1048576 value
  mean : Setting c "storageclient.plugins.privatestorageio-zkapauthz-v2" "lease.crawl-interval.mean" (26 * 86400) mean
  range : Setting c "storageclient.plugins.privatestorageio-zkapauthz-v2" "lease.crawl-interval.range" (4 * 86400) range
  remaining : Setting c "storageclient.plugins.privatestorageio-zkapauthz-v2" "lease.min-time-remaining" 0 remaining
  keys : get_configured_allowed_public_keys c = .ok keys

/-- **C136**: the API is made with exactly the settings of the configuration file; leases are taken
to last 31 days less the time at which they are renewed. -/
theorem C136_settings (c : NodeConfig) (count needed total value mean range remaining : Int) (keys : List String)
    (h : Configured c count needed total value mean range remaining keys) :
    from_configuration c = .ok
      { redeem := { num_redemption_groups := 16, default_token_count := count.toNat, allowed_public_keys := keys }
        shares_needed := needed, shares_total := total, pass_value := value
        lease_period := 31 * 86400 - remaining } := by
  unfold from_configuration
  rw [show get_token_count c = .ok count from get_int_setting h.count]
  dsimp only
  rw [h.keys]
  dsimp only
  rw [show get_configured_shares_needed c = .ok needed from get_int_setting h.needed]
  dsimp only
  rw [show get_configured_shares_total c = .ok total from get_int_setting h.total]
  dsimp only
  rw [show get_configured_pass_value c = .ok value from get_int_setting h.value]
  dsimp only
  unfold lease_maintenance_config_from_node
  rw [show read_duration (lease_options c) "lease.crawl-interval.mean" (26 * 86400 * 1000000) =
      .ok (mean * 1000000) from read_setting (by simp) h.mean]
  dsimp only
  rw [show read_duration (lease_options c) "lease.crawl-interval.range" (4 * 86400 * 1000000) =
      .ok (range * 1000000) from read_setting (by simp) h.range]
  dsimp only
  rw [show read_duration (lease_options c) "lease.min-time-remaining" 0 =
      .ok (remaining * 1000000) from read_setting (by simp) h.remaining]
  dsimp only
  have : get_lease_duration ⟨mean * 1000000, range * 1000000, remaining * 1000000⟩ = 31 * 86400 - remaining := by
    unfold get_lease_duration
    dsimp only
    rw [show (31 * 24 * 60 * 60 * 1000000 : Int) - remaining * 1000000 = (31 * 86400 - remaining) * 1000000 by omega]
    exact Int.mul_tdiv_cancel _ (by decide)
  rw [this]

/-- **C136**: a well-formed request with the token is answered with the price of storing the files with
the erasure coding and the pass value of this node, and with the time for which it pays; asking
changes nothing. -/
theorem C136_price (c : NodeConfig) (count needed total value mean range remaining : Int) (keys : List String)
    (h : Configured c count needed total value mean range remaining keys)
    (hk : 0 < needed) (hn : 0 ≤ total) (hv : 0 < value)
    (cfg : ApiCfg) (hcfg : from_configuration c = .ok cfg) (env : Env) (id : Nat) (n : ApiNode ω ρ κ) (t : Bytes)
    (ht : n.token = some t) (req : NodeRequest) (ha : Authorized t req.authorization) (hm : req.method = "POST")
    (hp : req.path = [Spec.ascii "calculate-price"]) (hct : req.content_type = some "application/json")
    (sizes : List Nat)
    (hb : req.body = some (.obj [("version", .int 1), ("sizes", .arr (sizes.map (fun n : Nat => .int n)))])) :
    ∃ price, Price needed total value sizes price ∧
      n.serve digested readonly cfg env id req =
        (n, .ok (.json (.obj [("price", .int price), ("period", .int (31 * 86400 - remaining))]))) := by
  rw [C136_settings c count needed total value mean range remaining keys h] at hcfg
  cases hcfg
  refine ⟨_, price_spec needed total value hk hn hv sizes, ?_⟩
  rw [serve_granted digested readonly _ env id req n t ht ha, hp]
  have : ApiResource.locate n.controller [Spec.ascii "calculate-price"] .root = .price := by
    show root_child (Spec.ascii "calculate-price") = .price
    rfl
  rw [this]
  simp only [ApiResource.render]
  rw [if_pos hm, hct, hb]
  unfold render_price
  rw [C66_well_formed_priced, C66_well_formed_priced]
  dsimp only
  rw [if_neg (by
    rintro ⟨_, h | ⟨_, h⟩⟩
    · omega
    · omega)]

/-- The settings of a node that only sets the encoding and the keys. -/
def exApiConfig : NodeConfig :=
  { path := "", private_file := fun _ => none
    option := fun sec o =>
      if sec = "client" ∧ o = "shares.needed" then some "2"
      else if sec = client_section ∧ o = "lease.min-time-remaining" then some "7"
      else if sec = client_section ∧ o = "allowed-public-keys" then some "k1,k2"
      else none }

theorem exApiConfig_ok : Configured exApiConfig 32768 2 10 1048576 (26 * 86400) (4 * 86400) 7 ["k1", "k2"] :=
  ⟨.inl ⟨rfl, rfl⟩, .inr (by decide +kernel), .inl ⟨rfl, rfl⟩, .inl ⟨rfl, rfl⟩, .inl ⟨rfl, rfl⟩, .inl ⟨rfl, rfl⟩,
    .inr (by decide +kernel), by rfl⟩

/-- The hypotheses of `C136_price` are met: a node with those settings is asked. -/
example : ∃ cfg, from_configuration exApiConfig = .ok cfg ∧ ∃ price, Price 2 10 1048576 [3145728, 1] price ∧
    exApiNode.serve id some cfg (exEnv "p") 0
      { exAsked "POST" ["calculate-price"] with
        content_type := some "application/json"
        body := some (.obj [("version", .int 1), ("sizes", .arr [.int 3145728, .int 1])]) } =
      (exApiNode, .ok (.json (.obj [("price", .int price), ("period", .int (31 * 86400 - 7))]))) :=
  ⟨_, C136_settings _ _ _ _ _ _ _ _ _ exApiConfig_ok,
    C136_price id some _ _ _ _ _ _ _ _ _ exApiConfig_ok (by decide) (by decide) (by decide) _
      (C136_settings _ _ _ _ _ _ _ _ _ exApiConfig_ok) _ _ _ _ rfl _ (exAsked_ok _ _ _) rfl rfl rfl [3145728, 1] rfl⟩

/-- Two files: 3 MiB needs shares of 1.5 MiB, so two passes for each of ten; one byte, one pass for
each. -/
example : render_price ⟨exRedeemCfg, 2, 10, 1048576, 2678000⟩ (some "application/json")
    (some (.obj [("version", .int 1), ("sizes", .arr [.int 3145728, .int 1])])) =
    .ok (.json (.obj [("price", .int 30), ("period", .int 2678000)])) := by rfl

/-- With no shares needed, which is nonsense, the request fails. -/
example : render_price ⟨exRedeemCfg, 0, 10, 1048576, 2678000⟩ (some "application/json")
    (some (.obj [("version", .int 1), ("sizes", .arr [.int 1])])) = .serverError := by rfl

/-! ### C137: the checkpoint of a backup -/

/-- **C137** in full: the address from which, as documented, the checkpoint for a backup can be
fetched exists. -/
def C137_statement : Prop :=
  ∀ (cfg : ApiCfg) (env : Env) (id : Nat) (n : ApiNode Nat Nat Nat) (digested : Nat → String)
    (readonly : String → Option Nat) (t : Bytes) (req : NodeRequest),
    n.token = some t → Authorized t req.authorization → req.method = "GET" →
    req.path = [Spec.ascii "unblinded-token"] → ∃ body, (n.serve digested readonly cfg env id req).2 = .ok body

theorem unblinded_token_unknown : Spec.ascii "unblinded-token" ∉ endpoints := by decide +kernel

/-- **C137**: it does not. -/
theorem C137_no_checkpoint_fails : ¬ C137_statement := by
  intro h
  have ha : Authorized [] (some SCHEME) := ⟨SCHEME, by decide, .inr ⟨rfl, rfl⟩⟩
  obtain ⟨body, hb⟩ := h exApiCfg (exEnv "p") 0
    { token := some [], version := "", setup := newSetupNode 0, recover := startedFactory newDatabase } (fun _ => "")
    (fun _ => none) [] { method := "GET", path := [Spec.ascii "unblinded-token"], authorization := some SCHEME }
    rfl ha rfl rfl
  rw [C133_unknown_address _ _ _ _ _ _ _ [] rfl ha _ [] rfl unblinded_token_unknown] at hb
  exact nomatch hb

/-- **C137**, what holds: requests for the checkpoint, and the documented way of restoring it, are told
that there is no such thing, and change nothing: no token is lost by following the documentation. -/
theorem C137_not_found_partial (cfg : ApiCfg) (env : Env) (id : Nat) (n : ApiNode ω ρ κ) (t : Bytes) (req : NodeRequest)
    (ht : n.token = some t) (ha : Authorized t req.authorization) (hp : req.path = [Spec.ascii "unblinded-token"]) :
    n.serve digested readonly cfg env id req = (n, .notFound) :=
  C133_unknown_address digested readonly cfg env id req n t ht ha _ [] hp unblinded_token_unknown

example : exApiNode.serve id some exApiCfg (exEnv "p") 0 (exAsked "PATCH" ["unblinded-token"]) = (exApiNode, .notFound) :=
  C137_not_found_partial id some exApiCfg (exEnv "p") 0 exApiNode _ _ rfl (exAsked_ok _ _ _) rfl

end ZKAP
