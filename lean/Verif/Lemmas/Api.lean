import Verif.Spec.Api
import Verif.Lemmas.Misc
import Verif.Lemmas.Maintenance
import Verif.Lemmas.VoucherWeb
import Verif.Lemmas.Decimal
import Verif.Props.Misc
import Verif.Props.Pricing

/-! Lemmas about the HTTP API. -/
namespace ZKAP
open Spec

variable {ω ρ κ : Type}

/-! ### Authorization -/

theorem access_some (t : Bytes) (h : Option Bytes) : api_access (some t) h = .ok (private_tree t h) := rfl

theorem access_granted (t : Bytes) (h : Option Bytes) :
    api_access (some t) h = .ok .granted ↔ Authorized t h := by
  rw [access_some]
  refine Iff.trans ?_ (C65_token_required t h)
  exact ⟨fun h => Except.ok.inj h, fun h => by rw [h]⟩

theorem access_refused (t : Bytes) (h : Option Bytes) (hn : ¬ Authorized t h) :
    api_access (some t) h = .ok .unauthorized := by
  rw [access_some]
  cases hp : private_tree t h with
  | unauthorized => rfl
  | granted => exact (hn ((access_granted t h).mp (by rw [access_some, hp]))).elim

/-- The first word of a header. -/
theorem split_join (a rest : Bytes) (h : 32 ∉ a) : split_first_space (a ++ [32] ++ rest) = (a, some rest) := by
  induction a with
  | nil => rfl
  | cons b a ih =>
    have hb : b ≠ 32 := fun e => h (by simp [e])
    have := ih (fun hm => h (List.mem_cons_of_mem _ hm))
    simp only [List.cons_append, split_first_space, if_neg hb]
    rw [this]

theorem split_whole (a : Bytes) (h : 32 ∉ a) : split_first_space a = (a, none) := by
  induction a with
  | nil => rfl
  | cons b a ih =>
    have hb : b ≠ 32 := fun e => h (by simp [e])
    have := ih (fun hm => h (List.mem_cons_of_mem _ hm))
    simp only [split_first_space, if_neg hb]
    rw [this]

theorem split_cases (h : Bytes) :
    (h = (split_first_space h).1 ∨ ∃ rest, h = (split_first_space h).1 ++ [32] ++ rest) := by
  induction h with
  | nil => exact .inl rfl
  | cons b bs ih =>
    by_cases hb : b = 32
    · subst hb
      exact .inr ⟨bs, rfl⟩
    · simp only [split_first_space, if_neg hb]
      rcases ih with ih | ⟨rest, ih⟩
      · left
        exact congrArg (b :: ·) ih
      · exact .inr ⟨rest, congrArg (b :: ·) ih⟩

theorem scheme_word {scheme : Bytes} (h : lower scheme = Spec.ascii "tahoe-lafs") : 32 ∉ scheme := by
  intro hm
  have : (32 : UInt8) ∈ lower scheme := List.mem_map.mpr ⟨32, hm, by decide⟩
  rw [h] at this
  revert this
  decide +kernel

theorem scheme_eq : SCHEME = Spec.ascii "tahoe-lafs" := by decide +kernel

theorem names_scheme_iff (h : Bytes) : NamesScheme (some h) ↔ lower (split_first_space h).1 = SCHEME := by
  rw [scheme_eq]
  constructor
  · rintro ⟨scheme, hs, h1 | ⟨rest, h1⟩⟩
    · cases h1; rw [split_whole _ (scheme_word hs)]; exact hs
    · cases h1; rw [split_join _ _ (scheme_word hs)]; exact hs
  · intro hs
    rcases split_cases h with e | ⟨rest, e⟩
    · exact ⟨_, hs, .inl (congrArg some e)⟩
    · exact ⟨_, hs, .inr ⟨rest, congrArg some e⟩⟩

theorem access_missing_scheme {header : Option Bytes} (h : NamesScheme header) :
    api_access none header = .error missingConfigEntry := by
  cases header with
  | none => obtain ⟨_, _, h | ⟨_, h⟩⟩ := h <;> exact nomatch h
  | some hd =>
    have := (names_scheme_iff hd).mp h
    cases hd with
    | nil => exact absurd this (by decide)
    | cons b bs =>
      unfold api_access
      dsimp only
      rw [if_pos this]

theorem access_missing_other {header : Option Bytes} (h : ¬ NamesScheme header) :
    api_access none header = .ok .unauthorized := by
  cases header with
  | none => rfl
  | some hd =>
    cases hd with
    | nil => rfl
    | cons b bs =>
      unfold api_access
      dsimp only
      rw [if_neg fun e => h ((names_scheme_iff _).mpr e)]

theorem serve_refused (digested : ω → String) (readonly : String → Option ρ) (cfg : ApiCfg) (env : Env)
    (id : Nat) (req : NodeRequest) (n : ApiNode ω ρ κ) (t : Bytes) (ht : n.token = some t)
    (hn : ¬ Authorized t req.authorization) :
    n.serve digested readonly cfg env id req = (n, .unauthorized) := by
  unfold ApiNode.serve
  rw [ht, access_refused t _ hn]

theorem serve_granted (digested : ω → String) (readonly : String → Option ρ) (cfg : ApiCfg) (env : Env)
    (id : Nat) (req : NodeRequest) (n : ApiNode ω ρ κ) (t : Bytes) (ht : n.token = some t)
    (hn : Authorized t req.authorization) :
    n.serve digested readonly cfg env id req =
      (ApiResource.locate n.controller req.path .root).render digested readonly cfg env id req n := by
  unfold ApiNode.serve
  rw [ht, (access_granted t _).mpr hn]

/-! ### Finding resources -/

/-- Pages do not say 401. -/
def ApiResource.Quiet : ApiResource → Prop
  | .page .unauthorized => False
  | _ => True

theorem locate_page (c : Controller) (path : List Bytes) (a : ApiAnswer) :
    ApiResource.locate c path (.page a) = .page a := by
  induction path with
  | nil => rfl
  | cons s path ih => exact ih

theorem locate_recover (c : Controller) (path : List Bytes) :
    ApiResource.locate c path .recover = .recover := by
  cases path <;> rfl

theorem locate_leaf (c : Controller) (s : Bytes) (path : List Bytes) (r : ApiResource)
    (h : r = .replicate ∨ r = .maintenance ∨ r = .version ∨ r = .price ∨ ∃ v, r = .view v) :
    ApiResource.locate c (s :: path) r = .page .notFound := by
  rcases h with rfl | rfl | rfl | rfl | ⟨v, rfl⟩ <;> exact locate_page c path .notFound

theorem root_child_other (s : Bytes) (h : s ∉ endpoints) : root_child s = .page .notFound := by
  have hm : ∀ x : String, x ∈ ["recover", "replicate", "voucher", "lease-maintenance", "version",
      "calculate-price"] → s ≠ ZKAP.ascii x := by
    intro x hx he
    exact h (he ▸ List.mem_map.mpr ⟨x, hx, rfl⟩)
  unfold root_child
  rw [if_neg (hm _ (by simp)), if_neg (hm _ (by simp)), if_neg (hm _ (by simp)), if_neg (hm _ (by simp)),
    if_neg (hm _ (by simp)), if_neg (hm _ (by simp))]

/-- Where the orders are found. -/
theorem root_child_cases (s : Bytes) :
    (s = Spec.ascii "replicate" ∧ root_child s = .replicate) ∨
    (s = Spec.ascii "voucher" ∧ root_child s = .collection) ∨
    root_child s = .recover ∨ root_child s = .maintenance ∨ root_child s = .version ∨
    root_child s = .price ∨ root_child s = .page .notFound := by
  unfold root_child
  split
  · exact .inr (.inr (.inl rfl))
  · split
    · rename_i h; exact .inl ⟨h, rfl⟩
    · split
      · rename_i h; exact .inr (.inl ⟨h, rfl⟩)
      · split
        · exact .inr (.inr (.inr (.inl rfl)))
        · split
          · exact .inr (.inr (.inr (.inr (.inl rfl))))
          · split
            · exact .inr (.inr (.inr (.inr (.inr (.inl rfl)))))
            · exact .inr (.inr (.inr (.inr (.inr (.inr rfl)))))

/-- A child of the collection. -/
theorem collection_child (c : Controller) (s : Bytes) :
    (∃ v, ApiResource.child c s .collection = .view v) ∨ ApiResource.child c s .collection = .page .badRequest ∨
    ApiResource.child c s .collection = .page .notFound ∨ ApiResource.child c s .collection = .page .serverError := by
  show (∃ v, (match getChild c s with
    | .badRequest => ApiResource.page .badRequest
    | .notFound => .page .notFound
    | .serverError => .page .serverError
    | .view v => .view v) = .view v) ∨ _
  simp only [ApiResource.child]
  cases getChild c s with
  | badRequest => exact .inr (.inl rfl)
  | notFound => exact .inr (.inr (.inl rfl))
  | serverError => exact .inr (.inr (.inr rfl))
  | view v => exact .inl ⟨v, rfl⟩

/-- What a path leads to. -/
theorem located (c : Controller) (path : List Bytes) :
    (path = [Spec.ascii "replicate"] ∧ ApiResource.locate c path .root = .replicate) ∨
    (path = [Spec.ascii "voucher"] ∧ ApiResource.locate c path .root = .collection) ∨
    ((ApiResource.locate c path .root).Quiet ∧ ApiResource.locate c path .root ≠ .replicate ∧
      ApiResource.locate c path .root ≠ .collection) := by
  match path with
  | [] => exact .inr (.inr ⟨trivial, by nofun, by nofun⟩)
  | s :: rest =>
    have e : ApiResource.locate c (s :: rest) .root = ApiResource.locate c rest (root_child s) := rfl
    rw [e]
    have page : ∀ a, a ≠ ApiAnswer.unauthorized → (ApiResource.page a).Quiet := by
      intro a ha; cases a <;> first | trivial | exact (ha rfl).elim
    have leaf : ∀ r : ApiResource, (r = .maintenance ∨ r = .version ∨ r = .price ∨ ∃ v, r = .view v) →
        (ApiResource.locate c rest r).Quiet ∧ ApiResource.locate c rest r ≠ .replicate ∧
        ApiResource.locate c rest r ≠ .collection := by
      intro r hr
      cases rest with
      | nil => rcases hr with rfl | rfl | rfl | ⟨v, rfl⟩ <;> exact ⟨trivial, by nofun, by nofun⟩
      | cons s' rest =>
        rw [locate_leaf c s' rest r (.inr hr)]
        exact ⟨trivial, by nofun, by nofun⟩
    rcases root_child_cases s with ⟨hs, h⟩ | ⟨hs, h⟩ | h | h | h | h | h <;> rw [h]
    · cases rest with
      | nil => exact .inl ⟨by rw [hs], rfl⟩
      | cons s' rest =>
        rw [locate_leaf c s' rest .replicate (.inl rfl)]
        exact .inr (.inr ⟨trivial, by nofun, by nofun⟩)
    · cases rest with
      | nil => exact .inr (.inl ⟨by rw [hs], rfl⟩)
      | cons s' rest =>
        have e' : ApiResource.locate c (s' :: rest) .collection =
            ApiResource.locate c rest (ApiResource.child c s' .collection) := rfl
        rw [e']
        refine .inr (.inr ?_)
        rcases collection_child c s' with ⟨v, h⟩ | h | h | h <;> rw [h]
        · cases rest with
          | nil => exact ⟨trivial, by nofun, by nofun⟩
          | cons s'' rest =>
            rw [locate_leaf c s'' rest (.view v) (.inr (.inr (.inr (.inr ⟨v, rfl⟩))))]
            exact ⟨trivial, by nofun, by nofun⟩
        all_goals
          rw [locate_page]
          exact ⟨trivial, by nofun, by nofun⟩
    · rw [locate_recover]; exact .inr (.inr ⟨trivial, by nofun, by nofun⟩)
    · exact .inr (.inr (leaf _ (.inl rfl)))
    · exact .inr (.inr (leaf _ (.inr (.inl rfl))))
    · exact .inr (.inr (leaf _ (.inr (.inr (.inl rfl)))))
    · rw [locate_page]; exact .inr (.inr ⟨trivial, by nofun, by nofun⟩)

theorem unsupported_quiet (m : String) : unsupported m ≠ .unauthorized := by
  unfold unsupported
  split <;> nofun

theorem render_price_quiet (cfg : ApiCfg) (ct : Option String) (body : Option Json) :
    render_price cfg ct body ≠ .unauthorized := by
  unfold render_price
  split
  · nofun
  · split
    · nofun
    · split <;> nofun

theorem get_quiet (n : ApiNode ω ρ κ) (r : ApiResource) (a : ApiAnswer) (h : r.get n = some a) :
    a ≠ .unauthorized := by
  unfold ApiResource.get at h
  repeat' split at h
  all_goals first
    | (cases h; nofun)
    | exact nomatch h

theorem bare_quiet (a : ApiAnswer) (h : a ≠ .unauthorized) : a.bare ≠ .unauthorized := by
  cases a <;> first | exact h | (intro he; cases he)

/-- Rendering never says 401. -/
theorem render_quiet (digested : ω → String) (readonly : String → Option ρ) (cfg : ApiCfg) (env : Env)
    (id : Nat) (req : NodeRequest) (n : ApiNode ω ρ κ) (r : ApiResource) (h : r.Quiet) :
    (r.render digested readonly cfg env id req n).2 ≠ .unauthorized := by
  have plain : ∀ r : ApiResource, ((r.get n).getD .notAllowed) ≠ .unauthorized := by
    intro r
    cases hg : r.get n with
    | none => nofun
    | some a => exact get_quiet n r a hg
  have head : ∀ r : ApiResource, (((r.get n).map ApiAnswer.bare).getD .serverError) ≠ .unauthorized := by
    intro r
    cases hg : r.get n with
    | none => nofun
    | some a => exact bare_quiet a (get_quiet n r a hg)
  unfold ApiResource.render
  split
  · rename_i a
    intro he
    dsimp only at he
    subst he
    exact h
  · split <;> nofun
  · split
    · nofun
    · split
      · nofun
      · exact unsupported_quiet _
  · split
    · exact render_price_quiet _ _ _
    · exact unsupported_quiet _
  · split
    · exact plain _
    · split
      · exact head _
      · split
        · split
          · split <;> nofun
          · exact unsupported_quiet _
        · exact unsupported_quiet _

theorem serve_token (digested : ω → String) (readonly : String → Option ρ) (cfg : ApiCfg) (env : Env)
    (id : Nat) (req : NodeRequest) (n : ApiNode ω ρ κ) :
    (n.serve digested readonly cfg env id req).1.token = n.token := by
  unfold ApiNode.serve
  split
  · rfl
  · rfl
  · unfold ApiResource.render
    repeat' split
    all_goals rfl

theorem node_step_token [DecidableEq κ] (reader : ω → ρ) (digested : ω → String) (readonly : String → Option ρ)
    (readcap : String → Option κ) (cfg : ApiCfg) (n : ApiNode ω ρ κ) (e : ApiEvent ω) :
    (n.step reader digested readonly readcap cfg e).1.token = n.token := by
  cases e with
  | request id env req => exact serve_token digested readonly cfg env id req n
  | message id payload =>
    simp only [ApiNode.step]
    split <;> rfl
  | redemption e => rfl
  | made id r => rfl

/-! ### Changes -/

theorem render_same (digested : ω → String) (readonly : String → Option ρ) (cfg : ApiCfg) (env : Env)
    (id : Nat) (req : NodeRequest) (n : ApiNode ω ρ κ) (r : ApiResource)
    (h1 : r = .replicate → req.method ≠ "POST") (h2 : r = .collection → req.method ≠ "PUT") :
    SameNode (r.render digested readonly cfg env id req n).1 n := by
  have same : ∀ a : ApiAnswer, SameNode (n, a).1 n := fun _ => ⟨rfl, rfl, rfl, rfl, rfl⟩
  unfold ApiResource.render
  split
  · exact same .later
  · split
    · exact ⟨rfl, rfl, rfl, rfl, rfl⟩
    · exact same .later
  · rw [if_neg (h1 rfl)]
    split <;> exact same .later
  · split <;> exact same .later
  · split
    · exact same .later
    · split
      · exact same .later
      · split
        · rw [if_neg (h2 rfl)]
          exact same .later
        · exact same .later

/-! ### Lease maintenance -/

theorem started_from_history (ops : List StoreOp) {t : Tables} {P : String → Prop}
    (hp : ∀ op ∈ ops, ∀ now m, op = .maintStart now m → P now)
    (h : ∀ r ∈ t.app.maint, P r.started) :
    ∀ r ∈ (runStore ops t).app.maint, P r.started := by
  induction ops generalizing t with
  | nil => exact h
  | cons op ops ih =>
    apply ih (fun o ho => hp o (by simp [ho]))
    have hpo := hp op (by simp)
    by_cases hn : NoMaint op
    · rw [step_noMaint hn]; exact h
    · cases op <;> simp only [NoMaint, not_true] at hn <;>
        simp only [StoreOp.step, StoreOp.prog, transact_map]
      case maintStart now m =>
        rw [maintStart_eq]
        cases m.rowid with
        | some _ => exact h
        | none =>
          intro r hr
          rcases List.mem_append.mp hr with hr | hr
          · exact h r hr
          · rw [List.mem_singleton.mp hr]
            exact hpo now m rfl
      case maintObserve pv sizes m =>
        rw [maintObserve_eq]
        cases required_passesE pv sizes with
        | error e => exact h
        | ok n =>
          intro r hr
          obtain ⟨r0, hr0, rfl⟩ := List.mem_map.mp hr
          split <;> exact h r0 hr0
      case maintFinish now m =>
        rw [maintFinish_eq]
        intro r hr
        obtain ⟨r0, hr0, rfl⟩ := List.mem_map.mp hr
        split <;> exact h r0 hr0

/-! ### Submitting again -/

theorem put_refused_start (cfg : RedeemCfg) (env : Env) (c : Controller) (v : String) (ht : c.todo = [])
    (h : redeem_start cfg v none c = .ok none) :
    c.run cfg [.redeem v none, .work env, .work env, .work env] = c := by
  have e1 : c.step cfg (.redeem v none) = { c with todo := [.redeem v none] } := by
    show (if c.todo.isEmpty then _ else _) = _
    rw [if_pos (by rw [ht]; rfl)]
  have ec : { c with todo := [] } = c := by
    obtain ⟨_, _, _, _, _, _, _⟩ := c
    dsimp only at ht
    subst ht
    rfl
  have e2 : (c.step cfg (.redeem v none)).step cfg (.work env) = c := by
    rw [e1]
    show Task.run cfg env (.redeem v none) { c with todo := [] } = c
    rw [ec]
    show (match redeem_start cfg v none c with
      | .error _ => c
      | .ok none => c
      | .ok (some f) => { c with todo := .iterate f :: c.todo, log := c.log ++ [.begun f.voucher f.counter] }) = c
    rw [h]
  have e3 : c.step cfg (.work env) = c := by
    show (match c.todo with
      | [] => c
      | task :: todo => task.run cfg env { c with todo := todo }) = c
    rw [ht]
  show (((c.step cfg (.redeem v none)).step cfg (.work env)).step cfg (.work env)).step cfg (.work env) = c
  rw [e2, e3, e3]

theorem redeem_start_none (cfg : RedeemCfg) (c : Controller) (v : String) (o : Voucher String)
    (hg : get_object v c.store = .ok o)
    (hs : (incorporate_transient_state c o).state.should_start_redemption = false) :
    redeem_start cfg v none c = .ok none := by
  unfold redeem_start get_voucher
  rw [hg]
  dsimp only
  rw [if_neg (by rw [hs]; decide)]

/-- What a submission does to the database. -/
theorem put_store (cfg : RedeemCfg) (env : Env) (c : Controller) (v : String) (ht : c.todo = []) :
    (c.run cfg [.redeem v none, .work env, .work env, .work env]).store = c.store ∨
    ∃ now expected k ts, (c.run cfg [.redeem v none, .work env, .work env, .work env]).store =
      added now v expected k ts c.store := by
  have e1 : c.step cfg (.redeem v none) = { c with todo := [.redeem v none] } := by
    show (if c.todo.isEmpty then _ else _) = _
    rw [if_pos (by rw [ht]; rfl)]
  have idle : ∀ d : Controller, d.todo = [] → d.step cfg (.work env) = d := by
    intro d hd
    show (match d.todo with
      | [] => d
      | task :: todo => task.run cfg env { d with todo := todo }) = d
    rw [hd]
  show ((((c.step cfg (.redeem v none)).step cfg (.work env)).step cfg (.work env)).step cfg (.work env)).store = _ ∨ _
  have e2 : ((c.step cfg (.redeem v none)).step cfg (.work env) = { c with todo := [] }) ∨
      ∃ f : Frame, f.voucher = v ∧ ((c.step cfg (.redeem v none)).step cfg (.work env)).todo = [.iterate f] ∧
        ((c.step cfg (.redeem v none)).step cfg (.work env)).store = c.store := by
    rw [e1]
    show (Task.run cfg env (.redeem v none) { c with todo := [] } = _) ∨ ∃ f : Frame, f.voucher = v ∧
      (Task.run cfg env (.redeem v none) { c with todo := [] }).todo = _ ∧
      (Task.run cfg env (.redeem v none) { c with todo := [] }).store = _
    simp only [Task.run]
    split
    · exact .inl rfl
    · exact .inl rfl
    · rename_i f hf
      refine .inr ⟨f, ?_, rfl, rfl⟩
      unfold redeem_start at hf
      repeat' split at hf
      all_goals first
        | (injection hf with hf; injection hf with hf; rw [← hf])
        | cases hf
  rcases e2 with e2 | ⟨f, hf, htd, hst⟩
  · left
    show ((((c.step cfg (.redeem v none)).step cfg (.work env)).step cfg (.work env)).step cfg (.work env)).store = _
    rw [e2, idle _ rfl, idle _ rfl]
  · have e3 : ∀ d : Controller, d.todo = [.iterate f] → d.store = c.store →
        (((d.step cfg (.work env)).todo = [] ∨ ∃ ts, (d.step cfg (.work env)).todo = [.perform f ts]) ∧
        ((d.step cfg (.work env)).store = c.store ∨ ∃ now expected k ts,
          (d.step cfg (.work env)).store = added now v expected k ts c.store)) := by
      intro d hd hds
      have : d.step cfg (.work env) = Task.run cfg env (.iterate f) { d with todo := [] } := by
        show (match d.todo with
          | [] => d
          | task :: todo => task.run cfg env { d with todo := todo }) = _
        rw [hd]
      rw [this]
      simp only [Task.run]
      split
      · unfold get_random_tokens
        cases token_count_for_group (↑cfg.num_redemption_groups) (↑f.total) ↑f.counter with
        | error e => exact ⟨.inl rfl, .inl hds⟩
        | ok k =>
          dsimp only
          rw [add_eq, hds]
          split
          · rename_i h
            split at h
            · cases h
            · split at h
              · cases h; exact ⟨.inl rfl, .inl rfl⟩
              · split at h
                · cases h
                · cases h; exact ⟨.inl rfl, .inl rfl⟩
          · rename_i h
            split at h
            · cases h; exact ⟨.inr ⟨_, rfl⟩, .inl rfl⟩
            · split at h
              · cases h
              · split at h
                · cases h; exact ⟨.inr ⟨_, rfl⟩, .inr ⟨_, _, _, _, by rw [hf]⟩⟩
                · cases h
      · exact ⟨.inl rfl, .inl hds⟩
    obtain ⟨htodo, hstore⟩ := e3 _ htd hst
    have e4 : ∀ d : Controller, (d.todo = [] ∨ ∃ ts, d.todo = [.perform f ts]) →
        (d.step cfg (.work env)).store = d.store := by
      intro d hd
      rcases hd with hd | ⟨ts, hd⟩
      · rw [idle d hd]
      · have : d.step cfg (.work env) = Task.run cfg env (.perform f ts) { d with todo := [] } := by
          show (match d.todo with
            | [] => d
            | task :: todo => task.run cfg env { d with todo := todo }) = _
          rw [hd]
        rw [this]
        simp only [Task.run, contact_issuer]
        repeat' split
        all_goals rfl
    show ((((c.step cfg (.redeem v none)).step cfg (.work env)).step cfg (.work env)).step cfg (.work env)).store = _ ∨
      ∃ now expected k ts, ((((c.step cfg (.redeem v none)).step cfg (.work env)).step cfg (.work env)).step cfg
        (.work env)).store = _
    rw [e4 _ htodo]
    exact hstore

/-! ### WebSockets -/

theorem locate_is_recover (c : Controller) (path : List Bytes) (h : ApiResource.locate c path .root = .recover) :
    ∃ rest, path = Spec.ascii "recover" :: rest := by
  match path with
  | [] => exact nomatch h
  | s :: rest =>
    refine ⟨rest, ?_⟩
    by_cases hs : s = Spec.ascii "recover"
    · rw [hs]
    · exfalso
      have h : ApiResource.locate c rest (root_child s) = .recover := h
      have key : ∀ r : ApiResource, r ≠ .recover → ApiResource.locate c rest r = .recover →
          ∃ s' rest', rest = s' :: rest' ∧ r.child c s' = .recover ∨ r = .root := by
        intro r hr hl
        cases rest with
        | nil => exact (hr hl).elim
        | cons s' rest' =>
          refine ⟨s', rest', ?_⟩
          cases r with
          | root => exact .inr rfl
          | recover => exact (hr rfl).elim
          | page a => rw [locate_page] at hl; exact nomatch hl
          | replicate => rw [locate_leaf _ _ _ _ (.inl rfl)] at hl; exact nomatch hl
          | maintenance => rw [locate_leaf _ _ _ _ (.inr (.inl rfl))] at hl; exact nomatch hl
          | version => rw [locate_leaf _ _ _ _ (.inr (.inr (.inl rfl)))] at hl; exact nomatch hl
          | price => rw [locate_leaf _ _ _ _ (.inr (.inr (.inr (.inl rfl))))] at hl; exact nomatch hl
          | view v => rw [locate_leaf _ _ _ _ (.inr (.inr (.inr (.inr ⟨v, rfl⟩))))] at hl; exact nomatch hl
          | collection =>
            exfalso
            have hl : ApiResource.locate c rest' (ApiResource.child c s' .collection) = .recover := hl
            rcases collection_child c s' with ⟨v, hc⟩ | hc | hc | hc
            · rw [hc] at hl
              cases rest' with
              | nil => exact nomatch hl
              | cons a b => rw [locate_leaf _ _ _ _ (.inr (.inr (.inr (.inr ⟨v, rfl⟩))))] at hl; exact nomatch hl
            all_goals (rw [hc, locate_page] at hl; exact nomatch hl)
      have hr : root_child s ≠ .recover ∧ root_child s ≠ .root ∧ ∀ s', (root_child s).child c s' ≠ .recover := by
        unfold root_child
        rw [if_neg (show ¬ s = ZKAP.ascii "recover" from hs)]
        repeat' split
        all_goals refine ⟨by nofun, by nofun, ?_⟩
        all_goals intro s'
        all_goals first
          | (intro he; cases he; done)
          | (rcases collection_child c s' with ⟨v, hc⟩ | hc | hc | hc <;> rw [hc] <;> nofun)
      obtain ⟨s', _, ⟨_, hc⟩ | hc⟩ := key _ hr.1 h
      · exact hr.2.2 s' hc
      · exact hr.2.1 hc

theorem render_recover (digested : ω → String) (readonly : String → Option ρ) (cfg : ApiCfg) (env : Env)
    (id : Nat) (req : NodeRequest) (n : ApiNode ω ρ κ) (r : ApiResource) :
    (r.render digested readonly cfg env id req n).1.recover = n.recover ∧
      ((r.render digested readonly cfg env id req n).1.sockets = n.sockets ∨
        (r = .recover ∧ req.websocket = true ∧ req.method = "GET" ∧
          (r.render digested readonly cfg env id req n).1.sockets = n.sockets ++ [id])) := by
  unfold ApiResource.render
  repeat' split
  all_goals first
    | exact ⟨rfl, .inl rfl⟩
    | (rename_i h; exact ⟨rfl, .inr ⟨rfl, h.1, h.2, rfl⟩⟩)

/-- What a request does to the recovery and the WebSockets. -/
theorem serve_recover (digested : ω → String) (readonly : String → Option ρ) (cfg : ApiCfg) (env : Env)
    (id : Nat) (req : NodeRequest) (n : ApiNode ω ρ κ) (t : Bytes) (ht : n.token = some t) :
    (n.serve digested readonly cfg env id req).1.recover = n.recover ∧
      ((n.serve digested readonly cfg env id req).1.sockets = n.sockets ∨
        (Opens t req ∧ (n.serve digested readonly cfg env id req).1.sockets = n.sockets ++ [id])) := by
  by_cases ha : Authorized t req.authorization
  · rw [serve_granted digested readonly cfg env id req n t ht ha]
    obtain ⟨h, h'⟩ := render_recover digested readonly cfg env id req n (ApiResource.locate n.controller req.path .root)
    refine ⟨h, ?_⟩
    rcases h' with h' | ⟨hr, hw, hm, hs⟩
    · exact .inl h'
    · exact .inr ⟨⟨ha, hw, hm, locate_is_recover _ _ hr⟩, hs⟩
  · rw [serve_refused digested readonly cfg env id req n t ht ha]
    exact ⟨rfl, .inl rfl⟩

/-! ### Settings -/

theorem get_int_setting {c : NodeConfig} {sec opt : String} {default value : Int}
    (h : Setting c sec opt default value) : c.get_int sec opt default = .ok value := by
  unfold NodeConfig.get_int
  rcases h with ⟨h, rfl⟩ | h
  · rw [h]
  · rw [h]; exact int_str_str_int value

theorem lookup_filterMap_options (c : NodeConfig) (sec : String) (options : List String) (o : String) (h : o ∈ options) :
    List.lookup o (options.filterMap fun o => (c.option sec o).map fun v => (o, v)) = c.option sec o := by
  induction options with
  | nil => exact nomatch h
  | cons p ps ih =>
    by_cases hp : o = p
    · subst hp
      cases hc : c.option sec o with
      | some v =>
        rw [List.filterMap_cons_some (b := (o, v)) (by rw [hc]; rfl), List.lookup_cons_self]
      | none =>
        rw [List.filterMap_cons_none (by rw [hc]; rfl)]
        by_cases hm : o ∈ ps
        · rw [ih hm, hc]
        · apply List.lookup_eq_none_iff.mpr
          intro q hq
          obtain ⟨r, hr, e⟩ := List.mem_filterMap.mp hq
          obtain ⟨v, _, e'⟩ := Option.map_eq_some_iff.mp e
          subst e'
          rw [bne_iff_ne]
          intro he
          dsimp only at he
          exact hm (he ▸ hr)
    · have hm : o ∈ ps := by
        rcases List.mem_cons.mp h with h | h
        · exact (hp h).elim
        · exact h
      cases hc : c.option sec p with
      | none =>
        rw [List.filterMap_cons_none (by rw [hc]; rfl), ih hm]
      | some v =>
        rw [List.filterMap_cons_some (b := (p, v)) (by rw [hc]; rfl)]
        rw [List.lookup_cons]
        rw [show (o == p) = false from beq_eq_false_iff_ne.mpr hp]
        exact ih hm

theorem read_setting {c : NodeConfig} {opt : String} {default value : Int}
    (hm : opt ∈ ["lease.crawl-interval.mean", "lease.crawl-interval.range", "lease.min-time-remaining"])
    (h : Setting c client_section opt default value) :
    read_duration (lease_options c) opt (default * 1000000) = .ok (value * 1000000) := by
  unfold read_duration lease_options
  have := lookup_filterMap_options c client_section _ opt hm
  rw [this]
  rcases h with ⟨h, rfl⟩ | h
  · rw [h]
  · rw [h]
    show parse_duration (str_int value) = _
    unfold parse_duration
    rw [int_str_str_int]

/-! ### Prices -/

theorem price_spec (k n v : Int) (hk : 0 < k) (hn : 0 ≤ n) (hv : 0 < v) (sizes : List Nat) :
    Price k n v sizes (price_calculate k n.toNat v (sizes.map Int.ofNat)) := by
  rw [C61_price k n.toNat v _ hk hv]
  induction sizes with
  | nil => exact .none
  | cons s ss ih =>
    rw [List.map_cons, List.map_cons, List.sum_cons]
    refine .file ⟨passes k s, passes v (passes k s), passes_leastCover k hk _ (Int.natCast_nonneg _),
      passes_leastCover v hv _ (passes_nonneg k hk (Int.natCast_nonneg _)), ?_⟩ ih
    rw [Int.toNat_of_nonneg hn]
    rfl

end ZKAP
