import Verif.Spec.Books
import Verif.Lemmas.Spending
import Verif.Lemmas.ServerSpent
import Verif.Props.Pricing

namespace ZKAP
open Spec

/-! ### The server's part -/

theorem filter_all_true {α} {f : α → Bool} {l : List α} (h : ∀ x ∈ l, f x = true) : l.filter f = l :=
  List.filter_eq_self.mpr h

/-- With passes that all verify, the server never says that one did not. -/
theorem no_failed {ok : Pass → Bool} {ps : List Pass} {l : List Nat} (h : FailedPositions ok ps l)
    (hok : ∀ p ∈ ps, ok p = true) : l = [] := by
  cases l with
  | nil => rfl
  | cons i l =>
    obtain ⟨p, hp, hf⟩ := (h.2 i).1 List.mem_cons_self
    rw [hok p (List.mem_of_getElem? hp)] at hf
    exact nomatch hf

/-- What the server records when a request with good passes succeeds. -/
def recorded (v : Int) (ps : List Pass) (r : PaidRequest) : CallAnswer → List Bytes
  | .ok buckets =>
    match r with
    | .allocate _ _ _ size _ => (ps.map Pass.preimage).take (total v (List.replicate buckets (size : Int))).toNat
    | _ => ps.map Pass.preimage
  | _ => []

theorem serve_spec (cfg : ServerConfig) (hv : 0 < cfg.pass_value) (r : PaidRequest) (wire : List Bytes)
    (ps : List Pass) (hp : Parses wire ps) (hok : ∀ p ∈ ps, cfg.verifies r.message p = true) (now : Int)
    (room : Nat → Bool) (s : Server) :
    (r.serve cfg wire now room s).1.spent =
      s.spent ++ recorded cfg.pass_value ps r (r.serve cfg wire now room s).2 ∧
    ∀ failed, (r.serve cfg wire now room s).2 = .rejected failed → failed = [] := by
  obtain ⟨val, h1, h2, h3⟩ := validate_passes_ok cfg r.message wire ps hp
  rw [filter_all_true hok] at h2
  have h4 := no_failed h3 hok
  cases r with
  | allocate si renew shs size canary =>
    unfold PaidRequest.serve
    simp only [PaidRequest.message] at h1
    simp only [remote_allocate_buckets, h1, check_pass_quantity_for_write, check_pass_quantity]
    split
    · rename_i e he
      split at he
      · cases he
        refine ⟨by simp [answer_of, recorded, ValidationResult.raise_for], fun failed hf => ?_⟩
        simp only [answer_of, ValidationResult.raise_for, CallAnswer.rejected.injEq] at hf
        rw [← hf, h4]
      · exact nomatch he
    · refine ⟨?_, fun failed hf => nomatch hf⟩
      have hop := (opened_spec ⟨wire, si, renew, shs, size, canary, now, room⟩
        (original_accepted s si shs room) s).2.2.1
      unfold opened at hop
      simp only [answer_of, recorded, hop, h2, required_passes_eq _ hv]
  | addLease si renew num =>
    unfold PaidRequest.serve
    simp only [PaidRequest.message] at h1
    simp only [remote_add_lease, h1, check_pass_quantity_for_lease, check_pass_quantity]
    split
    · rename_i e he
      split at he
      · cases he
        refine ⟨by simp [answer_of, recorded, ValidationResult.raise_for], fun failed hf => ?_⟩
        simp only [answer_of, ValidationResult.raise_for, CallAnswer.rejected.injEq] at hf
        rw [← hf, h4]
      · exact nomatch he
    · split
      · exact ⟨by simp only [answer_of, recorded, h2], fun failed hf => nomatch hf⟩
      · exact ⟨by simp [answer_of, recorded], fun failed hf => nomatch hf⟩
  | writev si we renew tw rv num =>
    unfold PaidRequest.serve
    simp only [PaidRequest.message] at h1
    simp only [remote_slot_writev, h1]
    split
    · exact ⟨by simp [answer_of, recorded], fun failed hf => nomatch hf⟩
    · split
      · refine ⟨by simp [answer_of, recorded, ValidationResult.raise_for], fun failed hf => ?_⟩
        simp only [answer_of, ValidationResult.raise_for, CallAnswer.rejected.injEq] at hf
        rw [← hf, h4]
      · cases hw : original_slot_writev we (s.buckets si) tw rv with
        | error e =>
          simp only
          have he : ∀ v q f, e ≠ .morePassesRequired v q f := by
            intro v q f he
            subst he
            unfold original_slot_writev at hw
            split at hw
            · exact nomatch hw
            · split at hw
              · exact nomatch hw
              · simp only at hw
                split at hw <;> exact nomatch hw
          have ha : answer_of (fun _ : Bool × Dict Nat (List Bytes) => 0) (.error e) = .error remoteFailure := by
            cases e <;> first | rfl | exact absurd rfl (he _ _ _)
          rw [ha]
          exact ⟨by simp [recorded], fun failed hf => nomatch hf⟩
        | ok x =>
          obtain ⟨bucket, good, read⟩ := x
          simp only
          split
          · exact ⟨by simp only [answer_of, recorded, h2], fun failed hf => nomatch hf⟩
          · exact ⟨by simp [answer_of, recorded], fun failed hf => nomatch hf⟩

/-! ### The client's part -/

theorem step_client (sign : Signer) (cfg : ServerConfig) (v : Int) (b : Books) (e : BooksEvent) :
    (b.step sign cfg v e).client = b.client ∨
    ∃ ce, (b.step sign cfg v e).client = b.client.step sign ce ∧
      ∀ op, ce = .other op → e = .other op := by
  cases e with
  | start r o =>
    refine .inr ⟨.start (r.on_success v) r.message (r.num_passes v) o, ?_, fun op h => nomatch h⟩
    simp only [Books.step, Books.client, Client.step, List.map_append, List.map_map]
    congr 2
    exact List.map_id _
  | serve i now room =>
    left
    unfold Books.step
    dsimp only
    split
    · rename_i c r hi
      simp only [Books.client, List.map_append, List.map_cons, List.map_nil]
      congr 1
      have := congrArg (List.map Pending.call) (getElem?_split hi)
      rw [List.map_append, List.map_append] at this
      exact this.symm
    · rfl
  | deliver i o =>
    unfold Books.step
    dsimp only
    split
    · rename_i c r a hi
      refine .inr ⟨.answer i a o, ?_, fun op h => nomatch h⟩
      simp only [Books.client, Client.step, List.getElem?_map, hi, Option.map_some, List.map_append,
        List.map_map, List.map_take, List.map_drop]
      congr 3
      exact List.map_id _
    · exact .inl rfl
  | lose i e o =>
    unfold Books.step
    dsimp only
    split
    · rename_i c r a hi
      refine .inr ⟨.answer i (.error e) o, ?_, fun op h => nomatch h⟩
      simp only [Books.client, Client.step, List.getElem?_map, hi, Option.map_some, List.map_append,
        List.map_map, List.map_take, List.map_drop]
      congr 3
      exact List.map_id _
    · exact .inl rfl
  | other op =>
    refine .inr ⟨.other op, ?_, fun op' h => by cases h; rfl⟩
    simp only [Books.step, Client.step, Books.client]
    split <;> rfl
  | foreign op => exact .inl rfl
  | restart => exact .inr ⟨.restart, rfl, fun op h => nomatch h⟩

theorem start_signed {sign : Signer} {o : Order} {m : Bytes} {n : Int} {t : Tables} {g : PassGroup}
    (h : (call_start sign o m n t).1 = .waiting g) :
    g.message = m ∧ ∃ ts ps, sign m ts = .ok ps ∧ g.tokens = ts.zip ps := by
  unfold call_start spending_get at h
  split at h
  · exact nomatch h
  · rename_i pg t1 he
    split at he
    · exact nomatch he
    · rename_i ts t2 hg
      split at he
      · exact nomatch he
      · rename_i ps hs
        cases he
        cases h
        exact ⟨rfl, ts, ps, hs, rfl⟩

/-- What is true of every call in progress. -/
structure PendingOk (cfg : ServerConfig) (preimage : String → Bytes) (v : Int) (p : Pending) : Prop where
  kind : p.call.on_success = p.request.on_success v
  message : p.call.pass_group.message = p.request.message
  passes : ∀ x q, (x, q) ∈ p.call.pass_group.tokens →
    q.preimage = preimage x ∧ Pass.from_bytes q.pass_bytes = .ok q ∧ cfg.verifies p.request.message q = true
  answer : ∀ failed, p.answer = some (.rejected failed) → failed = []

/-- What is true throughout. -/
structure BooksInv (cfg : ServerConfig) (preimage : String → Bytes) (tokens : String → Prop) (v : Int)
    (b : Books) : Prop where
  client : ClientInv b.client
  clean : b.store.app.invalid = []
  real : ∀ x, Stored b.store x → tokens x
  calls : ∀ p ∈ b.calls, PendingOk cfg preimage v p

theorem held_stored {t : Tables} {held : List String} (h : Held t held) {x : String} (hx : x ∈ held) :
    Stored t x := by
  have hu := h.perm.mem_iff.mpr hx
  obtain ⟨r, hr, rfl, -⟩ := h.wf.in_use_stored x hu
  exact ⟨r, hr, rfl⟩

theorem call_held {b : Books} (h : ClientInv b.client) {i : Nat} {p : Pending} (hi : b.calls[i]? = some p) :
    Held b.store (((b.calls.take i).map Pending.call).flatMap holds ++ p.call.pass_group.unblinded_tokens ++
      ((b.calls.drop (i + 1)).map Pending.call).flatMap holds) := by
  have hh := h.held
  unfold Books.client at hh
  dsimp only at hh
  rw [getElem?_split hi] at hh
  simp only [List.map_append, List.map_cons, List.map_nil, List.flatMap_append, List.flatMap_cons,
    List.flatMap_nil, List.append_nil] at hh
  exact hh

theorem holds_stored {cfg : ServerConfig} {preimage : String → Bytes} {tokens : String → Prop} {v : Int}
    {b : Books} (h : BooksInv cfg preimage tokens v b) {i : Nat} {p : Pending} (hi : b.calls[i]? = some p)
    {x : String} (hx : x ∈ holds p.call) : Stored b.store x :=
  held_stored (call_held h.client hi) (List.mem_append_left _ (List.mem_append_right _ hx))

theorem holds_nodup {b : Books} (h : ClientInv b.client) {i : Nat} {p : Pending} (hi : b.calls[i]? = some p) :
    (holds p.call).Nodup := by
  have := (call_held h hi).nodup
  rw [List.nodup_append, List.nodup_append] at this
  exact this.1.2.1

theorem payment_sublist (v : Int) (p : Pending) : (payment v p).Sublist (holds p.call) := by
  unfold payment
  split
  · split
    · exact List.take_sublist _ _
    · exact List.Sublist.refl _
  · exact List.nil_sublist _

theorem underWay_split (v : Int) {b : Books} {i : Nat} {p : Pending} (hi : b.calls[i]? = some p) (x : String) :
    (underWay v b).count x = ((b.calls.take i).flatMap (payment v)).count x + (payment v p).count x +
      ((b.calls.drop (i + 1)).flatMap (payment v)).count x := by
  unfold underWay
  have := congrArg (fun l => (l.flatMap (payment v)).count x) (getElem?_split hi)
  simp only [List.flatMap_append, List.flatMap_cons, List.flatMap_nil, List.append_nil, List.count_append] at this
  omega

theorem count_map_inj {preimage : String → Bytes} {tokens : String → Prop}
    (inj : ∀ x y, tokens x → tokens y → preimage x = preimage y → x = y) {x : String} (hx : tokens x) :
    ∀ l : List String, (∀ y ∈ l, tokens y) → (l.map preimage).count (preimage x) = l.count x := by
  intro l
  induction l with
  | nil => intro _; rfl
  | cons y l ih =>
    intro h
    rw [List.map_cons, List.count_cons, List.count_cons, ih (fun z hz => h z (List.mem_cons_of_mem _ hz))]
    congr 1
    by_cases hxy : y = x
    · subst hxy; simp
    · have : ¬ preimage y = preimage x := fun he => hxy (inj y x (h y List.mem_cons_self) hx he)
      simp [hxy, this]

/-- What the server records is what the client will regard as paid. -/
theorem recorded_payment {cfg : ServerConfig} {preimage : String → Bytes} {v : Int} {p : Pending}
    (hp : PendingOk cfg preimage v p) (a : CallAnswer) :
    recorded v p.call.pass_group.passes p.request a = (payment v { p with answer := some a }).map preimage := by
  have e : p.call.pass_group.passes.map Pass.preimage = (holds p.call).map preimage := by
    unfold PassGroup.passes holds
    rw [List.map_map, List.map_map]
    apply List.map_congr_left
    rintro ⟨x, q⟩ hq
    exact (hp.passes x q hq).1
  unfold recorded payment
  cases a with
  | ok n =>
    dsimp only
    cases p.request with
    | allocate => dsimp only; rw [e, List.map_take]
    | addLease => exact e
    | writev => exact e
  | rejected f => rfl
  | error e => rfl

theorem deliver_ok {sign : Signer} {cfg : ServerConfig} {preimage : String → Bytes} {v : Int} (hv : 0 < v)
    {p : Pending} (hp : PendingOk cfg preimage v p) {n : Nat} (ha : p.answer = some (.ok n)) {t : Tables}
    {a b : List String} (h : Held t (a ++ p.call.pass_group.unblinded_tokens ++ b)) (o : Order) :
    ∃ t', call_answer sign o p.call.on_success p.call.num_passes p.call.pass_group (.ok n) t = (.returned, t') ∧
      t'.app = { t.app with unblinded := t.app.unblinded.filter (·.token ∉ payment v p) } := by
  obtain ⟨s, t', h1, -, -, h4⟩ := answer_ok_held (sign := sign) h o p.call.on_success p.call.num_passes n
  rw [hp.kind] at h1 h4 ⊢
  unfold payment
  rw [ha]
  cases hr : p.request with
  | allocate si renew shs size canary =>
    rw [hr] at h1 h4
    simp only [PaidRequest.on_success] at h1 h4 ⊢
    rw [C01_checked_eq _ hv, required_passes_eq _ hv] at h4
    dsimp only at h4
    exact ⟨t', by rw [h1, h4.1], h4.2⟩
  | addLease =>
    rw [hr] at h1 h4
    simp only [PaidRequest.on_success] at h1 h4 ⊢
    exact ⟨t', by rw [h1, h4.1], h4.2⟩
  | writev =>
    rw [hr] at h1 h4
    simp only [PaidRequest.on_success] at h1 h4 ⊢
    exact ⟨t', by rw [h1, h4.1], h4.2⟩

theorem deliver_refused {sign : Signer} {cfg : ServerConfig} {preimage : String → Bytes} {v : Int}
    {p : Pending} (hp : PendingOk cfg preimage v p) {ans : CallAnswer} (ha : p.answer = some ans)
    (hno : ∀ n, ans ≠ .ok n) {t : Tables}
    {a b : List String} (h : Held t (a ++ p.call.pass_group.unblinded_tokens ++ b)) (o : Order) :
    ∃ e t', call_answer sign o p.call.on_success p.call.num_passes p.call.pass_group ans t = (.raised e, t') ∧
      t'.app = t.app := by
  cases ans with
  | ok n => exact absurd rfl (hno n)
  | error e =>
    obtain ⟨t', h1, h2, -⟩ := answer_error_held (sign := sign) h o p.call.on_success p.call.num_passes e
    exact ⟨_, t', h1, h2⟩
  | rejected f =>
    rw [hp.answer f ha]
    obtain ⟨t', h1, h2, -⟩ := answer_rejected_nil_held (sign := sign) h o p.call.on_success p.call.num_passes
    exact ⟨_, t', h1, h2⟩

/-- How an event changes what is on record about a token. -/
structure Effect (cfg : ServerConfig) (preimage : String → Bytes) (tokens : String → Prop) (v : Int)
    (b b' : Books) (lost : List String) (e : BooksEvent) : Prop where
  inv : BooksInv cfg preimage tokens v b'
  gained : ∀ x, Stored b'.store x → Stored b.store x ∨ ∃ op, e = .other op ∧ Issues x op
  balance : ∀ x, tokens x → ∃ gone : Nat,
    b'.server.spent.count (preimage x) + (underWay v b).count x =
      b.server.spent.count (preimage x) + (underWay v b').count x + lost.count x + gone ∧
    ((gone = 0 ∧ (Stored b.store x → Stored b'.store x)) ∨ (gone = 1 ∧ Stored b.store x ∧ ¬ Stored b'.store x))

theorem stored_filter {t t' : Tables} {l : List String}
    (h : t'.app = { t.app with unblinded := t.app.unblinded.filter (·.token ∉ l) }) (x : String) :
    Stored t' x ↔ Stored t x ∧ x ∉ l := by
  unfold Stored
  rw [h]
  constructor
  · rintro ⟨r, hr, rfl⟩
    obtain ⟨h1, h2⟩ := List.mem_filter.mp hr
    exact ⟨⟨r, h1, rfl⟩, of_decide_eq_true h2⟩
  · rintro ⟨⟨r, hr, rfl⟩, hx⟩
    exact ⟨r, List.mem_filter.mpr ⟨hr, decide_eq_true hx⟩, rfl⟩

theorem stored_same {t t' : Tables} (h : t'.app = t.app) (x : String) : Stored t' x ↔ Stored t x := by
  unfold Stored; rw [h]

theorem mem_of_take_drop {α} {l : List α} {i : Nat} {p : α} (h : p ∈ l.take i ++ l.drop (i + 1)) : p ∈ l := by
  rcases List.mem_append.mp h with h | h
  · exact List.mem_of_mem_take h
  · exact List.mem_of_mem_drop h

/-- A call that ends without being paid for: nothing changes but the payment under way. -/
theorem effect_dropped {cfg : ServerConfig} {preimage : String → Bytes} {tokens : String → Prop} {v : Int}
    {b b' : Books} (h : BooksInv cfg preimage tokens v b) {i : Nat} {p : Pending} (hi : b.calls[i]? = some p)
    (hc : ClientInv b'.client) (happ : b'.store.app = b.store.app)
    (hcalls : b'.calls = b.calls.take i ++ b.calls.drop (i + 1)) (hs : b'.server = b.server)
    (e : BooksEvent) : Effect cfg preimage tokens v b b' (payment v p) e := by
  refine ⟨⟨hc, by rw [happ]; exact h.clean, fun x hx => h.real x ((stored_same happ x).1 hx), fun q hq => ?_⟩,
    fun x hx => .inl ((stored_same happ x).1 hx), fun x hx => ⟨0, ?_, .inl ⟨rfl, (stored_same happ x).2⟩⟩⟩
  · rw [hcalls] at hq
    exact h.calls q (mem_of_take_drop hq)
  · rw [hs, underWay_split v hi]
    unfold underWay
    rw [hcalls, List.flatMap_append, List.count_append]
    omega

theorem effect (sign : Signer) (works : Signs sign) (cfg : ServerConfig) (preimage : String → Bytes)
    (tokens : String → Prop) (hv : 0 < cfg.pass_value) (real : RealTokens sign cfg preimage tokens)
    (b : Books) (h : BooksInv cfg preimage tokens cfg.pass_value b) (e : BooksEvent)
    (issued : ∀ op, e = .other op → ∀ x, Issues x op → tokens x)
    (others : ∀ op, e = .foreign op → ∀ x, tokens x → preimage x ∉ validPreimages cfg op) :
    Effect cfg preimage tokens cfg.pass_value b (b.step sign cfg cfg.pass_value e)
      (lostBy cfg.pass_value b e) e := by
  have hc : ClientInv (b.step sign cfg cfg.pass_value e).client := by
    rcases step_client sign cfg cfg.pass_value b e with hs | ⟨ce, hs, -⟩
    · rw [hs]; exact h.client
    · rw [hs]
      apply client_inv_step works h.client
      intro op _ x _
      unfold invalidTokens Books.client
      dsimp only
      rw [h.clean]
      exact List.not_mem_nil
  have idle : (b.step sign cfg cfg.pass_value e) = b → lostBy cfg.pass_value b e = [] →
      Effect cfg preimage tokens cfg.pass_value b (b.step sign cfg cfg.pass_value e)
        (lostBy cfg.pass_value b e) e := by
    intro hb hl
    rw [hb, hl]
    exact ⟨h, fun x hx => .inl hx, fun x hx => ⟨0, by simp, .inl ⟨rfl, id⟩⟩⟩
  cases e with
  | start r o =>
    obtain ⟨-, happ, -⟩ := start_held works h.client.held o r.message (r.num_passes cfg.pass_value)
    have happ' : (b.step sign cfg cfg.pass_value (.start r o)).store.app = b.store.app := happ
    refine ⟨⟨hc, by rw [happ']; exact h.clean, fun x hx => h.real x ((stored_same happ' x).1 hx), fun p hp => ?_⟩,
      fun x hx => .inl ((stored_same happ' x).1 hx),
      fun x hx => ⟨0, ?_, .inl ⟨rfl, (stored_same happ' x).2⟩⟩⟩
    · simp only [Books.step] at hp
      rcases List.mem_append.mp hp with hp | hp
      · exact h.calls p hp
      · obtain ⟨c, hcm, rfl⟩ := List.mem_map.mp hp
        cases hst : (call_start sign o r.message (r.num_passes cfg.pass_value) b.store).1 with
        | waiting g =>
          rw [hst, place, List.mem_singleton] at hcm
          subst hcm
          obtain ⟨hm, ts, ps, hsig, hg⟩ := start_signed hst
          refine ⟨rfl, hm, fun x q hq => ?_, fun f hf => nomatch hf⟩
          dsimp only at hq
          have htok : tokens x := by
            apply h.real
            have hmem : (⟨⟨r.on_success cfg.pass_value, r.num_passes cfg.pass_value, g⟩, r, none⟩ : Pending) ∈
                (b.step sign cfg cfg.pass_value (.start r o)).calls := by
              simp only [Books.step, hst, place]
              exact List.mem_append_right _ List.mem_cons_self
            have hx : x ∈ (b.step sign cfg cfg.pass_value (.start r o)).client.active.flatMap holds :=
              List.mem_flatMap.mpr ⟨_, List.mem_map_of_mem (f := Pending.call) hmem,
                List.mem_map_of_mem (f := Prod.fst) hq⟩
            exact (stored_same happ' x).1 (held_stored hc.held hx)
          rw [hg] at hq
          exact real.pass _ ts ps hsig x q hq htok
        | returned => rw [hst] at hcm; cases hcm
        | raised e => rw [hst] at hcm; cases hcm
    · have : underWay cfg.pass_value (b.step sign cfg cfg.pass_value (.start r o)) = underWay cfg.pass_value b := by
        unfold underWay
        simp only [Books.step, List.flatMap_append]
        have : ∀ l : List Call, (l.map (fun c => (⟨c, r, none⟩ : Pending))).flatMap (payment cfg.pass_value) = [] := by
          intro l
          induction l with
          | nil => rfl
          | cons c l ih => rw [List.map_cons, List.flatMap_cons, ih]; rfl
        rw [this, List.append_nil]
      rw [this]
      simp only [lostBy, List.count_nil]
      have : (b.step sign cfg cfg.pass_value (.start r o)).server = b.server := rfl
      rw [this]
      rfl
  | serve i now room =>
    cases hi : b.calls[i]? with
    | none => exact idle (by simp only [Books.step, hi]) rfl
    | some p =>
      obtain ⟨c, r, a⟩ := p
      cases a with
      | some a => exact idle (by simp only [Books.step, hi]) rfl
      | none =>
        have hp := h.calls _ (List.mem_of_getElem? hi)
        have hparse : Parses (c.pass_group.passes.map Pass.pass_bytes) c.pass_group.passes := by
          unfold Parses
          rw [List.map_map]
          apply List.map_congr_left
          intro q hq
          obtain ⟨⟨x, q'⟩, hm, rfl⟩ := List.mem_map.mp hq
          exact (hp.passes x q' hm).2.1
        have hok : ∀ q ∈ c.pass_group.passes, cfg.verifies r.message q = true := by
          intro q hq
          obtain ⟨⟨x, q'⟩, hm, rfl⟩ := List.mem_map.mp hq
          exact (hp.passes x q' hm).2.2
        obtain ⟨h1, h2⟩ := serve_spec cfg hv r _ _ hparse hok now room b.server
        rw [recorded_payment hp] at h1
        have hb : b.step sign cfg cfg.pass_value (.serve i now room) =
            { b with
              server := (r.serve cfg (c.pass_group.passes.map Pass.pass_bytes) now room b.server).1
              calls := b.calls.take i ++ [⟨c, r, some (r.serve cfg (c.pass_group.passes.map Pass.pass_bytes) now room
                b.server).2⟩] ++ b.calls.drop (i + 1) } := by
          simp only [Books.step, hi]
        rw [hb] at hc ⊢
        generalize r.serve cfg (c.pass_group.passes.map Pass.pass_bytes) now room b.server = res at *
        refine ⟨⟨hc, h.clean, h.real, fun q hq => ?_⟩, fun x hx => .inl hx,
          fun x hx => ⟨0, ?_, .inl ⟨rfl, id⟩⟩⟩
        · dsimp only at hq
          rw [List.mem_append, List.mem_append, List.mem_singleton] at hq
          rcases hq with (hq | rfl) | hq
          · exact h.calls q (List.mem_of_mem_take hq)
          · exact ⟨hp.kind, hp.message, hp.passes, fun f hf => h2 f (Option.some.inj hf)⟩
          · exact h.calls q (List.mem_of_mem_drop hq)
        · rw [underWay_split _ hi]
          unfold underWay
          simp only [List.flatMap_append, List.flatMap_cons, List.flatMap_nil, List.append_nil, List.count_append,
            lostBy, List.count_nil]
          rw [h1, List.count_append, count_map_inj real.distinct hx
            (payment cfg.pass_value ⟨c, r, some res.2⟩) (fun y hy =>
              h.real y (holds_stored h hi ((payment_sublist _ ⟨c, r, some res.2⟩).subset hy)))]
          have : payment cfg.pass_value ⟨c, r, none⟩ = [] := rfl
          rw [this]
          simp only [List.count_nil]
          omega
  | deliver i o =>
    cases hi : b.calls[i]? with
    | none => exact idle (by simp only [Books.step, hi]) rfl
    | some p =>
      obtain ⟨c, r, a⟩ := p
      cases a with
      | none => exact idle (by simp only [Books.step, hi]) rfl
      | some a =>
        have hp := h.calls _ (List.mem_of_getElem? hi)
        have hh := call_held h.client hi
        by_cases hok : ∃ n, a = .ok n
        · obtain ⟨n, rfl⟩ := hok
          obtain ⟨t', h1, h2⟩ := deliver_ok (sign := sign) hv hp rfl hh o
          have hb : b.step sign cfg cfg.pass_value (.deliver i o) =
              { b with store := t', calls := b.calls.take i ++ b.calls.drop (i + 1) } := by
            simp only [Books.step, hi, h1, place, List.map_nil, List.append_nil]
          rw [hb] at hc ⊢
          refine ⟨⟨hc, by dsimp only; rw [h2]; exact h.clean, fun x hx => h.real x ((stored_filter h2 x).1 hx).1,
            fun q hq => h.calls q (mem_of_take_drop hq)⟩, fun x hx => .inl ((stored_filter h2 x).1 hx).1,
            fun x hx => ⟨(payment cfg.pass_value ⟨c, r, some (.ok n)⟩).count x, ?_, ?_⟩⟩
          · rw [underWay_split _ hi]
            unfold underWay
            simp only [List.flatMap_append, List.count_append, lostBy, List.count_nil]
            omega
          · by_cases hm : x ∈ payment cfg.pass_value ⟨c, r, some (.ok n)⟩
            · right
              have hnd := (payment_sublist cfg.pass_value ⟨c, r, some (.ok n)⟩).nodup (holds_nodup h.client hi)
              exact ⟨by rw [hnd.count, if_pos hm], holds_stored h hi ((payment_sublist _ _).subset hm),
                fun hs => ((stored_filter h2 x).1 hs).2 hm⟩
            · exact .inl ⟨List.count_eq_zero.mpr hm, fun hs => (stored_filter h2 x).2 ⟨hs, hm⟩⟩
        · have hno : ∀ n, a ≠ .ok n := fun n hn => hok ⟨n, hn⟩
          obtain ⟨e, t', h1, h2⟩ := deliver_refused (sign := sign) hp rfl hno hh o
          have hb : b.step sign cfg cfg.pass_value (.deliver i o) =
              { b with store := t', calls := b.calls.take i ++ b.calls.drop (i + 1) } := by
            simp only [Books.step, hi, h1, place, List.map_nil, List.append_nil]
          rw [hb] at hc ⊢
          have hpay : payment cfg.pass_value ⟨c, r, some a⟩ = [] := by
            cases a with
            | ok n => exact absurd rfl (hno n)
            | rejected f => rfl
            | error e => rfl
          have := effect_dropped (b' := { b with store := t', calls := b.calls.take i ++ b.calls.drop (i + 1) })
            h hi hc h2 rfl rfl (.deliver i o)
          rw [hpay] at this
          exact this
  | lose i e o =>
    cases hi : b.calls[i]? with
    | none => exact idle (by simp only [Books.step, hi]) (by simp only [lostBy, hi, Option.elim])
    | some p =>
      obtain ⟨c, r, a⟩ := p
      obtain ⟨t', h1, h2, -⟩ := answer_error_held (sign := sign) (call_held h.client hi) o c.on_success c.num_passes e
      have hb : b.step sign cfg cfg.pass_value (.lose i e o) =
          { b with store := t', calls := b.calls.take i ++ b.calls.drop (i + 1) } := by
        simp only [Books.step, hi, h1, place, List.map_nil, List.append_nil]
      rw [hb] at hc ⊢
      have := effect_dropped (b' := { b with store := t', calls := b.calls.take i ++ b.calls.drop (i + 1) })
        h hi hc h2 rfl rfl (.lose i e o)
      simp only [lostBy, hi, Option.elim]
      exact this
  | other op =>
    cases ho : outside op with
    | false => exact idle (by simp [Books.step, ho]) rfl
    | true =>
      obtain ⟨-, h2, h3⟩ := outside_temp ho b.store
      have hb : b.step sign cfg cfg.pass_value (.other op) = { b with store := (op.step b.store).2 } := by
        simp [Books.step, ho]
      rw [hb] at hc ⊢
      have hg : ∀ x, Stored (op.step b.store).2 x → Stored b.store x ∨ Issues x op := by
        rintro x ⟨r, hr, rfl⟩
        rcases h3 r hr with hr | hr
        · exact .inl ⟨r, hr, rfl⟩
        · exact .inr hr
      have hk : ∀ x, Stored b.store x → Stored (op.step b.store).2 x := by
        rintro x ⟨r, hr, rfl⟩
        by_cases hn : Neutral op
        · exact ⟨r, (step_neutral hn b.store).1.symm ▸ hr, rfl⟩
        · cases op <;> simp only [Neutral, not_true] at hn <;> simp only [outside, Bool.false_eq_true] at ho
          case insert now v pk ts c s =>
            rw [step_insert]
            split
            · exact ⟨r, hr, rfl⟩
            · split
              · exact ⟨r, List.mem_append_left _ hr, rfl⟩
              · exact ⟨r, hr, rfl⟩
      refine ⟨⟨hc, by dsimp only; rw [h2]; exact h.clean, fun x hx => ?_, h.calls⟩, fun x hx => ?_,
        fun x hx => ⟨0, ?_, .inl ⟨rfl, hk x⟩⟩⟩
      · rcases hg x hx with hx | hx
        · exact h.real x hx
        · exact issued op rfl x hx
      · rcases hg x hx with hx | hx
        · exact .inl hx
        · exact .inr ⟨op, rfl, hx⟩
      · simp only [lostBy, List.count_nil]
        rfl
  | foreign op =>
    obtain ⟨new, -, h1, -, h3, -⟩ := spent_step cfg hv b.server op
    refine ⟨⟨hc, h.clean, h.real, h.calls⟩, fun x hx => .inl hx, fun x hx => ⟨0, ?_, .inl ⟨rfl, id⟩⟩⟩
    have hn : new.count (preimage x) = 0 :=
      List.count_eq_zero.mpr (fun hm => others op rfl x hx (h3.subset hm))
    show (b.server.step cfg op).spent.count (preimage x) + (underWay cfg.pass_value b).count x =
      _ + (underWay cfg.pass_value b).count x + _ + 0
    rw [h1, List.count_append, hn]
    simp only [lostBy, List.count_nil]
    omega
  | restart =>
    have happ : (StoreOp.restart.step b.store).2.app = b.store.app := rfl
    refine ⟨⟨hc, h.clean, fun x hx => h.real x ((stored_same happ x).1 hx), fun p hp => nomatch hp⟩,
      fun x hx => .inl ((stored_same happ x).1 hx), fun x hx => ⟨0, ?_, .inl ⟨rfl, (stored_same happ x).2⟩⟩⟩
    show b.server.spent.count (preimage x) + _ = b.server.spent.count (preimage x) + List.count x [] + _ + 0
    simp only [lostBy, List.count_nil]
    omega

/-- Induction on a list from its end. -/
theorem snoc_induction {α} {motive : List α → Prop} (l : List α) (nil : motive [])
    (snoc : ∀ l a, motive l → motive (l ++ [a])) : motive l := by
  have : ∀ l : List α, motive l.reverse := by
    intro l
    induction l with
    | nil => exact nil
    | cons a l ih => rw [List.reverse_cons]; exact snoc _ _ ih
  rw [← List.reverse_reverse l]
  exact this _

theorem books_run_snoc (sign : Signer) (cfg : ServerConfig) (v : Int) (b : Books) (es : List BooksEvent)
    (e : BooksEvent) : b.run sign cfg v (es ++ [e]) = (b.run sign cfg v es).step sign cfg v e := by
  unfold Books.run; rw [List.foldl_append]; rfl

theorem lostPayments_snoc (sign : Signer) (cfg : ServerConfig) (v : Int) (e : BooksEvent)
    (es : List BooksEvent) : ∀ b : Books, lostPayments sign cfg v b (es ++ [e]) =
      lostPayments sign cfg v b es ++ lostBy v (b.run sign cfg v es) e := by
  induction es with
  | nil => intro b; simp [lostPayments, Books.run]
  | cons a es ih =>
    intro b
    rw [List.cons_append, lostPayments, lostPayments, ih, List.append_assoc]
    rfl

theorem everStored_snoc (sign : Signer) (cfg : ServerConfig) (v : Int) (b : Books) (es : List BooksEvent)
    (e : BooksEvent) (x : String) :
    EverStored sign cfg v b (es ++ [e]) x ↔
      EverStored sign cfg v b es x ∨ Stored (b.run sign cfg v (es ++ [e])).store x := by
  constructor
  · rintro ⟨p, hp, hs⟩
    rcases List.prefix_concat_iff.mp hp with rfl | hp
    · exact .inr hs
    · exact .inl ⟨p, hp, hs⟩
  · rintro (⟨p, hp, hs⟩ | hs)
    · exact ⟨p, hp.trans (List.prefix_append _ _), hs⟩
    · exact ⟨_, List.prefix_refl _, hs⟩

theorem honest_front {sign : Signer} {cfg : ServerConfig} {v : Int} {preimage : String → Bytes}
    {tokens : String → Prop} {b : Books} {es : List BooksEvent} {e : BooksEvent}
    (h : Honest sign cfg v preimage tokens b (es ++ [e])) : Honest sign cfg v preimage tokens b es :=
  ⟨fun before op after he => h.issued before op (after ++ [e]) (by rw [he]; simp),
    fun op hop => h.others op (List.mem_append_left _ hop)⟩

/-- The books balance. -/
theorem books_balance (sign : Signer) (works : Signs sign) (cfg : ServerConfig) (preimage : String → Bytes)
    (tokens : String → Prop) (hv : 0 < cfg.pass_value) (real : RealTokens sign cfg preimage tokens) (s : Server)
    (new : ∀ x, tokens x → preimage x ∉ s.spent) (es : List BooksEvent) :
    Honest sign cfg cfg.pass_value preimage tokens { server := s } es →
    BooksInv cfg preimage tokens cfg.pass_value (Books.run sign cfg cfg.pass_value { server := s } es) ∧
    ∀ x, tokens x → ∃ gone : Nat,
      (Books.run sign cfg cfg.pass_value { server := s } es).server.spent.count (preimage x) =
        (underWay cfg.pass_value (Books.run sign cfg cfg.pass_value { server := s } es)).count x +
        (lostPayments sign cfg cfg.pass_value { server := s } es).count x + gone ∧
      ((gone = 1 ∧ EverStored sign cfg cfg.pass_value { server := s } es x ∧
          ¬ Stored (Books.run sign cfg cfg.pass_value { server := s } es).store x) ∨
       (gone = 0 ∧ (EverStored sign cfg cfg.pass_value { server := s } es x →
          Stored (Books.run sign cfg cfg.pass_value { server := s } es).store x))) := by
  induction es using snoc_induction with
  | nil =>
    intro _
    refine ⟨⟨clientInv_init, rfl, fun x hx => ?_, fun p hp => nomatch hp⟩, fun x hx => ⟨0, ?_, .inr ⟨rfl, ?_⟩⟩⟩
    · obtain ⟨r, hr, -⟩ := hx; exact nomatch hr
    · show s.spent.count (preimage x) = List.count x [] + List.count x [] + 0
      rw [List.count_eq_zero.mpr (new x hx)]; rfl
    · rintro ⟨p, hp, hs⟩
      rw [List.prefix_nil.mp hp] at hs
      exact hs
  | snoc es e ih =>
    intro hon
    obtain ⟨hinv, hbal⟩ := ih (honest_front hon)
    have heff := effect sign works cfg preimage tokens hv real _ hinv e
      (fun op he x hx => ((hon.issued es op [] (by rw [he])) x hx).1)
      (fun op he => hon.others op (by rw [← he]; simp))
    rw [← books_run_snoc] at heff
    refine ⟨heff.inv, fun x hx => ?_⟩
    obtain ⟨g1, e1, c1⟩ := hbal x hx
    obtain ⟨g2, e2, c2⟩ := heff.balance x hx
    rw [lostPayments_snoc, List.count_append]
    refine ⟨g1 + g2, by omega, ?_⟩
    rw [everStored_snoc]
    have hever : Stored (Books.run sign cfg cfg.pass_value { server := s } es).store x →
        EverStored sign cfg cfg.pass_value { server := s } es x := fun hs => ⟨es, List.prefix_refl _, hs⟩
    rcases c1 with ⟨h1, h2, h3⟩ | ⟨h1, h2⟩
    · left
      rcases c2 with ⟨k1, -⟩ | ⟨-, k2, -⟩
      · refine ⟨by omega, .inl h2, fun hs => ?_⟩
        rcases heff.gained x hs with hs | ⟨op, he, hi⟩
        · exact h3 hs
        · exact ((hon.issued es op [] (by rw [he])) x hi).2 h2
      · exact absurd k2 h3
    · rcases c2 with ⟨k1, k2⟩ | ⟨k1, k2, k3⟩
      · right
        refine ⟨by omega, ?_⟩
        rintro (hs | hs)
        · exact k2 (h2 hs)
        · exact hs
      · exact .inl ⟨by omega, .inl (hever k2), k3⟩

end ZKAP
