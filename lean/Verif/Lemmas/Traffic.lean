import Verif.Lemmas.Failures
import Verif.Spec.Traffic

/-! Lemmas for `Verif.Props.Traffic`. -/
namespace ZKAP
open Spec

/-- What is known of an operation that is started. -/
structure OpFine (c : Household) (first last : Int) (op : StorageOp) : Prop where
  paid : ¬ Free op
  proper : Proper op
  each : c.cost first op ≤ 2 ^ 20
  tellable : ¬ IsUpload op → Tellable (c.bucket op)
  leases : IsWrite op → ∀ kv ∈ c.bucket op, Leased kv.2 first → Leased kv.2 last

theorem leased_before {share : Share} {a b : Int} (h : a ≤ b) (hl : Leased share b) : Leased share a := by
  obtain ⟨l, hl, h2⟩ := hl
  exact ⟨l, hl, by omega⟩

theorem price_steady {c : Household} (hv : 0 < c.cfg.pass_value) {first last now : Int} (h1 : first ≤ now)
    (h2 : now ≤ last) {op : StorageOp} (hf : OpFine c first last op) :
    costOf c.cfg.pass_value (c.bucket op) now op = c.cost first op := by
  cases op with
  | writev si secrets tw rv =>
    exact Int.le_antisymm
      (write_price_later hv (fun kv hkv hl => leased_before h2 (hf.leases trivial kv hkv hl)) tw)
      (write_price_later hv (fun kv hkv hl => leased_before h1 hl) tw)
  | _ => rfl

theorem cost_nonneg {c : Household} (hv : 0 < c.cfg.pass_value) (first : Int) (op : StorageOp) : 0 ≤ c.cost first op := by
  cases op with
  | allocateBuckets si renew cancel nums size canary =>
    show 0 ≤ total _ (List.replicate _ _)
    rw [total_replicate]
    exact Int.mul_nonneg (by omega) (passes_nonneg _ hv (by omega))
  | addLease si renew cancel => exact bucket_price_nonneg hv _
  | writev si secrets tw rv => exact writePrice_nonneg _ hv _ _ _
  | _ => exact Int.le_refl _

/-- A group of passes that pays for an operation. -/
structure Funded (c : Household) (first : Int) (op : StorageOp) (g : PassGroup) : Prop where
  message : g.message = op.message
  length : (g.tokens.length : Int) = c.cost first op
  good : GoodGroup c.cfg g

theorem pay_funded {c : Household} (hv : 0 < c.cfg.pass_value) {first last : Int} {op : StorageOp}
    (hf : OpFine c first last op) {t : Tables} (hg : GoodTokens c.sign c.cfg t) {held : List String} (h : Held t held)
    (haff : Affords t (c.cost first op)) (o : Order) :
    ∃ g t', pay c.sign o c.cfg.pass_value op (c.cost first op) t =
        (.paying ⟨op.on_success c.cfg.pass_value, c.cost first op, g⟩,
          [.sent op (op.request (g.passes.map Pass.pass_bytes))], t') ∧
      t'.app = t.app ∧ Funded c first op g ∧ Held t' (held ++ g.unblinded_tokens) := by
  obtain ⟨g, t', h1, h2, h3, h4, h5, h6⟩ :=
    pay_sends hg h o c.cfg.pass_value hf.proper.1 (cost_nonneg hv first op) hf.each haff
  exact ⟨g, t', h1, h2, ⟨h3, h4, h5⟩, h6⟩

theorem start_job {c : Household} (hv : 0 < c.cfg.pass_value) {first last : Int} {op : StorageOp}
    (hf : OpFine c first last op) {rref : Except PyErr RRef} (hr : RightServer rref) {t : Tables}
    (hg : GoodTokens c.sign c.cfg t) {held : List String} (h : Held t held)
    (haff : Affords t (c.cost first op)) (o : Order) :
    (∃ r, FirstCall op r ∧ ¬ IsUpload op ∧
      op_start c.sign o c.cfg.pass_value rref op t = (.asked, [.sent op r], t)) ∨
    ∃ g t', op_start c.sign o c.cfg.pass_value rref op t =
        (.paying ⟨op.on_success c.cfg.pass_value, c.cost first op, g⟩,
          [.sent op (op.request (g.passes.map Pass.pass_bytes))], t') ∧
      t'.app = t.app ∧ Funded c first op g ∧ Held t' (held ++ g.unblinded_tokens) := by
  have hright : client_rref rref = .ok ⟨true, some expected_remote_interface_name⟩ := by
    unfold RightServer at hr
    rw [hr]
    rfl
  have hpay := pay_funded hv hf hg h haff o
  cases op with
  | allocateBuckets si renew cancel nums size canary =>
    right
    dsimp only [op_start]
    rw [hright]
    dsimp only [client_allocate_num_passes]
    rw [required_passes_eq _ hv]
    exact hpay
  | addLease si renew cancel =>
    left
    refine ⟨_, .renewal _ _ _, fun h => h, ?_⟩
    dsimp only [op_start]
    rw [hright]
    dsimp only [send_free]
    rw [(C115_calls_arrive _).1 (by exact hf.proper.1.2.1)]
  | writev si secrets tw rv =>
    dsimp only [op_start]
    rw [hright]
    dsimp only
    by_cases hdata : (get_write_sharenums tw).length > 0
    · left
      refine ⟨_, .write _ _ _ _, fun h => h, ?_⟩
      rw [if_pos hdata]
      dsimp only [send_free]
      rw [(C115_calls_arrive _).1 (by
        intro s hs
        rw [List.mem_singleton.mp hs]
        exact hf.proper.1.2.1)]
    · right
      rw [if_neg hdata]
      have hnone : ∀ kv ∈ tw, kv.2.datav = [] := fun kv hkv => by
        cases hd : kv.2.datav with
        | nil => rfl
        | cons d ds => exact absurd ((writes_any tw).mpr ⟨kv, hkv, by rw [hd]; exact nofun⟩) hdata
      have hcost : c.cost first (.writev si secrets tw rv) = 0 := write_price_no_data _ _ hnone
      rw [hcost] at hpay ⊢
      exact hpay
  | _ => exact absurd trivial hf.paid

theorem asked_job {c : Household} (hv : 0 < c.cfg.pass_value) {first last now : Int} (h0 : 0 ≤ first)
    (h1 : first ≤ now) (h2 : now ≤ last) {op : StorageOp} (hf : OpFine c first last op) (hu : ¬ IsUpload op)
    {r : StorageRequest} (hr : FirstCall op r) {m : Moment} {s : Server} (hs : s.buckets (indexOf op) = c.bucket op)
    (o : Order) (t : Tables) :
    op_asked c.sign o c.cfg.pass_value now op (server_reply c.cfg m s r).2 t =
      pay c.sign o c.cfg.pass_value op (c.cost first op) t := by
  have htell := hf.tellable hu
  rw [← price_steady hv h1 h2 hf, ← hs]
  rw [← hs] at htell
  cases hr with
  | free op h => exact absurd h hf.paid
  | renewal si renew cancel =>
    dsimp only [op_asked, server_reply, Reply.value]
    rw [lease_answer_price (si := si) hv htell]
    rfl
  | write si secrets tw rv =>
    dsimp only [op_asked, server_reply, Reply.value]
    rw [write_answer_price (si := si) hv htell hf.proper.2.1 hf.proper.2.2 (by omega)]
    rfl

theorem open_writers_buckets (a : AllocateArgs) (l : List Nat) : ∀ s : Server,
    (l.foldl (open_writer a) s).buckets = s.buckets := by
  induction l with
  | nil => intro s; rfl
  | cons n l ih => intro s; rw [List.foldl_cons, ih]; rfl

/-- What a call does not touch. -/
theorem reply_frame {cfg : ServerConfig} {m : Moment} {s : Server} {op : StorageOp} (hf : ¬ Free op) (ps : List Bytes)
    {si : SI} (h : IsUpload op ∨ si ≠ indexOf op) :
    (server_reply cfg m s (op.request ps)).1.buckets si = s.buckets si := by
  cases op with
  | allocateBuckets si' renew cancel nums size canary =>
    dsimp only [StorageOp.request, server_reply]
    unfold remote_allocate_buckets
    split
    · rename_i h
      split at h
      · cases h
      · split at h
        · cases h
        · cases h
          dsimp only
          rw [open_writers_buckets]
    · rename_i h
      split at h
      · cases h; rfl
      · split at h
        · cases h; rfl
        · cases h
  | addLease si' renew cancel =>
    have hne : si ≠ si' := h.resolve_left fun h => h
    dsimp only [StorageOp.request, server_reply]
    unfold remote_add_lease
    split
    · rename_i h
      split at h
      · cases h
      · split at h
        · cases h
        · dsimp only at h
          split at h
          · cases h
            dsimp only [set_bucket]
            rw [if_neg hne]
          · cases h
    · rename_i h
      split at h
      · cases h; rfl
      · split at h
        · cases h; rfl
        · dsimp only at h
          split at h
          · cases h
          · cases h
            dsimp only [set_bucket]
            rw [if_neg hne]
  | writev si' secrets tw rv =>
    have hne : si ≠ si' := h.resolve_left fun h => h
    dsimp only [StorageOp.request, server_reply]
    unfold remote_slot_writev
    split
    · rename_i h
      split at h
      · cases h
      · split at h
        · cases h
        · dsimp only at h
          split at h
          · cases h
          · split at h
            · cases h
            · split at h
              · cases h
                dsimp only [set_bucket]
                rw [if_neg hne]
              · cases h
    · rename_i h
      split at h
      · cases h; rfl
      · split at h
        · cases h; rfl
        · dsimp only at h
          split at h
          · cases h; rfl
          · split at h
            · cases h; rfl
            · split at h
              · cases h
              · cases h
                dsimp only [set_bucket]
                rw [if_neg hne]
  | _ => exact absurd trivial hf

theorem arrive_paid {c : Household} (hv : 0 < c.cfg.pass_value) {first last : Int} {m : Moment}
    (h1 : first ≤ m.server_now) (h2 : m.server_now ≤ last) {op : StorageOp} (hf : OpFine c first last op)
    (hw : Willing (c.bucket op) m.room op) {g : PassGroup} (hg : Funded c first op g) {s : Server}
    (hs : ¬ IsUpload op → s.buckets (indexOf op) = c.bucket op) :
    ∃ w r n, (server_reply c.cfg m s (op.request (g.passes.map Pass.pass_bytes))).2 = .result w ∧
      paid_result w op = .ok (r, n) := by
  have key : Serves c.cfg op (c.cost first op) m s := by
    cases op with
    | allocateBuckets si renew cancel nums size canary => exact serves_allocate hv m s
    | addLease si renew cancel =>
      have hs' : s.buckets si = c.bucket (.addLease si renew cancel) := hs fun h => h
      have := serves_add_lease (cfg := c.cfg) (renew := renew) (cancel := cancel) hv m s
        (by rw [hs']; exact (hf.tellable fun h => h).1) hw
      rw [hs'] at this
      exact this
    | writev si secrets tw rv =>
      have hs' : s.buckets si = c.bucket (.writev si secrets tw rv) := hs fun h => h
      have := serves_writev (cfg := c.cfg) (secrets := secrets) (rv := rv) hv m s
        (by rw [hs']; exact (hf.tellable fun h => h).1) hf.proper.2.1 hf.proper.2.2 hw.1 (by rw [hs']; exact hw.2)
      rw [← price_steady hv h1 h2 hf]
      rw [hs'] at this
      exact this
    | _ => exact absurd trivial hf.paid
  obtain ⟨s', w, r, k, records, e1, e2⟩ := key.good g hg.good hg.message hg.length
  exact ⟨w, r, k, by rw [e1], e2.result⟩

theorem stored_filter_id {t t' : Tables} {R : List String}
    (h : t'.app = { t.app with unblinded := t.app.unblinded.filter (·.token ∉ R) }) (x : String) :
    StoredIn t'.app true x ↔ StoredIn t.app true x ∧ x ∉ R := by
  unfold StoredIn
  rw [h]
  dsimp only
  constructor
  · rintro ⟨r, hr, rfl, hg⟩
    obtain ⟨ha, hb⟩ := List.mem_filter.mp hr
    exact ⟨⟨r, ha, rfl, hg⟩, of_decide_eq_true hb⟩
  · rintro ⟨⟨r, hr, rfl, hg⟩, hx⟩
    exact ⟨r, List.mem_filter.mpr ⟨hr, decide_eq_true hx⟩, rfl, hg⟩

theorem receive_paid {sign : Signer} {v : Int} (hv : 0 < v) {op : StorageOp} {n : Int} {g : PassGroup} {t : Tables}
    {a b : List String} (h : Held t (a ++ g.unblinded_tokens ++ b)) (o : Order) {w : Wire} {r : OpResult} {k : Nat}
    (hr : paid_result w op = .ok (r, k)) :
    ∃ t', op_paid sign o op ⟨op.on_success v, n, g⟩ (.result w) t = (.over, [.returned op r], t') ∧ Held t' (a ++ b) ∧
      (∀ x, StoredIn t'.app true x → StoredIn t.app true x) ∧
      ∀ x, StoredIn t.app true x → x ∉ g.unblinded_tokens → StoredIn t'.app true x := by
  obtain ⟨st, t', h1, h2, -, h4⟩ := answer_ok_held (sign := sign) h o (op.on_success v) n k
  have : ∃ R : List String, (∀ x ∈ R, x ∈ g.unblinded_tokens) ∧ st = .returned ∧
      t'.app = { t.app with unblinded := t.app.unblinded.filter (·.token ∉ R) } := by
    cases op with
    | allocateBuckets si renew cancel nums size canary =>
      dsimp only [StorageOp.on_success] at h4
      rw [required_passesE_ok hv] at h4
      exact ⟨_, fun x hx => List.mem_of_mem_take hx, h4.1, h4.2⟩
    | _ => exact ⟨_, fun x hx => hx, h4.1, h4.2⟩
  obtain ⟨R, hR, rfl, happ⟩ := this
  refine ⟨t', ?_, h2, fun x hx => ((stored_filter_id happ x).mp hx).1,
    fun x hx hn => (stored_filter_id happ x).mpr ⟨hx, fun hc => hn (hR x hc)⟩⟩
  unfold op_paid Reply.for_call
  dsimp only
  rw [hr]
  dsimp only
  rw [h1]
  rfl

/-- The tokens that are left. -/
theorem affords_less {t t' : Tables} {held g : List String} (h : Held t held) (h' : Held t' (held ++ g))
    (happ : t'.app = t.app) {n : Int} (hn : Affords t n) : Affords t' (n - g.length) := by
  obtain ⟨l, hl1, hl2, hl3⟩ := hn
  refine ⟨l.filter (· ∉ g), hl1.filter _, ?_, ?_⟩
  · intro x hx
    obtain ⟨ha, hb⟩ := List.mem_filter.mp hx
    have := (available_iff h x).mp (hl2 x ha)
    rw [available_iff h', happ]
    exact ⟨this.1, fun hc => (List.mem_append.mp hc).elim this.2 (by simpa using hb)⟩
  · have h1 : l.length = (l.filter (· ∉ g)).length + (l.filter (· ∈ g)).length := by
      have := List.length_eq_countP_add_countP (fun x => decide (x ∈ g)) (l := l)
      rw [List.countP_eq_length_filter, List.countP_eq_length_filter] at this
      rw [this, Nat.add_comm]
      congr 2
      apply List.filter_congr
      intro x _
      simp
    have h2 : (l.filter (· ∈ g)).length ≤ g.length := nodup_subset_length (hl1.filter _) fun x hx =>
      of_decide_eq_true (List.mem_filter.mp hx).2
    omega

theorem affords_mono {t t' : Tables} (h : ∀ x, Available t x → Available t' x) {n n' : Int} (hle : n' ≤ n)
    (hn : Affords t n) : Affords t' n' := by
  obtain ⟨l, h1, h2, h3⟩ := hn
  exact ⟨l, h1, fun x hx => h x (h2 x hx), by omega⟩

theorem good_mono {sign : Signer} {cfg : ServerConfig} {t t' : Tables} (h : ∀ x, Available t' x → Available t x)
    (hg : GoodTokens sign cfg t) : GoodTokens sign cfg t' :=
  ⟨hg.works, fun m ts ps hs x p hm hx => hg.good m ts ps hs x p hm (h x hx)⟩

/-! ### The invariant -/

def sents (l : List Out) : Nat := (l.filter isCall).length

/-- A job that has not failed. -/
inductive Going (c : Household) (first : Int) (s : Server) : Ongoing → Prop where
  | asked (op r reply) (hu : ¬ IsUpload op) (h : FirstCall op r) (hs : s.buckets (indexOf op) = c.bucket op)
      (hr : ∀ x, reply = some x → ∃ m s1, s1.buckets (indexOf op) = c.bucket op ∧ x = (server_reply c.cfg m s1 r).2) :
      Going c first s ⟨op, .asked, reply, [.sent op r]⟩
  | paying (op g reply out) (hg : Funded c first op g)
      (hn : reply = none → ¬ IsUpload op → s.buckets (indexOf op) = c.bucket op)
      (hr : ∀ x, reply = some x → ∃ w r n, x = .result w ∧ paid_result w op = .ok (r, n))
      (clean : ∀ op e, .raised op e ∉ out) (calls : sents out ≤ 1) :
      Going c first s ⟨op, .paying ⟨op.on_success c.cfg.pass_value, c.cost first op, g⟩, reply,
        out ++ [.sent op (op.request (g.passes.map Pass.pass_bytes))]⟩
  | over (op r out) (clean : ∀ op e, .raised op e ∉ out) (calls : sents out ≤ 2) :
      Going c first s ⟨op, .over, none, out ++ [.returned op r]⟩

theorem going_server {c : Household} {first : Int} {s s' : Server} {job : Ongoing} (h : Going c first s job)
    (hs : IsUpload job.op ∨ s'.buckets (indexOf job.op) = s.buckets (indexOf job.op)) : Going c first s' job := by
  cases h with
  | asked op r reply hu h hs' hr => exact .asked _ _ _ hu h ((hs.resolve_left hu).trans hs') hr
  | paying op g reply out hg hn hr clean calls =>
    exact .paying _ _ _ _ hg (fun h1 h2 => (hs.resolve_left h2).trans (hn h1 h2)) hr clean calls
  | over op r out clean calls => exact .over _ _ _ clean calls

def jobTokens (job : Ongoing) : List String :=
  match job.state with
  | .paying call => call.pass_group.unblinded_tokens
  | _ => []

/-- What will be needed for a job. -/
def owes (c : Household) (first : Int) (job : Ongoing) : Int :=
  match job.state with
  | .asked => c.cost first job.op
  | _ => 0

def ApartOps (a b : StorageOp) : Prop := IsUpload a ∨ IsUpload b ∨ indexOf a ≠ indexOf b

theorem ApartOps.symm {a b : StorageOp} (h : ApartOps a b) : ApartOps b a := by
  rcases h with h | h | h
  · exact .inr (.inl h)
  · exact .inl h
  · exact .inr (.inr h.symm)

structure TrafficInv (c : Household) (first last : Int) (H : List String) (all rest : List StorageOp) (k : Traffic) :
    Prop where
  held : Held k.store (H ++ k.jobs.flatMap jobTokens)
  left : ∀ x, StoredIn k.store.app true x → x ∉ H → Available c.store x
  affords : Affords k.store ((k.jobs.map (owes c first)).sum + (rest.map (c.cost first)).sum)
  going : ∀ job ∈ k.jobs, Going c first k.server job
  ops : k.jobs.map (·.op) ++ rest = all
  rest : ∀ op ∈ rest, ¬ IsUpload op → k.server.buckets (indexOf op) = c.bucket op

theorem owes_nonneg {c : Household} (hv : 0 < c.cfg.pass_value) (first : Int) (jobs : List Ongoing) :
    0 ≤ (jobs.map (owes c first)).sum := by
  apply sum_nonneg
  intro x hx
  obtain ⟨job, -, rfl⟩ := List.mem_map.mp hx
  unfold owes
  split
  · exact cost_nonneg hv _ _
  · exact Int.le_refl _

theorem costs_nonneg {c : Household} (hv : 0 < c.cfg.pass_value) (first : Int) (l : List StorageOp) :
    0 ≤ (l.map (c.cost first)).sum := by
  apply sum_nonneg
  intro x hx
  obtain ⟨op, -, rfl⟩ := List.mem_map.mp hx
  exact cost_nonneg hv _ _

theorem owes_asked (c : Household) (first : Int) (op : StorageOp) (reply : Option Reply) (out : List Out) :
    owes c first ⟨op, .asked, reply, out⟩ = c.cost first op := rfl

theorem owes_paying (c : Household) (first : Int) (op : StorageOp) (call : Call) (reply : Option Reply)
    (out : List Out) : owes c first ⟨op, .paying call, reply, out⟩ = 0 := rfl

theorem funded_length {c : Household} {first : Int} {op : StorageOp} {g : PassGroup} (h : Funded c first op g) :
    (g.unblinded_tokens.length : Int) = c.cost first op := by
  unfold PassGroup.unblinded_tokens
  rw [List.length_map]
  exact h.length

theorem TrafficInv.back {c : Household} {first last : Int} {H : List String} {all rest : List StorageOp} {k : Traffic}
    (h : TrafficInv c first last H all rest k) (x : String) (hx : Available k.store x) : Available c.store x := by
  rw [available_iff h.held] at hx
  exact h.left x hx.1 fun hc => hx.2 (List.mem_append_left _ hc)

theorem inv_start {c : Household} (hv : 0 < c.cfg.pass_value) {first last : Int} (htok : GoodTokens c.sign c.cfg c.store)
    {H : List String} {all rest : List StorageOp} {k : Traffic} {op : StorageOp}
    (h : TrafficInv c first last H all (op :: rest) k) (hf : OpFine c first last op) {rref : Except PyErr RRef}
    (hr : RightServer rref) (o : Order) :
    TrafficInv c first last H all rest (k.step c.sign c.cfg c.cfg.pass_value (.start op rref o)) := by
  have hcost := cost_nonneg hv first op
  have ho := owes_nonneg hv first k.jobs
  have hc := costs_nonneg hv first rest
  have haff := h.affords
  rw [List.map_cons, List.sum_cons] at haff
  have hops : ∀ job : Ongoing, job.op = op → (k.jobs ++ [job]).map (·.op) ++ rest = all := by
    intro job hj
    rw [← h.ops]
    simp [hj]
  rcases start_job hv hf hr (good_mono h.back htok) h.held (affords_mono (fun _ h => h) (by omega) haff) o with
    ⟨r, h1, hu, h2⟩ | ⟨g, t', h2, h3, h4, h5⟩
  · dsimp only [Traffic.step]
    rw [h2]
    refine ⟨?_, h.left, ?_, ?_, hops _ rfl, fun op' h' => h.rest op' (List.mem_cons_of_mem _ h')⟩
    · simpa [jobTokens] using h.held
    · refine affords_mono (fun _ h => h) ?_ haff
      simp [owes]
      omega
    · intro job hj
      rcases List.mem_append.mp hj with hj | hj
      · exact h.going job hj
      · rw [List.mem_singleton.mp hj]
        exact .asked _ _ _ hu h1 (h.rest op List.mem_cons_self hu) (fun x hx => nomatch hx)
  · dsimp only [Traffic.step]
    rw [h2]
    refine ⟨?_, by dsimp only; rw [h3]; exact h.left, ?_, ?_, hops _ rfl,
      fun op' h' => h.rest op' (List.mem_cons_of_mem _ h')⟩
    · simpa [jobTokens] using h5
    · refine affords_mono (fun _ h => h) ?_ (affords_less h.held h5 h3 haff)
      rw [funded_length h4]
      simp [owes]
      omega
    · intro job hj
      rcases List.mem_append.mp hj with hj | hj
      · exact h.going job hj
      · rw [List.mem_singleton.mp hj]
        exact .paying _ g _ [] h4 (fun _ hu => h.rest op List.mem_cons_self hu) (fun x hx => nomatch hx)
          (fun _ _ h => nomatch h) (by decide)

theorem set_split {l : List Ongoing} {i : Nat} {job : Ongoing} (h : l[i]? = some job) :
    ∃ a b, l = a ++ job :: b ∧ ∀ job', l.set i job' = a ++ job' :: b := by
  obtain ⟨hi, rfl⟩ := List.getElem?_eq_some_iff.mp h
  refine ⟨l.take i, l.drop (i + 1), by simp, fun job' => ?_⟩
  rw [List.set_eq_take_append_cons_drop, if_pos hi]

theorem apart_mid {a b : List Ongoing} {job : Ongoing} {rest : List StorageOp}
    (h : ((a ++ job :: b).map (·.op) ++ rest).Pairwise ApartOps) :
    (∀ j ∈ a ++ b, ApartOps job.op j.op) ∧ ∀ op ∈ rest, ApartOps job.op op := by
  obtain ⟨h1, -, h2⟩ := List.pairwise_append.mp h
  refine ⟨?_, fun op hop => h2 _ (by simp) _ hop⟩
  rw [List.map_append, List.map_cons] at h1
  obtain ⟨-, h3, h4⟩ := List.pairwise_append.mp h1
  intro j hj
  rcases List.mem_append.mp hj with hj | hj
  · exact (h4 _ (List.mem_map_of_mem hj) _ List.mem_cons_self).symm
  · exact (List.pairwise_cons.mp h3).1 _ (List.mem_map_of_mem hj)

/-- The job in the middle changes and nothing else of the client. -/
theorem inv_replace {c : Household} {first last : Int}
    {H : List String} {all rest : List StorageOp} {t : Tables} {a b : List Ongoing} {job : Ongoing} {s : Server}
    (h : TrafficInv c first last H all rest ⟨t, a ++ job :: b, s⟩) (hapart : all.Pairwise ApartOps) {job' : Ongoing} {s' : Server}
    (hop : job'.op = job.op) (hstate : job'.state = job.state)
    (hs : ∀ op', ApartOps job.op op' → ¬ IsUpload op' → s'.buckets (indexOf op') = s.buckets (indexOf op'))
    (hgo : Going c first s' job') :
    TrafficInv c first last H all rest ⟨t, a ++ job' :: b, s'⟩ := by
  have hops := h.ops
  have happ := apart_mid (by rw [hops]; exact hapart)
  have htok : jobTokens job' = jobTokens job := by unfold jobTokens; rw [hstate]
  have howes : owes c first job' = owes c first job := by unfold owes; rw [hstate, hop]
  refine ⟨?_, h.left, ?_, ?_, ?_, fun op' h1 h2 => (hs op' (happ.2 op' h1) h2).trans (h.rest op' h1 h2)⟩
  · have := h.held
    simp only [List.flatMap_append, List.flatMap_cons] at *
    rw [htok]
    exact this
  · have := h.affords
    simp only [List.map_append, List.map_cons] at *
    rw [howes]
    exact this
  · intro j hj
    rcases List.mem_append.mp hj with hj | hj
    · refine going_server (h.going j (List.mem_append_left _ hj)) ?_
      by_cases hu : IsUpload j.op
      · exact .inl hu
      · exact .inr (hs _ (happ.1 j (List.mem_append_left _ hj)) hu)
    · rcases List.mem_cons.mp hj with rfl | hj
      · exact hgo
      · refine going_server (h.going j (List.mem_append_right _ (List.mem_cons_of_mem _ hj))) ?_
        by_cases hu : IsUpload j.op
        · exact .inl hu
        · exact .inr (hs _ (happ.1 j (List.mem_append_right _ hj)) hu)
  · rw [← hops]
    simp [hop]

theorem inv_arrive {c : Household} (hv : 0 < c.cfg.pass_value) {first last now : Int} (h1 : first ≤ now) (h2 : now ≤ last)
    {H : List String} {all rest : List StorageOp} {k : Traffic} (h : TrafficInv c first last H all rest k)
    (hfine : ∀ op ∈ all, OpFine c first last op) (hapart : all.Pairwise ApartOps) {room : Nat → Bool}
    (hw : ∀ op ∈ all, Willing (c.bucket op) room op) (i : Nat) :
    TrafficInv c first last H all rest (k.step c.sign c.cfg c.cfg.pass_value (.arrive i now room)) := by
  obtain ⟨t, jobs, s⟩ := k
  dsimp only [Traffic.step]
  split
  · rename_i op state out hi
    have hgo := h.going _ (List.mem_of_getElem? hi)
    obtain ⟨a, b, rfl, hset⟩ := set_split hi
    have hall : op ∈ all := by
      rw [← h.ops]
      simp
    split
    · rename_i op' r hlast
      rw [hset]
      cases hgo with
      | asked _ r' _ hu hfirst hs hr =>
        cases hlast
        refine inv_replace h hapart rfl rfl (fun op' _ _ => by rw [first_call_keeps hfirst]) ?_
        rw [first_call_keeps hfirst]
        exact .asked _ _ _ hu hfirst hs fun x hx => ⟨_, s, hs, by cases hx; rfl⟩
      | paying _ g _ out hg hn hr clean calls =>
        rw [List.getLast?_concat] at hlast
        cases hlast
        refine inv_replace h hapart rfl rfl (fun op' ha hu => ?_) ?_
        · refine reply_frame (hfine op hall).paid _ ?_
          rcases ha with ha | ha | ha
          · exact .inl ha
          · exact absurd ha hu
          · exact .inr ha.symm
        · obtain ⟨w, r, n, e1, e2⟩ := arrive_paid hv (m := ⟨[], now, room, now, .natural⟩) h1 h2 (hfine op hall)
            (hw op hall) hg (hn rfl)
          exact .paying _ _ _ _ hg (fun h => nomatch h) (fun x hx => ⟨w, r, n, by cases hx; exact e1, e2⟩) clean calls
      | over _ r' out clean calls =>
        rw [List.getLast?_concat] at hlast
        cases hlast
    · exact h
  · exact h

theorem inv_others {c : Household} {first last : Int}
    {H : List String} {all rest : List StorageOp} {k : Traffic} (h : TrafficInv c first last H all rest k)
    {ops : List ServerOp} (hu : ∀ op ∈ all, ¬ IsUpload op →
      (k.server.run c.cfg ops).buckets (indexOf op) = k.server.buckets (indexOf op)) :
    TrafficInv c first last H all rest (k.step c.sign c.cfg c.cfg.pass_value (.others ops)) := by
  have hmem : ∀ job ∈ k.jobs, job.op ∈ all := fun job hj => by
    rw [← h.ops]
    exact List.mem_append_left _ (List.mem_map_of_mem (f := fun j : Ongoing => j.op) hj)
  refine ⟨h.held, h.left, h.affords, ?_, h.ops, ?_⟩
  · intro job hj
    refine going_server (h.going job hj) ?_
    by_cases hup : IsUpload job.op
    · exact .inl hup
    · exact .inr (hu _ (hmem job hj) hup)
  · intro op hop hup
    exact (hu op (by rw [← h.ops]; exact List.mem_append_right _ hop) hup).trans (h.rest op hop hup)

theorem sents_append (a b : List Out) : sents (a ++ b) = sents a + sents b := by
  unfold sents
  rw [List.filter_append, List.length_append]

/-- An operation that has learnt its price makes the call. -/
theorem asked_on {c : Household} (hv : 0 < c.cfg.pass_value) (htok : GoodTokens c.sign c.cfg c.store)
    {first last now : Int} (h0 : 0 ≤ first) (h1 : first ≤ now) (h2 : now ≤ last)
    {H : List String} {all rest : List StorageOp} {k : Traffic} (h : TrafficInv c first last H all rest k)
    (hfine : ∀ op ∈ all, OpFine c first last op) {i : Nat} {op : StorageOp} {reply : Reply} {out : List Out}
    (hi : k.jobs[i]? = some ⟨op, .asked, some reply, out⟩) (o : Order) :
    ∃ call out' t', op_asked c.sign o c.cfg.pass_value now op reply k.store = (.paying call, out', t') := by
  obtain ⟨t, jobs, s⟩ := k
  have hgo := h.going _ (List.mem_of_getElem? hi)
  obtain ⟨a, b, rfl, hset⟩ := set_split hi
  have hall : op ∈ all := by
    rw [← h.ops]
    simp
  cases hgo with
  | asked _ r _ hu hfirst hs hr =>
    obtain ⟨m, s1, e1, e2⟩ := hr _ rfl
    have hcost := cost_nonneg hv first op
    have ho1 := owes_nonneg hv first a
    have ho2 := owes_nonneg hv first b
    have hc := costs_nonneg hv first rest
    have haff := h.affords
    simp only [List.map_append, List.map_cons, List.sum_append, List.sum_cons, owes_asked] at haff
    obtain ⟨g, t', p1, -⟩ := pay_funded hv (hfine op hall) (good_mono h.back htok) h.held
      (affords_mono (fun _ h => h) (by omega) haff) o
    have hasked : op_asked c.sign o c.cfg.pass_value now op reply t =
        pay c.sign o c.cfg.pass_value op (c.cost first op) t := by
      rw [e2]
      exact asked_job hv h0 h1 h2 (hfine op hall) hu hfirst e1 o t
    exact ⟨_, _, _, hasked.trans p1⟩

theorem inv_receive {c : Household} (hv : 0 < c.cfg.pass_value) (htok : GoodTokens c.sign c.cfg c.store)
    {first last now : Int} (h0 : 0 ≤ first) (h1 : first ≤ now) (h2 : now ≤ last)
    {H : List String} {all rest : List StorageOp} {k : Traffic} (h : TrafficInv c first last H all rest k)
    (hfine : ∀ op ∈ all, OpFine c first last op) (i : Nat) (o : Order) :
    TrafficInv c first last H all rest (k.step c.sign c.cfg c.cfg.pass_value (.receive i now o)) := by
  obtain ⟨t, jobs, s⟩ := k
  dsimp only [Traffic.step]
  split
  · rename_i op reply out hi
    have hgo := h.going _ (List.mem_of_getElem? hi)
    obtain ⟨a, b, rfl, hset⟩ := set_split hi
    have hall : op ∈ all := by
      rw [← h.ops]
      simp
    have hmem : ∀ j ∈ a ++ b, j ∈ a ++ (⟨op, .asked, some reply, out⟩ : Ongoing) :: b := fun j hj => by
      rcases List.mem_append.mp hj with hj | hj
      · exact List.mem_append_left _ hj
      · exact List.mem_append_right _ (List.mem_cons_of_mem _ hj)
    cases hgo with
    | asked _ r _ hu hfirst hs hr =>
      obtain ⟨m, s1, e1, e2⟩ := hr _ rfl
      have hcost := cost_nonneg hv first op
      have ho1 := owes_nonneg hv first a
      have ho2 := owes_nonneg hv first b
      have hc := costs_nonneg hv first rest
      have haff := h.affords
      simp only [List.map_append, List.map_cons, List.sum_append, List.sum_cons, owes_asked] at haff
      obtain ⟨g, t', p1, p2, p3, p4⟩ := pay_funded hv (hfine op hall) (good_mono h.back htok) h.held
        (affords_mono (fun _ h => h) (by omega) haff) o
      have hasked : op_asked c.sign o c.cfg.pass_value now op reply t =
          pay c.sign o c.cfg.pass_value op (c.cost first op) t := by
        rw [e2]
        exact asked_job hv h0 h1 h2 (hfine op hall) hu hfirst e1 o t
      rw [hasked, p1, hset]
      refine ⟨?_, by dsimp only; rw [p2]; exact h.left, ?_, ?_, by rw [← h.ops]; simp, h.rest⟩
      · refine p4.of_perm ?_
        simp only [List.flatMap_append, List.flatMap_cons, jobTokens, List.nil_append, List.append_assoc]
        refine List.Perm.append_left _ (List.Perm.append_left _ ?_)
        exact List.perm_append_comm
      · refine affords_mono (fun _ h => h) ?_ (affords_less h.held p4 p2 haff)
        rw [funded_length p3]
        simp only [List.map_append, List.map_cons, List.sum_append, List.sum_cons, owes_paying]
        omega
      · intro j hj
        rcases List.mem_append.mp hj with hj | hj
        · exact h.going j (hmem j (List.mem_append_left _ hj))
        · rcases List.mem_cons.mp hj with rfl | hj
          · rw [show ∀ (l : List Out) (a b : Out), l ++ a :: [b] = l ++ [a] ++ [b] from
              fun l a b => List.append_cons l a [b]]
            refine .paying _ _ _ _ p3 (fun _ _ => hs) (fun x hx => nomatch hx) ?_ ?_
            · intro op' e hc
              simp at hc
            · rw [sents_append]
              exact Nat.le_refl 1
          · exact h.going j (hmem j (List.mem_append_right _ hj))
  · rename_i op call reply out hi
    have hgo := h.going _ (List.mem_of_getElem? hi)
    obtain ⟨a, b, rfl, hset⟩ := set_split hi
    have hmem : ∀ j ∈ a ++ b, j ∈ a ++ (⟨op, .paying call, some reply, out⟩ : Ongoing) :: b := fun j hj => by
      rcases List.mem_append.mp hj with hj | hj
      · exact List.mem_append_left _ hj
      · exact List.mem_append_right _ (List.mem_cons_of_mem _ hj)
    cases hgo with
    | paying _ g _ out hg hn hr clean calls =>
      obtain ⟨w, r, n, rfl, e2⟩ := hr _ rfl
      have hheld := h.held
      simp only [List.flatMap_append, List.flatMap_cons, jobTokens] at hheld
      rw [← List.append_assoc, ← List.append_assoc] at hheld
      obtain ⟨t', p1, p2, p3, p4⟩ := receive_paid (sign := c.sign) hv (n := c.cost first op) hheld o e2
      rw [p1, hset]
      have hav : ∀ x, Available t x → Available t' x := fun x hx => by
        have := (available_iff hheld x).mp hx
        rw [available_iff p2]
        refine ⟨p4 x this.1 fun hc => this.2 (by simp [hc]), fun hc => this.2 ?_⟩
        rcases List.mem_append.mp hc with hc | hc
        · exact List.mem_append_left _ (List.mem_append_left _ hc)
        · exact List.mem_append_right _ hc
      refine ⟨?_, ?_, ?_, ?_, by rw [← h.ops]; simp, h.rest⟩
      · simpa [List.flatMap_append, List.flatMap_cons, jobTokens] using p2
      · exact fun x hx => h.left x (p3 x hx)
      · refine affords_mono hav ?_ h.affords
        simp [owes]
      · intro j hj
        rcases List.mem_append.mp hj with hj | hj
        · exact h.going j (hmem j (List.mem_append_left _ hj))
        · rcases List.mem_cons.mp hj with rfl | hj
          · rw [show ∀ (l : List Out) (a b : Out), l ++ a :: [b] = l ++ [a] ++ [b] from
              fun l a b => List.append_cons l a [b]]
            refine .over _ _ _ ?_ ?_
            · intro op' e hc
              simp at hc
              exact clean _ _ hc
            · rw [sents_append, sents_append]
              exact Nat.add_le_add_right (Nat.add_le_add_right calls 1) 0
          · exact h.going j (hmem j (List.mem_append_right _ hj))
  · exact h

end ZKAP
