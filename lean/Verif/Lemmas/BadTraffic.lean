import Verif.Lemmas.Traffic
import Verif.Props.BadTokens
import Verif.Spec.BadTraffic

/-! Lemmas for `Verif.Props.BadTraffic`. -/
namespace ZKAP
open Spec

/-- A group of passes, good or bad, for an operation. -/
structure Gathered (c : Household) (first : Int) (op : StorageOp) (g : PassGroup) : Prop where
  message : g.message = op.message
  length : (g.tokens.length : Int) = c.cost first op
  made : GroupMade c.sign g
  own : ∀ x ∈ g.unblinded_tokens, Available c.store x

theorem gathered_length {c : Household} {first : Int} {op : StorageOp} {g : PassGroup} (h : Gathered c first op g) :
    (g.unblinded_tokens.length : Int) = c.cost first op := by
  unfold PassGroup.unblinded_tokens
  rw [List.length_map]
  exact h.length

theorem gathered_kinds {c : Household} {good : String → Prop} (htok : MixedTokens c.sign c.cfg c.store good)
    {first : Int} {op : StorageOp} {g : PassGroup} (h : Gathered c first op g) :
    ∀ x ∈ g.unblinded_tokens, Kind c.sign c.cfg good x := fun x hx => kind_of htok x (h.own x hx)

theorem mixed_mono {sign : Signer} {cfg : ServerConfig} {t t' : Tables} {good : String → Prop}
    (h : ∀ x, Available t' x → Available t x) (hg : MixedTokens sign cfg t good) : MixedTokens sign cfg t' good :=
  ⟨hg.works, fun m ts ps hs x p hm hx => hg.made m ts ps hs x p hm (h x hx)⟩

theorem pay_gathered {c : Household} (hv : 0 < c.cfg.pass_value) {good : String → Prop} {first last : Int}
    {op : StorageOp} (hf : OpFine c first last op) {t : Tables} (hg : MixedTokens c.sign c.cfg c.store good)
    (hback : ∀ x, Available t x → Available c.store x) {held : List String} (h : Held t held)
    (haff : AffordsGood t good (c.cost first op)) (o : Order) :
    ∃ g t', pay c.sign o c.cfg.pass_value op (c.cost first op) t =
        (.paying ⟨op.on_success c.cfg.pass_value, c.cost first op, g⟩,
          [.sent op (op.request (g.passes.map Pass.pass_bytes))], t') ∧
      t'.app = t.app ∧ Gathered c first op g ∧ Held t' (held ++ g.unblinded_tokens) := by
  obtain ⟨g, t', h1, h2, h3, h4, h5, h6, h7⟩ :=
    pay_sends_mixed (mixed_mono hback hg) h o c.cfg.pass_value hf.proper.1 (cost_nonneg hv first op) hf.each haff
  exact ⟨g, t', h1, h2, ⟨h3, h4, h5, fun x hx => hback x (h6 x hx)⟩, h7⟩

/-- An operation asks first or pays at once. -/
theorem start_either {c : Household} (hv : 0 < c.cfg.pass_value) {first last : Int} {op : StorageOp}
    (hf : OpFine c first last op) {rref : Except PyErr RRef} (hr : RightServer rref) (t : Tables) (o : Order) :
    (∃ r, FirstCall op r ∧ ¬ IsUpload op ∧
      op_start c.sign o c.cfg.pass_value rref op t = (.asked, [.sent op r], t)) ∨
    op_start c.sign o c.cfg.pass_value rref op t = pay c.sign o c.cfg.pass_value op (c.cost first op) t := by
  have hright : client_rref rref = .ok ⟨true, some expected_remote_interface_name⟩ := by
    unfold RightServer at hr
    rw [hr]
    rfl
  cases op with
  | allocateBuckets si renew cancel nums size canary =>
    right
    dsimp only [op_start]
    rw [hright]
    dsimp only [client_allocate_num_passes]
    rw [required_passes_eq _ hv]
    rfl
  | addLease si renew cancel =>
    left
    refine ⟨_, .renewal _ _ _, fun h => h, ?_⟩
    dsimp only [op_start]
    rw [hright]
    dsimp only [send_free]
    rw [(C115_calls_arrive _).1 (by exact hf.proper.1.2.1)]
  | writev si secrets tw rv =>
    dsimp only [op_start]
    rw [hright]
    dsimp only
    by_cases hdata : (get_write_sharenums tw).length > 0
    · left
      refine ⟨_, .write _ _ _ _, fun h => h, ?_⟩
      rw [if_pos hdata]
      dsimp only [send_free]
      rw [(C115_calls_arrive _).1 (by
        intro s hs
        rw [List.mem_singleton.mp hs]
        exact hf.proper.1.2.1)]
    · right
      rw [if_neg hdata]
      have hnone : ∀ kv ∈ tw, kv.2.datav = [] := fun kv hkv => by
        cases hd : kv.2.datav with
        | nil => rfl
        | cons d ds => exact absurd ((writes_any tw).mpr ⟨kv, hkv, by rw [hd]; exact nofun⟩) hdata
      have hcost : c.cost first (.writev si secrets tw rv) = 0 := write_price_no_data _ _ hnone
      rw [hcost]
  | _ => exact absurd trivial hf.paid

theorem serves_op {c : Household} (hv : 0 < c.cfg.pass_value) {first last : Int} {m : Moment}
    (h1 : first ≤ m.server_now) (h2 : m.server_now ≤ last) {op : StorageOp} (hf : OpFine c first last op)
    (hw : Willing (c.bucket op) m.room op) {s : Server}
    (hs : ¬ IsUpload op → s.buckets (indexOf op) = c.bucket op) : Serves c.cfg op (c.cost first op) m s := by
  cases op with
  | allocateBuckets si renew cancel nums size canary => exact serves_allocate hv m s
  | addLease si renew cancel =>
    have hs' : s.buckets si = c.bucket (.addLease si renew cancel) := hs fun h => h
    have := serves_add_lease (cfg := c.cfg) (renew := renew) (cancel := cancel) hv m s
      (by rw [hs']; exact (hf.tellable fun h => h).1) hw
    rw [hs'] at this
    exact this
  | writev si secrets tw rv =>
    have hs' : s.buckets si = c.bucket (.writev si secrets tw rv) := hs fun h => h
    have := serves_writev (cfg := c.cfg) (secrets := secrets) (rv := rv) hv m s
      (by rw [hs']; exact (hf.tellable fun h => h).1) hf.proper.2.1 hf.proper.2.2 hw.1 (by rw [hs']; exact hw.2)
    rw [← price_steady hv h1 h2 hf]
    rw [hs'] at this
    exact this
  | _ => exact absurd trivial hf.paid

/-- What an operation that was carried out spends. -/
def opSpends (v : Int) (op : StorageOp) (g : PassGroup) (k : Nat) : Nat :=
  match op with
  | .allocateBuckets _ _ _ _ size _ => (total v (List.replicate k (size : Int))).toNat
  | _ => g.tokens.length

theorem performed_spends {cfg : ServerConfig} {op : StorageOp} {g : PassGroup} {s s' : Server} {w : Wire}
    {r : OpResult} {k : Nat} {records : List Bytes} (h : Performed cfg op g s s' w r k records) :
    records.length = opSpends cfg.pass_value op g k ∧ opSpends cfg.pass_value op g k ≤ g.tokens.length := by
  cases op with
  | allocateBuckets si renew cancel nums size canary =>
    obtain ⟨h1, h2, -⟩ := h.upload _ _ _ _ _ _ rfl
    have : records.length = opSpends cfg.pass_value (.allocateBuckets si renew cancel nums size canary) g k := by
      show _ = (total cfg.pass_value (List.replicate k (size : Int))).toNat
      omega
    exact ⟨this, this ▸ h2⟩
  | _ => exact ⟨h.other nofun, Nat.le_refl _⟩

/-- What the server has recorded for a job and the client has not crossed out yet. -/
def pendingSpent (v : Int) (job : Ongoing) : Nat :=
  match job.state, job.reply with
  | .paying call, some (.result w) =>
    match paid_result w job.op with
    | .ok (_, k) => opSpends v job.op call.pass_group k
    | .error _ => 0
  | _, _ => 0

/-- The answer to a call with the passes of this group. -/
inductive AnswerMixed (c : Household) (good : String → Prop) (s : Server) (op : StorageOp) (g : PassGroup) : Reply → Prop where
  | accepted (w r k) (h : paid_result w op = .ok (r, k)) (hg : ∀ x ∈ g.unblinded_tokens, good x)
      (hp : opSpends c.cfg.pass_value op g k ≤ g.tokens.length) : AnswerMixed c good s op g (.result w)
  | refused (failed) (h : FailedPositions (c.cfg.verifies g.message) g.passes failed)
      (hb : ∃ p ∈ g.passes, c.cfg.verifies g.message p = false)
      (hs : ¬ IsUpload op → s.buckets (indexOf op) = c.bucket op) : AnswerMixed c good s op g (.morePassesRequired failed)

/-- A job that has not failed. -/
inductive GoingOn (c : Household) (good : String → Prop) (first : Int) (s : Server) : Ongoing → Prop where
  | asked (op r reply) (hu : ¬ IsUpload op) (h : FirstCall op r) (hs : s.buckets (indexOf op) = c.bucket op)
      (hr : ∀ x, reply = some x → ∃ m s1, s1.buckets (indexOf op) = c.bucket op ∧ x = (server_reply c.cfg m s1 r).2) :
      GoingOn c good first s ⟨op, .asked, reply, [.sent op r]⟩
  | paying (op g reply out) (hg : Gathered c first op g)
      (hn : reply = none → ¬ IsUpload op → s.buckets (indexOf op) = c.bucket op)
      (hr : ∀ x, reply = some x → AnswerMixed c good s op g x)
      (clean : ∀ op e, .raised op e ∉ out) :
      GoingOn c good first s ⟨op, .paying ⟨op.on_success c.cfg.pass_value, c.cost first op, g⟩, reply,
        out ++ [.sent op (op.request (g.passes.map Pass.pass_bytes))]⟩
  | over (op r out) (clean : ∀ op e, .raised op e ∉ out) :
      GoingOn c good first s ⟨op, .over, none, out ++ [.returned op r]⟩

theorem goingOn_server {c : Household} {good : String → Prop} {first : Int} {s s' : Server} {job : Ongoing}
    (h : GoingOn c good first s job)
    (hs : IsUpload job.op ∨ s'.buckets (indexOf job.op) = s.buckets (indexOf job.op)) : GoingOn c good first s' job := by
  cases h with
  | asked op r reply hu h hs' hr => exact .asked _ _ _ hu h ((hs.resolve_left hu).trans hs') hr
  | paying op g reply out hg hn hr clean =>
    refine .paying _ _ _ _ hg (fun h1 h2 => (hs.resolve_left h2).trans (hn h1 h2)) (fun x hx => ?_) clean
    cases hr x hx with
    | accepted w r k h hg hp => exact .accepted w r k h hg hp
    | refused failed h hb hs' => exact .refused failed h hb fun h2 => (hs.resolve_left h2).trans (hs' h2)
  | over op r out clean => exact .over _ _ _ clean

/-- What the jobs that are not over cost. -/
def due (c : Household) (first : Int) (job : Ongoing) : Int :=
  match job.state with
  | .over => 0
  | _ => c.cost first job.op

/-- One call more is to come. -/
def askedFirst (job : Ongoing) : Nat :=
  match job.state with
  | .asked => 1
  | _ => 0

structure MixedInv (c : Household) (good : String → Prop) (first : Int) (H : List String)
    (all rest : List StorageOp) (R : List String) (d : Nat) (k : Traffic) : Prop where
  held : Held k.store (H ++ k.jobs.flatMap jobTokens)
  left : ∀ x, StoredIn k.store.app true x → x ∉ H → Available c.store x
  affords : ∃ G : List String, G.Nodup ∧ (∀ x ∈ G, good x ∧ StoredIn k.store.app true x ∧ x ∉ H) ∧
    (k.jobs.map (due c first)).sum + (rest.map (c.cost first)).sum ≤ G.length
  going : ∀ job ∈ k.jobs, GoingOn c good first k.server job
  ops : k.jobs.map (·.op) ++ rest = all
  rest : ∀ op ∈ rest, ¬ IsUpload op → k.server.buckets (indexOf op) = c.bucket op
  nodup : R.Nodup
  bad : ∀ x ∈ R, Available c.store x ∧ ¬ good x ∧ ¬ StoredIn k.store.app true x
  invalid : k.store.app.invalid = c.store.app.invalid ++ R.map (fun x => ⟨x, "signature check failed"⟩)
  calls : (k.jobs.map callsMade).sum + (k.jobs.map askedFirst).sum ≤ 2 * k.jobs.length + R.length
  books : (storedTokens k.store).length + R.length + d =
    (storedTokens c.store).length + (k.jobs.map (pendingSpent c.cfg.pass_value)).sum

theorem MixedInv.back {c : Household} {good : String → Prop} {first : Int} {H : List String} {all rest : List StorageOp}
    {R : List String} {d : Nat} {k : Traffic} (h : MixedInv c good first H all rest R d k) (x : String)
    (hx : Available k.store x) : Available c.store x := by
  rw [available_iff h.held] at hx
  exact h.left x hx.1 fun hc => hx.2 (List.mem_append_left _ hc)

theorem due_nonneg {c : Household} (hv : 0 < c.cfg.pass_value) (first : Int) (jobs : List Ongoing) :
    0 ≤ (jobs.map (due c first)).sum := by
  apply sum_nonneg
  intro x hx
  obtain ⟨job, -, rfl⟩ := List.mem_map.mp hx
  unfold due
  split
  · exact Int.le_refl _
  · exact cost_nonneg hv _ _

/-- Jobs hold no more tokens than they cost. -/
theorem tokens_due {c : Household} (hv : 0 < c.cfg.pass_value) {good : String → Prop} {first : Int} {s : Server}
    (jobs : List Ongoing) (h : ∀ job ∈ jobs, GoingOn c good first s job) :
    ((jobs.flatMap jobTokens).length : Int) ≤ (jobs.map (due c first)).sum := by
  induction jobs with
  | nil => exact Int.le_refl _
  | cons job jobs ih =>
    have ih := ih fun j hj => h j (List.mem_cons_of_mem _ hj)
    have hj : ((jobTokens job).length : Int) ≤ due c first job := by
      cases h job List.mem_cons_self with
      | asked op r reply => exact cost_nonneg hv _ _
      | paying op g reply out hg =>
        show (g.unblinded_tokens.length : Int) ≤ c.cost first op
        rw [gathered_length hg]
        exact Int.le_refl _
      | over op r out => exact Int.le_refl _
    rw [List.flatMap_cons, List.length_append, List.map_cons, List.sum_cons]
    omega

/-- The good tokens outside of this list. -/
theorem good_outside {G l : List String} (hG : G.Nodup) :
    (G.length : Int) - l.length ≤ (G.filter (· ∉ l)).length := by
  have h1 := filter_both (fun x => decide (x ∈ l)) G
  have h2 : (G.filter (· ∈ l)).length ≤ l.length := nodup_subset_length (hG.filter _) fun x hx =>
    of_decide_eq_true (List.mem_filter.mp hx).2
  have heq : G.filter (fun x => !decide (x ∈ l)) = G.filter (· ∉ l) := by
    apply List.filter_congr
    intro x _
    rw [decide_not]
  rw [heq] at h1
  omega

theorem MixedInv.spare {c : Household} (hv : 0 < c.cfg.pass_value) {good : String → Prop} {first : Int} {H : List String}
    {all rest : List StorageOp} {R : List String} {d : Nat} {k : Traffic} (h : MixedInv c good first H all rest R d k)
    {a b : List Ongoing} {op : StorageOp} {reply : Option Reply} {out : List Out}
    (hk : k.jobs = a ++ ⟨op, .asked, reply, out⟩ :: b) : AffordsGood k.store good (c.cost first op) := by
  obtain ⟨G, hG1, hG2, hG3⟩ := h.affords
  refine ⟨G.filter (· ∉ (a ++ b).flatMap jobTokens), hG1.filter _, ?_, ?_⟩
  · intro x hx
    obtain ⟨hxG, hxn⟩ := List.mem_filter.mp hx
    have hxn : x ∉ (a ++ b).flatMap jobTokens := of_decide_eq_true hxn
    obtain ⟨h1, h2, h3⟩ := hG2 x hxG
    refine ⟨(available_iff h.held x).mpr ⟨h2, fun hc => ?_⟩, h1⟩
    rcases List.mem_append.mp hc with hc | hc
    · exact h3 hc
    · apply hxn
      rw [hk] at hc
      simpa [jobTokens] using hc
  · have h1 := good_outside (l := (a ++ b).flatMap jobTokens) hG1
    have h2 := tokens_due hv (s := k.server) (good := good) (first := first) (c := c) (a ++ b) (fun j hj => h.going j (by
      rw [hk]
      rcases List.mem_append.mp hj with hj | hj
      · exact List.mem_append_left _ hj
      · exact List.mem_append_right _ (List.mem_cons_of_mem _ hj)))
    have h3 := costs_nonneg hv first rest
    rw [hk] at hG3
    simp only [List.map_append, List.map_cons, List.sum_append, List.sum_cons] at hG3 h2
    have : due c first ⟨op, .asked, reply, out⟩ = c.cost first op := rfl
    rw [this] at hG3
    omega

theorem MixedInv.spare_next {c : Household} (hv : 0 < c.cfg.pass_value) {good : String → Prop} {first : Int} {H : List String}
    {all rest : List StorageOp} {R : List String} {d : Nat} {k : Traffic} {op : StorageOp}
    (h : MixedInv c good first H all (op :: rest) R d k) : AffordsGood k.store good (c.cost first op) := by
  obtain ⟨G, hG1, hG2, hG3⟩ := h.affords
  refine ⟨G.filter (· ∉ k.jobs.flatMap jobTokens), hG1.filter _, ?_, ?_⟩
  · intro x hx
    obtain ⟨hxG, hxn⟩ := List.mem_filter.mp hx
    have hxn : x ∉ k.jobs.flatMap jobTokens := of_decide_eq_true hxn
    obtain ⟨h1, h2, h3⟩ := hG2 x hxG
    exact ⟨(available_iff h.held x).mpr ⟨h2, fun hc => (List.mem_append.mp hc).elim h3 hxn⟩, h1⟩
  · have h1 := good_outside (l := k.jobs.flatMap jobTokens) hG1
    have h2 := tokens_due hv k.jobs h.going
    have h3 := costs_nonneg hv first rest
    rw [List.map_cons, List.sum_cons] at hG3
    omega

theorem mixed_start {c : Household} (hv : 0 < c.cfg.pass_value) {good : String → Prop} {first last : Int}
    (htok : MixedTokens c.sign c.cfg c.store good) {H : List String} {all rest : List StorageOp} {R : List String}
    {d : Nat} {k : Traffic} {op : StorageOp} (h : MixedInv c good first H all (op :: rest) R d k)
    (hf : OpFine c first last op) {rref : Except PyErr RRef} (hr : RightServer rref) (o : Order) :
    MixedInv c good first H all rest R d (k.step c.sign c.cfg c.cfg.pass_value (.start op rref o)) := by
  have hops : ∀ job : Ongoing, job.op = op → (k.jobs ++ [job]).map (·.op) ++ rest = all := by
    intro job hj
    rw [← h.ops]
    simp [hj]
  obtain ⟨G, hG1, hG2, hG3⟩ := h.affords
  rw [List.map_cons, List.sum_cons] at hG3
  have hcalls := h.calls
  have hbooks := h.books
  rcases start_either hv hf hr k.store o with ⟨r, h1, hu, h2⟩ | h2
  · dsimp only [Traffic.step]
    rw [h2]
    refine ⟨?_, h.left, ⟨G, hG1, hG2, ?_⟩, ?_, hops _ rfl, fun op' h' => h.rest op' (List.mem_cons_of_mem _ h'),
      h.nodup, h.bad, h.invalid, ?_, ?_⟩
    · simpa [jobTokens] using h.held
    · simp only [List.map_append, List.map_cons, List.map_nil, List.sum_append, List.sum_cons, List.sum_nil]
      have : due c first ⟨op, .asked, none, [.sent op r]⟩ = c.cost first op := rfl
      rw [this]
      omega
    · intro job hj
      rcases List.mem_append.mp hj with hj | hj
      · exact h.going job hj
      · rw [List.mem_singleton.mp hj]
        exact .asked _ _ _ hu h1 (h.rest op List.mem_cons_self hu) (fun x hx => nomatch hx)
    · simp only [List.map_append, List.map_cons, List.map_nil, List.sum_append, List.sum_cons, List.sum_nil,
        List.length_append, List.length_cons, List.length_nil]
      have e1 : callsMade ⟨op, .asked, none, [.sent op r]⟩ = 1 := rfl
      have e2 : askedFirst ⟨op, .asked, none, [.sent op r]⟩ = 1 := rfl
      rw [e1, e2]
      omega
    · simp only [List.map_append, List.map_cons, List.map_nil, List.sum_append, List.sum_cons, List.sum_nil]
      exact hbooks
  · obtain ⟨g, t', p1, p2, p3, p4⟩ := pay_gathered hv hf htok h.back h.held (h.spare_next hv) o
    dsimp only [Traffic.step]
    rw [h2, p1]
    refine ⟨?_, by dsimp only; rw [p2]; exact h.left, ⟨G, hG1, by dsimp only; rw [p2]; exact hG2, ?_⟩, ?_, hops _ rfl,
      fun op' h' => h.rest op' (List.mem_cons_of_mem _ h'), h.nodup, by dsimp only; rw [p2]; exact h.bad,
      by dsimp only; rw [p2]; exact h.invalid, ?_, ?_⟩
    · simpa [jobTokens] using p4
    · simp only [List.map_append, List.map_cons, List.map_nil, List.sum_append, List.sum_cons, List.sum_nil]
      have : ∀ call out, due c first ⟨op, .paying call, none, out⟩ = c.cost first op := fun _ _ => rfl
      rw [this]
      omega
    · intro job hj
      rcases List.mem_append.mp hj with hj | hj
      · exact h.going job hj
      · rw [List.mem_singleton.mp hj]
        exact .paying _ g _ [] p3 (fun _ hu => h.rest op List.mem_cons_self hu) (fun x hx => nomatch hx)
          (fun _ _ h => nomatch h)
    · simp only [List.map_append, List.map_cons, List.map_nil, List.sum_append, List.sum_cons, List.sum_nil,
        List.length_append, List.length_cons, List.length_nil]
      have e1 : ∀ call r, callsMade ⟨op, .paying call, none, [.sent op r]⟩ = 1 := fun _ _ => rfl
      have e2 : ∀ call out, askedFirst ⟨op, .paying call, none, out⟩ = 0 := fun _ _ => rfl
      rw [e1, e2]
      omega
    · simp only [List.map_append, List.map_cons, List.map_nil, List.sum_append, List.sum_cons, List.sum_nil]
      have e1 : storedTokens t' = storedTokens k.store := by unfold storedTokens; rw [p2]
      rw [e1]
      exact hbooks

/-- A call of the job in the middle has arrived. -/
theorem mixed_replace {c : Household} {good : String → Prop} {first : Int}
    {H : List String} {all rest : List StorageOp} {R : List String} {d d' : Nat} {t : Tables} {a b : List Ongoing}
    {job : Ongoing} {s : Server} (h : MixedInv c good first H all rest R d ⟨t, a ++ job :: b, s⟩)
    (hapart : all.Pairwise ApartOps) {job' : Ongoing} {s' : Server}
    (hop : job'.op = job.op) (hstate : job'.state = job.state) (hout : job'.out = job.out)
    (hs : ∀ op', ApartOps job.op op' → ¬ IsUpload op' → s'.buckets (indexOf op') = s.buckets (indexOf op'))
    (hgo : GoingOn c good first s' job')
    (hd : d' + pendingSpent c.cfg.pass_value job = d + pendingSpent c.cfg.pass_value job') :
    MixedInv c good first H all rest R d' ⟨t, a ++ job' :: b, s'⟩ := by
  have hops := h.ops
  have happ := apart_mid (by rw [hops]; exact hapart)
  have htok : jobTokens job' = jobTokens job := by unfold jobTokens; rw [hstate]
  have hdue : due c first job' = due c first job := by unfold due; rw [hstate, hop]
  have hmade : callsMade job' = callsMade job := by unfold callsMade; rw [hout]
  have hask : askedFirst job' = askedFirst job := by unfold askedFirst; rw [hstate]
  refine ⟨?_, h.left, ?_, ?_, ?_, fun op' h1 h2 => (hs op' (happ.2 op' h1) h2).trans (h.rest op' h1 h2), h.nodup, h.bad,
    h.invalid, ?_, ?_⟩
  · have := h.held
    simp only [List.flatMap_append, List.flatMap_cons] at *
    rw [htok]
    exact this
  · have := h.affords
    simp only [List.map_append, List.map_cons] at *
    rw [hdue]
    exact this
  · intro j hj
    rcases List.mem_append.mp hj with hj | hj
    · refine goingOn_server (h.going j (List.mem_append_left _ hj)) ?_
      by_cases hu : IsUpload j.op
      · exact .inl hu
      · exact .inr (hs _ (happ.1 j (List.mem_append_left _ hj)) hu)
    · rcases List.mem_cons.mp hj with rfl | hj
      · exact hgo
      · refine goingOn_server (h.going j (List.mem_append_right _ (List.mem_cons_of_mem _ hj))) ?_
        by_cases hu : IsUpload j.op
        · exact .inl hu
        · exact .inr (hs _ (happ.1 j (List.mem_append_right _ hj)) hu)
  · rw [← hops]
    simp [hop]
  · have := h.calls
    simp only [List.map_append, List.map_cons, List.length_append, List.length_cons] at *
    rw [hmade, hask]
    exact this
  · have := h.books
    simp only [List.map_append, List.map_cons, List.sum_append, List.sum_cons] at *
    omega

theorem mixed_arrive {c : Household} (hv : 0 < c.cfg.pass_value) {good : String → Prop} {first last now : Int}
    (htok : MixedTokens c.sign c.cfg c.store good) (h1 : first ≤ now) (h2 : now ≤ last)
    {H : List String} {all rest : List StorageOp} {R : List String} {d : Nat} {k : Traffic}
    (h : MixedInv c good first H all rest R d k)
    (hfine : ∀ op ∈ all, OpFine c first last op) (hapart : all.Pairwise ApartOps) {room : Nat → Bool}
    (hw : ∀ op ∈ all, Willing (c.bucket op) room op) (i : Nat) :
    ∃ d', MixedInv c good first H all rest R d' (k.step c.sign c.cfg c.cfg.pass_value (.arrive i now room)) ∧
      (k.step c.sign c.cfg c.cfg.pass_value (.arrive i now room)).server.spent.length + d = k.server.spent.length + d' := by
  obtain ⟨t, jobs, s⟩ := k
  dsimp only [Traffic.step]
  split
  · rename_i op state out hi
    have hgo := h.going _ (List.mem_of_getElem? hi)
    obtain ⟨a, b, rfl, hset⟩ := set_split hi
    have hall : op ∈ all := by
      rw [← h.ops]
      simp
    split
    · rename_i op' r hlast
      rw [hset]
      cases hgo with
      | asked _ r' _ hu hfirst hs hr =>
        cases hlast
        refine ⟨d, mixed_replace h hapart rfl rfl rfl (fun op' _ _ => by rw [first_call_keeps hfirst]) ?_ rfl, ?_⟩
        · rw [first_call_keeps hfirst]
          exact .asked _ _ _ hu hfirst hs fun x hx => ⟨_, s, hs, by cases hx; rfl⟩
        · rw [first_call_keeps hfirst]
      | paying _ g _ out hg hn hr clean =>
        rw [List.getLast?_concat] at hlast
        cases hlast
        have hsv := serves_op hv (m := ⟨[], now, room, now, .natural⟩) (s := s) h1 h2 (hfine op hall) (hw op hall) (hn rfl)
        obtain ⟨hpar, h177, hver⟩ := group_parses hg.made (gathered_kinds htok hg)
        have hframe : ∀ op', ApartOps op op' → ¬ IsUpload op' →
            (server_reply c.cfg ⟨[], now, room, now, .natural⟩ s (op.request (g.passes.map Pass.pass_bytes))).1.buckets
              (indexOf op') = s.buckets (indexOf op') := fun op' ha hu => by
          refine reply_frame (hfine op hall).paid _ ?_
          rcases ha with ha | ha | ha
          · exact .inl ha
          · exact absurd ha hu
          · exact .inr ha.symm
        by_cases hgood : ∀ p ∈ g.passes, c.cfg.verifies g.message p = true
        · obtain ⟨s', w, r, n, records, e1, e2⟩ := hsv.good g ⟨hpar, hgood, h177⟩ hg.message hg.length
          obtain ⟨hsp, hle⟩ := performed_spends e2
          have hpend : ∀ call out, call.pass_group = g →
              pendingSpent c.cfg.pass_value ⟨op, .paying call, some (.result w), out⟩ = records.length := by
            intro call out hcg
            unfold pendingSpent
            dsimp only
            rw [e2.result]
            dsimp only
            rw [hcg, hsp]
          refine ⟨d + records.length, mixed_replace h hapart rfl rfl rfl hframe ?_ ?_, ?_⟩
          · rw [e1]
            refine .paying _ _ _ _ hg (fun h => nomatch h) (fun x hx => ?_) clean
            cases hx
            refine .accepted w r n e2.result (fun x hx => ?_) hle
            obtain ⟨⟨y, p⟩, hyp, rfl⟩ := List.mem_map.mp hx
            exact (hver y p hyp).mp (hgood p (List.mem_map_of_mem (f := Prod.snd) hyp))
          · rw [e1]
            dsimp only
            rw [hpend _ _ rfl]
            rfl
          · rw [e1]
            dsimp only
            rw [e2.spent, List.length_append]
            omega
        · have hsome : ∃ p ∈ g.passes, c.cfg.verifies g.message p = false := by
            apply Classical.byContradiction
            intro hno
            apply hgood
            intro p hp
            cases hb : c.cfg.verifies g.message p with
            | true => rfl
            | false => exact absurd ⟨p, hp, hb⟩ hno
          obtain ⟨failed, e1, e2⟩ := hsv.bad g hpar hg.message hg.length hsome
          refine ⟨d, mixed_replace h hapart rfl rfl rfl hframe ?_ ?_, ?_⟩
          · rw [e2]
            refine .paying _ _ _ _ hg (fun h => nomatch h) (fun x hx => ?_) clean
            cases hx
            exact .refused failed e1 hsome (hn rfl)
          · rw [e2]
            rfl
          · rw [e2]
      | over _ r' out clean =>
        rw [List.getLast?_concat] at hlast
        cases hlast
    · exact ⟨d, h, rfl⟩
  · exact ⟨d, h, rfl⟩

theorem mixed_others {c : Household} {good : String → Prop} {first : Int}
    {H : List String} {all rest : List StorageOp} {R : List String} {d : Nat} {k : Traffic}
    (h : MixedInv c good first H all rest R d k)
    {ops : List ServerOp} (hu : ∀ op ∈ all, ¬ IsUpload op →
      (k.server.run c.cfg ops).buckets (indexOf op) = k.server.buckets (indexOf op)) :
    MixedInv c good first H all rest R d (k.step c.sign c.cfg c.cfg.pass_value (.others ops)) := by
  have hmem : ∀ job ∈ k.jobs, job.op ∈ all := fun job hj => by
    rw [← h.ops]
    exact List.mem_append_left _ (List.mem_map_of_mem (f := fun j : Ongoing => j.op) hj)
  refine ⟨h.held, h.left, h.affords, ?_, h.ops, ?_, h.nodup, h.bad, h.invalid, h.calls, h.books⟩
  · intro job hj
    refine goingOn_server (h.going job hj) ?_
    by_cases hup : IsUpload job.op
    · exact .inl hup
    · exact .inr (hu _ (hmem job hj) hup)
  · intro op hop hup
    exact (hu op (by rw [← h.ops]; exact List.mem_append_right _ hop) hup).trans (h.rest op hop hup)

theorem stored_set_aside {t t' : Tables} {R : List String} {inv : List InvalidRow}
    (h : t'.app = { t.app with unblinded := t.app.unblinded.filter (·.token ∉ R), invalid := inv }) (x : String) :
    StoredIn t'.app true x ↔ StoredIn t.app true x ∧ x ∉ R := by
  unfold StoredIn
  rw [h]
  dsimp only
  constructor
  · rintro ⟨r, hr, rfl, hg⟩
    obtain ⟨ha, hb⟩ := List.mem_filter.mp hr
    exact ⟨⟨r, ha, rfl, hg⟩, of_decide_eq_true hb⟩
  · rintro ⟨⟨r, hr, rfl, hg⟩, hx⟩
    exact ⟨r, List.mem_filter.mpr ⟨hr, decide_eq_true hx⟩, rfl, hg⟩

theorem mid_perm (H a g b : List String) : (H ++ a ++ g ++ b).Perm (H ++ a ++ b ++ g) := by
  rw [List.append_assoc (H ++ a), List.append_assoc (H ++ a)]
  exact List.Perm.append_left _ List.perm_append_comm

theorem callsMade_eq (op : StorageOp) (st : OpState) (reply : Option Reply) (out : List Out) :
    callsMade ⟨op, st, reply, out⟩ = sents out := rfl

theorem mixed_asked {c : Household} (hv : 0 < c.cfg.pass_value) {good : String → Prop}
    (htok : MixedTokens c.sign c.cfg c.store good) {first last now : Int} (h0 : 0 ≤ first) (h1 : first ≤ now)
    (h2 : now ≤ last) {H : List String} {all rest : List StorageOp} {R : List String} {d : Nat}
    {t : Tables} {a b : List Ongoing} {op : StorageOp} {reply : Reply} {out : List Out} {s : Server}
    (h : MixedInv c good first H all rest R d ⟨t, a ++ ⟨op, .asked, some reply, out⟩ :: b, s⟩)
    (hfine : ∀ op ∈ all, OpFine c first last op) (o : Order) :
    ∃ call out' t', op_asked c.sign o c.cfg.pass_value now op reply t = (.paying call, out', t') ∧
      MixedInv c good first H all rest R d
        ⟨t', a ++ ⟨op, .paying call, none, out ++ .got op reply now :: out'⟩ :: b, s⟩ := by
  have hgo := h.going ⟨op, .asked, some reply, out⟩ (List.mem_append_right _ List.mem_cons_self)
  have hall : op ∈ all := by
    rw [← h.ops]
    simp
  have hmem : ∀ j ∈ a ++ b, j ∈ a ++ (⟨op, .asked, some reply, out⟩ : Ongoing) :: b := fun j hj => by
    rcases List.mem_append.mp hj with hj | hj
    · exact List.mem_append_left _ hj
    · exact List.mem_append_right _ (List.mem_cons_of_mem _ hj)
  cases hgo with
  | asked _ r _ hu hfirst hs hr =>
    obtain ⟨m, s1, e1, e2⟩ := hr _ rfl
    obtain ⟨g, t', p1, p2, p3, p4⟩ := pay_gathered hv (hfine op hall) htok h.back h.held (h.spare hv rfl) o
    have hasked : op_asked c.sign o c.cfg.pass_value now op reply t =
        pay c.sign o c.cfg.pass_value op (c.cost first op) t := by
      rw [e2]
      exact asked_job hv h0 h1 h2 (hfine op hall) hu hfirst e1 o t
    refine ⟨_, _, t', hasked.trans p1, ?_⟩
    have hst : storedTokens t' = storedTokens t := by unfold storedTokens; rw [p2]
    refine ⟨?_, by dsimp only; rw [p2]; exact h.left, ?_, ?_, by rw [← h.ops]; simp, h.rest, h.nodup,
      by dsimp only; rw [p2]; exact h.bad, by dsimp only; rw [p2]; exact h.invalid, ?_, ?_⟩
    · refine p4.of_perm ?_
      simp only [List.flatMap_append, List.flatMap_cons, jobTokens, List.nil_append, List.append_assoc]
      refine List.Perm.append_left _ (List.Perm.append_left _ ?_)
      exact List.perm_append_comm
    · obtain ⟨G, hG1, hG2, hG3⟩ := h.affords
      refine ⟨G, hG1, by dsimp only; rw [p2]; exact hG2, ?_⟩
      simp only [List.map_append, List.map_cons] at hG3 ⊢
      exact hG3
    · intro j hj
      rcases List.mem_append.mp hj with hj | hj
      · exact h.going j (hmem j (List.mem_append_left _ hj))
      · rcases List.mem_cons.mp hj with rfl | hj
        · rw [show ∀ (l : List Out) (a b : Out), l ++ a :: [b] = l ++ [a] ++ [b] from
            fun l a b => List.append_cons l a [b]]
          refine .paying _ _ _ _ p3 (fun _ _ => hs) (fun x hx => nomatch hx) ?_
          intro op' e hc
          simp at hc
        · exact h.going j (hmem j (List.mem_append_right _ hj))
    · have := h.calls
      simp only [List.map_append, List.map_cons, List.sum_append, List.sum_cons, List.length_append,
        List.length_cons] at this ⊢
      have e1 : ∀ reply, callsMade ⟨op, .asked, reply, [.sent op r]⟩ = 1 := fun _ => rfl
      have e2 : ∀ reply, askedFirst ⟨op, .asked, reply, [.sent op r]⟩ = 1 := fun _ => rfl
      have e3 : ∀ call reply r', callsMade ⟨op, .paying call, none,
        [.sent op r] ++ [.got op reply now, .sent op r']⟩ = 2 := fun _ _ _ => rfl
      have e4 : ∀ call out, askedFirst ⟨op, .paying call, none, out⟩ = 0 := fun _ _ => rfl
      rw [e1, e2] at this
      rw [e3, e4]
      omega
    · have := h.books
      simp only [List.map_append, List.map_cons] at this ⊢
      rw [hst]
      exact this

theorem mixed_paid {c : Household} (hv : 0 < c.cfg.pass_value) {good : String → Prop}
    (htok : MixedTokens c.sign c.cfg c.store good) {first last now : Int} {H : List String} {all rest : List StorageOp}
    {R : List String} {d : Nat}
    {t : Tables} {a b : List Ongoing} {op : StorageOp} {call : Call} {reply : Reply} {out : List Out} {s : Server}
    (h : MixedInv c good first H all rest R d ⟨t, a ++ ⟨op, .paying call, some reply, out⟩ :: b, s⟩)
    (hfine : ∀ op ∈ all, OpFine c first last op) (o : Order) :
    ∃ state out' t' R', op_paid c.sign o op call reply t = (state, out', t') ∧
      MixedInv c good first H all rest (R ++ R') d
        ⟨t', a ++ ⟨op, state, none, out ++ .got op reply now :: out'⟩ :: b, s⟩ ∧
      (state = .over ∧ R' = [] ∨ (∃ call', state = .paying call') ∧ R' ≠ []) := by
  have hgo := h.going ⟨op, .paying call, some reply, out⟩ (List.mem_append_right _ List.mem_cons_self)
  have hall : op ∈ all := by
    rw [← h.ops]
    simp
  have hmem : ∀ j ∈ a ++ b, j ∈ a ++ (⟨op, .paying call, some reply, out⟩ : Ongoing) :: b := fun j hj => by
    rcases List.mem_append.mp hj with hj | hj
    · exact List.mem_append_left _ hj
    · exact List.mem_append_right _ (List.mem_cons_of_mem _ hj)
  cases hgo with
  | paying _ g _ out hg hn hr clean =>
    have hheld := h.held
    simp only [List.flatMap_append, List.flatMap_cons, jobTokens] at hheld
    rw [← List.append_assoc, ← List.append_assoc] at hheld
    have hheld' := hheld.of_perm (mid_perm H _ _ _)
    obtain ⟨G, hG1, hG2, hG3⟩ := h.affords
    simp only [List.map_append, List.map_cons, List.sum_append, List.sum_cons] at hG3
    have hdue : ∀ reply out, due c first ⟨op, .paying ⟨op.on_success c.cfg.pass_value, c.cost first op, g⟩, reply, out⟩ =
      c.cost first op := fun _ _ => rfl
    rw [hdue] at hG3
    have hcalls := h.calls
    have hbooks := h.books
    simp only [List.map_append, List.map_cons, List.sum_append, List.sum_cons, List.length_append,
      List.length_cons] at hcalls hbooks
    have e4 : ∀ call reply out, askedFirst ⟨op, .paying call, reply, out⟩ = 0 := fun _ _ _ => rfl
    rw [e4] at hcalls
    cases hr _ rfl with
    | accepted w r k hres hgood hle =>
      obtain ⟨t', p1, p2, p3, p4⟩ := receive_paid (sign := c.sign) hv (n := c.cost first op) hheld o hres
      obtain ⟨t'', q1, q2, q3⟩ := paid_returns (sign := c.sign) hv (n := c.cost first op)
        (price := opSpends c.cfg.pass_value op g k) hheld' o hres
        (fun si renew cancel nums size canary e => by
          subst e
          refine ⟨?_, hle⟩
          have : 0 ≤ total c.cfg.pass_value (List.replicate k (size : Int)) := by
            rw [total_replicate]
            exact Int.mul_nonneg (by omega) (passes_nonneg _ hv (by omega))
          show ((total c.cfg.pass_value (List.replicate k (size : Int))).toNat : Int) = _
          omega)
        (fun hne => by
          cases op with
          | allocateBuckets si renew cancel nums size canary => exact absurd rfl (hne _ _ _ _ _ _)
          | _ => rfl)
      have ht : t'' = t' := by
        rw [p1] at q1
        cases q1
        rfl
      subst ht
      refine ⟨.over, _, t'', [], p1, ?_, .inl ⟨rfl, rfl⟩⟩
      rw [List.append_nil]
      refine ⟨?_, ?_, ⟨G.filter (· ∉ g.unblinded_tokens), hG1.filter _, ?_, ?_⟩, ?_, by rw [← h.ops]; simp, h.rest,
        h.nodup, fun x hx => ⟨(h.bad x hx).1, (h.bad x hx).2.1, fun hc => (h.bad x hx).2.2 (p3 x hc)⟩, ?_, ?_, ?_⟩
      · simpa [List.flatMap_append, List.flatMap_cons, jobTokens] using p2
      · exact fun x hx => h.left x (p3 x hx)
      · intro x hx
        obtain ⟨hxG, hxn⟩ := List.mem_filter.mp hx
        obtain ⟨k1, k2, k3⟩ := hG2 x hxG
        exact ⟨k1, p4 x k2 (of_decide_eq_true hxn), k3⟩
      · have := good_outside (l := g.unblinded_tokens) hG1
        rw [gathered_length hg] at this
        simp only [List.map_append, List.map_cons, List.sum_append, List.sum_cons]
        have e : ∀ out, due c first ⟨op, .over, none, out⟩ = 0 := fun _ => rfl
        rw [e]
        omega
      · intro j hj
        rcases List.mem_append.mp hj with hj | hj
        · exact h.going j (hmem j (List.mem_append_left _ hj))
        · rcases List.mem_cons.mp hj with rfl | hj
          · rw [show ∀ (l : List Out) (a b : Out), l ++ a :: [b] = l ++ [a] ++ [b] from
              fun l a b => List.append_cons l a [b]]
            refine .over _ _ _ ?_
            intro op' e hc
            simp at hc
            exact clean _ _ hc
          · exact h.going j (hmem j (List.mem_append_right _ hj))
      · exact q3.trans h.invalid
      · simp only [List.map_append, List.map_cons, List.sum_append, List.sum_cons, List.length_append,
          List.length_cons]
        have e5 : ∀ out, askedFirst ⟨op, .over, none, out⟩ = 0 := fun _ => rfl
        have e6 : sents [.got op (.result w) now, .returned op r] = 0 := rfl
        rw [callsMade_eq] at hcalls ⊢
        rw [e5, sents_append, e6]
        omega
      · simp only [List.map_append, List.map_cons, List.sum_append, List.sum_cons]
        have e5 : ∀ out, pendingSpent c.cfg.pass_value ⟨op, .over, none, out⟩ = 0 := fun _ => rfl
        have e6 : ∀ out, pendingSpent c.cfg.pass_value
            ⟨op, .paying ⟨op.on_success c.cfg.pass_value, c.cost first op, g⟩, some (.result w), out⟩ =
              opSpends c.cfg.pass_value op g k := fun out => by
          unfold pendingSpent
          dsimp only
          rw [hres]
        rw [e6] at hbooks
        rw [e5]
        omega
    | refused failed hpos hsome hs =>
      have hav : ∀ x, Available t x → Available c.store x := h.back
      obtain ⟨hpar, h177, hver⟩ := group_parses hg.made (gathered_kinds htok hg)
      have hf := hfine op hall
      have hout := good_outside (l := (a ++ b).flatMap jobTokens) hG1
      have hdues := tokens_due hv (s := s) (good := good) (first := first) (c := c) (a ++ b)
        (fun j hj => h.going j (hmem j hj))
      simp only [List.map_append, List.sum_append] at hdues
      have hrest := costs_nonneg hv first rest
      obtain ⟨B, g', t', h3, h4⟩ := rejected_goes_on htok.works (ok := c.cfg.verifies g.message) hheld' hg.made hg.length
        hf.each hver hpos hsome (G := G.filter (· ∉ (a ++ b).flatMap jobTokens)) (hG1.filter _) (by
          intro x hx
          obtain ⟨hxG, hxn⟩ := List.mem_filter.mp hx
          have hxn : x ∉ (a ++ b).flatMap jobTokens := of_decide_eq_true hxn
          obtain ⟨k1, k2, k3⟩ := hG2 x hxG
          refine ⟨k1, ?_⟩
          by_cases hxg : x ∈ g.unblinded_tokens
          · exact .inl hxg
          · refine .inr ((available_iff hheld' x).mpr ⟨k2, fun hc => ?_⟩)
            rcases List.mem_append.mp hc with hc | hc
            · rw [List.append_assoc, ← List.flatMap_append] at hc
              exact (List.mem_append.mp hc).elim k3 hxn
            · exact hxg hc) (by omega) o (op.on_success c.cfg.pass_value)
      have hst := stored_set_aside h4.app
      have hg' : Gathered c first op g' := by
        refine ⟨h4.message.trans hg.message, by rw [h4.length]; exact hg.length, h4.made, fun x hx => ?_⟩
        exact (h4.from_before x hx).elim (hg.own x) (hav x)
      have h5 := try_again (cfg := c.cfg) (good := good) hf.proper.1 hf.each o h3 h4.made hg'.length (gathered_kinds htok hg')
      have hB : ∀ x ∈ B, Available c.store x ∧ ¬ good x ∧ StoredIn t.app true x := fun x hx => by
        obtain ⟨k1, k2, -⟩ := h4.rejected x hx
        exact ⟨hg.own x k1, k2, hheld'.wf.in_use_stored x (hheld'.mem (List.mem_append_right _ k1))⟩
      refine ⟨_, _, t', B, h5, ?_, .inr ⟨⟨_, rfl⟩, h4.some⟩⟩
      refine ⟨?_, fun x hx => h.left x ((hst x).mp hx).1, ⟨G, hG1, ?_, ?_⟩, ?_, by rw [← h.ops]; simp, h.rest,
        ?_, ?_, ?_, ?_, ?_⟩
      · have := h4.held.of_perm (mid_perm H _ _ _).symm
        simpa [List.flatMap_append, List.flatMap_cons, jobTokens] using this
      · intro x hx
        obtain ⟨k1, k2, k3⟩ := hG2 x hx
        exact ⟨k1, (hst x).mpr ⟨k2, fun hc => (hB x hc).2.1 k1⟩, k3⟩
      · simp only [List.map_append, List.map_cons, List.sum_append, List.sum_cons]
        have e : ∀ call out, due c first ⟨op, .paying call, none, out⟩ = c.cost first op := fun _ _ => rfl
        rw [e]
        omega
      · intro j hj
        rcases List.mem_append.mp hj with hj | hj
        · exact h.going j (hmem j (List.mem_append_left _ hj))
        · rcases List.mem_cons.mp hj with rfl | hj
          · rw [show ∀ (l : List Out) (a b : Out), l ++ a :: [b] = l ++ [a] ++ [b] from
              fun l a b => List.append_cons l a [b]]
            refine .paying _ _ _ _ hg' (fun _ => hs) (fun x hx => nomatch hx) ?_
            intro op' e hc
            simp at hc
            exact clean _ _ hc
          · exact h.going j (hmem j (List.mem_append_right _ hj))
      · refine List.nodup_append.mpr ⟨h.nodup, h4.nodup, fun x hx y hy e => ?_⟩
        subst e
        exact (h.bad x hx).2.2 (hB x hy).2.2
      · intro x hx
        rcases List.mem_append.mp hx with hx | hx
        · exact ⟨(h.bad x hx).1, (h.bad x hx).2.1, fun hc => (h.bad x hx).2.2 ((hst x).mp hc).1⟩
        · exact ⟨(hB x hx).1, (hB x hx).2.1, fun hc => ((hst x).mp hc).2 hx⟩
      · dsimp only
        rw [h4.app]
        dsimp only
        have := h.invalid
        dsimp only at this
        rw [this, List.map_append, List.append_assoc]
      · simp only [List.map_append, List.map_cons, List.sum_append, List.sum_cons, List.length_append,
          List.length_cons]
        have e6 : ∀ r, sents [.got op (.morePassesRequired failed) now, .sent op r] = 1 := fun _ => rfl
        rw [callsMade_eq] at hcalls ⊢
        rw [e4, sents_append, e6]
        have := List.length_pos_iff.mpr h4.some
        omega
      · simp only [List.map_append, List.map_cons, List.sum_append, List.sum_cons, List.length_append]
        have e5 : ∀ call out, pendingSpent c.cfg.pass_value ⟨op, .paying call, none, out⟩ = 0 := fun _ _ => rfl
        have e6 : ∀ call out, pendingSpent c.cfg.pass_value ⟨op, .paying call, some (.morePassesRequired failed), out⟩ = 0 :=
          fun _ _ => rfl
        rw [e6] at hbooks
        rw [e5]
        have hst' : storedTokens t' = (storedTokens t).filter (· ∉ B) := by
          unfold storedTokens
          rw [h4.app, List.filter_map]
          rfl
        have := filter_gone_length (l := storedTokens t) hheld'.wf.unblinded h4.nodup fun x hx => by
          obtain ⟨r, hr, hrx, -⟩ := (hB x hx).2.2
          exact List.mem_map.mpr ⟨r, hr, hrx⟩
        rw [← hst'] at this
        omega

theorem mixed_receive {c : Household} (hv : 0 < c.cfg.pass_value) {good : String → Prop}
    (htok : MixedTokens c.sign c.cfg c.store good)
    {first last now : Int} (h0 : 0 ≤ first) (h1 : first ≤ now) (h2 : now ≤ last)
    {H : List String} {all rest : List StorageOp} {R : List String} {d : Nat} {k : Traffic}
    (h : MixedInv c good first H all rest R d k)
    (hfine : ∀ op ∈ all, OpFine c first last op) (i : Nat) (o : Order) :
    ∃ R', MixedInv c good first H all rest R' d (k.step c.sign c.cfg c.cfg.pass_value (.receive i now o)) ∧
      (k.step c.sign c.cfg c.cfg.pass_value (.receive i now o)).server = k.server := by
  obtain ⟨t, jobs, s⟩ := k
  dsimp only [Traffic.step]
  split
  · rename_i op reply out hi
    obtain ⟨a, b, rfl, hset⟩ := set_split hi
    obtain ⟨call, out', t', e1, e2⟩ := mixed_asked hv htok h0 h1 h2 h hfine o
    rw [e1, hset]
    exact ⟨R, e2, rfl⟩
  · rename_i op call reply out hi
    obtain ⟨a, b, rfl, hset⟩ := set_split hi
    obtain ⟨state, out', t', R', e1, e2, -⟩ := mixed_paid hv htok (now := now) h hfine o
    rw [e1, hset]
    exact ⟨_, e2, rfl⟩
  · exact ⟨R, h, rfl⟩

end ZKAP
