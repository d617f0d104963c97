import Verif.Lemmas.Traffic
import Verif.Lemmas.LeaseMaintenance
import Verif.Lemmas.Maintenance
import Verif.Props.Conversation
import Verif.Props.Results
import Verif.Spec.MaintRun

namespace ZKAP
open Spec

/-! ### Which shares are in danger -/

theorem lasts_iff {share : Share} {m now : Int} (hm : 0 ≤ m) (hn : 0 < now) :
    LeaseLasts m now share ↔ m ≤ (share_stat share).lease_expiration * 1000000 - now := by
  refine ⟨?_, lasts_of_stat hm hn⟩
  rintro ⟨l, hl, h⟩
  rcases last_lease share with ⟨h1, -⟩ | ⟨-, h2⟩
  · rw [h1] at hl; exact nomatch hl
  · have := h2 l hl
    omega

theorem secure_iff {m now : Int} {bucket : Bucket} :
    secure m now bucket = true ↔ ∀ kv ∈ bucket, LeaseLasts m now kv.2 := by
  unfold secure LeaseLasts
  rw [List.all_eq_true]
  refine forall_congr' fun kv => imp_congr_right fun _ => ?_
  rw [List.any_eq_true]
  simp only [decide_eq_true_eq]

def bucketStats (bucket : Bucket) : List ShareStat := bucket.map fun kv => share_stat kv.2

theorem stat_date {share : Share} (h : ∀ l ∈ share.leases, 0 ≤ l.expiration ∧ l.expiration ≤ 253402300799) :
    0 ≤ (share_stat share).lease_expiration ∧ (share_stat share).lease_expiration ≤ 253402300799 := by
  rcases last_lease share with ⟨-, h1⟩ | ⟨⟨l, hl, h1⟩, -⟩
  · rw [h1]; decide
  · rw [← h1]; exact h l hl

theorem needs_bucket {m now : Int} (hm : 0 ≤ m) (hn : 0 < now) {bucket : Bucket} (hne : bucket ≠ [])
    (hd : ∀ kv ∈ bucket, ∀ l ∈ kv.2.leases, 0 ≤ l.expiration ∧ l.expiration ≤ 253402300799) :
    ∃ s, soonest_expiration (bucketStats bucket) = .ok s ∧
      needs_lease_renew m s now = .ok (!secure m now bucket) := by
  obtain ⟨s, hs⟩ : ∃ s, soonest_expiration (bucketStats bucket) = .ok s := by
    cases bucket with
    | nil => exact absurd rfl hne
    | cons kv rest => exact ⟨_, rfl⟩
  refine ⟨s, hs, ?_⟩
  obtain ⟨h1, h2⟩ := soonest_spec hs
  obtain ⟨kv, hkv, rfl⟩ := List.mem_map.mp h1
  have hr := stat_date (hd kv hkv)
  unfold needs_lease_renew utcfromtimestamp
  rw [if_pos ⟨by omega, hr.2⟩]
  dsimp only
  congr 1
  rw [Bool.eq_iff_iff, decide_eq_true_eq, Bool.not_eq_true', ← Bool.not_eq_true, secure_iff]
  constructor
  · intro h hall
    have := (lasts_iff hm hn).mp (hall kv hkv)
    omega
  · intro h
    rcases Int.lt_or_le ((share_stat kv.2).lease_expiration * 1000000 - now) m with hlt | hge
    · exact hlt
    · exfalso
      apply h
      intro kv' hkv'
      rw [lasts_iff hm hn]
      have := h2 _ (List.mem_map_of_mem (f := fun kv : Nat × Share => share_stat kv.2) hkv')
      omega

theorem total_bucket (v : Int) (bucket : Bucket) : total v ((bucketStats bucket).map (·.size)) = bucketPrice v bucket := by
  unfold total bucketPrice bucketStats
  rw [List.map_map, List.map_map]
  rfl

theorem stats_read (s : Server) (sis : List SI) :
    stats_of (.stats (sis.map fun si => (s.buckets si).map fun kv => ((kv.1 : Int),
        [("size", Wire.int (share_stat kv.2).size), ("lease_expiration", .int (share_stat kv.2).lease_expiration)]))) =
      sis.map fun si => bucketStats (s.buckets si) := by
  unfold stats_of
  dsimp only
  rw [List.map_map]
  apply List.map_congr_left
  intro si _
  unfold Dict.values bucketStats
  dsimp only [Function.comp]
  rw [List.map_map, List.filterMap_map]
  induction s.buckets si with
  | nil => rfl
  | cons kv rest ih => rw [List.filterMap_cons, List.map_cons, ih]; rfl

/-! ### Observing -/

theorem held_neutral {op : StoreOp} (hn : Neutral op) {t : Tables} {held : List String} (h : Held t held) :
    Held (op.step t).2 held := by
  obtain ⟨h1, h2, h3, h4⟩ := step_neutral hn t
  refine ⟨step_wf_store h.wf op, by rw [h4]; exact h.perm, ?_⟩
  unfold invalidTokens
  rw [h1, h3]
  exact h.clean

theorem available_neutral {op : StoreOp} (hn : Neutral op) (t : Tables) (x : String) :
    Available (op.step t).2 x ↔ Available t x := by
  have h := step_neutral hn t
  unfold Available
  rw [h.stored, h.2.2.2]

theorem stored_neutral {op : StoreOp} (hn : Neutral op) (t : Tables) : storedTokens (op.step t).2 = storedTokens t := by
  unfold storedTokens
  rw [(step_neutral hn t).1]

/-! ### Calls -/

theorem stat_call {sign : Signer} {cfg : ServerConfig} {v : Int} {sis : List SI} {rref : Except PyErr RRef} {o : Order}
    {client : StorageSession} {server : Server} {m : Moment} (later : List Moment) (hright : RightServer rref)
    (hfit : Fits (.statShares sis)) (hwf : BucketsWF (server.run cfg m.others))
    (ha : ∀ si ∈ sis, Tellable ((server.run cfg m.others).buckets si)) :
    ∃ r b log', converse sign cfg v (.statShares sis) rref o client server (m :: later) =
        ⟨{ client with log := log' }, b, server.run cfg m.others⟩ ∧
      log'.getLast? = some (.returned (.statShares sis) r) ∧
      stats_of r = sis.map fun si => bucketStats ((server.run cfg m.others).buckets si) := by
  have hrep : server_reply cfg m (server.run cfg m.others) ((StorageOp.statShares sis).request []) =
      (server.run cfg m.others, .result (.list ((remote_stat_shares (server.run cfg m.others) sis).map fun d =>
        .dict (d.map stat_to_wire)))) := rfl
  obtain ⟨w, r, h1, h2⟩ := answerable_result (cfg := cfg) (m := m) (op := .statShares sis) trivial ha hwf
  have hw := hrep.symm.trans h1
  rw [Prod.mk.injEq] at hw
  injection hw.2 with hw
  have hr : r = .stats (sis.map fun si => ((server.run cfg m.others).buckets si).map fun kv => ((kv.1 : Int),
      [("size", Wire.int (share_stat kv.2).size), ("lease_expiration", .int (share_stat kv.2).lease_expiration)])) := by
    dsimp only [free_result] at h2
    unfold client_stat_shares at h2
    rw [← hw] at h2
    split at h2
    · dsimp only at h2
      rw [stat_items_all hwf] at h2
      injection h2 with h2
      exact h2.symm
    · exact nomatch h2
  obtain ⟨h3, h4⟩ := free_conversation (sign := sign) (v := v) (o := o) (client := client) (op := .statShares sis)
    trivial hright hfit h1 h2
  have hk : (converse sign cfg v (.statShares sis) rref o client server [m]).client.log.getLast? =
      some (.returned (.statShares sis) r) := by
    rw [h3]
    dsimp only
    rw [List.getLast?_append]
    rfl
  have hall : converse sign cfg v (.statShares sis) rref o client server (m :: later) =
      converse sign cfg v (.statShares sis) rref o client server [m] := by
    unfold converse at hk ⊢
    rw [List.foldl_cons]
    exact turns_over later hk
  rw [hall]
  refine ⟨r, (converse sign cfg v (.statShares sis) rref o client server [m]).before, _, ?_, hk, by rw [hr, stats_read]⟩
  generalize converse sign cfg v (.statShares sis) rref o client server [m] = K at h3 h4
  obtain ⟨kc, kb, ks⟩ := K
  dsimp only at h3 h4 ⊢
  rw [h4, h3]

theorem pay_available {sign : Signer} (hs : Signs sign) {t t' : Tables} {held : List String} (h : Held t held) {o : Order}
    {v n : Int} {op : StorageOp} {g : PassGroup} {k : OnSuccess} {out : List Out}
    (hp : pay sign o v op n t = (.paying ⟨k, n, g⟩, out, t')) : ∀ x ∈ g.unblinded_tokens, Available t x := by
  unfold pay call_start at hp
  rcases get_held hs h o op.message n with he | ⟨g', t1, he, -, -, -, ha, -⟩
  · rw [he] at hp
    cases hp
  · rw [he] at hp
    dsimp only [settle, send_paid] at hp
    split at hp
    · cases hp
      exact ha
    · split at hp <;> cases hp

/-- What a renewal that is paid for does. -/
structure Renewed (t : Tables) (held : List String) (price : Int) (t' : Tables) : Prop where
  held : Held t' held
  maint : t'.app.maint = t.app.maint
  stored : ((storedTokens t).length : Int) = (storedTokens t').length + price
  available : ∀ x, Available t' x → Available t x
  affords : ∀ n, Affords t n → Affords t' (n - price)
  regain : ∀ n, Affords t' n → Affords t (n + price)

theorem renew_call {sign : Signer} {cfg : ServerConfig} (hv : 0 < cfg.pass_value) {si renew cancel : Bytes}
    {rref : Except PyErr RRef} {o : Order} {t : Tables} {asked : List StorageOp} {paying : List (StorageOp × Call)}
    {log : List Out} {held : List String} (hheld : Held t held) {server : Server} {m1 m2 : Moment} (later : List Moment)
    (hright : RightServer rref) (hprop : Proper (.addLease si renew cancel)) (hwf : BucketsWF server)
    (htok : GoodTokens sign cfg t) {bucket : Bucket} (hb : server.buckets si = bucket)
    (h1 : (server.run cfg m1.others).buckets si = bucket)
    (h2 : ((server.run cfg m1.others).run cfg m2.others).buckets si = bucket) (htell : Tellable bucket)
    (hroom : ∀ n, m2.room n = true) (heach : bucketPrice cfg.pass_value bucket ≤ 2 ^ 20)
    (haff : Affords t (bucketPrice cfg.pass_value bucket)) :
    ∃ t' r log' s', converse sign cfg cfg.pass_value (.addLease si renew cancel) rref o ⟨t, asked, paying, log⟩ server
        (m1 :: m2 :: later) =
        ⟨⟨t', asked, paying, log'⟩, (server.run cfg m1.others).run cfg m2.others, s'⟩ ∧
      log'.getLast? = some (.returned (.addLease si renew cancel) r) ∧
      Renewed t held (bucketPrice cfg.pass_value bucket) t' := by
  have hr : client_rref rref = .ok ⟨true, some expected_remote_interface_name⟩ := by
    unfold RightServer at hright
    rw [hright]
    rfl
  have hpr := bucket_price_nonneg hv bucket
  have hfit : Fits (.shareSizes si) := hprop.1.2.1
  have hstart : StorageSession.step sign cfg.pass_value ⟨t, asked, paying, log⟩
      (.start (.addLease si renew cancel) rref o) =
      ⟨t, asked ++ [.addLease si renew cancel], paying, log ++ [.sent (.addLease si renew cancel) (.shareSizes si)]⟩ := by
    dsimp only [StorageSession.step, op_start]
    rw [hr]
    dsimp only [send_free]
    rw [(C115_calls_arrive _).1 hfit]
    simp only [still_asked, still_paying, List.append_nil]
  obtain ⟨g, t1, e1, e2, e3, e4, e5, e6⟩ := pay_sends htok hheld m1.order cfg.pass_value hprop.1 hpr heach haff
  have hasked : op_asked sign m1.order cfg.pass_value m1.client_now (.addLease si renew cancel)
      (.result (.dict ((remote_share_sizes (server.run cfg m1.others) si none).map fun kv =>
        (.int kv.1, .int kv.2)))) t = pay sign m1.order cfg.pass_value (.addLease si renew cancel)
          (bucketPrice cfg.pass_value bucket) t := by
    dsimp only [op_asked, Reply.value]
    rw [lease_answer_price (si := si) hv (by rw [h1]; exact htell), h1]
  obtain ⟨s', w, r, k, records, e7, e8, e9, e10⟩ := reply_add_lease hv m2
    ((server.run cfg m1.others).run cfg m2.others) (renew := renew) (cancel := cancel) e5 e3
    (by rw [h2]; exact htell.1) hroom (by rw [h2, e4]; exact Int.le_refl _)
  have hturn := turn_asked (cfg := cfg) (asked := asked) (paying := paying) (log := log) (before := server)
    (server := server) (r := .shareSizes si) rfl m1 rfl (hasked.trans e1)
  dsimp only [still_asked, still_paying] at hturn
  rw [List.append_nil, show ∀ (l : List Out) (a b : Out), l ++ a :: [b] = l ++ [a] ++ [b] from
    fun l a b => List.append_cons l a [b]] at hturn
  obtain ⟨t', f1, f2, -⟩ := paid_returns (sign := sign) (n := bucketPrice cfg.pass_value bucket) hv e6 m2.order e8
    (price := records.length) (fun _ _ _ _ _ _ e => nomatch e) (fun _ => e10)
  obtain ⟨t'', g1, g2, g3, g4⟩ := receive_paid (sign := sign) (n := bucketPrice cfg.pass_value bucket) (a := held) (b := [])
    hv (by rw [List.append_nil]; exact e6) m2.order e8
  have ht : t'' = t' := by
    have := g1.symm.trans f1
    rw [Prod.mk.injEq, Prod.mk.injEq] at this
    exact this.2.2
  subst ht
  rw [List.append_nil] at g2
  obtain ⟨hmaint, hgone⟩ : t''.app.maint = t1.app.maint ∧ ∀ x, StoredIn t''.app true x → x ∉ g.unblinded_tokens := by
    obtain ⟨st, tt, i1, -, -, i4⟩ := answer_ok_held (sign := sign) (a := held) (b := []) (by rw [List.append_nil]; exact e6)
      m2.order .spendAll (bucketPrice cfg.pass_value bucket) k
    have hfc : Reply.for_call (.addLease si renew cancel) (.result w) = (.ok k, r) := by
      unfold Reply.for_call
      dsimp only
      rw [e8]
    have : t'' = tt := by
      unfold op_paid at f1
      rw [hfc] at f1
      dsimp only [StorageOp.on_success] at f1
      rw [i1, i4.1] at f1
      dsimp only [settle] at f1
      rw [Prod.mk.injEq, Prod.mk.injEq] at f1
      exact f1.2.2.symm
    rw [this, i4.2]
    refine ⟨rfl, ?_⟩
    rintro x ⟨row, hrow, rfl, -⟩
    simpa using (List.mem_filter.mp hrow).2
  have hturn2 := turn_paid (v := cfg.pass_value) (asked := asked) (paying := paying)
    (log := log ++ [.sent (.addLease si renew cancel) (.shareSizes si)] ++
      [.got (.addLease si renew cancel) (.result (.dict ((remote_share_sizes (server.run cfg m1.others) si none).map
        fun kv => (.int kv.1, .int kv.2)))) m1.client_now]) (before := server.run cfg m1.others)
    (server := server.run cfg m1.others) rfl m2 e7 f1
  unfold converse
  rw [hstart, List.foldl_cons, hturn, List.foldl_cons]
  have hover := turns_over (sign := sign) (cfg := cfg) (v := cfg.pass_value) later (op := .addLease si renew cancel) (r := r)
    (k := ⟨⟨t'', asked, paying, log ++ [.sent (.addLease si renew cancel) (.shareSizes si)] ++
      [.got (.addLease si renew cancel) (.result (.dict ((remote_share_sizes (server.run cfg m1.others) si none).map
        fun kv => (.int kv.1, .int kv.2)))) m1.client_now] ++
      [.sent (.addLease si renew cancel) (.addLease (g.passes.map Pass.pass_bytes) si renew cancel)] ++
      .got (.addLease si renew cancel) (.result w) m2.client_now :: [.returned (.addLease si renew cancel) r]⟩,
      (server.run cfg m1.others).run cfg m2.others, s'⟩) (by
      dsimp only
      rw [List.append_cons (bs := [Out.returned _ r])]
      exact List.getLast?_concat)
  refine ⟨t'', r, _, s', (congrArg (List.foldl _ · later) hturn2).trans hover, ?_, ?_⟩
  · rw [List.append_cons (bs := [Out.returned _ r])]
    exact List.getLast?_concat
  · have hlen : (records.length : Int) = bucketPrice cfg.pass_value bucket := by rw [e10]; exact e4
    have hgl : g.unblinded_tokens.length = g.tokens.length := by
      unfold PassGroup.unblinded_tokens; rw [List.length_map]
    refine ⟨g2, by rw [hmaint, e2], ?_, ?_, ?_, ?_⟩
    · rw [store_of_app e2] at f2
      omega
    · intro x hx
      obtain ⟨i1, i2⟩ := (available_iff g2 x).mp hx
      have := g3 x i1
      rw [e2] at this
      exact (available_iff hheld x).mpr ⟨this, i2⟩
    · intro n hn
      have i1 := affords_less hheld e6 e2 hn
      refine affords_mono ?_ (by omega) i1
      intro x hx
      obtain ⟨i2, i3⟩ := (available_iff e6 x).mp hx
      rw [List.mem_append, not_or] at i3
      exact (available_iff g2 x).mpr ⟨g4 x i2 i3.2, i3.1⟩
    · rintro n ⟨l, l1, l2, l3⟩
      have hgn := List.nodup_append.mp e6.nodup
      refine ⟨l ++ g.unblinded_tokens, List.nodup_append.mpr ⟨l1, hgn.2.1, ?_⟩, ?_, ?_⟩
      · rintro x hx y hy rfl
        exact hgone x ((available_iff g2 x).mp (l2 x hx)).1 hy
      · intro x hx
        rcases List.mem_append.mp hx with hx | hx
        · obtain ⟨i1, i2⟩ := (available_iff g2 x).mp (l2 x hx)
          have := g3 x i1
          rw [e2] at this
          exact (available_iff hheld x).mpr ⟨this, i2⟩
        · exact pay_available htok.works hheld e1 x hx
      · rw [List.length_append]
        omega

/-! ### The run -/

/-- What part of a run does to the node's database. -/
structure Kept (k : Nat) (held : List String) (t : Tables) (spent seen : Int) (t' : Tables) : Prop where
  held : Held t' held
  row : ∀ row, runRow t k = some row → runRow t' k = some { row with count := row.count + seen }
  stored : ((storedTokens t).length : Int) = (storedTokens t').length + spent
  available : ∀ x, Available t' x → Available t x
  affords : ∀ n, Affords t n → Affords t' (n - spent)
  regain : ∀ n, Affords t' n → Affords t (n + spent)

theorem Kept.trans {k : Nat} {held : List String} {t t1 t2 : Tables} {a b x y : Int} (h1 : Kept k held t a x t1)
    (h2 : Kept k held t1 b y t2) : Kept k held t (a + b) (x + y) t2 := by
  refine ⟨h2.held, ?_, ?_, fun z hz => h1.available z (h2.available z hz), ?_, ?_⟩
  · intro row hrow
    rw [h2.row _ (h1.row row hrow), Int.add_assoc]
  · have := h1.stored
    have := h2.stored
    omega
  · intro n hn
    have := h2.affords _ (h1.affords n hn)
    rwa [show n - (a + b) = n - a - b by omega]
  · intro n hn
    have := h1.regain _ (h2.regain n hn)
    rwa [show n + (a + b) = n + b + a by omega]

theorem Kept.refl {k : Nat} {held : List String} {t : Tables} (h : Held t held) : Kept k held t 0 0 t :=
  ⟨h, fun row hrow => by rw [Int.add_zero]; exact hrow, by omega, fun _ h => h, fun n hn => by rwa [Int.sub_zero],
    fun n hn => by rwa [Int.add_zero]⟩

theorem kept_observe {v : Int} (hv : 0 < v) {k : Nat} {held : List String} {t : Tables} (h : Held t held) (sizes : List Int) :
    Kept k held t 0 (total v sizes) ((StoreOp.maintObserve v sizes ⟨some k⟩).step t).2 := by
  have hn : Neutral (.maintObserve v sizes ⟨some k⟩) := trivial
  refine ⟨held_neutral hn h, ?_, by rw [stored_neutral hn]; omega, fun x => (available_neutral hn t x).mp, ?_, ?_⟩
  · intro row hrow
    rw [step_runRow (op := .maintObserve v sizes ⟨some k⟩) hv hrow]
    unfold rowAfter observed finishTime finishTime
    simp
  · intro n haff
    rw [Int.sub_zero]
    exact affords_mono (fun x => (available_neutral hn t x).mpr) (Int.le_refl _) haff
  · intro n haff
    rw [Int.add_zero]
    exact affords_mono (fun x => (available_neutral hn t x).mp) (Int.le_refl _) haff

theorem kept_renewed {k : Nat} {held : List String} {t t' : Tables} {price : Int} (h : Renewed t held price t') :
    Kept k held t price 0 t' := by
  refine ⟨h.held, ?_, h.stored, h.available, h.affords, h.regain⟩
  intro row hrow
  unfold runRow at hrow ⊢
  rw [h.maint, hrow, Int.add_zero]

/-- The indexes with shares in danger among some. -/
def inDanger (c : MaintScene) (stop : MaintStop) (l : List SI) : List SI :=
  l.filter fun si => !secure c.node.min_lease_remaining stop.now (stop.server.buckets si)

theorem price_nonneg {c : MaintScene} (hv : 0 < c.node.pass_value) (stop : MaintStop) (si : SI) : 0 ≤ c.price stop si :=
  bucket_price_nonneg hv _

theorem danger_nonneg {c : MaintScene} (hv : 0 < c.node.pass_value) (stop : MaintStop) (l : List SI) :
    0 ≤ ((inDanger c stop l).map (c.price stop)).sum := by
  apply sum_nonneg
  intro x hx
  obtain ⟨si, -, rfl⟩ := List.mem_map.mp hx
  exact price_nonneg hv stop si

/-- A share that was there is there, with its data and enough lease. -/
def Safe (c : MaintScene) (stop : MaintStop) (s : Server) (si : SI) : Prop :=
  ∀ n share, StoredShare stop.server si n share → ∃ share', StoredShare s si n share' ∧ share'.data = share.data ∧
    LeaseLasts c.node.min_lease_remaining stop.now share'

theorem observe_step (nd : MaintNode) (activity : LeaseMaintenance) (sizes : List Int) (t : Tables)
    (asked : List StorageOp) (paying : List (StorageOp × Call)) (log : List Out) :
    nd.observe activity sizes ⟨t, asked, paying, log⟩ =
      ⟨((StoreOp.maintObserve nd.pass_value sizes activity).step t).2, asked, paying, log⟩ := rfl

theorem tend_loop_fine {c : MaintScene} (hv : 0 < c.node.pass_value)
    (hmin : 0 ≤ c.node.min_lease_remaining ∧ c.node.min_lease_remaining ≤ 31 * 24 * 60 * 60 * 1000000)
    {stop : MaintStop} (hs : GoodStop c stop) {k : Nat} {held : List String} {asked : List StorageOp}
    {paying : List (StorageOp × Call)} (rest : List SI) (hsub : ∀ si ∈ rest, si ∈ c.indexes) (hnd : rest.Nodup) :
    ∀ {t : Tables} {log : List Out} {s : Server}, Held t held → GoodTokens c.node.sign stop.cfg t → BucketsWF s →
      (∀ si ∈ rest, s.buckets si = stop.server.buckets si) →
      Affords t ((inDanger c stop rest).map (c.price stop)).sum →
      ∃ t' log' s', tend_loop c.node ⟨some k⟩ stop (rest.map fun si => (si, bucketStats (stop.server.buckets si)))
          ⟨t, asked, paying, log⟩ s = some (.ok (), ⟨t', asked, paying, log'⟩, s') ∧
        Kept k held t ((inDanger c stop rest).map (c.price stop)).sum (rest.map (c.price stop)).sum t' ∧
        (∀ si ∈ c.indexes, si ∉ rest → s'.buckets si = s.buckets si) ∧ ∀ si ∈ rest, Safe c stop s' si := by
  induction rest with
  | nil =>
    intro t log s hheld _ _ _ _
    exact ⟨t, log, s, rfl, Kept.refl hheld, fun _ _ _ => rfl, fun _ h => (nomatch h)⟩
  | cons si rest ih =>
    intro t log s hheld htok hwf hbk haff
    obtain ⟨hni, hnd'⟩ := List.nodup_cons.mp hnd
    have hsi := hsub si List.mem_cons_self
    have ih := @ih (fun x hx => hsub x (List.mem_cons_of_mem _ hx)) hnd'
    rw [List.map_cons, tend_loop]
    have hbsi := hbk si List.mem_cons_self
    by_cases hempty : stop.server.buckets si = []
    · have hp : c.price stop si = 0 := by
        unfold MaintScene.price
        rw [hempty]; rfl
      have hd : inDanger c stop (si :: rest) = inDanger c stop rest := by
        unfold inDanger
        rw [List.filter_cons, if_neg]
        rw [hempty]
        exact Bool.false_ne_true
      rw [hd] at haff ⊢
      rw [List.map_cons, List.sum_cons, hp, Int.zero_add, hempty, if_pos (show (bucketStats []).isEmpty = true from rfl)]
      obtain ⟨t', log', s', h1, h2, h3, h4⟩ := ih hheld htok hwf (fun x hx => hbk x (List.mem_cons_of_mem _ hx)) haff
      refine ⟨t', log', s', h1, h2, fun x hx hn => h3 x hx fun hc => hn (List.mem_cons_of_mem _ hc), ?_⟩
      intro x hx
      rcases List.mem_cons.mp hx with rfl | hx
      · intro n share hst
        unfold StoredShare at hst
        rw [hempty] at hst
        exact nomatch hst
      · exact h4 x hx
    · rw [if_neg (by
        cases hb : stop.server.buckets si with
        | nil => exact absurd hb hempty
        | cons kv l => exact Bool.false_ne_true)]
      dsimp only
      obtain ⟨most, hm1, hm2⟩ := needs_bucket hmin.1 hs.clock.1 hempty (hs.dates si hsi)
      rw [hm1]
      dsimp only
      rw [hm2, observe_step]
      have hobs := kept_observe hv (k := k) hheld ((bucketStats (stop.server.buckets si)).map (·.size))
      rw [total_bucket] at hobs
      generalize ((StoreOp.maintObserve c.node.pass_value _ ⟨some k⟩).step t).2 = t1 at hobs ⊢
      rw [List.map_cons, List.sum_cons]
      cases hsec : secure c.node.min_lease_remaining stop.now (stop.server.buckets si) with
      | true =>
        have hd : inDanger c stop (si :: rest) = inDanger c stop rest := by
          unfold inDanger
          rw [List.filter_cons, if_neg]
          rw [hsec]
          exact Bool.false_ne_true
        rw [hd] at haff ⊢
        simp only [Bool.not_true]
        obtain ⟨t', log', s', h1, h2, h3, h4⟩ := ih (t := t1) (log := log) hobs.held (good_mono hobs.available htok) hwf
          (fun x hx => hbk x (List.mem_cons_of_mem _ hx)) (by have := hobs.affords _ haff; rwa [Int.sub_zero] at this)
        refine ⟨t', log', s', h1, ?_, fun x hx hn => h3 x hx fun hc => hn (List.mem_cons_of_mem _ hc), ?_⟩
        · have := hobs.trans h2
          rwa [Int.zero_add] at this
        · intro x hx
          rcases List.mem_cons.mp hx with rfl | hx
          · intro n share hst
            refine ⟨share, ?_, rfl, secure_iff.mp hsec _ (mem_of_lookup_some hst)⟩
            unfold StoredShare at hst ⊢
            rw [h3 x hsi hni, hbsi]
            exact hst
          · exact h4 x hx
      | false =>
        have hd : inDanger c stop (si :: rest) = si :: inDanger c stop rest := by
          unfold inDanger
          rw [List.filter_cons, if_pos]
          rw [hsec]
          rfl
        rw [hd, List.map_cons, List.sum_cons] at haff
        rw [hd, List.map_cons, List.sum_cons]
        simp only [Bool.not_false]
        have hrest := danger_nonneg hv stop rest
        have hpn := price_nonneg hv stop si
        obtain ⟨m1, m2, later, hms⟩ : ∃ m1 m2 later, (stop.renewal si).moments = m1 :: m2 :: later := by
          have := hs.reached.2 si hsi
          cases hl : (stop.renewal si).moments with
          | nil => rw [hl] at this; exact absurd this (by decide)
          | cons m1 l =>
            cases l with
            | nil => rw [hl] at this; exact absurd (show 2 ≤ 1 from this) (by decide)
            | cons m2 l => exact ⟨m1, m2, l, rfl⟩
        have halone : ∀ m ∈ (stop.renewal si).moments, LeavesAlone stop.cfg c.indexes m.others := hs.alone.2 si hsi
        have ha1 := halone m1 (by rw [hms]; exact List.mem_cons_self)
        have ha2 := halone m2 (by rw [hms]; exact List.mem_cons_of_mem _ List.mem_cons_self)
        have haff1 : Affords t1 (c.price stop si + ((inDanger c stop rest).map (c.price stop)).sum) := by
          have := hobs.affords _ haff
          rwa [Int.sub_zero] at this
        have haffp : Affords t1 (c.price stop si) := affords_mono (fun _ h => h) (by omega) haff1
        have hprop := hs.proper.2 si hsi
        have hcall : renew_lease c.node.hashes c.node.renewal_secret c.node.cancel_secret si stop.lease_seed
            (fun si renew cancel => c.node.ask stop.cfg (stop.renewal si) (.addLease si renew cancel)
              ⟨t1, asked, paying, log⟩ s) =
            c.node.ask stop.cfg (stop.renewal si) (c.renewal stop si) ⟨t1, asked, paying, log⟩ s := rfl
        rw [hcall]
        obtain ⟨renew, cancel, hop⟩ : ∃ renew cancel, c.renewal stop si = .addLease si renew cancel := ⟨_, _, rfl⟩
        rw [hop] at hprop ⊢
        obtain ⟨t2, r, log2, s2, hc, hlast, hren⟩ := renew_call (sign := c.node.sign) (cfg := stop.cfg)
          (by rw [hs.value]; exact hv) (si := si) (renew := renew) (cancel := cancel) (rref := (stop.renewal si).get_rref)
          (o := (stop.renewal si).order) (t := t1) (asked := asked) (paying := paying) (log := log) hobs.held
          (server := s) (m1 := m1) (m2 := m2) later (hs.right.2 si hsi) hprop hwf (good_mono hobs.available htok)
          (bucket := stop.server.buckets si) hbsi (by rw [ha1 _ si hsi, hbsi]) (by rw [ha2 _ si hsi, ha1 _ si hsi, hbsi])
          (hs.tellable si hsi) (hs.room si hsi m2 (by rw [hms]; exact List.mem_cons_of_mem _ List.mem_cons_self))
          (by rw [hs.value]; exact hs.each si hsi) (by rw [hs.value]; exact haffp)
        rw [hs.value, ← hms] at hc
        rw [hs.value] at hren
        have hwf2 := (converse_wf (sign := c.node.sign) (cfg := stop.cfg) (v := c.node.pass_value)
          (op := .addLease si renew cancel) (rref := (stop.renewal si).get_rref) (o := (stop.renewal si).order)
          (client := ⟨t1, asked, paying, log⟩) (s := s) hwf (stop.renewal si).moments).2
        obtain ⟨m, hm, hhap⟩ := C158_told c.node.sign stop.cfg c.node.pass_value (.addLease si renew cancel)
          (stop.renewal si).get_rref (stop.renewal si).order ⟨t1, asked, paying, log⟩ s hwf trivial (stop.renewal si).moments r
          (by rw [hc]; exact hlast)
        have hask : c.node.ask stop.cfg (stop.renewal si) (.addLease si renew cancel) ⟨t1, asked, paying, log⟩ s =
            (some (.ok r), ⟨t2, asked, paying, log2⟩, s2) := by
          unfold MaintNode.ask
          rw [hc]
          dsimp only
          rw [hlast]
        rw [hask]
        rw [hc] at hwf2 hhap
        dsimp only at hwf2 hhap ⊢
        have hboth := hobs.trans (kept_renewed (k := k) hren)
        obtain ⟨hother, hlease⟩ : (∀ si', si' ≠ si →
            s2.buckets si' = ((s.run stop.cfg m1.others).run stop.cfg m2.others).buckets si') ∧
            ∀ n share, StoredShare ((s.run stop.cfg m1.others).run stop.cfg m2.others) si n share →
              ∃ share', StoredShare s2 si n share' ∧ share'.data = share.data ∧
                ∃ l ∈ share'.leases, l.renew_secret = renew ∧ m.server_now + 31 * 24 * 60 * 60 ≤ l.expiration := by
          cases r with
          | none => exact hhap
          | _ => exact False.elim hhap
        have hsame : ∀ x ∈ c.indexes, x ≠ si → s2.buckets x = s.buckets x := by
          intro x hx hne
          rw [hother x hne, ha2 _ x hx, ha1 _ x hx]
        have hne : ∀ x ∈ rest, x ≠ si := fun x hx hc => hni (hc ▸ hx)
        obtain ⟨t', log', s', h1, h2, h3, h4⟩ := ih (t := t2) (log := log2) (s := s2) hren.held
          (good_mono hboth.available htok) hwf2
          (fun x hx => by rw [hsame x (hsub x (List.mem_cons_of_mem _ hx)) (hne x hx)]; exact hbk x (List.mem_cons_of_mem _ hx))
          (by
            have := hren.affords _ haff1
            exact affords_mono (fun _ h => h) (by unfold MaintScene.price; omega) this)
        refine ⟨t', log', s', h1, ?_, ?_, ?_⟩
        · have := hboth.trans h2
          rwa [Int.zero_add, Int.add_zero] at this
        · intro x hx hn
          rw [h3 x hx fun hc => hn (List.mem_cons_of_mem _ hc)]
          exact hsame x hx fun hc => hn (hc ▸ List.mem_cons_self)
        · intro x hx
          rcases List.mem_cons.mp hx with rfl | hx
          · intro n share hst
            obtain ⟨share', g1, g2, l, g3, -, g4⟩ := hlease n share (by
              unfold StoredShare at hst ⊢
              rw [ha2 _ x hsi, ha1 _ x hsi, hbsi]
              exact hst)
            refine ⟨share', ?_, g2, l, g3, ?_⟩
            · unfold StoredShare at g1 ⊢
              rw [h3 x hsi hni]
              exact g1
            · have := hs.clock.2 x hsi m hm
              have := hmin.2
              omega
          · exact h4 x hx

theorem zip_map_self {α β : Type} (f : α → β) (l : List α) : l.zip (l.map f) = l.map fun x => (x, f x) := by
  induction l with
  | nil => rfl
  | cons x l ih => rw [List.map_cons, List.zip_cons_cons, ih, List.map_cons]

theorem tend_server_fine {c : MaintScene} (hv : 0 < c.node.pass_value)
    (hmin : 0 ≤ c.node.min_lease_remaining ∧ c.node.min_lease_remaining ≤ 31 * 24 * 60 * 60 * 1000000)
    (hnd : c.indexes.Nodup) {stop : MaintStop} (hs : GoodStop c stop) {k : Nat} {held : List String}
    {asked : List StorageOp} {paying : List (StorageOp × Call)} {t : Tables} {log : List Out} (hheld : Held t held)
    (htok : GoodTokens c.node.sign stop.cfg t) (haff : Affords t (c.cost stop)) :
    ∃ t' log' s', tend_server c.node ⟨some k⟩ c.indexes stop ⟨t, asked, paying, log⟩ =
        some (.ok (), ⟨t', asked, paying, log'⟩, s') ∧
      Kept k held t (c.cost stop) (c.value stop) t' ∧ ∀ si ∈ c.indexes, Safe c stop s' si := by
  obtain ⟨m, later, hms⟩ : ∃ m later, stop.stat.moments = m :: later := by
    have := hs.reached.1
    cases hl : stop.stat.moments with
    | nil => rw [hl] at this; exact absurd this (by decide)
    | cons m l => exact ⟨m, l, rfl⟩
  have ha : LeavesAlone stop.cfg c.indexes m.others := hs.alone.1 m (by rw [hms]; exact List.mem_cons_self)
  have hwf : BucketsWF (stop.server.run stop.cfg m.others) := run_wf stop.cfg m.others stop.server hs.shares
  obtain ⟨r, b, log1, h1, h2, h3⟩ := stat_call (sign := c.node.sign) (cfg := stop.cfg) (v := c.node.pass_value)
    (sis := c.indexes) (rref := stop.stat.get_rref) (o := stop.stat.order) (client := ⟨t, asked, paying, log⟩)
    (server := stop.server) (m := m) later hs.right.1 hs.proper.1 hwf (by
      intro si hsi
      rw [ha _ si hsi]
      exact hs.tellable si hsi)
  have hstats : stats_of r = c.indexes.map fun si => bucketStats (stop.server.buckets si) := by
    rw [h3]
    exact List.map_congr_left fun si hsi => by rw [ha _ si hsi]
  have hask : c.node.ask stop.cfg stop.stat (.statShares c.indexes) ⟨t, asked, paying, log⟩ stop.server =
      (some (.ok r), ⟨t, asked, paying, log1⟩, stop.server.run stop.cfg m.others) := by
    unfold MaintNode.ask
    rw [hms, h1]
    dsimp only
    rw [h2]
  obtain ⟨t', log', s', g1, g2, -, g4⟩ := tend_loop_fine hv hmin hs (k := k) (asked := asked) (paying := paying) c.indexes
    (fun _ h => h) hnd (log := log1) hheld htok hwf (fun si hsi => ha _ si hsi) haff
  refine ⟨t', log', s', ?_, g2, g4⟩
  unfold tend_server
  rw [hask]
  dsimp only
  rw [hstats, zip_map_self]
  exact g1

theorem tend_cost_nonneg {c : MaintScene} (hv : 0 < c.node.pass_value) (stops : List MaintStop) : 0 ≤ (stops.map c.cost).sum := by
  apply sum_nonneg
  intro x hx
  obtain ⟨stop, -, rfl⟩ := List.mem_map.mp hx
  exact danger_nonneg hv stop c.indexes

theorem tend_servers_fine {c : MaintScene} (hv : 0 < c.node.pass_value)
    (hmin : 0 ≤ c.node.min_lease_remaining ∧ c.node.min_lease_remaining ≤ 31 * 24 * 60 * 60 * 1000000)
    (hnd : c.indexes.Nodup) {k : Nat} {held : List String} {asked : List StorageOp} {paying : List (StorageOp × Call)}
    (stops : List MaintStop) (hs : ∀ stop ∈ stops, GoodStop c stop) :
    ∀ {t : Tables} {log : List Out}, Held t held → (∀ stop ∈ stops, GoodTokens c.node.sign stop.cfg t) →
      Affords t (stops.map c.cost).sum →
      ∃ t' log' servers, tend_servers c.node ⟨some k⟩ c.finished c.indexes stops ⟨t, asked, paying, log⟩ =
          some (.ok (), ⟨((StoreOp.maintFinish c.finished ⟨some k⟩).step t').2, asked, paying, log'⟩, servers) ∧
        Kept k held t (stops.map c.cost).sum (stops.map c.value).sum t' ∧ servers.length = stops.length ∧
        ∀ (i : Nat) stop server, stops[i]? = some stop → servers[i]? = some server → ∀ si ∈ c.indexes, Safe c stop server si := by
  induction stops with
  | nil =>
    intro t log hheld _ _
    exact ⟨t, log, [], rfl, Kept.refl hheld, rfl, fun i stop server h => (nomatch h)⟩
  | cons stop stops ih =>
    intro t log hheld htok haff
    rw [List.map_cons, List.sum_cons] at haff
    have hrest := tend_cost_nonneg hv stops
    obtain ⟨t1, log1, s1, h1, h2, h3⟩ := tend_server_fine hv hmin hnd (hs stop List.mem_cons_self) (k := k) (asked := asked)
      (paying := paying) (log := log) hheld (htok stop List.mem_cons_self) (affords_mono (fun _ h => h) (by omega) haff)
    obtain ⟨t', log', servers, g1, g2, g3, g4⟩ := ih (fun x hx => hs x (List.mem_cons_of_mem _ hx)) (t := t1) (log := log1)
      h2.held (fun x hx => good_mono h2.available (htok x (List.mem_cons_of_mem _ hx)))
      (affords_mono (fun _ h => h) (by omega) (h2.affords _ haff))
    refine ⟨t', log', s1 :: servers, ?_, ?_, by rw [List.length_cons, g3, List.length_cons], ?_⟩
    · rw [tend_servers, h1]
      dsimp only
      rw [g1]
    · rw [List.map_cons, List.sum_cons, List.map_cons, List.sum_cons]
      exact h2.trans g2
    · intro i st server hi hj
      cases i with
      | zero =>
        rw [List.getElem?_cons_zero] at hi hj
        injection hi with hi
        injection hj with hj
        subst hi hj
        exact h3
      | succ i =>
        rw [List.getElem?_cons_succ] at hi hj
        exact g4 i st server hi hj

end ZKAP
