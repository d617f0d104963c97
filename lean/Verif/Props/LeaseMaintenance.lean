import Verif.Lemmas.LeaseMaintenance
import Verif.Props.Server

/-! Properties of lease maintenance (C40 to C44, C76 and C77). -/
namespace ZKAP
open Spec

/-! ### C40 -/

/-- **C40**: in a run that completes, a storage index is renewed on a server exactly when the
server's answer about that index has a share whose lease expires in less than the minimum
time remaining. -/
theorem C40_renewed_iff_expiring_soon {σ : Type} (min_remaining : Int) (sis : List σ)
    (servers : List (LeaseServer σ)) (complete : (renew_leases min_remaining sis servers).2 = .ok ())
    (i : Nat) (server : LeaseServer σ) (hi : servers[i]? = some server) (si : σ) :
    .renew i si ∈ (renew_leases min_remaining sis servers).1 ↔
      ∃ shares, AnswerAbout server sis si shares ∧ ExpiresSoon min_remaining server.now shares := by
  obtain ⟨h1, h2, _, _⟩ := servers_spec min_remaining sis 0 servers
  rw [← mem_renewals]
  constructor
  · intro h
    obtain ⟨k, server', hk, hs, _, d, hd⟩ := h1 i si h
    have hik : i = k := by omega
    subst hik
    rw [hi] at hs
    simp only [Option.some.injEq] at hs
    subst hs
    exact ⟨d, hd⟩
  · rintro ⟨d, ha, he⟩
    have := (h2 complete i server hi si d ha he).1
    simpa [renew_leases] using this

/-- **C40**: if a run completes, the server granted every renewal asked of it. -/
theorem C40_complete_means_granted {σ : Type} (min_remaining : Int) (sis : List σ)
    (servers : List (LeaseServer σ)) (complete : (renew_leases min_remaining sis servers).2 = .ok ())
    (i : Nat) (server : LeaseServer σ) (hi : servers[i]? = some server) (si : σ)
    (h : .renew i si ∈ (renew_leases min_remaining sis servers).1) : server.add_lease si = .ok () := by
  obtain ⟨_, h2, _, _⟩ := servers_spec min_remaining sis 0 servers
  obtain ⟨d, ha, he⟩ :=
    (C40_renewed_iff_expiring_soon min_remaining sis servers complete i server hi si).mp h
  exact (h2 complete i server hi si d ha he).2

/-- **C40**, however the run ends: nothing else is renewed, so a run that fails part way has not
spent passes on leases that did not need it; and no renewal is repeated. -/
theorem C40_never_renewed_without_need {σ : Type} (min_remaining : Int) (sis : List σ)
    (servers : List (LeaseServer σ)) :
    (∀ i si, .renew i si ∈ (renew_leases min_remaining sis servers).1 →
      ∃ server shares, servers[i]? = some server ∧ si ∈ sis ∧ AnswerAbout server sis si shares ∧
        ExpiresSoon min_remaining server.now shares) ∧
    (sis.Nodup → (renewals (renew_leases min_remaining sis servers).1).Nodup) := by
  obtain ⟨h1, _, h3, _⟩ := servers_spec min_remaining sis 0 servers
  refine ⟨?_, h3⟩
  intro i si h
  obtain ⟨k, server, hk, hs, hsi, d, ha, he⟩ := h1 i si ((mem_renewals _ _ _).mpr h)
  have hik : i = k := by omega
  subst hik
  exact ⟨server, d, hs, hsi, ha, he⟩

/-- **C40** and **C41**, for a whole run: every object reachable from the roots is renewed on
every server exactly when the server's answer about it calls for that, at most once; and the
run is recorded as finished exactly when it completes. -/
theorem C40_whole_run {ν σ : Type} [DecidableEq σ] (order : List σ → List σ)
    (horder : ∀ l, (order l).Perm l) (g : NodeGraph ν σ) (fuel : Nat) (roots : List ν)
    (min_remaining : Int) (servers : List (LeaseServer σ)) (calls : List (MaintCall σ))
    (result : Except PyErr Unit)
    (run : maintain_leases order g fuel roots min_remaining servers = some (calls, result)) :
    (.finish ∈ calls ↔ result = .ok ()) ∧
    (renewals calls).Nodup ∧
    (result = .ok () → ∃ sis : List σ, sis.Nodup ∧
      (∀ x, x ∈ sis ↔ ∃ n, Reachable g roots n ∧ g.storage_index n = x) ∧
      ∀ (i : Nat) server si, servers[i]? = some server →
        (.renew i si ∈ calls ↔ ∃ shares, AnswerAbout server sis si shares ∧
          ExpiresSoon min_remaining server.now shares)) := by
  unfold maintain_leases iter_storage_indexes at run
  cases hv : visit_storage_indexes g fuel roots with
  | none => simp [hv] at run
  | some r =>
    cases r with
    | error e =>
      simp only [hv, Option.some.injEq, Prod.mk.injEq] at run
      obtain ⟨rfl, rfl⟩ := run
      simp [renewals]
    | ok visited =>
      simp only [hv, Option.some.injEq] at run
      have hnd : (order visited.eraseDups).Nodup :=
        (horder _).nodup_iff.mpr (nodup_eraseDups _)
      obtain ⟨_, _, h3, h4⟩ := servers_spec min_remaining (order visited.eraseDups) 0 servers
      have hc := C40_renewed_iff_expiring_soon min_remaining (order visited.eraseDups) servers
      unfold renew_leases at run hc
      rw [run] at h3 h4 hc
      refine ⟨h4, h3 hnd, fun hok => ⟨_, hnd, ?_, ?_⟩⟩
      · intro x
        rw [(horder _).mem_iff, List.mem_eraseDups, visit_loop_exact g fuel _ visited hv]
        simp only [reachable_perm (fun x => List.mem_reverse)]
      · intro i server si hi
        exact hc hok i server hi si

/-- Two servers; the first has a share at index 1 about to expire (next to one that is not),
the second nothing that needs renewal: one renewal, and the run finishes. -/
def exSoon : LeaseServer Nat :=
  ⟨fun sis => .ok (sis.map fun si => if si = 1 then [(0, ⟨10, 5000⟩), (3, ⟨10, 1010⟩)] else [(0, ⟨7, 9000⟩)]),
   fun _ => .ok (), 1000 * 1000000⟩

def exLater : LeaseServer Nat :=
  ⟨fun sis => .ok (sis.map fun si => if si = 1 then [] else [(0, ⟨7, 1060⟩)]),
   fun _ => .ok (), 1000 * 1000000⟩

example : renew_leases (60 * 1000000) [1, 2] [exSoon, exLater] =
    ([.observe [10, 10], .renew 0 1, .observe [7], .observe [7], .finish], .ok ()) := by
  decide +kernel

/-! ### C41 -/

/-- **C41**: a traversal that ends has visited exactly the reachable nodes, whatever the shape of
the directory graph. -/
theorem C41_visits_exactly_reachable {ν σ : Type} (g : NodeGraph ν σ) (fuel : Nat) (roots : List ν)
    (visited : List σ) (h : visit_storage_indexes g fuel roots = some (.ok visited)) (x : σ) :
    x ∈ visited ↔ ∃ n, Reachable g roots n ∧ g.storage_index n = x := by
  rw [visit_loop_exact g fuel _ visited h]
  simp only [reachable_perm (fun x => List.mem_reverse)]

/-- **C41**: the storage indexes handed to the renewal step are those of the reachable nodes, each
of them once. -/
theorem C41_indexes_distinct {ν σ : Type} [DecidableEq σ] (order : List σ → List σ)
    (horder : ∀ l, (order l).Perm l) (g : NodeGraph ν σ) (fuel : Nat) (roots : List ν) (sis : List σ)
    (h : iter_storage_indexes order g fuel roots = some (.ok sis)) :
    sis.Nodup ∧ ∀ x, x ∈ sis ↔ ∃ n, Reachable g roots n ∧ g.storage_index n = x := by
  unfold iter_storage_indexes at h
  split at h
  · rename_i visited hv
    simp only [Option.some.injEq, Except.ok.injEq] at h
    subst h
    refine ⟨(horder _).nodup_iff.mpr (nodup_eraseDups _), fun x => ?_⟩
    rw [(horder _).mem_iff, List.mem_eraseDups]
    exact C41_visits_exactly_reachable g fuel roots visited hv x
  · rename_i hno
    exact absurd h (hno sis)

/-- **C41**, on errors: a traversal that fails does so because a reachable directory could not be
listed. -/
theorem C41_error_from_listing {ν σ : Type} (g : NodeGraph ν σ) (fuel : Nat) (roots : List ν)
    (e : PyErr) (h : visit_storage_indexes g fuel roots = some (.error e)) :
    ∃ n, Reachable g roots n ∧ g.list n = .error e := by
  obtain ⟨n, hn, he⟩ := visit_loop_error g fuel _ e h
  exact ⟨n, (reachable_perm (fun x => List.mem_reverse) n).mp hn, he⟩

/-- **C41** in full: every traversal of readable directories ends. -/
def C41_statement : Prop :=
  ∀ (ν σ : Type) (g : NodeGraph ν σ) (roots : List ν),
    (∀ n, Reachable g roots n → ∃ o, g.list n = .ok o) →
    ∃ fuel visited, visit_storage_indexes g fuel roots = some (.ok visited)

/-- **C41**, what holds: a traversal of readable directories ends exactly when there is no
infinite path from a root, that is, when no directory is (however indirectly) in itself. -/
theorem C41_ends_partial {ν σ : Type} (g : NodeGraph ν σ) (roots : List ν)
    (readable : ∀ n, Reachable g roots n → ∃ o, g.list n = .ok o) :
    (∃ fuel visited, visit_storage_indexes g fuel roots = some (.ok visited)) ↔
      ∀ r ∈ roots, Finite g r := by
  constructor
  · rintro ⟨fuel, visited, h⟩ r hr
    exact visit_loop_finite g fuel _ visited h r (List.mem_reverse.mpr hr)
  · intro h
    exact visit_loop_all g _ (fun n hn => h n (List.mem_reverse.mp hn))
      (fun m hm => readable m ((reachable_perm (fun x => List.mem_reverse) m).mp hm))

/-- A directory linked into itself: `mkdir d; ln d d/self`. -/
def exCycle : NodeGraph Unit Nat := ⟨fun _ => 7, fun _ => .ok (some [("self", ())])⟩

/-- The full **C41** does not hold: with a directory linked into itself a maintenance run never
gets past the traversal, so no lease is renewed, ever. -/
theorem C41_cycle_fails : ¬ C41_statement := by
  intro h
  have h1 := (C41_ends_partial exCycle [()] (fun n _ => ⟨_, rfl⟩)).mp
    (h Unit Nat exCycle [()] (fun n _ => ⟨_, rfl⟩))
  have h2 := h1 () List.mem_cons_self
  have : ∀ u, Finite exCycle u → False := by
    intro u hu
    induction hu with
    | intro u _ ih => exact ih () ⟨_, "self", rfl, List.mem_cons_self⟩
  exact this () h2

/-- A tree with a shared subdirectory: it is visited twice, its index is kept once. -/
def exTree : NodeGraph Nat Nat :=
  ⟨fun n => 100 + n, fun n =>
    if n = 0 then .ok (some [("b", 2), ("a", 1), ("c", 3)])
    else if n = 1 then .ok (some [("x", 3)])
    else .ok none⟩

example : visit_storage_indexes exTree 10 [0] = some (.ok [100, 103, 102, 101, 103]) := by
  decide +kernel
example : iter_storage_indexes id exTree 10 [0] = some (.ok [100, 103, 102, 101]) := by
  decide +kernel

/-! ### C42 -/

/-- **C42**: at any moment, every run that is scheduled is either the first one after a start,
with a delay that is not negative, or its delay is within half the configured range of the
configured mean. -/
theorem C42_delays (c : LeaseMaintenanceConfig) (range : 0 ≤ c.crawl_interval_range)
    (events : List TimerEvent) (follows : FollowsConfig c events) (id : Nat) (delay : Int)
    (h : (id, delay) ∈ (({} : FuzzyTimer).run events).pending) :
    0 ≤ delay ∧
      ((∃ sample last_run now, Sampled c sample ∧ delay = initial_interval sample last_run now) ∨
       (2 * (delay - c.crawl_interval_mean) ≤ c.crawl_interval_range ∧
        2 * (c.crawl_interval_mean - delay) ≤ c.crawl_interval_range)) := by
  rcases timer_delays events _ h with h | ⟨h0, h | h⟩
  · simp at h
  · exact ⟨h0, .inl (follows.first _ h)⟩
  · exact ⟨h0, .inr (sampled_near range (follows.other _ h))⟩

/-- **C42**, the first delay: after a restart, what is left of a sampled interval since the last
run began to be counted, or nothing if that time has passed; without a last run, a whole
interval. -/
theorem C42_first_delay (c : LeaseMaintenanceConfig) (range : 0 ≤ c.crawl_interval_range)
    (sample now : Int) (sampled : Sampled c sample) :
    (initial_interval sample none now = sample) ∧
    ∀ last_run, last_run ≤ now →
      0 ≤ initial_interval sample (some last_run) now ∧
      (initial_interval sample (some last_run) now = 0 ∨
        initial_interval sample (some last_run) now = sample - (now - last_run)) ∧
      (now - last_run ≤ sample → last_run + sample = now + initial_interval sample (some last_run) now) ∧
      (0 ≤ c.crawl_interval_mean → 2 * initial_interval sample (some last_run) now ≤
        2 * c.crawl_interval_mean + c.crawl_interval_range) := by
  have := sampled_near range sampled
  refine ⟨rfl, ?_⟩
  intro last_run h
  unfold initial_interval calculate_initial_interval
  dsimp only
  omega

/-- **C42** in full: whatever the configuration, while the service runs there is always a next
run: it is scheduled, or a run is in progress. -/
def C42_statement : Prop :=
  ∀ (c : LeaseMaintenanceConfig), 0 ≤ c.crawl_interval_mean → 0 ≤ c.crawl_interval_range →
    ∀ events, FollowsConfig c events →
      let t := ({} : FuzzyTimer).run events
      t.running = true → t.pending ≠ [] ∨ t.in_progress ≠ 0

/-- **C42**, what holds: there is always a next run if the range is at most twice the mean. -/
theorem C42_next_run_partial (c : LeaseMaintenanceConfig) (range : 0 ≤ c.crawl_interval_range)
    (mean : c.crawl_interval_range ≤ 2 * c.crawl_interval_mean) (events : List TimerEvent)
    (follows : FollowsConfig c events) :
    let t := ({} : FuzzyTimer).run events
    t.running = true → t.pending ≠ [] ∨ t.in_progress ≠ 0 := by
  suffices ∀ (t : FuzzyTimer), (t.running = false ∨ t.pending ≠ [] ∨ t.in_progress ≠ 0) →
      (t.run events).running = false ∨ (t.run events).pending ≠ [] ∨ (t.run events).in_progress ≠ 0 by
    intro t hr
    rcases this {} (.inl rfl) with h | h
    · rw [show t.running = false from h] at hr
      simp at hr
    · exact h
  induction events with
  | nil => intro t h; exact h
  | cons e es ih =>
    intro t h
    have hf : FollowsConfig c es :=
      ⟨fun d hd => follows.first d (List.mem_cons_of_mem _ hd),
       fun d hd => follows.other d (List.mem_cons_of_mem _ hd)⟩
    refine ih hf _ (timer_alive h e ?_ ?_)
    · rintro d rfl
      obtain ⟨s, l, n, hs, rfl⟩ := follows.first d List.mem_cons_self
      have := sampled_near range hs
      cases l with
      | none => show 0 ≤ s; omega
      | some l => simp only [initial_interval]; omega
    · rintro d rfl
      have := sampled_near range (follows.other d List.mem_cons_self)
      omega

/-- The full **C42** does not hold: nothing checks the configuration, and with a range of more
than twice the mean (here one and three seconds) the sampled interval can be negative.  The
reactor refuses it, and no run is ever scheduled again. -/
theorem C42_range_fails : ¬ C42_statement := by
  intro h
  have := h ⟨1000000, 3000000, 0⟩ (by decide) (by decide)
    [.start 1000000, .fire 0, .done (-400000)] ⟨?_, ?_⟩ (by decide)
  · revert this; decide
  · intro d hd
    simp only [List.mem_cons, TimerEvent.start.injEq, reduceCtorEq, List.not_mem_nil, or_false] at hd
    subst hd
    exact ⟨1000000, none, 0, by unfold Sampled halfrange; decide, rfl⟩
  · intro d hd
    simp only [List.mem_cons, TimerEvent.done.injEq, reduceCtorEq, List.not_mem_nil, or_false,
      false_or] at hd
    subst hd
    unfold Sampled halfrange
    decide

/-- Which intervals can be sampled: all those within half the range of the mean. -/
theorem C42_intervals (c : LeaseMaintenanceConfig) (range : 0 ≤ c.crawl_interval_range) (s : Int) :
    Sampled c s ↔ 2 * (s - c.crawl_interval_mean) ≤ c.crawl_interval_range ∧
      2 * (c.crawl_interval_mean - s) ≤ c.crawl_interval_range := by
  unfold Sampled halfrange
  rw [Int.fdiv_eq_ediv_of_nonneg _ (by omega)]
  omega

/-- With the default configuration (26 days, give or take two), after a run one day ago. -/
example : initial_interval (25 * 86400000000) (some 0) 86400000000 = 24 * 86400000000 := by decide
example : (({} : FuzzyTimer).run [.start 5, .fire 0, .done 7]).pending = [(1, 7)] := by decide

/-! ### C43 -/

/-- **C43** in full: after the service has been stopped no run starts until it is started again. -/
def C43_statement : Prop :=
  ∀ (before after : List TimerEvent), (∀ d, .start d ∉ after) →
    let t := ({} : FuzzyTimer).run before
    ((t.step .stop).run after).runs = t.runs

/-- **C43**, what holds: if `stopService` returns normally no run starts until the service is
started again. -/
theorem C43_stopped_partial (before after : List TimerEvent) (quiet : ∀ d, .start d ∉ after) :
    let t := ({} : FuzzyTimer).run before
    t.stopService.1 = .ok () → ((t.step .stop).run after).runs = t.runs := by
  intro t hok
  have hst : TimerState t := timer_run (.stopped rfl rfl rfl rfl) before
  have hruns : (t.step .stop).runs = t.runs := by
    simp only [FuzzyTimer.step, FuzzyTimer.stopService]
    split
    · rfl
    · split <;> rfl
  have hs : (t.step .stop).pending = [] ∧ (t.step .stop).in_progress = 0 := by
    simp only [FuzzyTimer.step, FuzzyTimer.stopService] at *
    rcases hst with ⟨h1, h2, h3, h4⟩ | ⟨id, d, h1, h2, h3, h4, h5⟩ | ⟨id, h1, h2, h3, h4⟩ | ⟨h1, h2, h3⟩
    · rw [h2]; exact ⟨h3, h4⟩
    · rw [h2, h4]
      simp only [List.map_cons, List.map_nil, List.mem_singleton, if_true]
      simp [h5]
    · rw [h2, h3] at hok
      simp at hok
    · cases hc : t.call with
      | none => exact ⟨h2, h3⟩
      | some id =>
        rw [hc, h2] at hok
        simp at hok
  rw [timer_idle hs.1 hs.2 after quiet, hruns]

/-- **C43**, when `stopService` fails: exactly when a run is in progress, or when the service has
lost its timer (see **C42**). -/
theorem C43_stop_fails_while_running (before : List TimerEvent) :
    let t := ({} : FuzzyTimer).run before
    (t.in_progress ≠ 0 → t.stopService.1 = .error (.other 7)) ∧
    (t.stopService.1 ≠ .ok () → t.in_progress ≠ 0 ∨ (t.running = true ∧ t.pending = [])) := by
  intro t
  have hst : TimerState t := timer_run (.stopped rfl rfl rfl rfl) before
  unfold FuzzyTimer.stopService
  rcases hst with ⟨h1, h2, h3, h4⟩ | ⟨id, d, h1, h2, h3, h4, h5⟩ | ⟨id, h1, h2, h3, h4⟩ | ⟨h1, h2, h3⟩
  · simp [h2, h4]
  · simp [h2, h4, h5]
  · simp [h2, h3, h4]
  · simp [h1, h2, h3]

/-- The full **C43** does not hold: stopped while a run is in progress, the service raises
`AlreadyCalled`, schedules the next run when this one ends, and runs it. -/
theorem C43_stop_fails : ¬ C43_statement := by
  intro h
  have := h [.start 5, .fire 0] [.done 7, .fire 1] (by simp)
  revert this
  decide

/-- Never two runs at a time, and never two scheduled. -/
theorem C43_one_at_a_time (events : List TimerEvent) :
    let t := ({} : FuzzyTimer).run events
    t.in_progress + t.pending.length ≤ 1 := by
  intro t
  have hst : TimerState t := timer_run (.stopped rfl rfl rfl rfl) events
  rcases hst with ⟨h1, h2, h3, h4⟩ | ⟨id, d, h1, h2, h3, h4, h5⟩ | ⟨id, h1, h2, h3, h4⟩ | ⟨h1, h2, h3⟩
  · simp [h3, h4]
  · simp [h4, h5]
  · simp [h3, h4]
  · simp [h2, h3]

example : ((({} : FuzzyTimer).run [.start 5, .fire 0, .done 7]).stopService).1 = .ok () := by decide

/-! ### C44 -/

/-- **C44**: a configuration of whole seconds survives being written and read, by either reader. -/
theorem C44_config_round_trips (mean range remaining : Int) :
    let c : LeaseMaintenanceConfig := ⟨mean * 1000000, range * 1000000, remaining * 1000000⟩
    lease_maintenance_config_from_dict (lease_maintenance_config_to_dict c) = .ok c ∧
    lease_maintenance_config_from_node (lease_maintenance_config_to_dict c) = .ok c := by
  intro c
  have h1 : (lease_maintenance_config_to_dict c).lookup "lease.crawl-interval.mean" =
      some (format_duration (mean * 1000000)) := by
    simp [lease_maintenance_config_to_dict, c]
  have h2 : (lease_maintenance_config_to_dict c).lookup "lease.crawl-interval.range" =
      some (format_duration (range * 1000000)) := by
    simp [lease_maintenance_config_to_dict, c, List.lookup_cons]
  have h3 : (lease_maintenance_config_to_dict c).lookup "lease.min-time-remaining" =
      some (format_duration (remaining * 1000000)) := by
    simp [lease_maintenance_config_to_dict, c, List.lookup_cons]
  constructor
  · simp only [lease_maintenance_config_from_dict, get_duration, h1, h2, h3, parse_format]
    rfl
  · simp only [lease_maintenance_config_from_node, read_duration, h1, h2, h3, parse_format]
    rfl

example : lease_maintenance_config_to_dict ⟨26 * 86400000000, 4 * 86400000000, 5000000⟩ =
    [("lease.crawl-interval.mean", "2246400"), ("lease.crawl-interval.range", "345600"),
     ("lease.min-time-remaining", "5")] := by decide +kernel

/-! ### C76 -/

/-- **C76** in full: leases on a server that works are renewed whatever the other servers do. -/
def C76_statement : Prop :=
  ∀ (σ : Type) (min_remaining : Int) (sis : List σ) (servers : List (LeaseServer σ)) (i : Nat)
    (server : LeaseServer σ), servers[i]? = some server → Healthy sis server →
    ∀ si shares, AnswerAbout server sis si shares → ExpiresSoon min_remaining server.now shares →
      .renew i si ∈ (renew_leases min_remaining sis servers).1

/-- **C76**, what holds: the servers visited before the first one that fails are taken care of. -/
theorem C76_before_first_failure_partial {σ : Type} (min_remaining : Int) (sis : List σ)
    (servers : List (LeaseServer σ)) (i : Nat)
    (healthy : ∀ j ≤ i, ∀ server, servers[j]? = some server → Healthy sis server)
    (server : LeaseServer σ) (hi : servers[i]? = some server) (si : σ) (shares : Dict Nat ShareStat)
    (answer : AnswerAbout server sis si shares) (soon : ExpiresSoon min_remaining server.now shares) :
    .renew i si ∈ (renew_leases min_remaining sis servers).1 := by
  rw [← mem_renewals]
  have := servers_prefix min_remaining sis 0 i servers
    (fun j hj s hs idx => healthy_server (healthy j hj s hs) min_remaining idx) server hi si shares
    answer soon
  simpa [renew_leases] using this

/-- If all servers work the run completes. -/
theorem C76_all_healthy_partial {σ : Type} (min_remaining : Int) (sis : List σ)
    (servers : List (LeaseServer σ)) (healthy : ∀ server ∈ servers, Healthy sis server) :
    (renew_leases min_remaining sis servers).2 = .ok () := by
  unfold renew_leases
  suffices ∀ idx, (renew_servers min_remaining sis idx servers).2 = .ok () from this 0
  induction servers with
  | nil => intro idx; rfl
  | cons s rest ih =>
    intro idx
    have h0 := healthy_server (healthy s List.mem_cons_self) min_remaining idx
    simp only [renew_servers]
    generalize renew_leases_on_server min_remaining sis idx s = p at h0
    obtain ⟨calls, r⟩ := p
    dsimp only at h0
    subst h0
    exact ih (fun s' hs' => healthy s' (List.mem_cons_of_mem _ hs')) (idx + 1)

/-- A server that is not reachable. -/
def exDown : LeaseServer Nat := ⟨fun _ => .error (.other 1), fun _ => .error (.other 1), 0⟩

/-- The full **C76** does not hold: one unreachable server ends the run; leases on the servers
after it are not renewed (and the run is not recorded as finished). -/
theorem C76_failing_server_fails : ¬ C76_statement := by
  intro h
  have := h Nat (60 * 1000000) [1] [exDown, exSoon] 1 exSoon rfl
    ⟨⟨[[(0, ⟨10, 5000⟩), (3, ⟨10, 1010⟩)]], by rfl, by
        intro d hd n st hm
        simp only [List.mem_singleton] at hd
        subst hd
        simp only [List.mem_cons, List.not_mem_nil, or_false, Prod.mk.injEq] at hm
        rcases hm with ⟨_, rfl⟩ | ⟨_, rfl⟩ <;> decide⟩, fun _ _ => rfl⟩
    1 [(0, ⟨10, 5000⟩), (3, ⟨10, 1010⟩)] ⟨[[(0, ⟨10, 5000⟩), (3, ⟨10, 1010⟩)]], 0, rfl, rfl, rfl⟩
    ⟨3, ⟨10, 1010⟩, by decide, by decide⟩
  revert this
  decide +kernel

example : renew_leases (60 * 1000000) [1] [exDown, exSoon] = ([], .error (.other 1)) := by
  decide +kernel

/-! ### C77 -/

/-- **C77**: a completed maintenance run and a storage server running this plugin, together.  If
the server answered the run from its state `s` and carried out the run's renewals, then
afterwards every share it holds at a visited storage index has a lease with at least the
minimum time remaining, provided that the minimum is no longer than a lease lasts (31 days)
and the server's clock is not behind the client's. -/
theorem C77_leases_last (cfg : ServerConfig) (call : SI → AddLeaseArgs)
    (hcall : ∀ si, (call si).storage_index = si) (s s' : Server) (wf : BucketsWF s)
    (min_remaining : Int) (h0 : 0 ≤ min_remaining) (hmin : min_remaining ≤ LEASE_PERIOD * 1000000)
    (sis : List SI) (servers : List (LeaseServer SI))
    (complete : (renew_leases min_remaining sis servers).2 = .ok ())
    (i : Nat) (server : LeaseServer SI) (hi : servers[i]? = some server)
    (answers : server.stat_shares sis = .ok (remote_stat_shares s sis))
    (hnow : 0 < server.now) (clock : ∀ si, server.now ≤ (call si).now * 1000000)
    (carried_out : renewedServer cfg call s
      (((renewals (renew_leases min_remaining sis servers).1).filter (fun r => r.1 == i)).map (·.2))
        = some s')
    (si : SI) (hsi : si ∈ sis) (n : Nat) (share : Share) (hs : (s'.buckets si).lookup n = some share) :
    LeaseLasts min_remaining server.now share := by
  have hr := renewedServer_lasts cfg call hcall min_remaining server.now hmin clock _ s s' wf
    carried_out si
  by_cases hin : .renew i si ∈ (renew_leases min_remaining sis servers).1
  · refine hr.1 ?_ n share hs
    refine List.mem_map.mpr ⟨(i, si), List.mem_filter.mpr ⟨(mem_renewals _ _ _).mpr hin, ?_⟩, rfl⟩
    simp
  · have hnot : si ∉ (((renewals (renew_leases min_remaining sis servers).1).filter
        (fun r => r.1 == i)).map (·.2)) := by
      intro hm
      obtain ⟨⟨j, sj⟩, hj, rfl⟩ := List.mem_map.mp hm
      obtain ⟨hj1, hj2⟩ := List.mem_filter.mp hj
      have : j = i := by simpa using hj2
      subst this
      exact hin ((mem_renewals _ _ _).mp hj1)
    rw [hr.2 hnot] at hs
    rw [C40_renewed_iff_expiring_soon min_remaining sis servers complete i server hi si] at hin
    obtain ⟨k, hk⟩ := List.mem_iff_getElem?.mp hsi
    have hwf : Dict.WF (get_share_stats (s.buckets si) none) := by
      unfold get_share_stats
      exact wf_map_val (keys_filter_nodup (wf si) _) _
    have hans : AnswerAbout server sis si (Dict.ofItems (get_share_stats (s.buckets si) none)) :=
      ⟨_, k, answers, hk, by simp [remote_stat_shares, hk]⟩
    refine lasts_of_stat h0 hnow ?_
    by_cases hle : min_remaining ≤ (share_stat share).lease_expiration * 1000000 - server.now
    · exact hle
    · exfalso
      refine hin ⟨_, hans, n, share_stat share, ?_, by omega⟩
      rw [Dict.ofItems_wf _ hwf]
      unfold get_share_stats
      refine List.mem_map.mpr ⟨(n, share), List.mem_filter.mpr ⟨?_, rfl⟩, rfl⟩
      exact mem_of_lookup_some hs

/-- A run against `exServer` of `Props/Server.lean`, which has a slot at index `[9]` with an
expired share; five passes pay for the lease.  The run asks for one renewal, which the server
carries out. -/
def exMaintServer : LeaseServer SI :=
  ⟨fun sis => .ok (remote_stat_shares exServer sis), fun _ => .ok (), 100 * 1000000⟩

def exMaintCall (si : SI) : AddLeaseArgs :=
  ⟨[65, 65, 65, 65, 65].map (fun c => (exPass c).pass_bytes), si, [6], 100, fun _ => true⟩

example : renew_leases (60 * 1000000) [[8], [9]] [exMaintServer] =
    ([.observe [15, 25], .renew 0 [9], .finish], .ok ()) := by decide +kernel

example : (renewedServer exCfg exMaintCall exServer [[9]]).isSome = true := by decide +kernel

end ZKAP
