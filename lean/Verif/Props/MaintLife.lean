import Verif.Props.LeaseMaintenance
import Verif.Lemmas.MaintLife

/-! Properties of lease maintenance over time (C111 to C114). -/
namespace ZKAP
open Spec

/-! ### C111 -/

/-- **C111** in full: with any configuration, after a completed run every share at a visited index
keeps a lease until the latest time at which the next run is to start. -/
def C111_statement : Prop :=
  ∀ (d : Dict String String) (c : LeaseMaintenanceConfig), lease_maintenance_config_from_node d = .ok c →
  ∀ (cfg : ServerConfig) (call : SI → AddLeaseArgs), (∀ si, (call si).storage_index = si) →
  ∀ (s s' : Server), BucketsWF s →
  ∀ (sis : List SI) (servers : List (LeaseServer SI)),
    (renew_leases c.min_lease_remaining sis servers).2 = .ok () →
  ∀ (i : Nat) (server : LeaseServer SI), servers[i]? = some server →
    server.stat_shares sis = .ok (remote_stat_shares s sis) →
    0 < server.now → (∀ si, server.now ≤ (call si).now * 1000000) →
    renewedServer cfg call s
      (((renewals (renew_leases c.min_lease_remaining sis servers).1).filter (fun r => r.1 == i)).map (·.2))
        = some s' →
  ∀ (t : Int), server.now ≤ t → t ≤ server.now + longest c →
  ∀ si ∈ sis, ∀ n share, (s'.buckets si).lookup n = some share → LeaseLasts 0 t share

/-- **C111**, what holds: it is so if the configured minimum time remaining is at least the
longest interval between runs, and no longer than a lease lasts. -/
theorem C111_no_lapse_partial (c : LeaseMaintenanceConfig)
    (enough : longest c ≤ c.min_lease_remaining) (h0 : 0 ≤ c.min_lease_remaining)
    (hmin : c.min_lease_remaining ≤ LEASE_PERIOD * 1000000)
    (cfg : ServerConfig) (call : SI → AddLeaseArgs) (hcall : ∀ si, (call si).storage_index = si)
    (s s' : Server) (wf : BucketsWF s) (sis : List SI) (servers : List (LeaseServer SI))
    (complete : (renew_leases c.min_lease_remaining sis servers).2 = .ok ())
    (i : Nat) (server : LeaseServer SI) (hi : servers[i]? = some server)
    (answers : server.stat_shares sis = .ok (remote_stat_shares s sis))
    (hnow : 0 < server.now) (clock : ∀ si, server.now ≤ (call si).now * 1000000)
    (carried_out : renewedServer cfg call s
      (((renewals (renew_leases c.min_lease_remaining sis servers).1).filter (fun r => r.1 == i)).map (·.2))
        = some s')
    (t : Int) (ht : t ≤ server.now + longest c)
    (si : SI) (hsi : si ∈ sis) (n : Nat) (share : Share) (hs : (s'.buckets si).lookup n = some share) :
    LeaseLasts 0 t share := by
  obtain ⟨l, hl, h⟩ := C77_leases_last cfg call hcall s s' wf c.min_lease_remaining h0 hmin sis servers
    complete i server hi answers hnow clock carried_out si hsi n share hs
  exact ⟨l, hl, by omega⟩

/-- The server of the example below: at five seconds both its shares have a lease. -/
def exLapseServer : LeaseServer SI :=
  ⟨fun sis => .ok (remote_stat_shares exServer sis), fun _ => .ok (), 5 * 1000000⟩

/-- **C111** fails with the configuration of a node that says nothing about maintenance: leases are
then renewed only once they have expired, and runs are 24 to 28 days apart. -/
theorem C111_no_lapse_fails : ¬ C111_statement := by
  intro h
  have hcalls : (((renewals (renew_leases 0 [[9]] [exLapseServer]).1).filter
      (fun r => r.1 == 0)).map (·.2)) = [] := by decide +kernel
  have := h [] ⟨26 * 86400 * 1000000, 4 * 86400 * 1000000, 0⟩ rfl exCfg exMaintCall (fun _ => rfl)
    exServer exServer exServer_wf [[9]] [exLapseServer] (by decide +kernel) 0 exLapseServer rfl rfl
    (by decide) (fun _ => (by decide : (5 * 1000000 : Int) ≤ 100 * 1000000)) (by rw [hcalls]; rfl) (24 * 86400 * 1000000) (by decide) (by decide)
    [9] List.mem_cons_self 0 ⟨true, [1], List.replicate 15 7, [⟨[5], 1000⟩]⟩ rfl
  obtain ⟨l, hl, hle⟩ := this
  rw [List.mem_singleton.mp hl] at hle
  exact absurd hle (by decide)

/-- A configuration for which the partial theorem holds: at least 28 days remaining. -/
example : longest ⟨26 * 86400 * 1000000, 4 * 86400 * 1000000, 28 * 86400 * 1000000⟩ ≤ 28 * 86400 * 1000000 ∧
    (28 * 86400 * 1000000 : Int) ≤ LEASE_PERIOD * 1000000 := by decide

example : (renew_leases (28 * 86400 * 1000000) [[9]] [exLapseServer]).1 =
    [.observe [15, 25], .renew 0 [9], .finish] := by decide +kernel

/-! ### C112 -/

/-- **C112** in full: whatever happens to a node, when it waits for the next run, that run is due at
the latest the longest interval after the last run ended (or, before the first run, after the node
was first started), or at once if that was before the node was last started. -/
def C112_statement : Prop :=
  ∀ (c : LeaseMaintenanceConfig), Sensible c → ∀ (t : Int) (events : List LifeEvent), LifeFollows c events →
  ∀ due, (({ now := t } : MaintLife).run events).phase = .waiting due →
    let n := ({ now := t } : MaintLife).run events
    due ≤ max n.up_since (n.last_end.getD (n.first_start.getD 0) + longest c)

/-- **C112**, what holds: after the first run that ended, it is so, and the next run is due no earlier
than the shortest interval after the last; before that, the first run is due between the shortest and the
longest interval after the node was last, not first, started. -/
theorem C112_due_partial (c : LeaseMaintenanceConfig) (hc : Sensible c) (t : Int) (events : List LifeEvent)
    (follows : LifeFollows c events) (due : Int)
    (waiting : (({ now := t } : MaintLife).run events).phase = .waiting due) :
    let n := ({ now := t } : MaintLife).run events
    n.now ≤ due ∧
    (∀ e, n.last_end = some e → e + shortest c ≤ due ∧ due ≤ max n.up_since (e + longest c)) ∧
    (n.last_end = none → n.up_since + shortest c ≤ due ∧ due ≤ n.up_since + longest c) :=
  (life_run hc events follows (life_new c t)).due due waiting

/-- **C112**: from any start on and until the node is stopped, a run is going on or another is due; and
a run starts exactly when it is due. -/
theorem C112_keeps_going (c : LeaseMaintenanceConfig) (hc : Sensible c) (t : Int) (before after : List LifeEvent)
    (sample : Int) (follows : LifeFollows c (before ++ .start sample :: after)) (up : .stop ∉ after) :
    let n := ({ now := t } : MaintLife).run (before ++ .start sample :: after)
    (n.phase = .running ∨ ∃ due, n.phase = .waiting due) ∧
    (∀ due, n.phase = .waiting due → ((n.step .fire).phase = .running ↔ n.now = due)) := by
  have hrun := life_run hc _ follows (life_new c t)
  have hb := life_run hc before (fun e he => follows e (List.mem_append_left _ he)) (life_new c t)
  have hst := life_step hc hb (.start sample) (fun e he => by
    rw [List.mem_singleton.mp he]
    exact follows (.start sample) (List.mem_append_right _ List.mem_cons_self))
  have hup := life_up hc after (fun e he => follows e (List.mem_append_right _ (List.mem_cons_of_mem _ he))) up
    hst (life_start hc (follows (.start sample) (List.mem_append_right _ List.mem_cons_self)) _)
  intro n
  have hn : n = (((({ now := t } : MaintLife).run before).step (.start sample)).run after) :=
    life_append _ before _
  refine ⟨?_, fun due hd => ?_⟩
  · rw [← hn] at hup
    cases hp : n.phase with
    | down => exact absurd hp hup
    | running => exact .inl rfl
    | waiting due => exact .inr ⟨due, rfl⟩
  · have hle := (hrun.due due hd).1
    have hle : n.now ≤ due := hle
    simp only [MaintLife.step, hd]
    constructor
    · intro h
      by_cases hh : due ≤ n.now
      · omega
      · rw [if_neg hh, hd] at h; exact nomatch h
    · intro h
      rw [if_pos (by omega)]

/-- **C112** fails for a node that is restarted, before its first run, more often than it takes to wait
for it: the whole interval starts again. -/
theorem C112_due_fails : ¬ C112_statement := by
  intro h
  have := h ⟨26, 4, 0⟩ ⟨by decide, by decide⟩ 0 [.start 24, .tick 20, .stop, .start 24]
    (by
      intro e he
      simp only [List.mem_cons, List.not_mem_nil, or_false] at he
      rcases he with rfl | rfl | rfl | rfl
      all_goals first | trivial | (show Sampled _ _; unfold Sampled; decide))
    44 (by decide)
  exact absurd this (by decide)

/-- **C112**, on disk: the time of the last run is read back as it was written. -/
theorem C112_time_round_trips (t : DateTime) (h : Spec.Valid t) :
    read_time_from_path (some (write_time_to_path t)) = .ok (some t) ∧
    read_time_from_path none = .ok none := by
  refine ⟨?_, rfl⟩
  have ha := naive_stamp_ascii t
  have hw : write_time_to_path t = (naive_stamp t).map fun c => UInt8.ofNat c.toNat := by
    unfold write_time_to_path utf8_encode points_of
    rw [String.toList_ofList]
    exact encode_ascii _ ha
  have hb : ∀ c : Char, c.toNat < 128 → (UInt8.ofNat c.toNat).toNat = c.toNat := fun c hc => by
    rw [UInt8.toNat_ofNat']; omega
  unfold read_time_from_path
  rw [hw]
  simp only
  rw [if_pos, List.map_map, show (naive_stamp t).map ((fun b : UInt8 => Char.ofNat b.toNat) ∘ fun c =>
    UInt8.ofNat c.toNat) = naive_stamp t from ?_, parse_naive_stamp t h]
  · refine (List.map_congr_left fun c hc => ?_).trans (List.map_id _)
    show Char.ofNat (UInt8.ofNat c.toNat).toNat = c
    rw [hb c (ha c hc), Char.ofNat_toNat]
  · rw [List.all_map, List.all_eq_true]
    intro c hc
    show decide ((UInt8.ofNat c.toNat).toNat < 128) = true
    rw [hb c (ha c hc)]
    exact decide_eq_true (ha c hc)

example : read_time_from_path (some (ascii "2021-13-01T00:00:00")) = .error .valueError := by decide +kernel
example : write_time_to_path ⟨2021, 3, 4, 5, 6, 7, 80⟩ = ascii "2021-03-04T05:06:07.000080" := by decide +kernel

/-- A run that ended on day 30; the node is down from day 31 to day 70 and a run is due at once when
it comes back. -/
example : (({ now := 0 } : MaintLife).run [.start 25, .tick 25, .fire, .tick 5, .finish true 26, .tick 1, .stop,
    .tick 39, .start 27]).phase = .waiting 70 := by decide

/-! ### C113 -/

/-- **C113** in full: the time from which a node counts to its next run, also after a restart, is
that of the last run that succeeded. -/
def C113_statement : Prop :=
  ∀ (t : Int) (events : List LifeEvent),
    (({ now := t } : MaintLife).run events).last_run = (({ now := t } : MaintLife).run events).last_success

/-- **C113** fails: the time of a run that failed is recorded like that of one that succeeded, so
the next attempt is a whole interval away. -/
theorem C113_failed_runs_fails : ¬ C113_statement := by
  intro h
  exact absurd (h 0 [.start 24, .tick 24, .fire, .finish false 24]) (by decide)

/-- **C113**, what holds: the time is that of the last run that ended, in whichever way, and not of
one that the end of the process cut off; so it is that of the last success if no run fails. -/
theorem C113_last_end_partial (c : LeaseMaintenanceConfig) (hc : Sensible c) (t : Int) (events : List LifeEvent)
    (follows : LifeFollows c events) :
    let n := ({ now := t } : MaintLife).run events
    n.last_run = n.last_end ∧
    ((∀ sample, .finish false sample ∉ events) → n.last_run = n.last_success) :=
  ⟨(life_run hc events follows (life_new c t)).file, fun h => life_success events h _ rfl⟩

/-- A run cut off by the end of the process is started again with the node. -/
example : (({ now := 0 } : MaintLife).run [.start 25, .tick 25, .fire, .finish true 26, .tick 26, .fire, .tick 1,
    .stop, .tick 1, .start 26]).phase = .waiting 53 := by decide

/-! ### C114 -/

/-- **C114**: a lease that was paid for lasts the advertised time.  If one run renewed an object on a
server and a later run finds the object as the first one left it, then the second run pays for it again
only after more than the period shown with the price. -/
theorem C114_payment_lasts (c : LeaseMaintenanceConfig) (hmin : c.min_lease_remaining ≤ LEASE_PERIOD * 1000000)
    (cfg : ServerConfig) (call : SI → AddLeaseArgs) (hcall : ∀ si, (call si).storage_index = si)
    (s s' : Server) (wf : BucketsWF s) (renewed : List SI) (carried_out : renewedServer cfg call s renewed = some s')
    (si : SI) (paid : si ∈ renewed)
    (later : Server) (wf' : BucketsWF later) (same : later.buckets si = s'.buckets si)
    (sis : List SI) (servers : List (LeaseServer SI)) (i : Nat) (server : LeaseServer SI)
    (hi : servers[i]? = some server) (answers : server.stat_shares sis = .ok (remote_stat_shares later sis))
    (again : .renew i si ∈ (renew_leases c.min_lease_remaining sis servers).1) :
    get_lease_duration c * 1000000 < server.now - (call si).now * 1000000 := by
  obtain ⟨_, hr⟩ := renewed_until cfg call hcall renewed s s' wf carried_out
  obtain ⟨server', shares, hs', _, ⟨stats, k, h1, h2, h3⟩, n, stat, hm, hlt⟩ :=
    (C40_never_renewed_without_need c.min_lease_remaining sis servers).1 i si again
  rw [hi] at hs'
  cases hs'
  rw [answers] at h1
  cases h1
  have hsh : shares = Dict.ofItems (get_share_stats (later.buckets si) none) := by
    simpa [remote_stat_shares, h2] using h3.symm
  subst hsh
  have hwf : Dict.WF (get_share_stats (later.buckets si) none) := by
    unfold get_share_stats
    exact wf_map_val (keys_filter_nodup (wf' si) _) _
  rw [Dict.ofItems_wf _ hwf] at hm
  unfold get_share_stats at hm
  obtain ⟨⟨n', share⟩, hmem, heq⟩ := List.mem_map.mp hm
  obtain ⟨rfl, rfl⟩ := Prod.mk.inj heq
  dsimp only at hlt
  have hlook : (s'.buckets si).lookup n' = some share := by
    rw [← same]
    exact (Dict.lookup_eq_some_iff (wf' si) _ _).mpr (List.mem_filter.mp hmem).1
  obtain ⟨l, hl, hle⟩ := (hr si).1 paid n' share hlook
  have := stat_of_lease hl
  unfold get_lease_duration
  unfold LEASE_PERIOD at *
  rw [Int.tdiv_eq_ediv_of_nonneg (by omega)]
  omega

/-- With the defaults, 31 days. -/
example : get_lease_duration ⟨26 * 86400 * 1000000, 4 * 86400 * 1000000, 0⟩ = 31 * 86400 := by decide

/-- A renewal at 100 seconds; with a minimum of one day left, thirty days and a second later the object
is renewed again, and thirty days later it is not. -/
example :
    ∀ later, renewedServer exCfg exMaintCall exServer [[9]] = some later →
    (renew_leases (86400 * 1000000) [[9]] [⟨fun sis => .ok (remote_stat_shares later sis), fun _ => .ok (),
      (100 + 30 * 86400 + 1) * 1000000⟩]).1 = [.observe [15, 25], .renew 0 [9], .finish] ∧
    (renew_leases (86400 * 1000000) [[9]] [⟨fun sis => .ok (remote_stat_shares later sis), fun _ => .ok (),
      (100 + 30 * 86400) * 1000000⟩]).1 = [.observe [15, 25], .finish] := by
  intro later h
  cases h
  decide +kernel

end ZKAP
