import Verif.Lemmas.MaintRun
import Verif.Spec.ShortRun

namespace ZKAP
open Spec

/-! ### A renewal that cannot be paid for -/

theorem pay_fails {sign : Signer} (hs : Signs sign) {t : Tables} {held : List String} (h : Held t held) (o : Order)
    (v : Int) (op : StorageOp) {n : Int} (h0 : 0 ≤ n) (hn : ¬ Affords t n) :
    pay sign o v op n t = (.over, [.raised op .notEnoughTokens], t) := by
  unfold pay call_start
  rcases get_held hs h o op.message n with he | ⟨g, t1, he, -, -, h4, h5, h6⟩
  · rw [he]; rfl
  · exfalso
    apply hn
    have hl := h4 h0
    refine ⟨g.unblinded_tokens, (List.nodup_append.mp h6.nodup).2.1, h5, ?_⟩
    unfold PassGroup.unblinded_tokens
    rw [List.length_map]
    omega

theorem turns_raised {sign : Signer} {cfg : ServerConfig} {v : Int} (later : List Moment) {k : Talk} {op : StorageOp}
    {e : PyErr} (h : k.client.log.getLast? = some (.raised op e)) : later.foldl (Talk.turn sign cfg v) k = k := by
  induction later with
  | nil => rfl
  | cons m later ih =>
    rw [List.foldl_cons]
    have : Talk.turn sign cfg v k m = k := by
      unfold Talk.turn
      rw [h]
    rw [this]
    exact ih

theorem renew_short {sign : Signer} {cfg : ServerConfig} (hv : 0 < cfg.pass_value) {si renew cancel : Bytes}
    {rref : Except PyErr RRef} {o : Order} {t : Tables} {asked : List StorageOp} {paying : List (StorageOp × Call)}
    {log : List Out} {held : List String} (hheld : Held t held) {server : Server} {m1 : Moment} (later : List Moment)
    (hright : RightServer rref) (hprop : Proper (.addLease si renew cancel)) (hs : Signs sign) {bucket : Bucket}
    (h1 : (server.run cfg m1.others).buckets si = bucket) (htell : Tellable bucket)
    (haff : ¬ Affords t (bucketPrice cfg.pass_value bucket)) :
    ∃ log', converse sign cfg cfg.pass_value (.addLease si renew cancel) rref o ⟨t, asked, paying, log⟩ server
        (m1 :: later) = ⟨⟨t, asked, paying, log'⟩, server.run cfg m1.others, server.run cfg m1.others⟩ ∧
      log'.getLast? = some (.raised (.addLease si renew cancel) .notEnoughTokens) := by
  have hr : client_rref rref = .ok ⟨true, some expected_remote_interface_name⟩ := by
    unfold RightServer at hright
    rw [hright]
    rfl
  have hpr := bucket_price_nonneg hv bucket
  have hfit : Fits (.shareSizes si) := hprop.1.2.1
  have hstart : StorageSession.step sign cfg.pass_value ⟨t, asked, paying, log⟩
      (.start (.addLease si renew cancel) rref o) =
      ⟨t, asked ++ [.addLease si renew cancel], paying, log ++ [.sent (.addLease si renew cancel) (.shareSizes si)]⟩ := by
    dsimp only [StorageSession.step, op_start]
    rw [hr]
    dsimp only [send_free]
    rw [(C115_calls_arrive _).1 hfit]
    simp only [still_asked, still_paying, List.append_nil]
  have hasked : op_asked sign m1.order cfg.pass_value m1.client_now (.addLease si renew cancel)
      (.result (.dict ((remote_share_sizes (server.run cfg m1.others) si none).map fun kv =>
        (.int kv.1, .int kv.2)))) t = (.over, [.raised (.addLease si renew cancel) .notEnoughTokens], t) := by
    dsimp only [op_asked, Reply.value]
    rw [lease_answer_price (si := si) hv (by rw [h1]; exact htell), h1]
    exact pay_fails hs hheld m1.order cfg.pass_value _ hpr haff
  have hturn := turn_asked (cfg := cfg) (asked := asked) (paying := paying) (log := log) (before := server)
    (server := server) (r := .shareSizes si) rfl m1 rfl hasked
  dsimp only [still_asked, still_paying] at hturn
  rw [List.append_nil, List.append_nil, show ∀ (l : List Out) (a b : Out), l ++ a :: [b] = l ++ [a] ++ [b] from
    fun l a b => List.append_cons l a [b]] at hturn
  unfold converse
  rw [hstart, List.foldl_cons, hturn]
  exact ⟨_, turns_raised later (List.getLast?_concat), List.getLast?_concat⟩

/-! ### The run -/

theorem tend_loop_append {nd : MaintNode} {activity : LeaseMaintenance} {stop : MaintStop}
    (l1 l2 : List (SI × List ShareStat)) {client client' : StorageSession} {s s' : Server}
    (h : tend_loop nd activity stop l1 client s = some (.ok (), client', s')) :
    tend_loop nd activity stop (l1 ++ l2) client s = tend_loop nd activity stop l2 client' s' := by
  induction l1 generalizing client s with
  | nil =>
    cases h
    rfl
  | cons x l1 ih =>
    obtain ⟨si, stats⟩ := x
    rw [List.cons_append]
    rw [tend_loop] at h ⊢
    split at h
    · rename_i hc
      rw [if_pos hc]
      exact ih h
    · rename_i hc
      rw [if_neg hc]
      dsimp only at h ⊢
      cases hso : soonest_expiration stats with
      | error e => rw [hso] at h; cases h
      | ok most =>
        rw [hso] at h
        dsimp only at h ⊢
        cases hne : needs_lease_renew nd.min_lease_remaining most stop.now with
        | error e => rw [hne] at h; cases h
        | ok b =>
          rw [hne] at h
          cases b with
          | false => exact ih h
          | true =>
            dsimp only at h ⊢
            split at h
            · cases h
            · cases h
            · exact ih h

/-- The first of a list of indexes that cannot be paid for. -/
theorem first_short {c : MaintScene} (stop : MaintStop) {t : Tables} (hz : Affords t 0) (l : List SI)
    (h : ¬ Affords t ((inDanger c stop l).map (c.price stop)).sum) :
    ∃ before si after, l = before ++ si :: after ∧
      secure c.node.min_lease_remaining stop.now (stop.server.buckets si) = false ∧
      Affords t ((inDanger c stop before).map (c.price stop)).sum ∧
      ¬ Affords t ((inDanger c stop (before ++ [si])).map (c.price stop)).sum := by
  induction hn : l.length generalizing l with
  | zero =>
    rw [List.length_eq_zero_iff] at hn
    subst hn
    exact absurd hz h
  | succ n ih =>
    rcases List.eq_nil_or_concat l with rfl | ⟨l', x, rfl⟩
    · exact absurd hn (Nat.succ_ne_zero n).symm
    · rw [List.concat_eq_append] at h hn ⊢
      rw [List.length_append, List.length_singleton] at hn
      by_cases ha : Affords t ((inDanger c stop l').map (c.price stop)).sum
      · refine ⟨l', x, [], rfl, ?_, ha, h⟩
        cases hs : secure c.node.min_lease_remaining stop.now (stop.server.buckets x) with
        | false => rfl
        | true =>
          exfalso
          apply h
          unfold inDanger at ha ⊢
          rw [List.filter_append]
          have : List.filter (fun si => !secure c.node.min_lease_remaining stop.now (stop.server.buckets si)) [x] = [] := by
            rw [List.filter_cons, hs]; rfl
          rw [this, List.append_nil]
          exact ha
      · obtain ⟨b, si, a, h1, h2⟩ := ih l' ha (by omega)
        exact ⟨b, si, a ++ [x], by rw [h1, List.append_assoc, List.cons_append], h2⟩

theorem danger_snoc {c : MaintScene} {stop : MaintStop} (before : List SI) {si : SI}
    (h : secure c.node.min_lease_remaining stop.now (stop.server.buckets si) = false) :
    ((inDanger c stop (before ++ [si])).map (c.price stop)).sum =
      ((inDanger c stop before).map (c.price stop)).sum + c.price stop si := by
  unfold inDanger
  rw [List.filter_append]
  have : List.filter (fun si => !secure c.node.min_lease_remaining stop.now (stop.server.buckets si)) [si] = [si] := by
    rw [List.filter_cons, h]; rfl
  rw [this, List.map_append, List.sum_append]
  simp

theorem tend_loop_short {c : MaintScene} (hv : 0 < c.node.pass_value)
    (hmin : 0 ≤ c.node.min_lease_remaining ∧ c.node.min_lease_remaining ≤ 31 * 24 * 60 * 60 * 1000000)
    {stop : MaintStop} (hs : GoodStop c stop) {k : Nat} {held : List String} {asked : List StorageOp}
    {paying : List (StorageOp × Call)} {before : List SI} {si : SI} {after : List SI}
    (hsplit : c.indexes = before ++ si :: after) (hnd : c.indexes.Nodup)
    (hdue : secure c.node.min_lease_remaining stop.now (stop.server.buckets si) = false)
    {t : Tables} {log : List Out} {s : Server} (hheld : Held t held) (htok : GoodTokens c.node.sign stop.cfg t)
    (hwf : BucketsWF s) (hbk : ∀ si ∈ c.indexes, s.buckets si = stop.server.buckets si)
    (haff : Affords t ((inDanger c stop before).map (c.price stop)).sum)
    (hshort : ¬ Affords t ((inDanger c stop (before ++ [si])).map (c.price stop)).sum) :
    ∃ t' log' s', tend_loop c.node ⟨some k⟩ stop (c.indexes.map fun si => (si, bucketStats (stop.server.buckets si)))
        ⟨t, asked, paying, log⟩ s = some (.error .notEnoughTokens, ⟨t', asked, paying, log'⟩, s') ∧
      Kept k held t ((inDanger c stop before).map (c.price stop)).sum ((before ++ [si]).map (c.price stop)).sum t' ∧
      (∀ x ∈ si :: after, s'.buckets x = stop.server.buckets x) ∧ (∀ x ∈ before, Safe c stop s' x) ∧
      ¬ Affords t' (c.price stop si) := by
  have hsi : si ∈ c.indexes := by rw [hsplit]; exact List.mem_append_right _ List.mem_cons_self
  rw [hsplit] at hnd
  obtain ⟨hn1, -, hn3⟩ := List.nodup_append.mp hnd
  obtain ⟨t1, log1, s1, h1, h2, h3, h4⟩ := tend_loop_fine hv hmin hs (k := k) (held := held) (asked := asked)
    (paying := paying) before (fun x hx => by rw [hsplit]; exact List.mem_append_left _ hx) hn1 (log := log) hheld htok hwf
    (fun x hx => hbk x (by rw [hsplit]; exact List.mem_append_left _ hx)) haff
  have hrest : ∀ x ∈ si :: after, s1.buckets x = stop.server.buckets x := by
    intro x hx
    have hxi : x ∈ c.indexes := by rw [hsplit]; exact List.mem_append_right _ hx
    rw [h3 x hxi fun hc => hn3 x hc x hx rfl]
    exact hbk x hxi
  rw [hsplit, List.map_append, tend_loop_append _ _ h1, List.map_cons, tend_loop]
  have hempty : stop.server.buckets si ≠ [] := by
    intro hc
    rw [hc] at hdue
    exact nomatch hdue
  rw [if_neg (by
    cases hb : stop.server.buckets si with
    | nil => exact absurd hb hempty
    | cons kv l => exact Bool.false_ne_true)]
  dsimp only
  obtain ⟨most, hm1, hm2⟩ := needs_bucket hmin.1 hs.clock.1 hempty (hs.dates si hsi)
  rw [hm1]
  dsimp only
  rw [hm2, observe_step, hdue]
  have hobs := kept_observe hv (k := k) h2.held ((bucketStats (stop.server.buckets si)).map (·.size))
  rw [total_bucket] at hobs
  generalize ((StoreOp.maintObserve c.node.pass_value _ ⟨some k⟩).step t1).2 = t2 at hobs ⊢
  simp only [Bool.not_false]
  have hboth := h2.trans hobs
  have hpoor : ¬ Affords t2 (c.price stop si) := by
    intro hc
    apply hshort
    rw [danger_snoc before hdue]
    have := hboth.regain _ hc
    rwa [Int.add_zero, Int.add_comm] at this
  obtain ⟨m1, later, hms⟩ : ∃ m1 later, (stop.renewal si).moments = m1 :: later := by
    have := hs.reached.2 si hsi
    cases hl : (stop.renewal si).moments with
    | nil => rw [hl] at this; exact absurd this (by decide)
    | cons m1 l => exact ⟨m1, l, rfl⟩
  have ha1 := hs.alone.2 si hsi m1 (by rw [hms]; exact List.mem_cons_self)
  have hprop := hs.proper.2 si hsi
  have hcall : renew_lease c.node.hashes c.node.renewal_secret c.node.cancel_secret si stop.lease_seed
      (fun si renew cancel => c.node.ask stop.cfg (stop.renewal si) (.addLease si renew cancel)
        ⟨t2, asked, paying, log1⟩ s1) =
      c.node.ask stop.cfg (stop.renewal si) (c.renewal stop si) ⟨t2, asked, paying, log1⟩ s1 := rfl
  rw [hcall]
  obtain ⟨renew, cancel, hop⟩ : ∃ renew cancel, c.renewal stop si = .addLease si renew cancel := ⟨_, _, rfl⟩
  rw [hop] at hprop ⊢
  have hsib := hrest si List.mem_cons_self
  obtain ⟨log2, hc, hlast⟩ := renew_short (sign := c.node.sign) (cfg := stop.cfg) (by rw [hs.value]; exact hv) (si := si)
    (renew := renew) (cancel := cancel) (rref := (stop.renewal si).get_rref) (o := (stop.renewal si).order) (t := t2)
    (asked := asked) (paying := paying) (log := log1) hobs.held (server := s1) (m1 := m1) later (hs.right.2 si hsi) hprop
    hs.tokens.works (bucket := stop.server.buckets si) (by rw [ha1 _ si hsi, hsib]) (hs.tellable si hsi)
    (by rw [hs.value]; exact hpoor)
  rw [hs.value, ← hms] at hc
  have hask : c.node.ask stop.cfg (stop.renewal si) (.addLease si renew cancel) ⟨t2, asked, paying, log1⟩ s1 =
      (some (.error .notEnoughTokens), ⟨t2, asked, paying, log2⟩, s1.run stop.cfg m1.others) := by
    unfold MaintNode.ask
    rw [hc]
    dsimp only
    rw [hlast]
  rw [hask]
  refine ⟨t2, log2, s1.run stop.cfg m1.others, rfl, ?_, ?_, ?_, hpoor⟩
  · rw [Int.add_zero] at hboth
    rw [List.map_append, List.sum_append, List.map_singleton, List.sum_singleton]
    exact hboth
  · intro x hx
    rw [ha1 _ x (by rw [hsplit]; exact List.mem_append_right _ hx)]
    exact hrest x hx
  · intro x hx n share hst
    obtain ⟨share', g1, g2, g3⟩ := h4 x hx n share hst
    refine ⟨share', ?_, g2, g3⟩
    unfold StoredShare at g1 ⊢
    rw [ha1 _ x (by rw [hsplit]; exact List.mem_append_left _ hx)]
    exact g1

theorem affords_zero {t : Tables} : Affords t 0 := ⟨[], List.nodup_nil, fun _ h => (nomatch h), by decide⟩

theorem tend_server_short {c : MaintScene} (hv : 0 < c.node.pass_value)
    (hmin : 0 ≤ c.node.min_lease_remaining ∧ c.node.min_lease_remaining ≤ 31 * 24 * 60 * 60 * 1000000)
    (hnd : c.indexes.Nodup) {stop : MaintStop} (hs : GoodStop c stop) {k : Nat} {held : List String}
    {asked : List StorageOp} {paying : List (StorageOp × Call)} {t : Tables} {log : List Out} (hheld : Held t held)
    (htok : GoodTokens c.node.sign stop.cfg t) (hpoor : ¬ Affords t (c.cost stop)) :
    ∃ before si after t' log' s', c.indexes = before ++ si :: after ∧
      secure c.node.min_lease_remaining stop.now (stop.server.buckets si) = false ∧
      Affords t ((inDanger c stop before).map (c.price stop)).sum ∧
      ¬ Affords t ((inDanger c stop (before ++ [si])).map (c.price stop)).sum ∧
      tend_server c.node ⟨some k⟩ c.indexes stop ⟨t, asked, paying, log⟩ =
        some (.error .notEnoughTokens, ⟨t', asked, paying, log'⟩, s') ∧
      Kept k held t ((inDanger c stop before).map (c.price stop)).sum ((before ++ [si]).map (c.price stop)).sum t' ∧
      (∀ x ∈ si :: after, s'.buckets x = stop.server.buckets x) ∧ (∀ x ∈ before, Safe c stop s' x) ∧
      ¬ Affords t' (c.price stop si) := by
  obtain ⟨before, si, after, f1, f2, f3, f4⟩ := first_short stop affords_zero c.indexes hpoor
  obtain ⟨m, later, hms⟩ : ∃ m later, stop.stat.moments = m :: later := by
    have := hs.reached.1
    cases hl : stop.stat.moments with
    | nil => rw [hl] at this; exact absurd this (by decide)
    | cons m l => exact ⟨m, l, rfl⟩
  have ha : LeavesAlone stop.cfg c.indexes m.others := hs.alone.1 m (by rw [hms]; exact List.mem_cons_self)
  have hwf : BucketsWF (stop.server.run stop.cfg m.others) := run_wf stop.cfg m.others stop.server hs.shares
  obtain ⟨r, b, log1, h1, h2, h3⟩ := stat_call (sign := c.node.sign) (cfg := stop.cfg) (v := c.node.pass_value)
    (sis := c.indexes) (rref := stop.stat.get_rref) (o := stop.stat.order) (client := ⟨t, asked, paying, log⟩)
    (server := stop.server) (m := m) later hs.right.1 hs.proper.1 hwf (by
      intro si hsi
      rw [ha _ si hsi]
      exact hs.tellable si hsi)
  have hstats : stats_of r = c.indexes.map fun si => bucketStats (stop.server.buckets si) := by
    rw [h3]
    exact List.map_congr_left fun si hsi => by rw [ha _ si hsi]
  have hask : c.node.ask stop.cfg stop.stat (.statShares c.indexes) ⟨t, asked, paying, log⟩ stop.server =
      (some (.ok r), ⟨t, asked, paying, log1⟩, stop.server.run stop.cfg m.others) := by
    unfold MaintNode.ask
    rw [hms, h1]
    dsimp only
    rw [h2]
  obtain ⟨t', log', s', g1, g2, g3, g4, g5⟩ := tend_loop_short hv hmin hs (k := k) (held := held) (asked := asked)
    (paying := paying) f1 hnd f2 (log := log1) hheld htok hwf (fun si hsi => ha _ si hsi) f3 f4
  refine ⟨before, si, after, t', log', s', f1, f2, f3, f4, ?_, g2, g3, g4, g5⟩
  unfold tend_server
  rw [hask]
  dsimp only
  rw [hstats, zip_map_self]
  exact g1

/-- Where a run ended. -/
structure Stopped (c : MaintScene) (k : Nat) (held : List String) (t : Tables) (stops : List MaintStop) (i : Nat)
    (stop : MaintStop) (before : List SI) (si : SI) (after : List SI) (t' : Tables) (servers : List Server) : Prop where
  place : stops[i]? = some stop ∧ c.indexes = before ++ si :: after
  due : secure c.node.min_lease_remaining stop.now (stop.server.buckets si) = false
  enough : Affords t (((stops.take i).map c.cost).sum + ((inDanger c stop before).map (c.price stop)).sum)
  short : ¬ Affords t (((stops.take i).map c.cost).sum + ((inDanger c stop (before ++ [si])).map (c.price stop)).sum)
  kept : Kept k held t (((stops.take i).map c.cost).sum + ((inDanger c stop before).map (c.price stop)).sum)
    (((stops.take i).map c.value).sum + ((before ++ [si]).map (c.price stop)).sum) t'
  done : (∀ j < i, ∀ stop' server, stops[j]? = some stop' → servers[j]? = some server →
      ∀ x ∈ c.indexes, Safe c stop' server x) ∧ ∀ server, servers[i]? = some server → ∀ x ∈ before, Safe c stop server x
  undone : (∀ server, servers[i]? = some server → ∀ x ∈ si :: after, server.buckets x = stop.server.buckets x) ∧
    ∀ j > i, servers[j]? = (stops[j]?).map (·.server)
  all : servers.length = stops.length
  left : ¬ Affords t' (c.price stop si)

theorem tend_servers_short {c : MaintScene} (hv : 0 < c.node.pass_value)
    (hmin : 0 ≤ c.node.min_lease_remaining ∧ c.node.min_lease_remaining ≤ 31 * 24 * 60 * 60 * 1000000)
    (hnd : c.indexes.Nodup) {k : Nat} {held : List String} {asked : List StorageOp} {paying : List (StorageOp × Call)}
    (stops : List MaintStop) (hs : ∀ stop ∈ stops, GoodStop c stop) :
    ∀ {t : Tables} {log : List Out}, Held t held → (∀ stop ∈ stops, GoodTokens c.node.sign stop.cfg t) →
      ¬ Affords t (stops.map c.cost).sum →
      ∃ i stop before si after t' log' servers,
        tend_servers c.node ⟨some k⟩ c.finished c.indexes stops ⟨t, asked, paying, log⟩ =
          some (.error .notEnoughTokens, ⟨t', asked, paying, log'⟩, servers) ∧
        Stopped c k held t stops i stop before si after t' servers := by
  induction stops with
  | nil =>
    intro t log _ _ h
    exact absurd affords_zero h
  | cons stop stops ih =>
    intro t log hheld htok hpoor
    rw [List.map_cons, List.sum_cons] at hpoor
    by_cases ha : Affords t (c.cost stop)
    · obtain ⟨t1, log1, s1, h1, h2, h3⟩ := tend_server_fine hv hmin hnd (hs stop List.mem_cons_self) (k := k)
        (asked := asked) (paying := paying) (log := log) hheld (htok stop List.mem_cons_self) ha
      obtain ⟨i, st, before, si, after, t', log', servers, g1, g2⟩ := ih (fun x hx => hs x (List.mem_cons_of_mem _ hx))
        (t := t1) (log := log1) h2.held (fun x hx => good_mono h2.available (htok x (List.mem_cons_of_mem _ hx)))
        (fun hc => hpoor (by have := h2.regain _ hc; rwa [Int.add_comm] at this))
      refine ⟨i + 1, st, before, si, after, t', log', s1 :: servers, ?_, ?_, g2.due, ?_, ?_, ?_, ⟨?_, ?_⟩, ⟨?_, ?_⟩, ?_,
        g2.left⟩
      · rw [tend_servers, h1]
        dsimp only
        rw [g1]
      · rw [List.getElem?_cons_succ]
        exact g2.place
      · rw [List.take_succ_cons, List.map_cons, List.sum_cons]
        refine affords_mono (fun _ h => h) ?_ (h2.regain _ g2.enough)
        omega
      · intro hc
        rw [List.take_succ_cons, List.map_cons, List.sum_cons] at hc
        refine g2.short (affords_mono (fun _ h => h) ?_ (h2.affords _ hc))
        omega
      · have := h2.trans g2.kept
        rw [List.take_succ_cons, List.map_cons, List.sum_cons, List.map_cons, List.sum_cons, Int.add_assoc, Int.add_assoc]
        exact this
      · intro j hj st' server hi hj'
        cases j with
        | zero =>
          rw [List.getElem?_cons_zero] at hi hj'
          injection hi with hi
          injection hj' with hj'
          subst hi hj'
          exact h3
        | succ j =>
          rw [List.getElem?_cons_succ] at hi hj'
          exact g2.done.1 j (by omega) st' server hi hj'
      · intro server hi
        rw [List.getElem?_cons_succ] at hi
        exact g2.done.2 server hi
      · intro server hi
        rw [List.getElem?_cons_succ] at hi
        exact g2.undone.1 server hi
      · intro j hj
        cases j with
        | zero => omega
        | succ j =>
          rw [List.getElem?_cons_succ, List.getElem?_cons_succ]
          exact g2.undone.2 j (by omega)
      · rw [List.length_cons, List.length_cons, g2.all]
    · obtain ⟨before, si, after, t', log', s', f1, f2, f3, f4, f5, f6, f7, f8, f9⟩ := tend_server_short hv hmin hnd
        (hs stop List.mem_cons_self) (k := k) (asked := asked) (paying := paying) (log := log) hheld
        (htok stop List.mem_cons_self) ha
      refine ⟨0, stop, before, si, after, t', log', s' :: stops.map (·.server), ?_, ⟨rfl, f1⟩, f2, ?_, ?_, ?_, ⟨?_, ?_⟩,
        ⟨?_, ?_⟩, ?_, f9⟩
      · rw [tend_servers, f5]
      · rw [List.take_zero, List.map_nil, List.sum_nil, Int.zero_add]
        exact f3
      · rw [List.take_zero, List.map_nil, List.sum_nil, Int.zero_add]
        exact f4
      · rw [List.take_zero, List.map_nil, List.sum_nil, Int.zero_add, List.map_nil, List.sum_nil, Int.zero_add]
        exact f6
      · intro j hj
        omega
      · intro server hi
        rw [List.getElem?_cons_zero] at hi
        injection hi with hi
        subst hi
        exact f8
      · intro server hi
        rw [List.getElem?_cons_zero] at hi
        injection hi with hi
        subst hi
        exact f7
      · intro j hj
        cases j with
        | zero => omega
        | succ j => rw [List.getElem?_cons_succ, List.getElem?_cons_succ, List.getElem?_map]
      · rw [List.length_cons, List.length_cons, List.length_map]

end ZKAP
