import Verif.Lemmas.RealSigner
import Verif.Lemmas.LeaseSecrets
import Verif.Spec.Upkeep

/-! Lemmas about maintenance runs one after the other. -/
namespace ZKAP
open Spec

theorem share_present_set {s : Server} {si si' : SI} {b : Bucket} {n : Nat} {share : Share}
    (h : (s.buckets si).lookup n = some share)
    (hb : ∀ share, (s.buckets si').lookup n = some share → ∃ share', b.lookup n = some share') :
    ∃ share', (set_bucket s.buckets si' b si).lookup n = some share' := by
  unfold set_bucket
  by_cases hsi : si = si'
  · subst hsi
    rw [if_pos rfl]
    exact hb share h
  · rw [if_neg hsi]
    exact ⟨share, h⟩

/-- A share stays where it is. -/
theorem share_present_step (cfg : ServerConfig) {s : Server} {si : SI} {n : Nat} {share : Share}
    (h : (s.buckets si).lookup n = some share) (hu : ¬ BeingUploaded s si n) (op : ServerOp) :
    ∃ share', ((s.step cfg op).buckets si).lookup n = some share' := by
  have same : ∀ t : Server, t.buckets = s.buckets → ∃ share', (t.buckets si).lookup n = some share' :=
    fun t ht => ⟨share, by rw [ht]; exact h⟩
  cases op with
  | allocate a => exact same _ (allocate_buckets_same cfg a s)
  | addLease a =>
    show ∃ share', ((remote_add_lease cfg a s).1.buckets si).lookup n = some share'
    unfold remote_add_lease
    split
    · exact same _ rfl
    · split
      · exact same _ rfl
      · simp only []
        split <;> exact share_present_set h fun share hs => (loop_lookup hs).imp fun _ h => h.1
  | writev a =>
    show ∃ share', ((remote_slot_writev cfg a s).1.buckets si).lookup n = some share'
    unfold remote_slot_writev
    split
    · exact same _ rfl
    · split
      · exact same _ rfl
      · simp only []
        split
        · exact same _ rfl
        · split
          · exact same _ rfl
          · rename_i bucket good read ho
            have hb : ∀ share, (s.buckets a.storage_index).lookup n = some share →
                ∃ share', (add_leases_for_writev a bucket).1.lookup n = some share' := by
              intro share hs
              have : ∃ share1, bucket.lookup n = some share1 ∧ share1.leases = share.leases := by
                rw [original_slot_writev_ok ho]
                split
                · exact write_vectors_lookup _ hs
                · exact ⟨share, hs, rfl⟩
              obtain ⟨share1, h1, _⟩ := this
              obtain ⟨share2, h2, _⟩ := loop_lookup (space := a.space)
                (lease := ⟨a.renew_secret, a.now + LEASE_PERIOD⟩) (sel := wants_lease a.tw_vectors a.now) h1
              exact ⟨share2, h2⟩
            split <;> exact share_present_set h hb
  | close bw data =>
    show ∃ share', ((original_close s bw data).buckets si).lookup n = some share'
    unfold original_close
    split
    · exact same _ rfl
    · rename_i w hw
      refine ⟨share, ?_⟩
      rw [bucket_writer_closed_buckets]
      show (set_bucket s.buckets w.si _ si).lookup n = some share
      unfold set_bucket
      by_cases hsi : si = w.si
      · rw [if_pos hsi, Dict.lookup_set]
        have hn : n ≠ w.sharenum := fun e => hu ⟨w, List.mem_of_find?_eq_some hw, hsi.symm, e.symm⟩
        rw [if_neg (by simpa using hn)]
        rw [hsi] at h
        exact h
      · rw [if_neg hsi]; exact h
  | abort bw => exact same _ (original_abort_buckets s bw)
  | disconnect c =>
    refine same _ ?_
    show (ZKAP.disconnect s c).buckets = s.buckets
    unfold ZKAP.disconnect
    simp only [foldl_abort_buckets]

/-- The share is there, and not being uploaded. -/
structure Grounded (s : Server) (si : SI) (n : Nat) : Prop where
  present : ∃ share, StoredShare s si n share
  quiet : ¬ BeingUploaded s si n

theorem grounded_run (cfg : ServerConfig) (ops : List ServerOp) {s : Server} {si : SI} {n : Nat} (h : Grounded s si n) :
    Grounded (s.run cfg ops) si n := by
  induction ops generalizing s with
  | nil => exact h
  | cons op ops ih =>
    obtain ⟨share, hs⟩ := h.present
    exact ih ⟨share_present_step cfg hs h.quiet op, not_uploaded_step cfg hs h.quiet op⟩

/-- The second server is the first one after some requests. -/
structure Later (cfg : ServerConfig) (s s' : Server) : Prop where
  ops : ∃ ops, s' = s.run cfg ops

theorem Later.refl (cfg : ServerConfig) (s : Server) : Later cfg s s := ⟨[], rfl⟩

theorem Later.trans {cfg : ServerConfig} {s s1 s2 : Server} (h1 : Later cfg s s1) (h2 : Later cfg s1 s2) : Later cfg s s2 := by
  obtain ⟨a, rfl⟩ := h1.ops
  obtain ⟨b, rfl⟩ := h2.ops
  refine ⟨a ++ b, ?_⟩
  unfold Server.run
  rw [List.foldl_append]

theorem later_reply (cfg : ServerConfig) (m : Moment) (s : Server) (r : StorageRequest) :
    Later cfg s (server_reply cfg m s r).1 := by
  have one : ∀ op, Later cfg s (s.step cfg op) := fun op => ⟨[op], rfl⟩
  unfold server_reply
  cases r with
  | allocateBuckets passes si renew cancel sharenums size canary =>
    have := one (.allocate ⟨passes, si, renew, sharenums, size, canary, m.server_now, m.room⟩)
    dsimp only
    split <;> (rename_i h; rw [show Server.step cfg s (.allocate _) = (remote_allocate_buckets cfg _ s).1 from rfl, h] at this; exact this)
  | addLease passes si renew cancel =>
    have := one (.addLease ⟨passes, si, renew, m.server_now, m.room⟩)
    dsimp only
    split <;> (rename_i h; rw [show Server.step cfg s (.addLease _) = (remote_add_lease cfg _ s).1 from rfl, h] at this; exact this)
  | writev passes si secrets tw rv =>
    have := one (.writev ⟨passes, si, secrets.1, secrets.2.1, tw, rv, m.server_now, m.room⟩)
    dsimp only
    split <;> (rename_i h; rw [show Server.step cfg s (.writev _) = (remote_slot_writev cfg _ s).1 from rfl, h] at this; exact this)
  | getBuckets si => dsimp only; split <;> exact .refl _ _
  | readv si shares rv => dsimp only; split <;> exact .refl _ _
  | _ => exact .refl _ _

theorem later_turn (sign : Signer) (cfg : ServerConfig) (v : Int) (k : Talk) (m : Moment) :
    Later cfg k.server (k.turn sign cfg v m).server := by
  unfold Talk.turn
  split
  · exact Later.trans ⟨m.others, rfl⟩ (later_reply cfg m _ _)
  · exact .refl _ _

theorem later_turns (sign : Signer) (cfg : ServerConfig) (v : Int) (ms : List Moment) (k : Talk) :
    Later cfg k.server (ms.foldl (Talk.turn sign cfg v) k).server := by
  induction ms generalizing k with
  | nil => exact .refl _ _
  | cons m ms ih => exact (later_turn sign cfg v k m).trans (ih _)

theorem later_ask (nd : MaintNode) (cfg : ServerConfig) (e : Errand) (op : StorageOp) (client : StorageSession)
    (server : Server) : Later cfg server (nd.ask cfg e op client server).2.2 :=
  later_turns nd.sign cfg nd.pass_value e.moments ⟨client.step nd.sign nd.pass_value (.start op e.get_rref e.order), server, server⟩

theorem later_loop (nd : MaintNode) (activity : LeaseMaintenance) (stop : MaintStop) (todo : List (SI × List ShareStat)) :
    ∀ (client : StorageSession) (server : Server) r client' server',
      tend_loop nd activity stop todo client server = some (r, client', server') → Later stop.cfg server server' := by
  induction todo with
  | nil =>
    intro client server r client' server' h
    cases h
    exact .refl _ _
  | cons x todo ih =>
    intro client server r client' server' h
    obtain ⟨si, stats⟩ := x
    unfold tend_loop at h
    split at h
    · exact ih _ _ _ _ _ h
    · dsimp only at h
      split at h
      · cases h; exact .refl _ _
      · split at h
        · cases h; exact .refl _ _
        · exact ih _ _ _ _ _ h
        · have key := fun s r c => later_ask nd stop.cfg (stop.renewal s) (.addLease s r c)
            (nd.observe activity (stats.map (·.size)) client) server
          obtain ⟨answer, ha, key'⟩ : ∃ answer, renew_lease nd.hashes nd.renewal_secret nd.cancel_secret si stop.lease_seed
              (fun si renew cancel => nd.ask stop.cfg (stop.renewal si) (.addLease si renew cancel)
                (nd.observe activity (stats.map (·.size)) client) server) = answer ∧ Later stop.cfg server answer.2.2 :=
            ⟨_, rfl, key _ _ _⟩
          rw [ha] at h
          obtain ⟨_ | ⟨_ | _⟩, client1, server1⟩ := answer
          · cases h
          · cases h
            exact key'
          · exact key'.trans (ih _ _ _ _ _ h)

theorem later_tend_server (nd : MaintNode) (activity : LeaseMaintenance) (sis : List SI) (stop : MaintStop)
    (client : StorageSession) {r client' server'}
    (h : tend_server nd activity sis stop client = some (r, client', server')) : Later stop.cfg stop.server server' := by
  have key := later_ask nd stop.cfg stop.stat (.statShares sis) client stop.server
  unfold tend_server at h
  split at h
  · cases h
  · rename_i h1
    rw [h1] at key
    cases h
    exact key
  · rename_i h1
    rw [h1] at key
    exact key.trans (later_loop _ _ _ _ _ _ _ _ _ h)

theorem later_tend_servers (nd : MaintNode) (activity : LeaseMaintenance) (finished : String) (sis : List SI)
    (stops : List MaintStop) : ∀ (client : StorageSession) r client' servers,
      tend_servers nd activity finished sis stops client = some (r, client', servers) →
      ∀ (i : Nat) stop server, stops[i]? = some stop → servers[i]? = some server → Later stop.cfg stop.server server := by
  have rest : ∀ (stops : List MaintStop) (i : Nat) stop server, stops[i]? = some stop →
      (stops.map (·.server))[i]? = some server → Later stop.cfg stop.server server := by
    intro stops i stop server h1 h2
    rw [List.getElem?_map, h1] at h2
    cases h2
    exact .refl _ _
  induction stops with
  | nil => intro _ _ _ _ _ i _ _ hi; simp at hi
  | cons first stops ih =>
    intro client r client' servers h i stop server hi hj
    unfold tend_servers at h
    split at h
    · cases h
    · rename_i h1
      cases h
      cases i with
      | zero =>
        cases hi
        cases hj
        exact later_tend_server _ _ _ _ _ h1
      | succ i => exact rest stops i stop server hi hj
    · rename_i h1
      split at h
      · cases h
      · rename_i h2
        cases h
        cases i with
        | zero =>
          cases hi
          cases hj
          exact later_tend_server _ _ _ _ _ h1
        | succ i => exact ih _ _ _ _ h2 i stop server hi hj

/-- What a maintenance run leaves behind at a server is what some requests leave behind. -/
theorem later_run {c : MaintScene} {r client servers} (h : c.run = some (r, client, servers)) {i : Nat} {stop server}
    (hi : c.stops[i]? = some stop) (hj : servers[i]? = some server) : Later stop.cfg stop.server server := by
  have rest : servers = c.stops.map (·.server) → Later stop.cfg stop.server server := by
    intro e
    rw [e, List.getElem?_map, hi] at hj
    cases hj
    exact .refl _ _
  unfold MaintScene.run tend at h
  split at h
  · exact later_tend_servers _ _ _ _ _ _ _ _ _ h i stop server hi hj
  · cases h; exact rest rfl
  · cases h; exact rest rfl

/-- A lease that lasts goes on lasting. -/
theorem lasting_run (cfg : ServerConfig) (ops : List ServerOp) {s : Server} {si : SI} {n : Nat} {share : Share} {m now t : Int}
    (h : StoredShare s si n share) (hu : ¬ BeingUploaded s si n) (hl : LeaseLasts m now share) (ht : t ≤ now + m) :
    ∃ share', StoredShare (s.run cfg ops) si n share' ∧ LeaseLasts 0 t share' := by
  obtain ⟨l, h1, h2⟩ := hl
  obtain ⟨e', h3, share', h4, h5⟩ := leaseUntil_run cfg ops (e := l.expiration) ⟨share, h, h1⟩ hu
  refine ⟨share', h4, _, h5, ?_⟩
  dsimp only
  omega

theorem kept_up {possible : MaintScene → Prop} (carried : ∀ c, possible c → ∃ client servers, WellTended c client servers)
    (runs : List MaintScene) : Upkeep possible runs → ∀ (i : Nat) first stop si n, runs.head? = some first →
      first.stops[i]? = some stop → si ∈ first.indexes → Grounded stop.server si n → ∀ k, LeasedFrom runs i si n k := by
  induction runs with
  | nil => intro _ i first stop si n h; cases h
  | cons a runs ih =>
    intro h i first stop si n hf hi hsi hset k
    cases hf
    have hp : possible a := by
      cases runs with
      | nil => exact h
      | cons b rest => exact h.1
    obtain ⟨client, servers, hw⟩ := carried a hp
    have hlen : i < servers.length := by
      rw [hw.all]
      exact (List.getElem?_eq_some_iff.mp hi).1
    have hj : servers[i]? = some servers[i] := List.getElem?_eq_getElem hlen
    obtain ⟨ops, hops⟩ := (later_run hw.complete hi hj).ops
    have hset' : Grounded servers[i] si n := by
      rw [hops]
      exact grounded_run _ _ hset
    cases k with
    | zero =>
      intro c hc
      cases hc
      refine ⟨client, servers, servers[i], stop, hw.complete, hi, hj, fun ops t ht => ?_⟩
      obtain ⟨share, hs⟩ := hset.present
      obtain ⟨share', h1, _, h2⟩ := hw.leases i stop _ hi hj si hsi n share hs
      exact lasting_run stop.cfg ops h1 hset'.quiet h2 ht
    | succ k =>
      cases runs with
      | nil => intro c hc; simp at hc
      | cons b rest =>
        have hbl : i < b.stops.length := by
          rw [h.2.1.servers]
          exact (List.getElem?_eq_some_iff.mp hi).1
        obtain ⟨⟨ops', ho⟩, _⟩ := h.2.1.visits client servers hw.complete i stop _ _ hi hj (List.getElem?_eq_getElem hbl)
        refine ih h.2.2 i b b.stops[i] si n rfl (List.getElem?_eq_getElem hbl) (h.2.1.indexes si hsi) ?_ k
        rw [ho]
        exact grounded_run _ _ hset'

end ZKAP
