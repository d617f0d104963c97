import Verif.Lemmas.Results
import Verif.Lemmas.ServerReads
import Verif.Lemmas.LeaseSecrets
import Verif.Props.Slot
import Verif.Spec.Results

/-! Lemmas for `Verif.Props.Results`: what an answer of the server says about it. -/
namespace ZKAP
open Spec

theorem wf_int_keys {α β : Type} {l : List (Nat × α)} (h : Dict.WF l) (f : α → β) :
    Dict.WF (l.map fun kv => ((kv.1 : Int), f kv.2)) := by
  unfold Dict.WF at h ⊢
  rw [List.map_map, show (Prod.fst ∘ fun kv : Nat × α => ((kv.1 : Int), f kv.2)) = (fun n : Nat => (n : Int)) ∘ Prod.fst
    from rfl, ← List.map_map]
  exact h.map _ fun a b hab => by omega

theorem known_items_nat {α β : Type} {value : Wire → Option β} {enc : α → Wire} {f : α → β}
    (h : ∀ a, value (enc a) = some (f a)) {l : List (Nat × α)} (hl : Dict.WF l) :
    known_items value (l.map fun kv => (.int kv.1, enc kv.2)) = .ok (l.map fun kv => ((kv.1 : Int), f kv.2)) := by
  refine (known_items_ok _ _ _).mpr ⟨_, ?_, (Dict.ofItems_wf _ (wf_int_keys hl f)).symm⟩
  unfold Items
  rw [List.map_map, List.map_map]
  apply List.map_congr_left
  intro kv _
  show (some (kv.1 : Int), value (enc kv.2)) = _
  rw [h]
  rfl

theorem lookup_int_keys {α β : Type} (f : α → β) (l : List (Nat × α)) (n : Nat) :
    (l.map fun kv => ((kv.1 : Int), f kv.2)).lookup (n : Int) = (l.lookup n).map f := by
  induction l with
  | nil => rfl
  | cons kv l ih =>
    rw [List.map_cons, List.lookup_cons, List.lookup_cons, ih]
    by_cases h : n = kv.1
    · subst h; simp
    · rw [beq_false_of_ne h, beq_false_of_ne (by omega)]

theorem last_lease (share : Share) : LastLease share (share_stat share).lease_expiration := by
  unfold share_stat get_lease_expiration LastLease
  cases h : share.leases with
  | nil => exact .inl ⟨rfl, rfl⟩
  | cons l ls =>
    refine .inr ?_
    show (∃ x ∈ l :: ls, x.expiration = ls.foldl (fun m l => max m l.expiration) l.expiration) ∧
      ∀ x ∈ l :: ls, x.expiration ≤ ls.foldl (fun m l => max m l.expiration) l.expiration
    have key : ∀ (ls : List Lease) (e : Int), e ≤ ls.foldl (fun m l => max m l.expiration) e ∧
        (∀ x ∈ ls, x.expiration ≤ ls.foldl (fun m l => max m l.expiration) e) ∧
        (ls.foldl (fun m l => max m l.expiration) e = e ∨
          ∃ x ∈ ls, x.expiration = ls.foldl (fun m l => max m l.expiration) e) := by
      intro ls
      induction ls with
      | nil => intro e; exact ⟨Int.le_refl _, fun _ h => (nomatch h), .inl rfl⟩
      | cons a ls ih =>
        intro e
        obtain ⟨h1, h2, h3⟩ := ih (max e a.expiration)
        rw [List.foldl_cons]
        refine ⟨by omega, ?_, ?_⟩
        · intro x hx
          rcases List.mem_cons.mp hx with rfl | hx
          · omega
          · exact h2 x hx
        · rcases h3 with h3 | ⟨x, hx, h3⟩
          · rw [h3]
            by_cases hc : e ≤ a.expiration
            · exact .inr ⟨a, List.mem_cons_self, by omega⟩
            · exact .inl (by omega)
          · exact .inr ⟨x, List.mem_cons_of_mem _ hx, h3⟩
    obtain ⟨h1, h2, h3⟩ := key ls l.expiration
    refine ⟨?_, ?_⟩
    · rcases h3 with h3 | ⟨x, hx, h3⟩
      · exact ⟨l, List.mem_cons_self, h3.symm⟩
      · exact ⟨x, List.mem_cons_of_mem _ hx, h3⟩
    · intro x hx
      rcases List.mem_cons.mp hx with rfl | hx
      · exact h1
      · exact h2 x hx

theorem share_stats_all (bucket : Bucket) :
    get_share_stats bucket none = bucket.map (fun kv => (kv.1, share_stat kv.2)) := by
  unfold get_share_stats
  rw [List.filter_eq_self.mpr (fun _ _ => rfl)]

/-- What a client makes of the answer to `stat_shares`. -/
theorem stat_items_all {s : Server} (hs : BucketsWF s) (sis : List SI) :
    stat_items ((remote_stat_shares s sis).map fun d => .dict (d.map stat_to_wire)) =
      .ok (sis.map fun si => (s.buckets si).map fun kv => ((kv.1 : Int),
        [("size", Wire.int (share_stat kv.2).size), ("lease_expiration", .int (share_stat kv.2).lease_expiration)])) := by
  induction sis with
  | nil => rfl
  | cons si sis ih =>
    unfold remote_stat_shares at ih ⊢
    rw [List.map_cons, List.map_cons, List.map_cons]
    unfold stat_items
    rw [ih]
    have hwf : Dict.WF (get_share_stats (s.buckets si) none) := by
      rw [share_stats_all]; exact wf_map_val (hs si) (fun kv => share_stat kv.2)
    rw [Dict.ofItems_wf _ hwf]
    have := stat_answer_items _ hwf
    unfold stat_to_wire
    rw [this]
    dsimp only
    rw [share_stats_all, List.map_map]
    rfl

theorem filter_named {bucket : Bucket} (h : Dict.WF bucket) (shares : List Nat) (n : Nat) :
    (bucket.filter (fun kv => shares.contains kv.1 || shares.isEmpty)).lookup n =
      if Named shares n then bucket.lookup n else none := by
  have hp : ∀ k, (shares.contains k || shares.isEmpty) = true ↔ Named shares k := by
    intro k
    unfold Named
    rw [Bool.or_eq_true, List.contains_iff_mem, List.isEmpty_iff]
    exact or_comm
  induction bucket with
  | nil => split <;> rfl
  | cons kv b ih =>
    have hn : kv.1 ∉ b.map Prod.fst ∧ (b.map Prod.fst).Nodup := by
      have : (kv.1 :: b.map Prod.fst).Nodup := h
      exact List.nodup_cons.mp this
    have ih := ih hn.2
    obtain ⟨k, share⟩ := kv
    by_cases hk : n = k
    · subst hk
      by_cases hnm : Named shares n
      · rw [List.filter_cons_of_pos (by exact (hp n).mpr hnm), if_pos hnm, List.lookup_cons, List.lookup_cons,
          beq_self_eq_true]
      · rw [List.filter_cons_of_neg (by exact fun hc => hnm ((hp n).mp hc)), ih]
        rw [if_neg hnm, if_neg hnm]
    · have : (n == k) = false := beq_false_of_ne hk
      have hl : List.lookup n ((k, share) :: b) = b.lookup n := by rw [List.lookup_cons, this]
      rw [hl, ← ih]
      by_cases hkn : (shares.contains k || shares.isEmpty) = true
      · rw [List.filter_cons_of_pos (by exact hkn), List.lookup_cons, this]
      · rw [List.filter_cons_of_neg (by exact hkn)]

/-- Operations without passes. -/
theorem happened_free {cfg : ServerConfig} {m : Moment} {s s' : Server} (hs : BucketsWF s) {op : StorageOp}
    (hf : Free op) {ps : List Bytes} {w : Wire} (h : server_reply cfg m s (op.request ps) = (s', .result w))
    {r : OpResult} (hr : free_result w op = .ok r) (now : Int) : Happened s s' now op r := by
  cases op with
  | allocateBuckets => exact hf.elim
  | addLease => exact hf.elim
  | writev => exact hf.elim
  | getVersion =>
    cases h
    cases hr
    exact rfl
  | adviseCorruptShare =>
    cases h
    dsimp only [free_result] at hr
    split at hr
    · cases hr
      exact rfl
    · cases hr
  | getBuckets si =>
    dsimp only [StorageOp.request, server_reply] at h
    cases hg : remote_get_buckets s si with
    | error e =>
      rw [hg] at h
      dsimp only at h
      unfold error_reply at h
      split at h <;> cases h
    | ok d =>
      rw [hg] at h
      cases h
      have hd : d = (s.buckets si).map (fun kv => (kv.1, kv.2.data)) := by
        unfold remote_get_buckets original_get_buckets at hg
        split at hg
        · cases hg
        · rename_i hg'
          split at hg'
          · cases hg'
          · cases hg'
            cases hg
            rw [List.map_map]
            rfl
      have hr : (client_get_buckets (.dict (d.zipIdx.map fun nb => (.int nb.1.1, .ref nb.2)))).map OpResult.buckets =
        .ok r := hr
      unfold client_get_buckets at hr
      split at hr
      · dsimp only at hr
        have hz : d.zipIdx.map (fun nb => ((.int nb.1.1, .ref nb.2) : Wire × Wire)) =
            ((d.zipIdx.map fun nb => (nb.1.1, nb.2)).map fun kv : Nat × Nat => (Wire.int kv.1, Wire.ref kv.2)) := by
          rw [List.map_map]
          rfl
        have hkeys : (d.zipIdx.map fun nb => nb.1.1) = (s.buckets si).map Prod.fst := by
          rw [show (fun nb : (Nat × Bytes) × Nat => nb.1.1) = Prod.fst ∘ Prod.fst from rfl, ← List.map_map,
            List.zipIdx_map_fst, hd, List.map_map]
          rfl
        have hwf : Dict.WF (d.zipIdx.map fun nb => (nb.1.1, nb.2)) := by
          unfold Dict.WF
          rw [List.map_map]
          show (d.zipIdx.map fun nb => nb.1.1).Nodup
          rw [hkeys]
          exact hs si
        rw [hz, known_items_nat (f := fun i => Wire.ref i) (fun _ => rfl) hwf] at hr
        cases hr
        refine ⟨rfl, fun n => ?_⟩
        rw [List.map_map, List.map_map]
        show n ∈ d.zipIdx.map (fun nb => (nb.1.1 : Int)) ↔ _
        rw [show (fun nb : (Nat × Bytes) × Nat => (nb.1.1 : Int)) = (fun k : Nat => (k : Int)) ∘ fun nb => nb.1.1 from rfl,
          ← List.map_map, hkeys, List.mem_map]
        constructor
        · rintro ⟨k, hk, rfl⟩
          obtain ⟨kv, hkv, rfl⟩ := List.mem_map.mp hk
          exact ⟨kv.1, kv.2, rfl, mem_lookup (hs si) hkv⟩
        · rintro ⟨k, share, rfl, hk⟩
          exact ⟨k, List.mem_map.mpr ⟨(k, share), lookup_mem_share hk, rfl⟩, rfl⟩
      · cases hr
  | statShares sis =>
    cases h
    have hr : (client_stat_shares (.list ((remote_stat_shares s sis).map fun d => .dict (d.map stat_to_wire)))).map
      OpResult.stats = .ok r := hr
    unfold client_stat_shares at hr
    split at hr
    · dsimp only at hr
      rw [stat_items_all hs] at hr
      cases hr
      refine ⟨rfl, List.length_map _, ?_⟩
      intro i si d hsi hd n
      rw [List.getElem?_map, hsi] at hd
      cases hd
      unfold StoredShare
      constructor
      · intro share hsh
        refine ⟨_, last_lease share, ?_⟩
        rw [lookup_int_keys (fun share => [("size", Wire.int (share_stat share).size),
          ("lease_expiration", .int (share_stat share).lease_expiration)]), hsh]
        rfl
      · intro hno
        rw [lookup_int_keys (fun share => [("size", Wire.int (share_stat share).size),
          ("lease_expiration", .int (share_stat share).lease_expiration)])]
        cases hl : (s.buckets si).lookup n with
        | none => rfl
        | some share => exact absurd hl (hno share)
    · cases hr
  | readv si shares rv =>
    dsimp only [StorageOp.request, server_reply] at h
    cases hg : remote_slot_readv s si shares rv with
    | error e =>
      rw [hg] at h
      dsimp only at h
      unfold error_reply at h
      split at h <;> cases h
    | ok d =>
      rw [hg] at h
      cases h
      have hr : (client_slot_readv (.dict (d.map read_to_wire))).map OpResult.read = .ok r := hr
      unfold client_slot_readv at hr
      split at hr
      · cases hr
        refine ⟨rfl, d, ?_, fun n => ?_⟩
        · rfl
        · unfold remote_slot_readv original_slot_readv at hg
          dsimp only at hg
          split at hg
          · cases hg
          · cases hg
            unfold original_evaluate_read_vectors
            rw [lookup_map_snd (fun share => rv.map fun r => (share.data.drop r.1).take r.2), filter_named (hs si)]
            split
            · rfl
            · rfl
      · cases hr

theorem opened_writers (a : AllocateArgs) (l : List Nat) : ∀ s : Server,
    (l.foldl (open_writer a) s).writers = s.writers ++ (l.zipIdx s.next_bw).map fun nb =>
      ⟨nb.2, a.storage_index, nb.1, a.allocated_size, ⟨a.renew_secret, a.now + LEASE_PERIOD⟩, a.canary⟩ := by
  induction l with
  | nil => intro s; simp
  | cons n l ih =>
    intro s
    rw [List.foldl_cons, ih, List.zipIdx_cons, List.map_cons]
    unfold open_writer
    dsimp only
    rw [List.append_assoc]
    rfl

/-- Operations with passes. -/
theorem happened_paid {cfg : ServerConfig} {m : Moment} {s s' : Server} (hs : BucketsWF s) {op : StorageOp}
    (hsets : Sets op) (hf : ¬ Free op) {ps : List Bytes} {w : Wire}
    (h : server_reply cfg m s (op.request ps) = (s', .result w))
    {r : OpResult} {k : Nat} (hr : paid_result w op = .ok (r, k)) : Happened s s' m.server_now op r := by
  cases op with
  | allocateBuckets si renew cancel nums size canary =>
    dsimp only [StorageOp.request, server_reply] at h
    cases hg : remote_allocate_buckets cfg ⟨ps, si, renew, nums, size, canary, m.server_now, m.room⟩ s with
    | mk s1 res =>
      rw [hg] at h
      cases res with
      | error e =>
        dsimp only at h
        unfold error_reply at h
        split at h <;> cases h
      | ok gw =>
        obtain ⟨got, acc⟩ := gw
        cases h
        have hbk := allocate_keeps_buckets cfg ⟨ps, si, renew, nums, size, canary, m.server_now, m.room⟩ s
        rw [hg] at hbk
        unfold remote_allocate_buckets at hg
        split at hg
        · cases hg
        · split at hg
          · cases hg
          · have hw := congrArg (fun x => x.1.writers) hg
            have hgot : (s.buckets si).keys = got := by cases hg; rfl
            have hacc : original_accepted s si nums m.room = acc := by cases hg; rfl
            dsimp only at hw
            rw [opened_writers, hacc] at hw
            clear hg
            have hr2 : client_allocate_answer (.tuple [.set (got.map fun n : Nat => .int n),
                .dict ((acc.zipIdx s.next_bw).map fun nb => (.int nb.1, .ref nb.2))]) = .ok
                  ((.set (got.map fun n : Nat => .int n), .dict ((acc.zipIdx s.next_bw).map fun nb =>
                    (.int nb.1, .ref nb.2))), k) ∧ r = .allocated (.set (got.map fun n : Nat => .int n))
                      (.dict ((acc.zipIdx s.next_bw).map fun nb => (.int nb.1, .ref nb.2))) := by
              dsimp only [paid_result] at hr
              split at hr
              · cases hr
              · rename_i a b n hc
                cases hr
                have : (a, b) = ((.set (got.map fun n : Nat => .int n) : Wire),
                    (.dict ((acc.zipIdx s.next_bw).map fun nb => (.int nb.1, .ref nb.2)) : Wire)) := by
                  unfold client_allocate_answer at hc
                  split at hc
                  · dsimp only [unpack2] at hc
                    split at hc
                    · cases hc
                    · cases hc; rfl
                  · cases hc
                cases this
                exact ⟨hc, rfl⟩
            rw [hr2.2]
            refine ⟨hbk, got, acc.zipIdx s.next_bw, rfl, ?_, rfl, ?_⟩
            · intro n
              rw [← hgot]
              constructor
              · intro hn
                obtain ⟨kv, hkv, rfl⟩ := List.mem_map.mp hn
                exact ⟨kv.2, mem_lookup (hs si) hkv⟩
              · rintro ⟨share, hsh⟩
                exact List.mem_map.mpr ⟨_, lookup_mem_share hsh, rfl⟩
            · intro nb hnb
              have hmem : nb.1 ∈ acc := by
                rw [← List.zipIdx_map_fst s.next_bw acc]
                exact List.mem_map_of_mem hnb
              rw [← hacc] at hmem
              unfold original_accepted at hmem
              rw [List.mem_filter, Bool.and_eq_true, Bool.and_eq_true, Bool.not_eq_true'] at hmem
              refine ⟨hmem.1, ?_, ?_⟩
              · rw [← hgot]
                intro hc
                rw [List.contains_iff_mem.mpr hc] at hmem
                exact absurd hmem.2.1.1 (by decide)
              · rw [← hw]
                exact List.mem_append_right _ (List.mem_map_of_mem hnb)
  | addLease si renew cancel =>
    dsimp only [StorageOp.request, server_reply] at h
    cases hg : remote_add_lease cfg ⟨ps, si, renew, m.server_now, m.room⟩ s with
    | mk s1 res =>
      rw [hg] at h
      cases res with
      | error e =>
        dsimp only at h
        unfold error_reply at h
        split at h <;> cases h
      | ok u =>
        cases h
        have hr : r = .none := by
          dsimp only [paid_result] at hr
          split at hr
          · cases hr; rfl
          · cases hr
        subst hr
        unfold remote_add_lease at hg
        split at hg
        · cases hg
        · split at hg
          · cases hg
          · dsimp only at hg
            split at hg
            · rename_i hdone
              cases hg
              refine ⟨fun si' hne => by dsimp only [set_bucket]; rw [if_neg hne], ?_⟩
              intro n share hsh
              obtain ⟨share', h1, h2, -, h4⟩ := (add_leases_loop_lookup m.room ⟨renew, m.server_now + LEASE_PERIOD⟩
                (fun _ _ => true) (s.buckets si) (hs si) n).2 share hsh
              have h5 := h4 rfl hdone
              refine ⟨share', ?_, h2, ?_⟩
              · unfold StoredShare set_bucket
                dsimp only
                rw [if_pos rfl]
                exact h1
              · unfold original_add_or_renew_lease at h5
                dsimp only at h5
                have hren : ∀ (ls ls' : List Lease),
                    original_renew renew (m.server_now + LEASE_PERIOD) ls = some ls' →
                    ∃ l ∈ ls', l.renew_secret = renew ∧ m.server_now + LEASE_PERIOD ≤ l.expiration := by
                  intro ls
                  induction ls with
                  | nil => intro ls' h; cases h
                  | cons l ls ih =>
                    intro ls' h
                    unfold original_renew at h
                    split at h
                    · cases h
                      rename_i he
                      exact ⟨_, List.mem_cons_self, he, Int.le_max_right _ _⟩
                    · cases ho : original_renew renew (m.server_now + LEASE_PERIOD) ls with
                      | none => rw [ho] at h; cases h
                      | some ls2 =>
                        rw [ho] at h
                        cases h
                        obtain ⟨x, hx, h⟩ := ih ls2 ho
                        exact ⟨x, List.mem_cons_of_mem _ hx, h⟩
                split at h5
                · rename_i ls' hl
                  cases h5
                  exact hren _ _ hl
                · split at h5
                  · cases h5
                    exact ⟨_, List.mem_append_right _ (List.mem_singleton.mpr rfl), rfl, Int.le_refl _⟩
                  · cases h5
            · cases hg
  | writev si secrets tw rv =>
    dsimp only [StorageOp.request, server_reply] at h
    cases hg : remote_slot_writev cfg ⟨ps, si, secrets.1, secrets.2.1, tw, rv, m.server_now, m.room⟩ s with
    | mk s1 res =>
      rw [hg] at h
      cases res with
      | error e =>
        dsimp only at h
        unfold error_reply at h
        split at h <;> cases h
      | ok gr =>
        obtain ⟨good, read⟩ := gr
        cases h
        have hread : read = (s.buckets si).map (fun kv => (kv.1, selected kv.2.data rv)) := by
          obtain ⟨bucket, ho, -⟩ := writev_ok cfg ⟨ps, si, secrets.1, secrets.2.1, tw, rv, m.server_now, m.room⟩ s
            (by rw [hg])
          exact (original_slot_writev_read ho).1
        have hwf : Dict.WF read := by
          rw [hread]
          exact wf_map_val (hs si) _
        have hr2 : r = .written good (read.map fun kv => ((kv.1 : Int), kv.2)) := by
          dsimp only [paid_result] at hr
          split at hr
          · cases hr
          · rename_i ok data hc
            cases hr
            unfold client_writev_answer at hc
            split at hc
            · dsimp only at hc
              have := known_items_nat (value := wire_list wire_bytes) (enc := byte_strings_to_wire) (f := id)
                (fun l => wire_byte_strings l) hwf
              unfold read_to_wire at hc
              rw [this] at hc
              cases hc
              rfl
            · cases hc
        have hlook : ∀ n : Nat, (read.map fun kv => ((kv.1 : Int), kv.2)).lookup (n : Int) =
            ((s.buckets si).lookup n).map (fun share => selected share.data rv) := by
          intro n
          rw [lookup_int_keys (fun x => x), hread, lookup_map_snd (fun share => selected share.data rv)]
          rw [Option.map_id']
        rw [hr2]
        cases good with
        | true =>
          obtain ⟨h1, h2, h3, h4, -⟩ := C125_written cfg ⟨ps, si, secrets.1, secrets.2.1, tw, rv, m.server_now, m.room⟩ s
            (hs si) hsets read (by rw [hg])
          rw [hg] at h2 h3 h4
          exact ⟨h4, ⟨fun _ => h1, fun _ => rfl⟩, hlook, fun n t _ ht => h2 n t ht,
            fun n hn => h3 n (hn.resolve_left (by decide))⟩
        | false =>
          obtain ⟨h1, h3, h4, -⟩ := C125_not_written cfg ⟨ps, si, secrets.1, secrets.2.1, tw, rv, m.server_now, m.room⟩ s
            (hs si) read (by rw [hg])
          rw [hg] at h3 h4
          exact ⟨h4, ⟨fun h => (nomatch h), fun h => absurd h h1⟩, hlook, fun n t h => (nomatch h), fun n _ => h3 n⟩
  | _ => exact absurd trivial hf

theorem reply_wf {cfg : ServerConfig} {m : Moment} {s : Server} (hs : BucketsWF s) (r : StorageRequest) :
    BucketsWF (server_reply cfg m s r).1 := by
  unfold server_reply
  cases r with
  | allocateBuckets ps si renew cancel nums size canary =>
    dsimp only
    have := step_wf cfg s hs (.allocate ⟨ps, si, renew, nums, size, canary, m.server_now, m.room⟩)
    unfold Server.step at this
    dsimp only at this
    split
    · rename_i hg; rw [hg] at this; exact this
    · rename_i hg; rw [hg] at this; exact this
  | addLease ps si renew cancel =>
    dsimp only
    have := step_wf cfg s hs (.addLease ⟨ps, si, renew, m.server_now, m.room⟩)
    unfold Server.step at this
    dsimp only at this
    split
    · rename_i hg; rw [hg] at this; exact this
    · rename_i hg; rw [hg] at this; exact this
  | writev ps si secrets tw rv =>
    dsimp only
    have := step_wf cfg s hs (.writev ⟨ps, si, secrets.1, secrets.2.1, tw, rv, m.server_now, m.room⟩)
    unfold Server.step at this
    dsimp only at this
    split
    · rename_i hg; rw [hg] at this; exact this
    · rename_i hg; rw [hg] at this; exact this
  | getBuckets si =>
    dsimp only
    split
    · exact hs
    · exact hs
  | readv si shares rv =>
    dsimp only
    split
    · exact hs
    · exact hs
  | _ => exact hs

theorem turn_wf {sign : Signer} {cfg : ServerConfig} {v : Int} {k : Talk} (hb : BucketsWF k.before)
    (hs : BucketsWF k.server) (m : Moment) :
    BucketsWF (Talk.turn sign cfg v k m).before ∧ BucketsWF (Talk.turn sign cfg v k m).server := by
  unfold Talk.turn
  split
  · have h1 := run_wf cfg m.others _ hs
    exact ⟨h1, reply_wf h1 _⟩
  · exact ⟨hb, hs⟩

theorem converse_wf {sign : Signer} {cfg : ServerConfig} {v : Int} {op : StorageOp}
    {rref : Except PyErr RRef} {o : Order} {client : StorageSession} {s : Server} (hs : BucketsWF s) (ms : List Moment) :
    BucketsWF (converse sign cfg v op rref o client s ms).before ∧
      BucketsWF (converse sign cfg v op rref o client s ms).server := by
  unfold converse
  have : ∀ (l : List Moment) (k : Talk), BucketsWF k.before → BucketsWF k.server →
      BucketsWF (l.foldl (Talk.turn sign cfg v) k).before ∧ BucketsWF (l.foldl (Talk.turn sign cfg v) k).server := by
    intro l
    induction l with
    | nil => intro k h1 h2; exact ⟨h1, h2⟩
    | cons m l ih =>
      intro k h1 h2
      obtain ⟨h1, h2⟩ := turn_wf (sign := sign) (cfg := cfg) (v := v) h1 h2 m
      exact ih _ h1 h2
  exact this ms _ hs hs

end ZKAP
