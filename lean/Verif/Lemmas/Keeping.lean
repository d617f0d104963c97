import Verif.Lemmas.Upkeep
import Verif.Lemmas.ServerReads
import Verif.Spec.Keeping

/-! Lemmas about data that is kept. -/
namespace ZKAP
open Spec

/-- A share whose data is what is read, at an index without slots, and not being uploaded. -/
structure AtRest (s : Server) (si : SI) (n : Nat) (data : Bytes) : Prop where
  stored : ∃ share, (s.buckets si).lookup n = some share ∧ share.data = data
  only : ∀ kv ∈ s.buckets si, kv.2.is_mutable = false
  quiet : ¬ BeingUploaded s si n

theorem lookup_map_data (bucket : Bucket) (n : Nat) :
    (bucket.map fun kv => (kv.1, kv.2.data)).lookup n = (bucket.lookup n).map (·.data) := by
  induction bucket with
  | nil => rfl
  | cons kv bucket ih =>
    rw [List.map_cons, List.lookup_cons, List.lookup_cons]
    split
    · rfl
    · exact ih

theorem canBeRead_iff {s : Server} {si : SI} {n : Nat} {data : Bytes} :
    CanBeRead s si n data ↔ (∃ share, (s.buckets si).lookup n = some share ∧ share.data = data) ∧
      ∀ kv ∈ s.buckets si, kv.2.is_mutable = false := by
  unfold CanBeRead remote_get_buckets original_get_buckets
  by_cases h : (s.buckets si).any (fun kv => kv.2.is_mutable) = true
  · rw [if_pos h]
    constructor
    · rintro ⟨_, e, _⟩
      cases e
    · rintro ⟨_, h2⟩
      obtain ⟨kv, hkv, he⟩ := List.any_eq_true.mp h
      rw [h2 kv hkv] at he
      cases he
  · rw [if_neg h]
    have honly : ∀ kv ∈ s.buckets si, kv.2.is_mutable = false := by
      intro kv hkv
      cases hm : kv.2.is_mutable with
      | false => rfl
      | true => exact absurd (List.any_eq_true.mpr ⟨kv, hkv, hm⟩) h
    have hmap : ∀ d : Dict Nat Bytes, d.map (fun kv => (kv.1, kv.2)) = d := fun d => List.map_id d
    constructor
    · rintro ⟨read, e, hr⟩
      cases e
      rw [hmap, lookup_map_data, Option.map_eq_some_iff] at hr
      exact ⟨hr, honly⟩
    · rintro ⟨⟨share, h1, h2⟩, _⟩
      refine ⟨_, rfl, ?_⟩
      rw [hmap, lookup_map_data, h1, ← h2]
      rfl

theorem loop_only_immutable (space : Nat → Bool) (lease : Lease) (sel : Nat → Share → Bool) (bucket : Bucket)
    (h : ∀ kv ∈ bucket, kv.2.is_mutable = false) :
    ∀ kv ∈ (add_leases_loop space lease sel bucket).1, kv.2.is_mutable = false := by
  induction bucket with
  | nil => exact h
  | cons x rest ih =>
    obtain ⟨n, share⟩ := x
    have hx : share.is_mutable = false := h _ List.mem_cons_self
    have ih := ih fun kv hkv => h kv (List.mem_cons_of_mem _ hkv)
    unfold add_leases_loop
    split
    · split
      · exact h
      · rename_i share' hs
        have hx' : share'.is_mutable = false := by
          unfold original_add_or_renew_lease at hs
          grind
        intro kv hkv
        rcases List.mem_cons.mp hkv with rfl | hkv
        · exact hx'
        · exact ih kv hkv
    · intro kv hkv
      rcases List.mem_cons.mp hkv with rfl | hkv
      · exact hx
      · exact ih kv hkv

theorem found_mem {bucket : Bucket} {n : Nat} {share : Share} (h : bucket.lookup n = some share) : (n, share) ∈ bucket := by
  induction bucket with
  | nil => cases h
  | cons kv bucket ih =>
    obtain ⟨a, sh⟩ := kv
    rw [List.lookup_cons] at h
    split at h
    · rename_i hk
      cases h
      rw [eq_of_beq hk]
      exact List.mem_cons_self
    · exact List.mem_cons_of_mem _ (ih h)

theorem at_rest_step (cfg : ServerConfig) {s : Server} {si : SI} {n : Nat} {data : Bytes} (h : AtRest s si n data)
    (op : ServerOp) : AtRest (s.step cfg op) si n data := by
  obtain ⟨⟨share, hs, hd⟩, ho, hu⟩ := h
  suffices key : (∃ share, ((s.step cfg op).buckets si).lookup n = some share ∧ share.data = data) ∧
      ∀ kv ∈ (s.step cfg op).buckets si, kv.2.is_mutable = false from
    ⟨key.1, key.2, not_uploaded_step cfg hs hu op⟩
  have same : ∀ t : Server, t.buckets = s.buckets → (∃ share, (t.buckets si).lookup n = some share ∧ share.data = data) ∧
      ∀ kv ∈ t.buckets si, kv.2.is_mutable = false := by
    intro t ht
    rw [ht]
    exact ⟨⟨share, hs, hd⟩, ho⟩
  have other : ∀ x (b : Bucket), (x = si → (∃ share, b.lookup n = some share ∧ share.data = data) ∧
      ∀ kv ∈ b, kv.2.is_mutable = false) → (∃ share, (set_bucket s.buckets x b si).lookup n = some share ∧ share.data = data) ∧
      ∀ kv ∈ set_bucket s.buckets x b si, kv.2.is_mutable = false := by
    intro x b hb
    unfold set_bucket
    by_cases e : si = x
    · rw [if_pos e]
      exact hb e.symm
    · rw [if_neg e]
      exact ⟨⟨share, hs, hd⟩, ho⟩
  cases op with
  | allocate a => exact same _ (allocate_buckets_same cfg a s)
  | addLease a =>
    show (∃ share, ((remote_add_lease cfg a s).1.buckets si).lookup n = some share ∧ share.data = data) ∧
      ∀ kv ∈ (remote_add_lease cfg a s).1.buckets si, kv.2.is_mutable = false
    unfold remote_add_lease
    split
    · exact same _ rfl
    · split
      · exact same _ rfl
      · have hb : a.storage_index = si → (∃ share, (original_add_lease a.space ⟨a.renew_secret, a.now + LEASE_PERIOD⟩
            (s.buckets a.storage_index)).1.lookup n = some share ∧ share.data = data) ∧
            ∀ kv ∈ (original_add_lease a.space ⟨a.renew_secret, a.now + LEASE_PERIOD⟩ (s.buckets a.storage_index)).1,
              kv.2.is_mutable = false := by
          rintro rfl
          obtain ⟨ls, e⟩ := (loop_only_leases a.space ⟨a.renew_secret, a.now + LEASE_PERIOD⟩ (fun _ _ => true)
            (s.buckets a.storage_index) n).2 share hs
          exact ⟨⟨_, e, hd⟩, loop_only_immutable _ _ _ _ ho⟩
        simp only []
        split <;> exact other _ _ hb
  | writev a =>
    show (∃ share, ((remote_slot_writev cfg a s).1.buckets si).lookup n = some share ∧ share.data = data) ∧
      ∀ kv ∈ (remote_slot_writev cfg a s).1.buckets si, kv.2.is_mutable = false
    unfold remote_slot_writev
    split
    · exact same _ rfl
    · split
      · exact same _ rfl
      · simp only []
        split
        · exact same _ rfl
        · split
          · exact same _ rfl
          · rename_i bucket good read hw
            -- a slot write where there is an immutable share is refused
            have hne : a.storage_index ≠ si := by
              rintro rfl
              unfold original_slot_writev at hw
              rw [if_pos (List.any_eq_true.mpr ⟨(n, share), found_mem hs, by rw [ho _ (found_mem hs)]; rfl⟩)] at hw
              cases hw
            split <;> exact other _ _ fun e => absurd e hne
  | close bw d =>
    show (∃ share, ((original_close s bw d).buckets si).lookup n = some share ∧ share.data = data) ∧
      ∀ kv ∈ (original_close s bw d).buckets si, kv.2.is_mutable = false
    unfold original_close
    split
    · exact same _ rfl
    · rename_i w hw
      rw [bucket_writer_closed_buckets]
      refine other _ _ ?_
      intro e
      refine ⟨⟨share, ?_, hd⟩, ?_⟩
      · rw [Dict.lookup_set, if_neg, e]
        · exact hs
        · intro hk
          exact hu ⟨w, List.mem_of_find?_eq_some hw, e, by simpa using (eq_of_beq hk).symm⟩
      · intro kv hkv
        rcases mem_set_share hkv with hkv | hkv
        · rw [e] at hkv
          exact ho kv hkv
        · rw [hkv]
  | abort bw => exact same _ (original_abort_buckets s bw)
  | disconnect c =>
    refine same _ ?_
    show (ZKAP.disconnect s c).buckets = s.buckets
    unfold ZKAP.disconnect
    simp only [foldl_abort_buckets]

theorem at_rest_run (cfg : ServerConfig) (ops : List ServerOp) {s : Server} {si : SI} {n : Nat} {data : Bytes}
    (h : AtRest s si n data) : AtRest (s.run cfg ops) si n data := by
  induction ops generalizing s with
  | nil => exact h
  | cons op ops ih => exact ih (at_rest_step cfg h op)

/-- Without the write enabler nobody changes a mutable share that is not being uploaded. -/
theorem slot_at_rest (cfg : ServerConfig) (ops : List ServerOp) (si : SI) (n : Nat) : ∀ (s : Server) (share : Share),
    StoredShare s si n share → ¬ BeingUploaded s si n →
    (∀ op ∈ ops, ProperOp op ∧ ¬ HolderWrite si share.write_enabler op) →
    ∃ ls, StoredShare (s.run cfg ops) si n { share with leases := ls } := by
  induction ops with
  | nil => intro s share h _ _; exact ⟨share.leases, h⟩
  | cons op ops ih =>
    intro s share hs hu hops
    obtain ⟨hp, hh⟩ := hops op (by simp)
    have hu' := not_uploaded_step cfg hs hu op
    have hc := step_change cfg s op hp si n
    unfold StoredShare at hs
    rw [hs] at hc
    generalize ho : ((s.step cfg op).buckets si).lookup n = o at hc
    cases hc with
    | leases sh ls =>
      obtain ⟨ls', h'⟩ := ih (s.step cfg op) { share with leases := ls } ho hu' (fun o ho => hops o (by simp [ho]))
      exact ⟨ls', h'⟩
    | written sh ls d hm hwr => exact absurd hwr hh
    | closed old bw d v _ hv _ hsi hn => exact absurd ⟨v, hv, hsi, hn⟩ hu

theorem AtRest.canBeRead {s : Server} {si : SI} {n : Nat} {data : Bytes} (h : AtRest s si n data) : CanBeRead s si n data :=
  canBeRead_iff.mpr ⟨h.stored, h.only⟩

theorem AtRest.grounded {s : Server} {si : SI} {n : Nat} {data : Bytes} (h : AtRest s si n data) : Grounded s si n :=
  ⟨h.stored.imp fun _ h => h.1, h.quiet⟩

theorem at_rest_of_read {s : Server} {si : SI} {n : Nat} {data : Bytes} (h : CanBeRead s si n data)
    (hu : ¬ BeingUploaded s si n) : AtRest s si n data :=
  ⟨(canBeRead_iff.mp h).1, (canBeRead_iff.mp h).2, hu⟩

/-- What is settled at the first visit is settled after every visit. -/
theorem at_rest_upkeep {possible : MaintScene → Prop}
    (carried : ∀ c, possible c → ∃ client servers, WellTended c client servers)
    (runs : List MaintScene) : Upkeep possible runs → ∀ (i : Nat) first stop si n data, runs.head? = some first →
      first.stops[i]? = some stop → AtRest stop.server si n data → ∀ (k : Nat) c client servers stop' server,
        runs[k]? = some c → c.run = some (.ok (), client, servers) → c.stops[i]? = some stop' →
        servers[i]? = some server → AtRest server si n data := by
  induction runs with
  | nil => intro _ i first stop si n data h; cases h
  | cons a runs ih =>
    intro h i first stop si n data hf hi hset k c client servers stop' server hk hrun hstop hserver
    cases hf
    cases k with
    | zero =>
      cases hk
      rw [hi] at hstop
      cases hstop
      obtain ⟨ops, hops⟩ := (later_run hrun hi hserver).ops
      rw [hops]
      exact at_rest_run _ _ hset
    | succ k =>
      cases runs with
      | nil => simp at hk
      | cons b rest =>
        obtain ⟨client1, servers1, hw⟩ := carried a h.1
        have hlen : i < servers1.length := by
          rw [hw.all]
          exact (List.getElem?_eq_some_iff.mp hi).1
        have hj : servers1[i]? = some servers1[i] := List.getElem?_eq_getElem hlen
        obtain ⟨ops, hops⟩ := (later_run hw.complete hi hj).ops
        have hbl : i < b.stops.length := by
          rw [h.2.1.servers]
          exact (List.getElem?_eq_some_iff.mp hi).1
        obtain ⟨⟨ops', ho⟩, _⟩ := h.2.1.visits client1 servers1 hw.complete i stop _ _ hi hj (List.getElem?_eq_getElem hbl)
        refine ih h.2.2 i b b.stops[i] si n data rfl (List.getElem?_eq_getElem hbl) ?_ k c client servers stop' server hk hrun
          hstop hserver
        rw [ho, hops]
        exact at_rest_run _ _ (at_rest_run _ _ hset)

theorem kept_from {possible : MaintScene → Prop}
    (carried : ∀ c, possible c → ∃ client servers, WellTended c client servers) {runs : List MaintScene}
    (h : Upkeep possible runs) {first : MaintScene} (hf : runs.head? = some first) {i : Nat} {stop : MaintStop}
    (hi : first.stops[i]? = some stop) {si : SI} (hsi : si ∈ first.indexes) {n : Nat} {data : Bytes}
    (hset : AtRest stop.server si n data) (k : Nat) : KeptFrom runs i si n data k := by
  intro c hc
  obtain ⟨client, servers, server, stop', h1, h2, h3, h4⟩ :=
    kept_up carried runs h i first stop si n hf hi hsi hset.grounded k c hc
  refine ⟨client, servers, server, stop', h1, h2, h3, fun ops t ht => ⟨?_, h4 ops t ht⟩⟩
  exact (at_rest_run _ _ (at_rest_upkeep carried runs h i first stop si n data hf hi hset k c client servers stop' server hc
    h1 h2 h3)).canBeRead

end ZKAP
