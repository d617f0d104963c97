import Verif.Lemmas.Server

namespace ZKAP
open Spec

/-- The state the server is in after opening writers for `acc`. -/
def opened (a : AllocateArgs) (s : Server) (acc : List Nat) : Server := acc.foldl (open_writer a) s

theorem allocate_refused (cfg : ServerConfig) (hv : 0 < cfg.pass_value) (a : AllocateArgs) (s : Server)
    (ps : List Pass) (h : Parses a.passes ps)
    (hlt : (validCount (cfg.verifies (allocate_buckets_message a.storage_index)) ps : Int)
      < a.sharenums.length * passes cfg.pass_value a.allocated_size) :
    ∃ failed, FailedPositions (cfg.verifies (allocate_buckets_message a.storage_index)) ps failed ∧
      remote_allocate_buckets cfg a s = (s, .error (.morePassesRequired
        (validCount (cfg.verifies (allocate_buckets_message a.storage_index)) ps)
        (a.sharenums.length * passes cfg.pass_value a.allocated_size) failed)) := by
  obtain ⟨r, h1, h2, h3⟩ := validate_passes_ok cfg (allocate_buckets_message a.storage_index) a.passes ps h
  refine ⟨r.signature_check_failed, h3, ?_⟩
  have hl : r.valid.length = validCount (cfg.verifies (allocate_buckets_message a.storage_index)) ps := by
    rw [h2]; simp [validCount]
  unfold remote_allocate_buckets
  rw [h1]
  simp only [check_pass_quantity_for_write, check_pass_quantity, required_passes_eq _ hv, total_replicate, hl,
    hlt, if_true, ValidationResult.raise_for]

theorem allocate_granted (cfg : ServerConfig) (hv : 0 < cfg.pass_value) (a : AllocateArgs) (s : Server)
    (ps : List Pass) (h : Parses a.passes ps)
    (hge : a.sharenums.length * passes cfg.pass_value a.allocated_size
      ≤ (validCount (cfg.verifies (allocate_buckets_message a.storage_index)) ps : Int)) :
    let acc := original_accepted s a.storage_index a.sharenums a.accept
    let paid : Int := acc.length * passes cfg.pass_value a.allocated_size
    remote_allocate_buckets cfg a s =
      ({ opened a s acc with
          observed := s.observed ++ [paid]
          spent := s.spent ++ ((ps.filter (cfg.verifies (allocate_buckets_message a.storage_index))).map
            Pass.preimage).take paid.toNat },
        .ok ((s.buckets a.storage_index).keys, acc)) := by
  intro acc paid
  obtain ⟨r, h1, h2, h3⟩ := validate_passes_ok cfg (allocate_buckets_message a.storage_index) a.passes ps h
  have hl : r.valid.length = validCount (cfg.verifies (allocate_buckets_message a.storage_index)) ps := by
    rw [h2]; simp [validCount]
  have hn : ¬ ((validCount (cfg.verifies (allocate_buckets_message a.storage_index)) ps : Int)
      < a.sharenums.length * passes cfg.pass_value a.allocated_size) := by omega
  have hobs : ∀ (l : List Nat) (s : Server), (l.foldl (open_writer a) s).observed = s.observed ∧
      (l.foldl (open_writer a) s).spent = s.spent := by
    intro l
    induction l with
    | nil => intro s; exact ⟨rfl, rfl⟩
    | cons n l ih => intro s; simp only [List.foldl_cons]; exact ih _
  unfold remote_allocate_buckets
  rw [h1]
  simp only [check_pass_quantity_for_write, check_pass_quantity, required_passes_eq _ hv, total_replicate, hl,
    hn, if_false, (hobs _ _).1, (hobs _ _).2, opened, acc, paid]
  simp only [h2]

theorem allocate_parse_error (cfg : ServerConfig) (a : AllocateArgs) (s : Server)
    (h : ¬ ∃ ps, Parses a.passes ps) :
    ∃ e, remote_allocate_buckets cfg a s = (s, .error (.badPass e)) := by
  unfold remote_allocate_buckets
  cases hr : validate_passes cfg (allocate_buckets_message a.storage_index) a.passes with
  | error e => exact ⟨e, rfl⟩
  | ok r => exact absurd (validate_loop_parses _ _ _ _ hr) h

/-- Opening writers adds one writer, registration and marker per share number and changes
nothing else. -/
theorem opened_spec (a : AllocateArgs) (l : List Nat) : ∀ s : Server,
    (opened a s l).buckets = s.buckets ∧ (opened a s l).next_bw = s.next_bw + l.length ∧
    (opened a s l).spent = s.spent ∧ (opened a s l).observed = s.observed ∧
    ∃ new : List Writer, (opened a s l).writers = s.writers ++ new ∧ new.map Writer.sharenum = l ∧
      ∀ w ∈ new, w.si = a.storage_index ∧ w.allocated_size = a.allocated_size ∧ w.canary = a.canary ∧
        w.lease = ⟨a.renew_secret, a.now + LEASE_PERIOD⟩ := by
  induction l with
  | nil => intro s; exact ⟨rfl, rfl, rfl, rfl, [], by simp [opened], rfl, by simp⟩
  | cons n l ih =>
    intro s
    obtain ⟨h1, h2, h3, h4, new, h5, h6, h7⟩ := ih (open_writer a s n)
    refine ⟨h1, ?_, h3, h4, ⟨s.next_bw, a.storage_index, n, a.allocated_size,
      ⟨a.renew_secret, a.now + LEASE_PERIOD⟩, a.canary⟩ :: new, ?_, by simp [h6], ?_⟩
    · have e : (opened a s (n :: l)).next_bw = (open_writer a s n).next_bw + l.length := h2
      rw [e]; simp [open_writer]; omega
    · have e : (opened a s (n :: l)).writers = (open_writer a s n).writers ++ new := h5
      rw [e]; simp [open_writer]
    · intro w hw
      simp only [List.mem_cons] at hw
      rcases hw with rfl | hw
      · exact ⟨rfl, rfl, rfl, rfl⟩
      · exact h7 w hw

/-! add_lease -/

theorem add_lease_refused (cfg : ServerConfig) (hv : 0 < cfg.pass_value) (a : AddLeaseArgs) (s : Server)
    (hb : Dict.WF (s.buckets a.storage_index)) (ps : List Pass) (h : Parses a.passes ps)
    (hlt : (validCount (cfg.verifies (add_lease_message a.storage_index)) ps : Int)
      < bucketPrice cfg.pass_value (s.buckets a.storage_index)) :
    ∃ failed, FailedPositions (cfg.verifies (add_lease_message a.storage_index)) ps failed ∧
      remote_add_lease cfg a s = (s, .error (.morePassesRequired
        (validCount (cfg.verifies (add_lease_message a.storage_index)) ps)
        (bucketPrice cfg.pass_value (s.buckets a.storage_index)) failed)) := by
  obtain ⟨r, h1, h2, h3⟩ := validate_passes_ok cfg (add_lease_message a.storage_index) a.passes ps h
  refine ⟨r.signature_check_failed, h3, ?_⟩
  have hl : r.valid.length = validCount (cfg.verifies (add_lease_message a.storage_index)) ps := by
    rw [h2]; simp [validCount]
  unfold remote_add_lease
  rw [h1]
  simp only [check_pass_quantity_for_lease, check_pass_quantity, (bucket_price_eq _ hv hb).1, hl,
    hlt, if_true, ValidationResult.raise_for]

theorem add_lease_granted (cfg : ServerConfig) (hv : 0 < cfg.pass_value) (a : AddLeaseArgs) (s : Server)
    (hb : Dict.WF (s.buckets a.storage_index)) (ps : List Pass) (h : Parses a.passes ps)
    (hge : bucketPrice cfg.pass_value (s.buckets a.storage_index) ≤
      (validCount (cfg.verifies (add_lease_message a.storage_index)) ps : Int)) :
    let r := original_add_lease a.space ⟨a.renew_secret, a.now + LEASE_PERIOD⟩ (s.buckets a.storage_index)
    remote_add_lease cfg a s =
      if r.2 then
        ({ s with
            buckets := set_bucket s.buckets a.storage_index r.1
            spent := s.spent ++ (ps.filter (cfg.verifies (add_lease_message a.storage_index))).map Pass.preimage
            observed := s.observed ++ [(validCount (cfg.verifies (add_lease_message a.storage_index)) ps : Int)] },
          .ok ())
      else ({ s with buckets := set_bucket s.buckets a.storage_index r.1 }, .error .noSpace) := by
  intro r'
  obtain ⟨r, h1, h2, h3⟩ := validate_passes_ok cfg (add_lease_message a.storage_index) a.passes ps h
  have hl : r.valid.length = validCount (cfg.verifies (add_lease_message a.storage_index)) ps := by
    rw [h2]; simp [validCount]
  have hn : ¬ ((validCount (cfg.verifies (add_lease_message a.storage_index)) ps : Int)
      < bucketPrice cfg.pass_value (s.buckets a.storage_index)) := by omega
  unfold remote_add_lease
  rw [h1]
  simp only [check_pass_quantity_for_lease, check_pass_quantity, (bucket_price_eq _ hv hb).1, hl, hn, if_false]
  simp only [h2]
  rfl

theorem add_lease_parse_error (cfg : ServerConfig) (a : AddLeaseArgs) (s : Server)
    (h : ¬ ∃ ps, Parses a.passes ps) :
    ∃ e, remote_add_lease cfg a s = (s, .error (.badPass e)) := by
  unfold remote_add_lease
  cases hr : validate_passes cfg (add_lease_message a.storage_index) a.passes with
  | error e => exact ⟨e, rfl⟩
  | ok r => exact absurd (validate_loop_parses _ _ _ _ hr) h

/-! slot writes -/

theorem no_new_length {tw : TWVectors} (h : ∀ kv ∈ tw, kv.2.new_length = none) :
    tw.values.any (fun t => t.new_length.isSome) = false := by
  unfold Dict.values
  simp only [List.any_map, List.any_eq_false, Function.comp]
  intro kv hkv
  simp [h kv hkv]

theorem has_new_length {tw : TWVectors} (h : ∃ kv ∈ tw, kv.2.new_length ≠ none) :
    tw.values.any (fun t => t.new_length.isSome) = true := by
  obtain ⟨kv, hkv, h⟩ := h
  unfold Dict.values
  simp only [List.any_map, List.any_eq_true, Function.comp]
  exact ⟨kv, hkv, by cases hn : kv.2.new_length with
    | none => exact absurd hn h
    | some _ => rfl⟩

theorem writev_refused (cfg : ServerConfig) (hv : 0 < cfg.pass_value) (a : WritevArgs) (s : Server)
    (hb : Dict.WF (s.buckets a.storage_index)) (htw : Dict.WF a.tw_vectors)
    (hnl : ∀ kv ∈ a.tw_vectors, kv.2.new_length = none)
    (ps : List Pass) (h : Parses a.passes ps)
    (hlt : (validCount (cfg.verifies (slot_testv_and_readv_and_writev_message a.storage_index)) ps : Int)
      < writePrice cfg.pass_value (s.buckets a.storage_index) a.now a.tw_vectors) :
    ∃ failed, FailedPositions (cfg.verifies (slot_testv_and_readv_and_writev_message a.storage_index)) ps failed ∧
      remote_slot_writev cfg a s = (s, .error (.morePassesRequired
        (validCount (cfg.verifies (slot_testv_and_readv_and_writev_message a.storage_index)) ps)
        (writePrice cfg.pass_value (s.buckets a.storage_index) a.now a.tw_vectors) failed)) := by
  obtain ⟨r, h1, h2, h3⟩ := validate_passes_ok cfg
    (slot_testv_and_readv_and_writev_message a.storage_index) a.passes ps h
  refine ⟨r.signature_check_failed, h3, ?_⟩
  have hl : r.valid.length
      = validCount (cfg.verifies (slot_testv_and_readv_and_writev_message a.storage_index)) ps := by
    rw [h2]; simp [validCount]
  unfold remote_slot_writev
  rw [no_new_length hnl, h1]
  simp only [Bool.false_eq_true, if_false, server_price_eq _ hv hb _ htw _ hnl, hl, gt_iff_lt, hlt, if_true,
    ValidationResult.raise_for]

theorem writev_granted (cfg : ServerConfig) (hv : 0 < cfg.pass_value) (a : WritevArgs) (s : Server)
    (hb : Dict.WF (s.buckets a.storage_index)) (htw : Dict.WF a.tw_vectors)
    (hnl : ∀ kv ∈ a.tw_vectors, kv.2.new_length = none)
    (ps : List Pass) (h : Parses a.passes ps)
    (hge : writePrice cfg.pass_value (s.buckets a.storage_index) a.now a.tw_vectors ≤
      (validCount (cfg.verifies (slot_testv_and_readv_and_writev_message a.storage_index)) ps : Int)) :
    remote_slot_writev cfg a s =
      match original_slot_writev a.write_enabler (s.buckets a.storage_index) a.tw_vectors a.r_vector with
      | .error e => (s, .error e)
      | .ok (bucket, good, read) =>
        if (add_leases_for_writev a bucket).2 then
          ({ s with
              buckets := set_bucket s.buckets a.storage_index (add_leases_for_writev a bucket).1
              spent := s.spent ++ (ps.filter (cfg.verifies
                (slot_testv_and_readv_and_writev_message a.storage_index))).map Pass.preimage
              observed := s.observed ++
                [writePrice cfg.pass_value (s.buckets a.storage_index) a.now a.tw_vectors] },
            .ok (good, read))
        else ({ s with buckets := set_bucket s.buckets a.storage_index (add_leases_for_writev a bucket).1 },
          .error .noSpace) := by
  obtain ⟨r, h1, h2, h3⟩ := validate_passes_ok cfg
    (slot_testv_and_readv_and_writev_message a.storage_index) a.passes ps h
  have hl : r.valid.length
      = validCount (cfg.verifies (slot_testv_and_readv_and_writev_message a.storage_index)) ps := by
    rw [h2]; simp [validCount]
  have hn : ¬ ((validCount (cfg.verifies (slot_testv_and_readv_and_writev_message a.storage_index)) ps : Int)
      < writePrice cfg.pass_value (s.buckets a.storage_index) a.now a.tw_vectors) := by omega
  unfold remote_slot_writev
  rw [no_new_length hnl, h1]
  simp only [Bool.false_eq_true, if_false, server_price_eq _ hv hb _ htw _ hnl, hl, gt_iff_lt, hn]
  simp only [h2]
  rfl

theorem writev_parse_error (cfg : ServerConfig) (a : WritevArgs) (s : Server)
    (h : ¬ ∃ ps, Parses a.passes ps) :
    ∃ e, remote_slot_writev cfg a s = (s, .error e) := by
  unfold remote_slot_writev
  split
  · exact ⟨_, rfl⟩
  · cases hr : validate_passes cfg (slot_testv_and_readv_and_writev_message a.storage_index) a.passes with
    | error e => exact ⟨_, rfl⟩
    | ok r => exact absurd (validate_loop_parses _ _ _ _ hr) h

theorem writev_new_length (cfg : ServerConfig) (a : WritevArgs) (s : Server)
    (h : ∃ kv ∈ a.tw_vectors, kv.2.new_length ≠ none) :
    remote_slot_writev cfg a s = (s, .error .newLengthRejected) := by
  unfold remote_slot_writev
  rw [has_new_length h]; simp

theorem writePrice_nonneg (v : Int) (hv : 0 < v) (bucket : Bucket) (now : Int) (tw : TWVectors) :
    0 ≤ writePrice v bucket now tw := by
  unfold writePrice
  apply sum_nonneg
  intro x hx
  rw [List.mem_map] at hx
  obtain ⟨kv, _, rfl⟩ := hx
  exact growth_nonneg v hv _ _

theorem original_slot_writev_ok {we : Secret} {bucket bucket' : Bucket} {tw : TWVectors}
    {rv : List (Nat × Nat)} {good : Bool} {read : Dict Nat (List Bytes)}
    (h : original_slot_writev we bucket tw rv = .ok (bucket', good, read)) :
    bucket' = if good then original_evaluate_write_vectors we bucket tw else bucket := by
  unfold original_slot_writev at h
  split at h
  · simp at h
  · split at h
    · simp at h
    · simp only [] at h
      split at h
      · simp only [Except.ok.injEq, Prod.mk.injEq] at h
        obtain ⟨h1, h2, _⟩ := h
        subst h2; simp [h1]
      · simp only [Except.ok.injEq, Prod.mk.injEq] at h
        obtain ⟨h1, h2, _⟩ := h
        subst h2; simp [h1]

/-! Well-formed buckets along any history -/

/-- Share numbers are distinct at every index. -/
def BucketsWF (s : Server) : Prop := ∀ si, Dict.WF (s.buckets si)

theorem set_bucket_wf {s : Server} (h : BucketsWF s) (si : SI) (b : Bucket) (hb : Dict.WF b) :
    ∀ x, Dict.WF (set_bucket s.buckets si b x) := by
  intro x; unfold set_bucket; split
  · exact hb
  · exact h x

theorem loop_wf (space : Nat → Bool) (lease : Lease) (sel : Nat → Share → Bool) {bucket : Bucket}
    (hb : Dict.WF bucket) : Dict.WF (add_leases_loop space lease sel bucket).1 := by
  unfold Dict.WF at *; rw [add_leases_loop_keys]; exact hb

theorem bucket_writer_closed_buckets (s : Server) (bw : Nat) : (bucket_writer_closed s bw).buckets = s.buckets := by
  unfold bucket_writer_closed; split <;> rfl

theorem original_abort_buckets (s : Server) (bw : Nat) : (original_abort s bw).buckets = s.buckets := by
  unfold original_abort; split
  · rfl
  · rw [bucket_writer_closed_buckets]

theorem foldl_abort_buckets (l : List (Nat × Nat × Nat)) : ∀ s : Server,
    (l.foldl (fun s r => original_abort s r.2.2) s).buckets = s.buckets := by
  induction l with
  | nil => intro s; rfl
  | cons r l ih => intro s; simp only [List.foldl_cons]; rw [ih, original_abort_buckets]

theorem step_wf (cfg : ServerConfig) (s : Server) (h : BucketsWF s) (op : ServerOp) :
    BucketsWF (s.step cfg op) := by
  cases op with
  | allocate a =>
    have : (remote_allocate_buckets cfg a s).1.buckets = s.buckets := by
      unfold remote_allocate_buckets
      split
      · rfl
      · split
        · rfl
        · exact (opened_spec a _ s).1
    intro si; show Dict.WF ((remote_allocate_buckets cfg a s).1.buckets si); rw [this]; exact h si
  | addLease a =>
    show BucketsWF (remote_add_lease cfg a s).1
    unfold remote_add_lease
    split
    · exact h
    · split
      · exact h
      · simp only []
        split
        · exact set_bucket_wf h _ _ (loop_wf _ _ _ (h _))
        · exact set_bucket_wf h _ _ (loop_wf _ _ _ (h _))
  | writev a =>
    show BucketsWF (remote_slot_writev cfg a s).1
    unfold remote_slot_writev
    split
    · exact h
    · split
      · exact h
      · simp only []
        split
        · exact h
        · split
          · exact h
          · rename_i bucket good read ho
            have hw : Dict.WF bucket := by
              rw [original_slot_writev_ok ho]
              split
              · exact wf_write_vectors _ _ (h _) _
              · exact h _
            split
            · exact set_bucket_wf h _ _ (loop_wf _ _ _ hw)
            · exact set_bucket_wf h _ _ (loop_wf _ _ _ hw)
  | close bw data =>
    show BucketsWF (original_close s bw data)
    unfold original_close
    split
    · exact h
    · intro si
      rw [bucket_writer_closed_buckets]
      exact set_bucket_wf h _ _ (Dict.WF.set (h _) _ _) si
  | abort bw =>
    intro si; show Dict.WF ((original_abort s bw).buckets si)
    rw [original_abort_buckets]; exact h si
  | disconnect c =>
    intro si
    show Dict.WF ((ZKAP.disconnect s c).buckets si)
    unfold ZKAP.disconnect
    simp only []
    rw [foldl_abort_buckets]; exact h si

theorem run_wf (cfg : ServerConfig) (ops : List ServerOp) : ∀ s : Server, BucketsWF s →
    BucketsWF (s.run cfg ops) := by
  induction ops with
  | nil => intro s h; exact h
  | cons op ops ih => intro s h; exact ih _ (step_wf cfg s h op)

end ZKAP
