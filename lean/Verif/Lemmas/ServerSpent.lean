import Verif.Spec.ServerSpent
import Verif.Lemmas.ServerHistory

namespace ZKAP
open Spec

theorem validPreimages_parsed (cfg : ServerConfig) (message : Bytes) (wire : List Bytes) (ps : List Pass)
    (h : Parses wire ps) :
    wire.filterMap (validPreimage cfg message) = (ps.filter (cfg.verifies message)).map Pass.preimage := by
  unfold Parses at h
  induction wire generalizing ps with
  | nil =>
    cases ps with
    | nil => rfl
    | cons _ _ => simp at h
  | cons w wire ih =>
    cases ps with
    | nil => simp at h
    | cons p ps =>
      simp only [List.map_cons, List.cons.injEq] at h
      have e : validPreimage cfg message w = if cfg.verifies message p then some p.preimage else none := by
        unfold validPreimage
        rw [h.1]
      rw [List.filterMap_cons, e, ih ps h.2, List.filter_cons]
      by_cases hp : cfg.verifies message p = true
      · simp only [hp, if_true, List.map_cons]
      · simp only [hp, if_false, Bool.false_eq_true]

theorem validate_valid (cfg : ServerConfig) (message : Bytes) (wire : List Bytes) (r : ValidationResult)
    (h : validate_passes cfg message wire = .ok r) : r.valid = wire.filterMap (validPreimage cfg message) := by
  obtain ⟨ps, hps⟩ := validate_loop_parses _ _ _ _ h
  obtain ⟨r', h1, h2, _⟩ := validate_passes_ok cfg message wire ps hps
  rw [h] at h1
  cases h1
  rw [h2, validPreimages_parsed cfg message wire ps hps]

theorem bwc_observed (s : Server) (bw : Nat) : (bucket_writer_closed s bw).observed = s.observed := by
  unfold bucket_writer_closed; split <;> rfl

theorem abort_observed (s : Server) (bw : Nat) : (original_abort s bw).observed = s.observed := by
  unfold original_abort; split
  · rfl
  · rw [bwc_observed]

theorem aborts_observed (l : List (Nat × Nat × Nat)) : ∀ s : Server,
    (l.foldl (fun s r => original_abort s r.2.2) s).observed = s.observed := by
  induction l with
  | nil => intro s; rfl
  | cons r l ih => intro s; simp only [List.foldl_cons]; rw [ih, abort_observed]

/-- What one step adds to the record of spent passes and to the metric. -/
theorem spent_step (cfg : ServerConfig) (hv : 0 < cfg.pass_value) (s : Server) (op : ServerOp) :
    ∃ new obs, (s.step cfg op).spent = s.spent ++ new ∧ (s.step cfg op).observed = s.observed ++ obs ∧
      new.Sublist (validPreimages cfg op) ∧ obs.sum ≤ new.length ∧
      ((∀ a, op = .writev a → BucketsWF s ∧ Dict.WF a.tw_vectors ∧ ((validPreimages cfg op).length : Int) ≤
        writePrice cfg.pass_value (s.buckets a.storage_index) a.now a.tw_vectors) → obs.sum = new.length) := by
  cases op with
  | allocate a =>
    show ∃ new obs, (remote_allocate_buckets cfg a s).1.spent = _ ∧
      (remote_allocate_buckets cfg a s).1.observed = _ ∧ _
    unfold remote_allocate_buckets
    cases hr : validate_passes cfg (allocate_buckets_message a.storage_index) a.passes with
    | error e => exact ⟨[], [], by simp, by simp, List.nil_sublist _, by simp, fun _ => by simp⟩
    | ok r =>
      simp only
      cases hc : check_pass_quantity_for_write cfg.pass_value r a.sharenums a.allocated_size with
      | error e => exact ⟨[], [], by simp, by simp, List.nil_sublist _, by simp, fun _ => by simp⟩
      | ok u =>
        simp only
        have hval := validate_valid _ _ _ _ hr
        have hop := opened_spec a (original_accepted s a.storage_index a.sharenums a.accept) s
        unfold opened at hop
        have hle : (required_passes cfg.pass_value (List.replicate
            (original_accepted s a.storage_index a.sharenums a.accept).length (a.allocated_size : Int))) ≤
            r.valid.length := by
          simp only [check_pass_quantity_for_write, check_pass_quantity] at hc
          split at hc
          · exact nomatch hc
          · rename_i hlt
            rw [required_passes_eq _ hv, total_replicate] at hlt ⊢
            have h1 : (original_accepted s a.storage_index a.sharenums a.accept).length ≤ a.sharenums.length :=
              List.length_filter_le _ _
            have h2 := passes_nonneg cfg.pass_value hv (a := (a.allocated_size : Int)) (by omega)
            have := Int.mul_le_mul_of_nonneg_right (a := ((original_accepted s a.storage_index a.sharenums
              a.accept).length : Int)) (b := (a.sharenums.length : Int)) (by omega) h2
            omega
        have hge : 0 ≤ (required_passes cfg.pass_value (List.replicate
            (original_accepted s a.storage_index a.sharenums a.accept).length (a.allocated_size : Int))) := by
          rw [required_passes_eq _ hv, total_replicate]
          have h2 := passes_nonneg cfg.pass_value hv (a := (a.allocated_size : Int)) (by omega)
          exact Int.mul_nonneg (by omega) h2
        refine ⟨_, _, by rw [hop.2.2.1], by rw [hop.2.2.2.1], ?_, ?_, fun _ => ?_⟩
        · rw [hval]
          exact List.take_sublist _ _
        · simp only [List.sum_cons, List.sum_nil, List.length_take]; omega
        · simp only [List.sum_cons, List.sum_nil, List.length_take]; omega
  | addLease a =>
    show ∃ new obs, (remote_add_lease cfg a s).1.spent = _ ∧
      (remote_add_lease cfg a s).1.observed = _ ∧ _
    unfold remote_add_lease
    cases hr : validate_passes cfg (add_lease_message a.storage_index) a.passes with
    | error e => exact ⟨[], [], by simp, by simp, List.nil_sublist _, by simp, fun _ => by simp⟩
    | ok r =>
      simp only
      cases hc : check_pass_quantity_for_lease cfg.pass_value r (s.buckets a.storage_index) with
      | error e => exact ⟨[], [], by simp, by simp, List.nil_sublist _, by simp, fun _ => by simp⟩
      | ok u =>
        simp only
        split
        · exact ⟨_, _, rfl, rfl, by rw [validate_valid _ _ _ _ hr]; exact List.Sublist.refl _, by simp,
            fun _ => by simp⟩
        · exact ⟨[], [], by simp, by simp, List.nil_sublist _, by simp, fun _ => by simp⟩
  | writev a =>
    show ∃ new obs, (remote_slot_writev cfg a s).1.spent = _ ∧
      (remote_slot_writev cfg a s).1.observed = _ ∧ _
    unfold remote_slot_writev
    split
    · exact ⟨[], [], by simp, by simp, List.nil_sublist _, by simp, fun _ => by simp⟩
    · cases hr : validate_passes cfg (slot_testv_and_readv_and_writev_message a.storage_index) a.passes with
      | error e => exact ⟨[], [], by simp, by simp, List.nil_sublist _, by simp, fun _ => by simp⟩
      | ok r =>
        simp only
        split
        · exact ⟨[], [], by simp, by simp, List.nil_sublist _, by simp, fun _ => by simp⟩
        · rename_i hnl hle
          cases hw : original_slot_writev a.write_enabler (s.buckets a.storage_index) a.tw_vectors a.r_vector with
          | error e => exact ⟨[], [], by simp, by simp, List.nil_sublist _, by simp, fun _ => by simp⟩
          | ok x =>
            obtain ⟨bucket, good, read⟩ := x
            simp only
            split
            · refine ⟨_, _, rfl, rfl, by rw [validate_valid _ _ _ _ hr]; exact List.Sublist.refl _, ?_, fun h => ?_⟩
              · simp only [List.sum_cons, List.sum_nil]; omega
              · obtain ⟨hb, htw, h⟩ := h a rfl
                have e : validPreimages cfg (.writev a) = r.valid := (validate_valid _ _ _ _ hr).symm
                rw [e] at h
                have hnone : ∀ kv ∈ a.tw_vectors, kv.2.new_length = none := by
                  intro kv hkv
                  cases hn : kv.2.new_length with
                  | none => rfl
                  | some n =>
                    refine absurd (List.any_eq_true.2 ⟨kv.2, ?_, by simp [hn]⟩) hnl
                    exact List.mem_map_of_mem hkv
                have hp := server_price_eq cfg.pass_value hv (hb a.storage_index) a.tw_vectors htw a.now hnone
                simp only [List.sum_cons, List.sum_nil]
                omega
            · exact ⟨[], [], by simp, by simp, List.nil_sublist _, by simp, fun _ => by simp⟩
  | close bw data =>
    refine ⟨[], [], ?_, ?_, List.nil_sublist _, by simp, fun _ => by simp⟩
    · show (original_close s bw data).spent = _
      unfold original_close
      split
      · simp
      · rw [(bwc_same _ _).1]; simp
    · show (original_close s bw data).observed = _
      unfold original_close
      split
      · simp
      · rw [bwc_observed]; simp
  | abort bw =>
    refine ⟨[], [], ?_, ?_, List.nil_sublist _, by simp, fun _ => by simp⟩
    · show (original_abort s bw).spent = _
      rw [(abort_same s bw).1]; simp
    · show (original_abort s bw).observed = _
      rw [abort_observed]; simp
  | disconnect c =>
    refine ⟨[], [], ?_, ?_, List.nil_sublist _, by simp, fun _ => by simp⟩
    · show (List.foldl (fun s (r : Nat × Nat × Nat) => original_abort s r.2.2) s _).spent = _
      rw [(aborts_same _ s).1]; simp
    · show (List.foldl (fun s (r : Nat × Nat × Nat) => original_abort s r.2.2) s _).observed = _
      rw [aborts_observed]; simp

theorem spent_run (cfg : ServerConfig) (hv : 0 < cfg.pass_value) (ops : List ServerOp) : ∀ s : Server,
    ∃ new obs, (s.run cfg ops).spent = s.spent ++ new ∧ (s.run cfg ops).observed = s.observed ++ obs ∧
      new.Sublist (ops.flatMap (validPreimages cfg)) ∧ obs.sum ≤ new.length ∧
      (BucketsWF s → (∀ op ∈ ops, ∀ a, op = .writev a → Dict.WF a.tw_vectors) → NoSurplus cfg s ops →
        obs.sum = new.length) := by
  induction ops with
  | nil => intro s; exact ⟨[], [], by simp [Server.run], by simp [Server.run], by simp, by simp, fun _ _ _ => by simp⟩
  | cons op ops ih =>
    intro s
    obtain ⟨n1, o1, h1, h2, h3, h4, h5⟩ := spent_step cfg hv s op
    obtain ⟨n2, o2, k1, k2, k3, k4, k5⟩ := ih (s.step cfg op)
    refine ⟨n1 ++ n2, o1 ++ o2, ?_, ?_, ?_, ?_, fun hb hw hs => ?_⟩
    · show ((s.step cfg op).run cfg ops).spent = _
      rw [k1, h1, List.append_assoc]
    · show ((s.step cfg op).run cfg ops).observed = _
      rw [k2, h2, List.append_assoc]
    · rw [List.flatMap_cons]
      exact h3.append k3
    · rw [List.sum_append, List.length_append]; omega
    · have e1 := h5 (fun a ha => ⟨hb, hw op List.mem_cons_self a ha, hs.1 a ha⟩)
      have e2 := k5 (step_wf cfg s hb op) (fun o ho => hw o (List.mem_cons_of_mem _ ho)) hs.2
      rw [List.sum_append, List.length_append]; omega

end ZKAP
