import Verif.Spec.Slot
import Verif.Lemmas.ServerOps
import Verif.Lemmas.Wire

/-! Lemmas for `Verif.Props.Slot`. -/
namespace ZKAP
open Spec

/-! ### Passes -/

theorem verifies_iff (L : Ristretto) (v : Int) (k : L.Scalar) (message : Bytes) (p : Pass) :
    (server_with_key L v k).verifies message p = true ↔ GenuinePass L k message p := by
  show (!_is_invalid_pass L message p k) = true ↔ _
  unfold _is_invalid_pass GenuinePass
  cases h1 : L.preimages.decode p.preimage with
  | none => simp
  | some t =>
    cases h2 : L.signatures.decode p.signature with
    | none => simp
    | some sig =>
      simp only [Bool.not_not]
      constructor
      · intro h; exact ⟨t, sig, rfl, rfl, h⟩
      · rintro ⟨t', sig', e1, e2, h⟩
        cases e1; cases e2
        exact h

theorem hasGenuine_of_count (L : Ristretto) (v : Int) (k : L.Scalar) (message : Bytes) (sent : List Bytes)
    (ps : List Pass) (h : Parses sent ps) :
    HasGenuine L k message sent (validCount ((server_with_key L v k).verifies message) ps) := by
  unfold Parses at h
  induction sent generalizing ps with
  | nil =>
    cases ps with
    | nil => exact ⟨[], List.Sublist.refl _, by simp, by simp [validCount]⟩
    | cons p ps => simp at h
  | cons b sent ih =>
    cases ps with
    | nil => simp at h
    | cons p ps =>
      simp only [List.map_cons, List.cons.injEq] at h
      obtain ⟨chosen, h1, h2, h3⟩ := ih ps h.2
      unfold validCount at h3 ⊢
      by_cases hp : (server_with_key L v k).verifies message p = true
      · refine ⟨b :: chosen, h1.cons_cons b, ?_, ?_⟩
        · intro x hx
          rcases List.mem_cons.mp hx with rfl | hx
          · exact ⟨p, h.1, (verifies_iff L v k message p).mp hp⟩
          · exact h2 x hx
        · rw [List.filter_cons_of_pos hp]
          simp only [List.length_cons]
          omega
      · refine ⟨chosen, h1.cons b, h2, ?_⟩
        rw [List.filter_cons_of_neg hp]
        exact h3

theorem count_of_hasGenuine (L : Ristretto) (v : Int) (k : L.Scalar) (message : Bytes) (sent : List Bytes)
    (ps : List Pass) (h : Parses sent ps) (chosen : List Bytes) (hs : chosen.Sublist sent)
    (hg : ∀ b ∈ chosen, ∃ p, Pass.from_bytes b = .ok p ∧ GenuinePass L k message p) :
    chosen.length ≤ validCount ((server_with_key L v k).verifies message) ps := by
  unfold Parses at h
  induction hs generalizing ps with
  | slnil => exact Nat.zero_le _
  | @cons l₁ l₂ b hs ih =>
    cases ps with
    | nil => simp at h
    | cons p ps =>
      simp only [List.map_cons, List.cons.injEq] at h
      refine Nat.le_trans (ih ps h.2 hg) ?_
      unfold validCount
      rw [List.filter_cons]
      split
      · simp
      · exact Nat.le_refl _
  | @cons_cons l₁ l₂ b hs ih =>
    cases ps with
    | nil => simp at h
    | cons p ps =>
      simp only [List.map_cons, List.cons.injEq] at h
      have := ih ps h.2 (fun x hx => hg x (List.mem_cons_of_mem _ hx))
      obtain ⟨p', h1, h2⟩ := hg b List.mem_cons_self
      rw [h.1] at h1
      cases h1
      unfold validCount at this ⊢
      rw [List.filter_cons_of_pos ((verifies_iff L v k message p).mpr h2)]
      simp only [List.length_cons]
      omega

/-! ### Data -/

theorem original_write_get (data : Bytes) (w : Nat × Bytes) (i : Nat) :
    (original_write data w)[i]? = byteAfter data [w] i := by
  obtain ⟨off, bytes⟩ := w
  unfold original_write byteAfter lastWritten writtenEnd
  simp only [List.reverse_cons, List.reverse_nil, List.nil_append, List.findSome?_cons, List.findSome?_nil,
    List.map_cons, List.map_nil, List.foldr_cons, List.foldr_nil, Nat.max_zero]
  have hlen : ((data ++ List.replicate (off - data.length) 0).take off).length = off := by
    simp only [List.length_take, List.length_append, List.length_replicate]; omega
  by_cases h1 : i < off
  · rw [if_neg (by omega), List.append_assoc, List.getElem?_append_left (by omega), List.getElem?_take_of_lt h1]
    by_cases h2 : i < data.length
    · rw [List.getElem?_append_left h2, List.getElem?_eq_getElem h2]
    · rw [List.getElem?_append_right (by omega), List.getElem?_eq_none (by omega : data.length ≤ i),
        List.getElem?_replicate]
      simp only []
      rw [if_pos (by omega), if_pos (by omega)]
  · rw [if_pos (by omega), List.append_assoc, List.getElem?_append_right (by omega), hlen]
    by_cases h2 : i - off < bytes.length
    · rw [List.getElem?_append_left h2, List.getElem?_eq_getElem h2]
    · rw [List.getElem?_append_right (by omega), List.getElem?_eq_none (by omega : bytes.length ≤ i - off),
        List.getElem?_drop]
      have e : off + bytes.length + (i - off - bytes.length) = i := by omega
      rw [e]
      cases h3 : data[i]? with
      | some b => rfl
      | none => simp only []; rw [if_neg (by omega)]

theorem lastWritten_cons (w : Nat × Bytes) (ws : List (Nat × Bytes)) (i : Nat) :
    lastWritten (w :: ws) i = (lastWritten ws i).or (lastWritten [w] i) := by
  unfold lastWritten
  rw [List.reverse_cons, List.findSome?_append]
  rfl

theorem writes_get (writes : List (Nat × Bytes)) (data : Bytes) (i : Nat) :
    (writes.foldl original_write data)[i]? = byteAfter data writes i := by
  induction writes generalizing data with
  | nil =>
    simp only [List.foldl_nil, byteAfter, lastWritten, List.reverse_nil, List.findSome?_nil, writtenEnd,
      List.map_nil, List.foldr_nil, Nat.not_lt_zero, if_false]
    cases data[i]? <;> rfl
  | cons w ws ih =>
    rw [List.foldl_cons, ih]
    conv => lhs; unfold byteAfter
    rw [original_write_get]
    unfold byteAfter
    rw [lastWritten_cons w ws]
    cases h1 : lastWritten ws i with
    | some b => rfl
    | none =>
      rw [Option.none_or]
      cases h2 : lastWritten [w] i with
      | some b => rfl
      | none =>
        cases h3 : data[i]? with
        | some b => rfl
        | none =>
          have hw : writtenEnd (w :: ws) = max (writtenEnd [w]) (writtenEnd ws) := by
            simp [writtenEnd]
          simp only [hw]
          by_cases h4 : i < writtenEnd [w]
          · rw [if_pos h4]; simp only []; rw [if_pos (by omega)]
          · rw [if_neg h4]; simp only []
            by_cases h5 : i < writtenEnd ws
            · rw [if_pos h5, if_pos (by omega)]
            · rw [if_neg h5, if_neg (by omega)]

theorem tests_iff (bucket : Bucket) (tw : TWVectors) :
    original_evaluate_test_vectors bucket tw = true ↔ TestsHold bucket tw := by
  unfold original_evaluate_test_vectors original_testv TestsHold dataOf
  simp only [List.all_eq_true, beq_iff_eq]
  constructor
  · intro h kv hkv t ht i
    rw [h kv hkv t ht]
  · intro h kv hkv t ht
    exact List.ext_getElem? (h kv hkv t ht)

theorem original_slot_writev_read {we : Secret} {bucket bucket' : Bucket} {tw : TWVectors}
    {rv : List (Nat × Nat)} {good : Bool} {read : Dict Nat (List Bytes)}
    (h : original_slot_writev we bucket tw rv = .ok (bucket', good, read)) :
    read = bucket.map (fun kv => (kv.1, selected kv.2.data rv)) ∧
      (good = true → original_evaluate_test_vectors bucket tw = true) ∧
      (original_evaluate_test_vectors bucket tw = true → good = true) := by
  unfold original_slot_writev at h
  split at h
  · simp at h
  · split at h
    · simp at h
    · simp only [] at h
      split at h
      · rename_i ht
        simp only [Except.ok.injEq, Prod.mk.injEq] at h
        obtain ⟨_, h2, h3⟩ := h
        exact ⟨h3.symm, fun _ => ht, fun _ => h2.symm⟩
      · rename_i ht
        simp only [Except.ok.injEq, Prod.mk.injEq] at h
        obtain ⟨_, h2, h3⟩ := h
        exact ⟨h3.symm, fun hg => (by rw [← h2] at hg; cases hg), fun hc => absurd hc ht⟩

/-- A slot write that is answered. -/
theorem writev_ok (cfg : ServerConfig) (a : WritevArgs) (s : Server) {good : Bool} {read : Dict Nat (List Bytes)}
    (hok : (remote_slot_writev cfg a s).2 = .ok (good, read)) :
    ∃ bucket, original_slot_writev a.write_enabler (s.buckets a.storage_index) a.tw_vectors a.r_vector =
        .ok (bucket, good, read) ∧
      (remote_slot_writev cfg a s).1.buckets =
        set_bucket s.buckets a.storage_index (add_leases_for_writev a bucket).1 := by
  unfold remote_slot_writev at hok ⊢
  split at hok
  · cases hok
  · rename_i hnl
    rw [if_neg hnl]
    split at hok
    · cases hok
    · rename_i validation hval
      try rw [hval]
      simp only [] at hok ⊢
      split at hok
      · cases hok
      · rename_i hprice
        rw [if_neg hprice]
        split at hok
        · cases hok
        · rename_i bucket good' read' ho
          try rw [ho]
          try simp only [] at hok ⊢
          split at hok
          · rename_i hl
            simp only [Except.ok.injEq, Prod.mk.injEq] at hok
            obtain ⟨rfl, rfl⟩ := hok
            rw [if_pos hl]
            exact ⟨bucket, rfl, rfl⟩
          · cases hok

/-! ### Answers to `stat_shares` -/

theorem stat_answer_items (stats : Dict Nat ShareStat) (hwf : Dict.WF stats) :
    known_items wire_stat (stats.map fun kv =>
      (.int kv.1, .stat [("size", .int kv.2.size), ("lease_expiration", .int kv.2.lease_expiration)])) =
    .ok (stats.map fun kv =>
      ((kv.1 : Int), [("size", .int kv.2.size), ("lease_expiration", .int kv.2.lease_expiration)])) := by
  refine (known_items_ok _ _ _).mpr ⟨_, ?_, (Dict.ofItems_wf _ ?_).symm⟩
  · unfold Items
    rw [List.map_map, List.map_map]
    rfl
  · unfold Dict.WF at hwf ⊢
    rw [List.map_map]
    have : (List.map (Prod.fst ∘ fun kv : Nat × ShareStat =>
        ((kv.1 : Int), [("size", Wire.int kv.2.size), ("lease_expiration", Wire.int kv.2.lease_expiration)])) stats)
        = (stats.map Prod.fst).map (fun n : Nat => (n : Int)) := by rw [List.map_map]; rfl
    rw [this]
    exact hwf.map _ (fun a b h hab => h (by omega))

theorem stat_answer_sizes (ws : List Nat) (now : Int) (stats : Dict Nat ShareStat) :
    stat_current_sizes ws now (stats.map fun kv =>
      ((kv.1 : Int), [("size", .int kv.2.size), ("lease_expiration", .int kv.2.lease_expiration)])) =
    .ok ((stats.filter (fun kv => decide (kv.2.lease_expiration > now) && ws.contains kv.1)).map
      (fun kv => (kv.1, kv.2.size))) := by
  induction stats with
  | nil => rfl
  | cons kv stats ih =>
    obtain ⟨n, size, e⟩ := kv
    simp only [List.map_cons]
    rw [stat_current_sizes]
    have h1 : stat_number [("size", .int size), ("lease_expiration", .int e)] "lease_expiration" = .ok e := rfl
    have h2 : stat_number [("size", .int size), ("lease_expiration", .int e)] "size" = .ok size := rfl
    simp only [h1, h2, ih]
    by_cases hc : e > now ∧ n ∈ ws
    · rw [if_pos ⟨hc.1, Int.natCast_nonneg n, by simpa using hc.2⟩, List.filter_cons_of_pos (by simp [hc.1, hc.2])]
      rfl
    · rw [if_neg (fun h => hc ⟨h.1, by simpa using h.2.2⟩), List.filter_cons_of_neg (by
        simp only [Bool.and_eq_true, decide_eq_true_eq, List.contains_eq_mem]
        exact hc)]

theorem check_any (w : Wire) : Constraint.any.check w = true := by
  rw [Constraint.check]

theorem stat_answer_ok (stats : Dict Nat ShareStat) (hn : ∀ kv ∈ stats, kv.1 < 2 ^ 31) :
    (Constraint.listOf (.dictOf .int .any none) none).check (statAnswer stats) = true := by
  unfold statAnswer
  rw [check_list, within_none, Bool.true_and, List.all_cons, List.all_nil, Bool.and_true, check_dict,
    within_none, Bool.true_and, List.all_map, List.all_eq_true]
  intro kv hkv
  rw [Function.comp, Bool.and_eq_true]
  exact ⟨(check_int kv.1).mpr (hn kv hkv), check_any _⟩

theorem stat_answer_price (v : Int) (stats : Dict Nat ShareStat) (hwf : Dict.WF stats)
    (hn : ∀ kv ∈ stats, kv.1 < 2 ^ 31) (tw : TWVectors) (now : Int) :
    client_writev_price v (statAnswer stats) tw now = .ok (client_writev_num_passes v stats tw now) := by
  have hr : response_ok "stat_shares" (statAnswer stats) =
      (Constraint.listOf (.dictOf .int .any none) none).check (statAnswer stats) := rfl
  have hans : client_stat_shares (statAnswer stats) = .ok [stats.map fun kv =>
      ((kv.1 : Int), [("size", .int kv.2.size), ("lease_expiration", .int kv.2.lease_expiration)])] := by
    unfold client_stat_shares
    rw [hr, stat_answer_ok stats hn, if_pos rfl]
    unfold statAnswer
    simp only [stat_items]
    rw [stat_answer_items _ hwf]
  unfold client_writev_price client_writev_num_passes
  simp only []
  rw [hans]
  simp only [stat_answer_sizes]
  split <;> rfl

end ZKAP
