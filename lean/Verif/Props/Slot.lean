import Verif.Lemmas.Slot
import Verif.Lemmas.ServerOps
import Verif.Props.Server
import Verif.Props.Ristretto

/-! What buys service, and what a slot write does to the data. -/
namespace ZKAP
open Spec

/-! ### C124 -/

/-- C124: without enough genuine passes for its price, no immutable share is allocated: nothing changes. -/
theorem C124_allocate (L : Ristretto) (v : Int) (hv : 0 < v) (k : L.Scalar) (a : AllocateArgs) (s : Server)
    (h : ¬ HasGenuine L k (allocate_buckets_message a.storage_index) a.passes
      (total v (List.replicate a.sharenums.length a.allocated_size))) :
    (remote_allocate_buckets (server_with_key L v k) a s).1 = s ∧
      ∃ e, (remote_allocate_buckets (server_with_key L v k) a s).2 = .error e := by
  by_cases hp : ∃ ps, Parses a.passes ps
  · obtain ⟨ps, hp⟩ := hp
    obtain ⟨chosen, h1, h2, h3⟩ := hasGenuine_of_count L v k (allocate_buckets_message a.storage_index) _ ps hp
    obtain ⟨f, _, e⟩ := C04_refused (server_with_key L v k) hv a s ps hp
      (Int.not_le.mp fun hle => h ⟨chosen, h1, h2, Int.le_trans hle h3⟩)
    rw [e]
    exact ⟨rfl, _, rfl⟩
  · obtain ⟨e, he⟩ := allocate_parse_error (server_with_key L v k) a s hp
    rw [he]
    exact ⟨rfl, _, rfl⟩

/-- C124: without enough genuine passes for the price of all shares at the index, no lease is renewed. -/
theorem C124_add_lease (L : Ristretto) (v : Int) (hv : 0 < v) (k : L.Scalar) (a : AddLeaseArgs) (s : Server)
    (hb : Dict.WF (s.buckets a.storage_index))
    (h : ¬ HasGenuine L k (add_lease_message a.storage_index) a.passes
      (bucketPrice v (s.buckets a.storage_index))) :
    (remote_add_lease (server_with_key L v k) a s).1 = s ∧
      ∃ e, (remote_add_lease (server_with_key L v k) a s).2 = .error e := by
  by_cases hp : ∃ ps, Parses a.passes ps
  · obtain ⟨ps, hp⟩ := hp
    obtain ⟨chosen, h1, h2, h3⟩ := hasGenuine_of_count L v k (add_lease_message a.storage_index) _ ps hp
    obtain ⟨f, _, e⟩ := C06_refused (server_with_key L v k) hv a s hb ps hp
      (Int.not_le.mp fun hle => h ⟨chosen, h1, h2, Int.le_trans hle h3⟩)
    rw [e]
    exact ⟨rfl, _, rfl⟩
  · obtain ⟨e, he⟩ := add_lease_parse_error (server_with_key L v k) a s hp
    rw [he]
    exact ⟨rfl, _, rfl⟩

/-- C124: without enough genuine passes for the growth, nothing is written. -/
theorem C124_write (L : Ristretto) (v : Int) (hv : 0 < v) (k : L.Scalar) (a : WritevArgs) (s : Server)
    (hb : Dict.WF (s.buckets a.storage_index)) (htw : Dict.WF a.tw_vectors)
    (h : ¬ HasGenuine L k (slot_testv_and_readv_and_writev_message a.storage_index) a.passes
      (writePrice v (s.buckets a.storage_index) a.now a.tw_vectors)) :
    (remote_slot_writev (server_with_key L v k) a s).1 = s ∧
      ∃ e, (remote_slot_writev (server_with_key L v k) a s).2 = .error e := by
  by_cases hnl : ∀ kv ∈ a.tw_vectors, kv.2.new_length = none
  · by_cases hp : ∃ ps, Parses a.passes ps
    · obtain ⟨ps, hp⟩ := hp
      obtain ⟨chosen, h1, h2, h3⟩ :=
        hasGenuine_of_count L v k (slot_testv_and_readv_and_writev_message a.storage_index) _ ps hp
      obtain ⟨f, _, e⟩ := C07_refused (server_with_key L v k) hv a s hb htw hnl ps hp
        (Int.not_le.mp fun hle => h ⟨chosen, h1, h2, Int.le_trans hle h3⟩)
      rw [e]
      exact ⟨rfl, _, rfl⟩
    · obtain ⟨e, he⟩ := writev_parse_error (server_with_key L v k) a s hp
      rw [he]
      exact ⟨rfl, _, rfl⟩
  · rw [writev_new_length (server_with_key L v k) a s (by
      simp only [Classical.not_forall, not_imp] at hnl
      obtain ⟨kv, hkv, hn⟩ := hnl
      exact ⟨kv, hkv, hn⟩)]
    exact ⟨rfl, _, rfl⟩

/-- C124, the other way round: with enough genuine passes for its price, and nothing that is not a pass among them,
no storage operation is refused for want of passes. -/
theorem C124_enough (L : Ristretto) (v : Int) (hv : 0 < v) (k : L.Scalar) (s : Server) (hb : BucketsWF s) :
    (∀ a : AllocateArgs, (∃ ps, Parses a.passes ps) →
      HasGenuine L k (allocate_buckets_message a.storage_index) a.passes
        (total v (List.replicate a.sharenums.length a.allocated_size)) →
      ∃ r, (remote_allocate_buckets (server_with_key L v k) a s).2 = .ok r) ∧
    (∀ a : AddLeaseArgs, (∃ ps, Parses a.passes ps) →
      HasGenuine L k (add_lease_message a.storage_index) a.passes (bucketPrice v (s.buckets a.storage_index)) →
      (remote_add_lease (server_with_key L v k) a s).2 = .ok () ∨
      (remote_add_lease (server_with_key L v k) a s).2 = .error .noSpace) ∧
    (∀ a : WritevArgs, (∃ ps, Parses a.passes ps) → Dict.WF a.tw_vectors →
      (∀ kv ∈ a.tw_vectors, kv.2.new_length = none) →
      HasGenuine L k (slot_testv_and_readv_and_writev_message a.storage_index) a.passes
        (writePrice v (s.buckets a.storage_index) a.now a.tw_vectors) →
      ∀ n r f, (remote_slot_writev (server_with_key L v k) a s).2 ≠ .error (.morePassesRequired n r f)) := by
  refine ⟨?_, ?_, ?_⟩
  · rintro a ⟨ps, hp⟩ ⟨chosen, h1, h2, h3⟩
    have hc := count_of_hasGenuine L v k _ _ ps hp chosen h1 h2
    obtain ⟨created, h, _⟩ := C04_granted (server_with_key L v k) hv a s ps hp
      (Int.le_trans h3 (Int.ofNat_le.mpr hc))
    exact ⟨_, h⟩
  · rintro a ⟨ps, hp⟩ ⟨chosen, h1, h2, h3⟩
    have hc := count_of_hasGenuine L v k _ _ ps hp chosen h1 h2
    have e := add_lease_granted (server_with_key L v k) hv a s (hb _) ps hp
      (Int.le_trans h3 (Int.ofNat_le.mpr hc))
    simp only [] at e
    rw [e]
    split
    · exact Or.inl rfl
    · exact Or.inr rfl
  · rintro a ⟨ps, hp⟩ htw hnl ⟨chosen, h1, h2, h3⟩ n r f he
    have hc := count_of_hasGenuine L v k _ _ ps hp chosen h1 h2
    obtain ⟨e1, e2, e3, _⟩ := C02_server_demand (server_with_key L v k) hv a s (hb _) htw hnl ps hp n r f he
    have e1' : r = writePrice v (s.buckets a.storage_index) a.now a.tw_vectors := e1
    omega

/-- In the toy group a pass for another message, one of another issuer and one that holds a token but no signature
buy nothing; one that holds both does. -/
example : GenuinePass toy (3 : Fin 6) [1] (passOf toy [1] (3 : Fin 6) (2 : Fin 6)) ∧
    ¬ GenuinePass toy (3 : Fin 6) [2] (passOf toy [1] (3 : Fin 6) (2 : Fin 6)) ∧
    ¬ GenuinePass toy (4 : Fin 6) [1] (passOf toy [1] (3 : Fin 6) (2 : Fin 6)) ∧
    ¬ GenuinePass toy (3 : Fin 6) [1]
      ⟨(passOf toy [1] (3 : Fin 6) (2 : Fin 6)).preimage, List.replicate 88 33⟩ := by
  simp only [← verifies_iff toy 10]
  decide +kernel

/-! ### C125 -/

/-- C125: a slot write that succeeds. All its tests held before; afterwards every byte of every share in it is the
last one written there, else what was there before, else zero up to the end of the writes; all
other data, at this index and at others, is untouched; and the answer holds what the read vectors select of
the data before the write. -/
theorem C125_written (cfg : ServerConfig) (a : WritevArgs) (s : Server)
    (hb : Dict.WF (s.buckets a.storage_index)) (htw : Dict.WF a.tw_vectors)
    (read : Dict Nat (List Bytes)) (hok : (remote_slot_writev cfg a s).2 = .ok (true, read)) :
    TestsHold (s.buckets a.storage_index) a.tw_vectors ∧
    (∀ n t, a.tw_vectors.lookup n = some t → ∀ i,
      (dataOf ((remote_slot_writev cfg a s).1.buckets a.storage_index) n)[i]? =
        byteAfter (dataOf (s.buckets a.storage_index) n) t.datav i) ∧
    (∀ n, a.tw_vectors.lookup n = none →
      (((remote_slot_writev cfg a s).1.buckets a.storage_index).lookup n).map Share.data =
        ((s.buckets a.storage_index).lookup n).map Share.data) ∧
    (∀ si, si ≠ a.storage_index → (remote_slot_writev cfg a s).1.buckets si = s.buckets si) ∧
    read = (s.buckets a.storage_index).map (fun kv => (kv.1, selected kv.2.data a.r_vector)) := by
  obtain ⟨bucket, ho, hbk⟩ := writev_ok cfg a s hok
  have h1 := original_slot_writev_ok ho
  have h2 := original_slot_writev_read ho
  simp only [if_true] at h1
  have hwf : Dict.WF bucket := by rw [h1]; exact wf_write_vectors _ _ hb _
  have hdata : ∀ n, (((add_leases_for_writev a bucket).1).lookup n).map Share.data =
      (bucket.lookup n).map Share.data := fun n => by
    have hloop := add_leases_loop_lookup a.space
      ⟨a.renew_secret, a.now + LEASE_PERIOD⟩ (wants_lease a.tw_vectors a.now) bucket hwf n
    cases hs : bucket.lookup n with
    | none => unfold add_leases_for_writev; rw [hloop.1 hs]
    | some share =>
      obtain ⟨share', h1, h2, _⟩ := hloop.2 share hs
      unfold add_leases_for_writev; rw [h1]; simp [h2]
  have hl := lookup_write_vectors a.write_enabler a.tw_vectors htw (s.buckets a.storage_index)
  rw [← h1] at hl
  rw [hbk]
  refine ⟨(tests_iff _ _).mp (h2.2.1 rfl), ?_, ?_, ?_, h2.1⟩
  · intro n t ht i
    have := hdata n
    rw [hl n, ht] at this
    simp only [set_bucket, if_true, dataOf]
    cases hs : (add_leases_for_writev a bucket).1.lookup n with
    | none => rw [hs] at this; simp at this
    | some share' =>
      rw [hs] at this
      simp only [Option.map_some, Option.some.injEq] at this
      simp only [Option.elim_some]
      rw [this, writes_get]
      cases (s.buckets a.storage_index).lookup n <;> rfl
  · intro n ht
    have := hdata n
    rw [hl n, ht] at this
    simp only [set_bucket, if_true]
    exact this
  · intro si hsi
    simp only [set_bucket, if_neg hsi]

/-- C125: a slot write that is answered with failure: a test did not hold, no data changes, and the
answer holds what the read vectors select. -/
theorem C125_not_written (cfg : ServerConfig) (a : WritevArgs) (s : Server)
    (hb : Dict.WF (s.buckets a.storage_index))
    (read : Dict Nat (List Bytes)) (hok : (remote_slot_writev cfg a s).2 = .ok (false, read)) :
    ¬ TestsHold (s.buckets a.storage_index) a.tw_vectors ∧
    (∀ n, (((remote_slot_writev cfg a s).1.buckets a.storage_index).lookup n).map Share.data =
      ((s.buckets a.storage_index).lookup n).map Share.data) ∧
    (∀ si, si ≠ a.storage_index → (remote_slot_writev cfg a s).1.buckets si = s.buckets si) ∧
    read = (s.buckets a.storage_index).map (fun kv => (kv.1, selected kv.2.data a.r_vector)) := by
  obtain ⟨bucket, ho, hbk⟩ := writev_ok cfg a s hok
  have h1 := original_slot_writev_ok ho
  have h2 := original_slot_writev_read ho
  simp only [Bool.false_eq_true, if_false] at h1
  subst h1
  rw [hbk]
  refine ⟨fun hc => ?_, ?_, fun si hsi => by simp only [set_bucket, if_neg hsi], h2.1⟩
  · have := h2.2.2 ((tests_iff _ _).mpr hc)
    cases this
  · intro n
    simp only [set_bucket, if_true]
    have hloop := add_leases_loop_lookup a.space
      ⟨a.renew_secret, a.now + LEASE_PERIOD⟩ (wants_lease a.tw_vectors a.now) (s.buckets a.storage_index) hb n
    cases hs : (s.buckets a.storage_index).lookup n with
    | none => unfold add_leases_for_writev; rw [hloop.1 hs]
    | some share =>
      obtain ⟨share', h1, h2, _⟩ := hloop.2 share hs
      unfold add_leases_for_writev; rw [h1]; simp [h2]

/-- Two overlapping writes to the share of 15 bytes, one past its end, guarded by a test; and a read. -/
def exPatch : WritevArgs :=
  { exWritev [65, 65, 65] with
    tw_vectors := [(0, ⟨[⟨13, 5, [7, 7]⟩], [(17, [1, 2, 3]), (18, [4])], none⟩)]
    r_vector := [(0, 2), (14, 9)] }

example : (remote_slot_writev exCfg exPatch exServer).2 =
    .ok (true, [(0, [[7, 7], [7]]), (1, [[7, 7], List.replicate 9 7])]) := by decide +kernel
example : dataOf ((remote_slot_writev exCfg exPatch exServer).1.buckets [9]) 0 =
    List.replicate 15 7 ++ [0, 0, 1, 4, 3] := by decide +kernel
example : (List.range 21).map (byteAfter (List.replicate 15 7) [(17, [1, 2, 3]), (18, [4])]) =
    List.replicate 15 (some 7) ++ [some 0, some 0, some 1, some 4, some 3, none] := by decide +kernel

/-! ### The price on the wire -/

/-- C02, on the wire: from the answer an honest server gives, the client computes exactly the price that the
server demands for the write. -/
theorem C02_wire_price (v : Int) (hv : 0 < v) (s : Server) (si : SI)
    (hb : Dict.WF (s.buckets si)) (hn : ∀ kv ∈ s.buckets si, kv.1 < 2 ^ 31)
    (tw : TWVectors) (htw : Dict.WF tw) (now : Int) (h0 : 0 ≤ now) :
    ∃ stats, remote_stat_shares s [si] = [stats] ∧
      client_writev_price v (statAnswer stats) tw now = .ok (get_writev_price (s.buckets si) v tw now) := by
  refine ⟨_, rfl, ?_⟩
  rw [← client_server_price v hv hb tw htw now h0]
  have hst : get_share_stats (s.buckets si) none = (s.buckets si).map (fun kv => (kv.1, share_stat kv.2)) := by
    unfold get_share_stats
    rw [List.filter_eq_self.mpr (by simp)]
  have hwf : Dict.WF (get_share_stats (s.buckets si) none) := by
    rw [hst]; exact wf_map_val hb (fun kv => share_stat kv.2)
  have hof := Dict.ofItems_wf _ hwf
  refine stat_answer_price v _ ?_ ?_ tw now
  · dsimp only; rw [hof]; exact hwf
  · intro kv hkv
    dsimp only at hkv
    rw [hof, hst] at hkv
    obtain ⟨kv', hkv', rfl⟩ := List.mem_map.mp hkv
    exact hn _ hkv'

example : client_writev_price 10 (statAnswer (Dict.ofItems (get_share_stats exBucket none))) exTw 100 = .ok 5 := by
  decide +kernel
/-- A lease that expires now does not count, on either side. -/
example : client_writev_price 10 (statAnswer (Dict.ofItems (get_share_stats exBucket none))) exTw 1000 = .ok 7 ∧
    writePrice 10 exBucket 1000 exTw = 7 := by decide +kernel

end ZKAP
