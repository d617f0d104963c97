import Verif.Lemmas.Wire
import Verif.Lemmas.Server

/-! What travels between storage client and storage server. -/
namespace ZKAP
open Spec

/-! ### C115 -/

/-- C115: a storage operation that the protocol has room for reaches the server's method with exactly the
arguments of the caller, each in its place; any other is refused and never reaches the server. -/
theorem C115_calls_arrive (r : StorageRequest) :
    (Fits r → transmit r = .ok r) ∧ (¬ Fits r → transmit r = .error violation) := by
  rw [transmit_eq, received]
  constructor
  · intro h; rw [if_pos ((args_ok_iff r).mpr h)]
  · intro h; rw [if_neg (fun hc => h ((args_ok_iff r).mp hc))]

/-- A lease renewal with one pass. -/
def exRenewal (passes : Nat) : StorageRequest :=
  .addLease (List.replicate passes (List.replicate 177 65)) (List.replicate 16 1) (List.replicate 32 2)
    (List.replicate 32 3)

theorem exRenewal_fits (n : Nat) (h : n ≤ 2 ^ 20) : Fits (exRenewal n) :=
  ⟨⟨by rw [List.length_replicate]; exact h, fun p hp => by rw [List.eq_of_mem_replicate hp, List.length_replicate]⟩,
    by decide, by decide, by decide⟩

example : transmit (exRenewal 1) = .ok (exRenewal 1) := (C115_calls_arrive _).1 (exRenewal_fits 1 (by decide))

/-- A write with two shares, a test, a truncation and a read. -/
def exWrite : StorageRequest :=
  .writev [] (List.replicate 16 1) (List.replicate 32 1, List.replicate 32 2, List.replicate 32 3)
    [(0, ⟨[⟨0, 1, [7]⟩], [(5, [1, 2])], none⟩), (3, ⟨[], [], some 0⟩)] [(0, 10)]

example : transmit exWrite = .ok exWrite := (C115_calls_arrive _).1 (by
  refine ⟨⟨by decide, by simp⟩, by decide, by decide, ?_, ?_⟩
  · intro kv hkv
    simp only [List.mem_cons, List.not_mem_nil, or_false] at hkv
    obtain rfl | rfl := hkv <;> simp [WritesFit]
  · intro r hr
    simp only [List.mem_cons, List.not_mem_nil, or_false] at hr
    subst hr; decide)

/-- The passes that come with a request. -/
def request_passes : StorageRequest → List Bytes
  | .allocateBuckets passes _ _ _ _ _ _ => passes
  | .addLease passes _ _ _ => passes
  | .writev passes _ _ _ _ => passes
  | _ => []

/-- C115: an operation whose price is over 2²⁰ passes can not be performed: whatever else it asks for, no
request that carries so many passes reaches the server. -/
theorem C115_pass_limit (r : StorageRequest) (h : 2 ^ 20 < (request_passes r).length) :
    transmit r = .error violation := by
  refine (C115_calls_arrive r).2 fun hf => ?_
  cases r with
  | allocateBuckets => exact absurd hf.1.1 (Nat.not_le_of_lt h)
  | addLease => exact absurd hf.1.1 (Nat.not_le_of_lt h)
  | writev => exact absurd hf.1.1 (Nat.not_le_of_lt h)
  | getVersion => exact absurd h (Nat.not_lt_zero _)
  | getBuckets => exact absurd h (Nat.not_lt_zero _)
  | shareSizes => exact absurd h (Nat.not_lt_zero _)
  | statShares => exact absurd h (Nat.not_lt_zero _)
  | readv => exact absurd h (Nat.not_lt_zero _)
  | adviseCorruptShare => exact absurd h (Nat.not_lt_zero _)

example : transmit (exRenewal (2 ^ 20 + 1)) = .error violation :=
  C115_pass_limit _ (by show _ < (List.replicate _ _).length; rw [List.length_replicate]; exact Nat.lt_succ_self _)

/-! ### C116 -/

/-- What it costs to store all data that is written. -/
def dataPrice (v : Int) (tw : TWVectors) : Int := (tw.map fun kv => passes v (writtenEnd kv.2.datav)).sum

/-- C116: a write never costs more than storing all data written, whatever the server answers. -/
def C116_statement : Prop :=
  ∀ (v : Int), 0 < v → ∀ (answer : Wire) (tw : TWVectors) (now price : Int), Dict.WF tw →
    client_writev_price v answer tw now = .ok price → price ≤ dataPrice v tw

/-- An answer to `stat_shares` that reports a share of the given size. -/
def exStatAnswer (size : Int) : Wire :=
  .list [.dict [(.int 0, .stat [("size", .int size), ("lease_expiration", .int 1000)])]]

/-- One byte is written to share 0. -/
def exTinyWrite : TWVectors := [(0, ⟨[], [(0, [1])], none⟩)]

theorem exTinyWrite_wf : Dict.WF exTinyWrite := by simp [Dict.WF, exTinyWrite]

theorem tiny_write_price (n : Nat) :
    client_writev_price 1 (exStatAnswer (-(n : Int))) exTinyWrite 0 = .ok (n + 1) := by
  have h1 : get_write_sharenums exTinyWrite = [0] := rfl
  have h2 : client_stat_shares (exStatAnswer (-(n : Int))) =
      .ok [[(0, [("size", .int (-(n : Int))), ("lease_expiration", .int 1000)])]] := rfl
  have h3 : stat_current_sizes [0] 0 [(0, [("size", .int (-(n : Int))), ("lease_expiration", .int 1000)])] =
      .ok [(0, -(n : Int))] := rfl
  unfold client_writev_price
  simp only [h1, h2, h3]
  rw [if_pos (by decide), mutable_price_eq 1 (by decide) _ _ exTinyWrite_wf]
  have h4 : get_implied_data_length [(0, [1])] none = 1 := rfl
  simp only [exTinyWrite, List.map_cons, List.map_nil, h4, growth, passes, Dict.getD, List.lookup]
  simp only [Except.ok.injEq, List.sum_cons, List.sum_nil, beq_self_eq_true, Option.getD_some]
  rw [Int.max_eq_right (by omega)]
  omega

/-- C116 fails without limit: a server that reports a negative size for a share makes the client
pay any number of passes for writing one byte. -/
theorem C116_any_price (n : Nat) :
    ∃ answer price, client_writev_price 1 answer exTinyWrite 0 = .ok price ∧ n < price ∧
      dataPrice 1 exTinyWrite = 1 :=
  ⟨_, _, tiny_write_price n, by omega, by decide⟩

/-- C116 fails. -/
theorem C116_overcharge_fails : ¬ C116_statement := by
  intro h
  obtain ⟨answer, price, h1, h2, h3⟩ := C116_any_price 1
  have := h 1 (by decide) answer exTinyWrite 0 price exTinyWrite_wf h1
  omega

/-- C116 fails for leases too: whatever is stored, a server can ask for more. -/
theorem C116_lease_fails (stored : List Int) (h : total BYTES_PER_PASS stored < 2 ^ 43) :
    ∃ answer price, client_add_lease_price BYTES_PER_PASS answer = .ok price ∧
      total BYTES_PER_PASS stored < price := by
  refine ⟨.dict [(.int 0, .int (2 ^ 63))], 2 ^ 43, ?_, h⟩
  rfl

example : total BYTES_PER_PASS [1000000, 3000000] < 2 ^ 43 := by decide

/-- No share has a negative size in this answer to `stat_shares`. -/
def NoNegativeSizes (answer : Wire) : Prop :=
  ∀ l d k attributes w n, answer = .list l → .dict d ∈ l → (k, .stat attributes) ∈ d →
    attributes.lookup "size" = some w → w.asInt = some n → 0 ≤ n

/-- C116, for answers without negative sizes: the price of a write is at most that of storing
all data written. -/
theorem C116_write_partial (v : Int) (hv : 0 < v) (answer : Wire) (tw : TWVectors) (now price : Int)
    (htw : Dict.WF tw) (hn : NoNegativeSizes answer) (h : client_writev_price v answer tw now = .ok price) :
    0 ≤ price ∧ price ≤ dataPrice v tw := by
  have hd0 : 0 ≤ dataPrice v tw := by
    refine sum_nonneg fun x hx => ?_
    obtain ⟨kv, _, rfl⟩ := List.mem_map.mp hx
    exact passes_nonneg v hv (Int.natCast_nonneg _)
  unfold client_writev_price at h
  simp only [] at h
  split at h
  · split at h
    · exact absurd h (by simp)
    · rename_i stats hst
      split at h
      · exact absurd h (by simp)
      · rename_i sizes hsz
        simp only [Except.ok.injEq] at h
        subst h
        have hnn : ∀ kv ∈ sizes, 0 ≤ kv.2 := by
          refine stat_current_sizes_nonneg hsz fun k a w n hm hl hw => ?_
          unfold client_stat_shares at hst
          split at hst
          · split at hst
            · rename_i l _
              obtain ⟨d, items, hd, hi, he⟩ := stat_items_mem hst List.mem_cons_self
              rw [he] at hm
              obtain ⟨kv, hkv, _, h2⟩ := items_mem hi (mem_ofItems _ _ hm)
              obtain ⟨k', w'⟩ := kv
              cases w' with
              | stat a' =>
                simp only [wire_stat, Option.some.injEq] at h2
                subst h2
                exact hn l d k' a' w n rfl hd hkv hl hw
              | _ => exact absurd h2 (by simp [wire_stat])
            · exact absurd hst (by simp)
          · exact absurd hst (by simp)
        rw [mutable_price_eq v hv _ _ htw]
        constructor
        · refine sum_nonneg fun x hx => ?_
          obtain ⟨kv, _, rfl⟩ := List.mem_map.mp hx
          exact growth_nonneg v hv _ _
        · exact growth_sum_le v hv sizes hnn tw
    · exact absurd h (by simp)
  · simp only [Except.ok.injEq] at h
    subst h
    exact ⟨Int.le_refl _, hd0⟩

example : NoNegativeSizes (exStatAnswer 100) ∧
    client_writev_price 10 (exStatAnswer 100) [(0, ⟨[], [(95, [1, 2, 3, 4, 5, 6])], none⟩)] 0 = .ok 1 := by
  refine ⟨?_, by decide +kernel⟩
  intro l d k a w n h1 h2 h3 h4 h5
  unfold exStatAnswer at h1
  cases h1
  simp only [List.mem_cons, List.not_mem_nil, or_false, Wire.dict.injEq] at h2
  subst h2
  simp only [List.mem_cons, List.not_mem_nil, or_false, Prod.mk.injEq, Wire.stat.injEq] at h3
  obtain ⟨_, rfl⟩ := h3
  have h4' : some (Wire.int 100) = some w := h4
  cases h4'
  simp only [Wire.asInt, Option.some.injEq] at h5
  omega

/-! ### C117 -/

/-- C117: an answer to `allocate_buckets` is only taken, and passes only spent, if it is one to what was asked;
and shares are only taken to exist as described if they are described. -/
def C117_statement : Prop :=
  (∀ asked answer r, client_allocate_answer answer = .ok r → AllocateAnswer asked answer) ∧
  (∀ l r, client_stat_shares (.list l) = .ok r → ∀ d, .dict d ∈ l → ∀ kv ∈ d, StatItem kv.2)

/-- An answer that has nothing in place of the shares the server has and two bytes in place of the buckets. -/
def exBadAllocate : Wire := .tuple [.none, .bytes [1, 2]]

/-- C117 fails: an answer to `allocate_buckets` is not looked at; passes for two shares are spent for an answer that
has neither. -/
theorem C117_allocate_fails : ¬ C117_statement := by
  intro h
  have h1 : client_allocate_answer exBadAllocate = .ok ((.none, .bytes [1, 2]), 2) := rfl
  obtain ⟨got, d, buckets, h2, _⟩ := h.1 [0, 1] _ _ h1
  simp [exBadAllocate] at h2

/-- C117 fails for `stat_shares` as well: a share without size and lease is taken. -/
theorem C117_stat_fails : ¬ C117_statement := by
  intro h
  have h1 : client_stat_shares (.list [.dict [(.int 0, .stat [])]]) = .ok [[(0, [])]] := rfl
  obtain ⟨a, size, expiration, h2, h3, _⟩ := h.2 _ _ h1 _ List.mem_cons_self _ List.mem_cons_self
  cases h2
  exact absurd h3 (by simp)

/-- C117, for share sizes: exactly well-formed answers are taken, and as they are. -/
theorem C117_sizes_partial (answer : Wire) :
    (∀ r, client_share_sizes answer = .ok r ↔ ∃ sizes, SizesAnswer answer sizes ∧ r = Dict.ofItems sizes) ∧
    ((¬ ∃ sizes, SizesAnswer answer sizes) → client_share_sizes answer = .error violation) := by
  have hr : response_ok "share_sizes" answer = (Constraint.dictOf .int OffsetConstraint none).check answer := rfl
  have key : ∀ d, answer = .dict d → ∀ sizes, Items Wire.asInt d sizes →
      ((Constraint.dictOf .int OffsetConstraint none).check answer = true ↔
        ∀ it ∈ sizes, ShareNumber it.1 ∧ it.2.natAbs < 2 ^ 64) := by
    intro d hd sizes hi
    rw [hd, check_dict, within_none, Bool.true_and]
    exact items_all hi _ _ fun kv it hk hv => and_iff (check_int_asInt _ _ hk) (check_offset_asInt _ _ hv)
  have key2 : (Constraint.dictOf .int OffsetConstraint none).check answer = true →
      ∃ d sizes, answer = .dict d ∧ Items Wire.asInt d sizes := by
    intro h
    cases answer with
    | dict d =>
      rw [check_dict, within_none, Bool.true_and, List.all_eq_true] at h
      obtain ⟨sizes, hs⟩ := exists_items Wire.asInt d fun kv hkv => by
        have := h kv hkv
        rw [Bool.and_eq_true] at this
        exact ⟨check_int_isSome _ this.1, check_offset_isSome _ this.2⟩
      exact ⟨d, sizes, rfl, hs⟩
    | _ => exact absurd h (by simp [Constraint.check])
  constructor
  · intro r
    unfold client_share_sizes
    rw [hr]
    constructor
    · intro h
      split at h
      · rename_i hc
        obtain ⟨d, sizes, rfl, hi⟩ := key2 hc
        simp only [] at h
        obtain ⟨sizes', hi', rfl⟩ := (known_items_ok _ _ _).mp h
        exact ⟨sizes', ⟨d, rfl, hi', (key d rfl sizes' hi').mp hc⟩, rfl⟩
      · exact absurd h (by simp)
    · rintro ⟨sizes, ⟨d, rfl, hi, hq⟩, rfl⟩
      rw [if_pos ((key d rfl sizes hi).mpr hq)]
      exact (known_items_ok _ _ _).mpr ⟨sizes, hi, rfl⟩
  · intro h
    unfold client_share_sizes
    rw [hr, if_neg]
    intro hc
    obtain ⟨d, sizes, hd, hi⟩ := key2 hc
    exact h ⟨sizes, d, hd, hi, (key d hd sizes hi).mp hc⟩

example : client_share_sizes (.dict [(.int 3, .int 1000), (.int 0, .int 5)]) = .ok [(3, 1000), (0, 5)] := rfl
example : client_share_sizes (.dict [(.int 3, .bytes [1])]) = .error violation := rfl
example : SizesAnswer (.dict [(.int 3, .int 1000)]) [(3, 1000)] :=
  ⟨_, rfl, rfl, fun it h => by
    simp only [List.mem_cons, List.not_mem_nil, or_false] at h
    subst h
    exact ⟨⟨by decide, by decide⟩, by decide⟩⟩

/-- C117, for slot writes: exactly well-formed answers are taken, and as they are; nothing but the checks of the
client itself sees to that. -/
theorem C117_write_partial (answer : Wire) :
    (∀ r, client_writev_answer answer = .ok r ↔
      ∃ ok data, WriteAnswer answer ok data ∧ r = (ok, Dict.ofItems data)) ∧
    ((¬ ∃ ok data, WriteAnswer answer ok data) → client_writev_answer answer = .error .valueError) := by
  have hr : response_ok "slot_testv_and_readv_and_writev" answer = true := rfl
  have key : ∀ ok d, client_writev_answer (.tuple [.bool ok, .dict d]) =
      match known_items (wire_list wire_bytes) d with
      | .ok d => .ok (ok, d)
      | .error e => .error e := fun ok d => rfl
  have key2 : (¬ ∃ ok d, answer = .tuple [.bool ok, .dict d]) →
      client_writev_answer answer = .error .valueError := by
    intro h
    unfold client_writev_answer
    rw [if_pos hr]
    split
    · rename_i ok d
      exact absurd ⟨ok, d, rfl⟩ h
    · rfl
  constructor
  · intro r
    constructor
    · intro h
      by_cases ha : ∃ ok d, answer = .tuple [.bool ok, .dict d]
      · obtain ⟨ok, d, rfl⟩ := ha
        rw [key] at h
        split at h
        · rename_i r' hk
          obtain ⟨data, hi, rfl⟩ := (known_items_ok _ _ _).mp hk
          simp only [Except.ok.injEq] at h
          exact ⟨ok, data, ⟨d, rfl, hi⟩, h.symm⟩
        · exact absurd h (by simp)
      · rw [key2 ha] at h
        exact absurd h (by simp)
    · rintro ⟨ok, data, ⟨d, rfl, hi⟩, rfl⟩
      rw [key, (known_items_ok _ _ _).mpr ⟨data, hi, rfl⟩]
  · intro h
    by_cases ha : ∃ ok d, answer = .tuple [.bool ok, .dict d]
    · obtain ⟨ok, d, rfl⟩ := ha
      rw [key]
      cases hk : known_items (wire_list wire_bytes) d with
      | ok r =>
        obtain ⟨data, hi, _⟩ := (known_items_ok _ _ _).mp hk
        exact absurd ⟨ok, data, d, rfl, hi⟩ h
      | error e => rw [known_items_error _ _ _ hk]
    · exact key2 ha

example : client_writev_answer (.tuple [.bool true, .dict [(.int 0, .list [.bytes [1, 2]])]]) =
    .ok (true, [(0, [[1, 2]])]) := rfl
example : client_writev_answer (.tuple [.int 1, .dict []]) = .error .valueError := rfl

/-- C117, for readers of immutable shares: exactly well-formed answers are taken. -/
theorem C117_buckets_partial (answer : Wire) :
    (∃ r, client_get_buckets answer = .ok r) ↔ ∃ buckets, BucketsAnswer answer buckets := by
  have hr : response_ok "get_buckets" answer = (Constraint.dictOf .int .ref (some MAX_BUCKETS)).check answer := rfl
  have hb : ∀ (l : Nat), within (some MAX_BUCKETS) l = true ↔ l ≤ 256 := fun l => within_some 256 l
  constructor
  · rintro ⟨r, h⟩
    unfold client_get_buckets at h
    split at h
    · rename_i hc
      rw [hr] at hc
      cases answer with
      | dict d =>
        rw [check_dict, Bool.and_eq_true, hb, List.all_eq_true] at hc
        obtain ⟨items, hi⟩ := exists_items (fun w => match w with | .ref n => some n | _ => none) d
          fun kv hkv => by
            have := hc.2 kv hkv
            rw [Bool.and_eq_true] at this
            refine ⟨check_int_isSome _ this.1, ?_⟩
            obtain ⟨k, w⟩ := kv
            cases w with
            | ref n => rfl
            | _ => exact absurd this.2 (by simp [Constraint.check])
        refine ⟨items, d, rfl, hi, hc.1, ?_⟩
        refine (items_all hi (fun kv => Constraint.int.check kv.1) (fun it => ShareNumber it.1)
          fun kv it hk _ => check_int_asInt _ _ hk).mp ?_
        rw [List.all_eq_true]
        intro kv hkv
        have := hc.2 kv hkv
        rw [Bool.and_eq_true] at this
        exact this.1
      | _ => exact absurd hc (by simp [Constraint.check])
    · exact absurd h (by simp)
  · rintro ⟨buckets, d, rfl, hi, hl, hs⟩
    have hc : (Constraint.dictOf .int .ref (some MAX_BUCKETS)).check (.dict d) = true := by
      rw [check_dict, Bool.and_eq_true, hb]
      refine ⟨hl, ?_⟩
      refine (items_all hi _ (fun it => ShareNumber it.1) fun kv it hk hv => ?_).mpr hs
      rw [Bool.and_eq_true, check_int_asInt _ _ hk]
      refine ⟨fun h => h.1, fun h => ⟨h, ?_⟩⟩
      obtain ⟨k, w⟩ := kv
      cases w with
      | ref n => rfl
      | _ => exact absurd hv (by simp)
    unfold client_get_buckets
    rw [hr, if_pos hc]
    simp only []
    obtain ⟨items, hi'⟩ := exists_items (fun w => some w) d fun kv hkv => by
      rw [check_dict, Bool.and_eq_true, List.all_eq_true] at hc
      have := hc.2 kv hkv
      rw [Bool.and_eq_true] at this
      exact ⟨check_int_isSome _ this.1, rfl⟩
    exact ⟨_, (known_items_ok _ _ _).mpr ⟨items, hi', rfl⟩⟩

example : BucketsAnswer (.dict [(.int 0, .ref 7)]) [(0, 7)] :=
  ⟨_, rfl, rfl, by decide, fun it h => by
    simp only [List.mem_cons, List.not_mem_nil, or_false] at h
    subst h
    exact ⟨by decide, by decide⟩⟩
example : client_get_buckets (.dict [(.int 0, .none)]) = .error violation := rfl

end ZKAP
