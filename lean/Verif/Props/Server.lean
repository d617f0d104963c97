import Verif.Lemmas.ServerOps

/-! Properties C02, C03, C04, C06, C07, C08, C10, C11, C74: the storage server's pricing and
spending, against the specification in `Spec/Server.lean`. -/
namespace ZKAP
open Spec

/-! ### A concrete server used in the examples -/

/-- A pass whose preimage is all `c`. -/
def exPass (c : UInt8) : Pass := ⟨List.replicate 88 c, List.replicate 88 66⟩
/-- One byte per pass; a pass verifies, for any message, unless its preimage is all `Z` (90). -/
def exCfg : ServerConfig := ⟨10, fun _ p => p.preimage != List.replicate 88 90⟩
/-- A slot with a leased share 0 of 15 bytes and an expired share 1 of 25 bytes. -/
def exBucket : Bucket :=
  [(0, ⟨true, [1], List.replicate 15 7, [⟨[5], 1000⟩]⟩), (1, ⟨true, [1], List.replicate 25 7, [⟨[5], 10⟩]⟩)]
def exServer : Server := Server.init (fun si => if si = [9] then exBucket else [])

theorem exBucket_wf : Dict.WF exBucket := by unfold Dict.WF; decide
theorem exParses (cs : List UInt8) (h : (32 : UInt8) ∉ cs) :
    Parses (cs.map (fun c => (exPass c).pass_bytes)) (cs.map exPass) := by
  unfold Parses
  rw [List.map_map, List.map_map]
  apply List.map_congr_left
  intro c hc
  have hne : (32 : UInt8) ≠ c := fun e => h (e ▸ hc)
  show Pass.from_bytes (exPass c).pass_bytes = .ok (exPass c)
  unfold Pass.from_bytes Pass.pass_bytes exPass
  rw [bytes_split_append _ _ (by simp [hne]), bytes_split_nosep _ (by simp)]
  simp [Pass.new, base64_bytes]

/-! ### C02: client and server agree on the price of a mutable write -/

/-- C02: what the client computes from the server's answer to `stat_shares` is what the server
computes, for every request (also ones the server would then refuse). -/
theorem C02_client_server_agree (v : Int) (hv : 0 < v) (s : Server) (si : SI)
    (hb : Dict.WF (s.buckets si)) (tw : TWVectors) (htw : Dict.WF tw) (now : Int) (h0 : 0 ≤ now) :
    ∃ stats, remote_stat_shares s [si] = [stats] ∧
      client_writev_num_passes v stats tw now = get_writev_price (s.buckets si) v tw now :=
  ⟨_, rfl, client_server_price v hv hb tw htw now h0⟩

/-- C02: the client's price is the growth in passes of the written shares, expired ones counted
as empty. -/
theorem C02_client_price_is_growth (v : Int) (hv : 0 < v) (s : Server) (si : SI)
    (hb : Dict.WF (s.buckets si)) (tw : TWVectors) (htw : Dict.WF tw) (now : Int) (h0 : 0 ≤ now)
    (hnl : ∀ kv ∈ tw, kv.2.new_length = none) :
    ∃ stats, remote_stat_shares s [si] = [stats] ∧
      client_writev_num_passes v stats tw now = writePrice v (s.buckets si) now tw ∧
      0 ≤ client_writev_num_passes v stats tw now := by
  refine ⟨_, rfl, ?_, ?_⟩
  · rw [client_server_price v hv hb tw htw now h0, server_price_eq v hv hb tw htw now hnl]
  · rw [client_server_price v hv hb tw htw now h0, server_price_eq v hv hb tw htw now hnl]
    exact writePrice_nonneg v hv _ _ _

/-- C02: what the server demands is the growth in passes: it refuses exactly when fewer passes
verify, and then says how many it wants. -/
theorem C02_server_demand (cfg : ServerConfig) (hv : 0 < cfg.pass_value) (a : WritevArgs) (s : Server)
    (hb : Dict.WF (s.buckets a.storage_index)) (htw : Dict.WF a.tw_vectors)
    (hnl : ∀ kv ∈ a.tw_vectors, kv.2.new_length = none)
    (ps : List Pass) (h : Parses a.passes ps) (n : Nat) (required : Int) (failed : List Nat) :
    (remote_slot_writev cfg a s).2 = .error (.morePassesRequired n required failed) →
      required = writePrice cfg.pass_value (s.buckets a.storage_index) a.now a.tw_vectors ∧
      n = validCount (cfg.verifies (slot_testv_and_readv_and_writev_message a.storage_index)) ps ∧
      (n : Int) < required ∧
      FailedPositions (cfg.verifies (slot_testv_and_readv_and_writev_message a.storage_index)) ps failed := by
  intro he
  by_cases hlt : (validCount (cfg.verifies (slot_testv_and_readv_and_writev_message a.storage_index)) ps : Int)
      < writePrice cfg.pass_value (s.buckets a.storage_index) a.now a.tw_vectors
  · obtain ⟨f, hf, e⟩ := writev_refused cfg hv a s hb htw hnl ps h hlt
    rw [e] at he
    simp only [Except.error.injEq, SErr.morePassesRequired.injEq] at he
    obtain ⟨rfl, rfl, rfl⟩ := he
    exact ⟨rfl, rfl, hlt, hf⟩
  · rw [writev_granted cfg hv a s hb htw hnl ps h (by omega)] at he
    split at he
    · rename_i e ho
      unfold original_slot_writev at ho
      split at ho
      · simp at ho; subst ho; simp at he
      · split at ho
        · simp at ho; subst ho; simp at he
        · simp only [] at ho; split at ho <;> simp at ho
    · split at he <;> simp at he

/-- C02: a client that sends the number of passes it computed, all of them valid, is never asked
for more. -/
theorem C02_never_refused (cfg : ServerConfig) (hv : 0 < cfg.pass_value) (a : WritevArgs) (s : Server)
    (hb : Dict.WF (s.buckets a.storage_index)) (htw : Dict.WF a.tw_vectors) (h0 : 0 ≤ a.now)
    (hnl : ∀ kv ∈ a.tw_vectors, kv.2.new_length = none)
    (ps : List Pass) (h : Parses a.passes ps)
    (hall : ∀ p ∈ ps, cfg.verifies (slot_testv_and_readv_and_writev_message a.storage_index) p = true)
    (hlen : ∃ stats, remote_stat_shares s [a.storage_index] = [stats] ∧
      (ps.length : Int) = client_writev_num_passes cfg.pass_value stats a.tw_vectors a.now) :
    ∀ n r f, (remote_slot_writev cfg a s).2 ≠ .error (.morePassesRequired n r f) := by
  intro n r f he
  obtain ⟨h1, h2, h3, _⟩ := C02_server_demand cfg hv a s hb htw hnl ps h n r f he
  obtain ⟨stats, hst, hl⟩ := hlen
  obtain ⟨stats', hst', hp, _⟩ := C02_client_price_is_growth cfg.pass_value hv s a.storage_index hb
    a.tw_vectors htw a.now h0 hnl
  rw [hst] at hst'
  simp only [List.cons.injEq, and_true] at hst'
  subst hst'
  have : validCount (cfg.verifies (slot_testv_and_readv_and_writev_message a.storage_index)) ps = ps.length := by
    unfold validCount; rw [List.filter_eq_self.mpr hall]
  omega

/-- A write to both shares and to a new one: share 0 grows from 15 to 21 bytes (1 more pass),
share 1 is expired and written up to 30 (3 passes), share 2 is new with 1 byte (1 pass). -/
def exTw : TWVectors :=
  [(0, ⟨[], [(20, [1])], none⟩), (1, ⟨[], [(25, [1, 2, 3, 4, 5])], none⟩), (2, ⟨[], [(0, [1])], none⟩)]
def exWritev (ps : List UInt8) : WritevArgs :=
  ⟨ps.map (fun c => (exPass c).pass_bytes), [9], [1], [6], exTw, [], 100, fun _ => true⟩

theorem exTw_wf : Dict.WF exTw := by unfold Dict.WF; decide

example : writePrice 10 exBucket 100 exTw = 5 := by decide

example : client_writev_num_passes 10 (Dict.ofItems (get_share_stats exBucket none)) exTw 100 = 5 := by
  have h := client_server_price 10 (by decide) exBucket_wf exTw exTw_wf 100 (by decide)
  rw [h, server_price_eq 10 (by decide) exBucket_wf exTw exTw_wf 100 (by decide)]
  decide

example : ∀ n r f, (remote_slot_writev exCfg (exWritev [65, 65, 65, 65, 65]) exServer).2
    ≠ .error (.morePassesRequired n r f) :=
  C02_never_refused exCfg (by decide) _ exServer exBucket_wf exTw_wf (by decide) (by decide) _
    (exParses [65, 65, 65, 65, 65] (by decide)) (by decide) ⟨_, rfl, by decide +kernel⟩

/-! ### C03: reads and non-growing writes are free -/

/-- C03: the price of a write is zero exactly when every written share stays within the passes
already paid for it. -/
theorem C03_free_iff (v : Int) (hv : 0 < v) (bucket : Bucket) (now : Int) (tw : TWVectors) :
    writePrice v bucket now tw = 0 ↔
      ∀ kv ∈ tw, passes v (writtenEnd kv.2.datav) ≤ passes v (paidSize bucket now kv.1) := by
  unfold writePrice
  induction tw with
  | nil => simp
  | cons kv tw ih =>
    simp only [List.map_cons, List.sum_cons, List.forall_mem_cons]
    have h1 := growth_nonneg v hv (paidSize bucket now kv.1) (writtenEnd kv.2.datav)
    have h2 : 0 ≤ (tw.map (fun kv => growth v (paidSize bucket now kv.1) (writtenEnd kv.2.datav))).sum :=
      writePrice_nonneg v hv bucket now tw
    have h3 : growth v (paidSize bucket now kv.1) (writtenEnd kv.2.datav) = 0 ↔
        passes v (writtenEnd kv.2.datav) ≤ passes v (paidSize bucket now kv.1) := by
      unfold growth
      rcases Int.le_total (paidSize bucket now kv.1) (writtenEnd kv.2.datav) with hle | hle
      · rw [Int.max_eq_right hle]
        have := passes_mono v hv hle
        omega
      · rw [Int.max_eq_left hle]
        have := passes_mono v hv hle
        omega
    rw [← ih, ← h3]
    omega

/-- C03: an operation that writes nothing needs no passes: the server never asks for any. -/
theorem C03_read_free (cfg : ServerConfig) (hv : 0 < cfg.pass_value) (a : WritevArgs) (s : Server)
    (hb : Dict.WF (s.buckets a.storage_index)) (htw : Dict.WF a.tw_vectors)
    (hread : ∀ kv ∈ a.tw_vectors, kv.2.datav = [] ∧ kv.2.new_length = none) (hp : a.passes = []) :
    ∀ n r f, (remote_slot_writev cfg a s).2 ≠ .error (.morePassesRequired n r f) := by
  intro n r f he
  obtain ⟨h1, _, h3, _⟩ := C02_server_demand cfg hv a s hb htw (fun kv h => (hread kv h).2) []
    (by rw [hp]; rfl) n r f he
  have : writePrice cfg.pass_value (s.buckets a.storage_index) a.now a.tw_vectors = 0 := by
    rw [C03_free_iff _ hv]
    intro kv hkv
    rw [(hread kv hkv).1]
    have := passes_nonneg cfg.pass_value hv (paidSize_nonneg (s.buckets a.storage_index) a.now kv.1)
    have h0 := passes_zero cfg.pass_value hv
    simp only [writtenEnd, List.map_nil, List.foldr_nil]
    rw [show ((0 : Nat) : Int) = 0 from rfl, h0]; exact this
  omega

/-- C03: a write that keeps every written share within the passes already paid for it succeeds
without passes, as far as payment is concerned. -/
theorem C03_covered_write_free (cfg : ServerConfig) (hv : 0 < cfg.pass_value) (a : WritevArgs) (s : Server)
    (hb : Dict.WF (s.buckets a.storage_index)) (htw : Dict.WF a.tw_vectors)
    (hnl : ∀ kv ∈ a.tw_vectors, kv.2.new_length = none)
    (hcov : ∀ kv ∈ a.tw_vectors, passes cfg.pass_value (writtenEnd kv.2.datav)
      ≤ passes cfg.pass_value (paidSize (s.buckets a.storage_index) a.now kv.1)) (hp : a.passes = []) :
    ∀ n r f, (remote_slot_writev cfg a s).2 ≠ .error (.morePassesRequired n r f) := by
  intro n r f he
  obtain ⟨h1, _, h3, _⟩ := C02_server_demand cfg hv a s hb htw hnl [] (by rw [hp]; rfl) n r f he
  have := (C03_free_iff cfg.pass_value hv (s.buckets a.storage_index) a.now a.tw_vectors).mpr hcov
  omega

example : ∀ n r f, (remote_slot_writev exCfg
      { exWritev [] with tw_vectors := [(0, ⟨[], [(0, List.replicate 20 3)], none⟩)] } exServer).2
    ≠ .error (.morePassesRequired n r f) :=
  C03_covered_write_free exCfg (by decide) _ exServer exBucket_wf (by unfold Dict.WF; decide)
    (by decide) (by decide) rfl

/-! ### C04: no immutable bucket without enough valid passes -/

/-- C04: with too few valid passes nothing changes and the error is exact. -/
theorem C04_refused (cfg : ServerConfig) (hv : 0 < cfg.pass_value) (a : AllocateArgs) (s : Server)
    (ps : List Pass) (h : Parses a.passes ps)
    (hlt : (validCount (cfg.verifies (allocate_buckets_message a.storage_index)) ps : Int)
      < total cfg.pass_value (List.replicate a.sharenums.length a.allocated_size)) :
    ∃ failed, FailedPositions (cfg.verifies (allocate_buckets_message a.storage_index)) ps failed ∧
      remote_allocate_buckets cfg a s = (s, .error (.morePassesRequired
        (validCount (cfg.verifies (allocate_buckets_message a.storage_index)) ps)
        (total cfg.pass_value (List.replicate a.sharenums.length a.allocated_size)) failed)) := by
  rw [total_replicate] at *
  exact allocate_refused cfg hv a s ps h hlt

/-- C04: with enough valid passes the request is not refused, and only shares that were
requested, absent and not already being uploaded get a bucket. -/
theorem C04_granted (cfg : ServerConfig) (hv : 0 < cfg.pass_value) (a : AllocateArgs) (s : Server)
    (ps : List Pass) (h : Parses a.passes ps)
    (hge : total cfg.pass_value (List.replicate a.sharenums.length a.allocated_size) ≤
      (validCount (cfg.verifies (allocate_buckets_message a.storage_index)) ps : Int)) :
    ∃ created, (remote_allocate_buckets cfg a s).2 = .ok ((s.buckets a.storage_index).keys, created) ∧
      (∀ n ∈ created, n ∈ a.sharenums ∧ (s.buckets a.storage_index).lookup n = none ∧
        ¬ ∃ w ∈ s.writers, w.si = a.storage_index ∧ w.sharenum = n) ∧
      (remote_allocate_buckets cfg a s).1.buckets = s.buckets ∧
      ∃ new : List Writer, (remote_allocate_buckets cfg a s).1.writers = s.writers ++ new ∧
        new.map Writer.sharenum = created ∧ ∀ w ∈ new, w.si = a.storage_index := by
  rw [total_replicate] at hge
  rw [allocate_granted cfg hv a s ps h hge]
  obtain ⟨h1, _, _, _, new, h5, h6, h7⟩ :=
    opened_spec a (original_accepted s a.storage_index a.sharenums a.accept) s
  refine ⟨_, rfl, ?_, h1, new, h5, h6, fun w hw => (h7 w hw).1⟩
  intro n hn
  unfold original_accepted at hn
  simp only [List.mem_filter, Bool.and_eq_true, Bool.not_eq_true', List.any_eq_false, beq_iff_eq,
    not_and] at hn
  refine ⟨hn.1, ?_, ?_⟩
  · rw [Dict.lookup_eq_none_iff]
    intro hm
    have := hn.2.1.1
    simp only [List.contains_eq_mem, decide_eq_false_iff_not] at this
    exact this hm
  · rintro ⟨w, hw, h1, h2⟩
    exact hn.2.1.2 w hw h1 h2

/-- C04: bytes that do not parse as passes also leave everything unchanged. -/
theorem C04_malformed (cfg : ServerConfig) (a : AllocateArgs) (s : Server)
    (h : ¬ ∃ ps, Parses a.passes ps) :
    (remote_allocate_buckets cfg a s).1 = s ∧ ∃ e, (remote_allocate_buckets cfg a s).2 = .error (.badPass e) := by
  obtain ⟨e, he⟩ := allocate_parse_error cfg a s h
  rw [he]; exact ⟨rfl, e, rfl⟩

def exAllocate (ps : List UInt8) : AllocateArgs :=
  ⟨ps.map (fun c => (exPass c).pass_bytes), [8], [6], [3, 4], 15, 77, 100, fun _ => true⟩

/-- Four passes are needed; of five sent, those at positions 1 and 3 are invalid. -/
example : ∃ failed, FailedPositions (fun p => p.preimage != List.replicate 88 90)
      ([65, 90, 65, 90, 65].map exPass) failed ∧
    remote_allocate_buckets exCfg (exAllocate [65, 90, 65, 90, 65]) exServer
      = (exServer, .error (.morePassesRequired 3 4 failed)) := by
  have := C04_refused exCfg (by decide) (exAllocate [65, 90, 65, 90, 65]) exServer
    ([65, 90, 65, 90, 65].map exPass) (exParses [65, 90, 65, 90, 65] (by decide)) (by decide)
  exact this

example : ∃ created, (remote_allocate_buckets exCfg (exAllocate [65, 90, 65, 65, 65, 65]) exServer).2
    = .ok ([], created) := by
  obtain ⟨c, h, _⟩ := C04_granted exCfg (by decide) (exAllocate [65, 90, 65, 65, 65, 65]) exServer
    ([65, 90, 65, 65, 65, 65].map exPass) (exParses [65, 90, 65, 65, 65, 65] (by decide)) (by decide)
  exact ⟨c, h⟩

/-! ### C06: leases -/

/-- C06: with fewer valid passes than the price of all shares at the index nothing changes. -/
theorem C06_refused (cfg : ServerConfig) (hv : 0 < cfg.pass_value) (a : AddLeaseArgs) (s : Server)
    (hb : Dict.WF (s.buckets a.storage_index)) (ps : List Pass) (h : Parses a.passes ps)
    (hlt : (validCount (cfg.verifies (add_lease_message a.storage_index)) ps : Int)
      < bucketPrice cfg.pass_value (s.buckets a.storage_index)) :
    ∃ failed, FailedPositions (cfg.verifies (add_lease_message a.storage_index)) ps failed ∧
      remote_add_lease cfg a s = (s, .error (.morePassesRequired
        (validCount (cfg.verifies (add_lease_message a.storage_index)) ps)
        (bucketPrice cfg.pass_value (s.buckets a.storage_index)) failed)) :=
  add_lease_refused cfg hv a s hb ps h hlt

theorem C06_malformed (cfg : ServerConfig) (a : AddLeaseArgs) (s : Server)
    (h : ¬ ∃ ps, Parses a.passes ps) :
    (remote_add_lease cfg a s).1 = s ∧ ∃ e, (remote_add_lease cfg a s).2 = .error (.badPass e) := by
  obtain ⟨e, he⟩ := add_lease_parse_error cfg a s h
  rw [he]; exact ⟨rfl, e, rfl⟩

/-- C06: if the call succeeds, the price was covered, every valid pass is recorded as spent,
every share at the index has an unexpired lease, data and other indexes are untouched. -/
theorem C06_granted (cfg : ServerConfig) (hv : 0 < cfg.pass_value) (a : AddLeaseArgs) (s : Server)
    (hb : Dict.WF (s.buckets a.storage_index)) (ps : List Pass) (h : Parses a.passes ps)
    (hok : (remote_add_lease cfg a s).2 = .ok ()) :
    bucketPrice cfg.pass_value (s.buckets a.storage_index) ≤
      (validCount (cfg.verifies (add_lease_message a.storage_index)) ps : Int) ∧
    (remote_add_lease cfg a s).1.spent =
      s.spent ++ (ps.filter (cfg.verifies (add_lease_message a.storage_index))).map Pass.preimage ∧
    (∀ si, si ≠ a.storage_index → (remote_add_lease cfg a s).1.buckets si = s.buckets si) ∧
    ∀ n share, (s.buckets a.storage_index).lookup n = some share →
      ∃ share', ((remote_add_lease cfg a s).1.buckets a.storage_index).lookup n = some share' ∧
        share'.data = share.data ∧ Leased share' a.now := by
  by_cases hlt : (validCount (cfg.verifies (add_lease_message a.storage_index)) ps : Int)
      < bucketPrice cfg.pass_value (s.buckets a.storage_index)
  · obtain ⟨f, _, e⟩ := add_lease_refused cfg hv a s hb ps h hlt
    rw [e] at hok; simp at hok
  have hge : bucketPrice cfg.pass_value (s.buckets a.storage_index) ≤
      (validCount (cfg.verifies (add_lease_message a.storage_index)) ps : Int) := by omega
  refine ⟨hge, ?_⟩
  have e := add_lease_granted cfg hv a s hb ps h hge
  simp only [] at e
  rw [e] at hok ⊢
  by_cases hr : (original_add_lease a.space ⟨a.renew_secret, a.now + LEASE_PERIOD⟩
      (s.buckets a.storage_index)).2 = true
  · rw [if_pos hr] at *
    refine ⟨rfl, ?_, ?_⟩
    · intro si hsi; simp [set_bucket, hsi]
    · intro n share hn
      obtain ⟨share', h1, h2, _, h4⟩ := (add_leases_loop_lookup a.space ⟨a.renew_secret, a.now + LEASE_PERIOD⟩
        (fun _ _ => true) (s.buckets a.storage_index) hb n).2 share hn
      refine ⟨share', by simp [set_bucket]; exact h1, h2, ?_⟩
      exact (add_or_renew_leased _ _ _ _ a.now (h4 rfl hr) (by
        show a.now < a.now + LEASE_PERIOD
        unfold LEASE_PERIOD; omega)).1
  · rw [if_neg hr] at hok; simp at hok

/-- C06: a client that sends the price of the share sizes the server reports, in valid passes,
is never asked for more. -/
theorem C06_never_refused (cfg : ServerConfig) (hv : 0 < cfg.pass_value) (a : AddLeaseArgs) (s : Server)
    (hb : Dict.WF (s.buckets a.storage_index)) (ps : List Pass) (h : Parses a.passes ps)
    (hall : ∀ p ∈ ps, cfg.verifies (add_lease_message a.storage_index) p = true)
    (hlen : (ps.length : Int) =
      client_add_lease_num_passes cfg.pass_value (remote_share_sizes s a.storage_index none)) :
    ∀ n r f, (remote_add_lease cfg a s).2 ≠ .error (.morePassesRequired n r f) := by
  intro n r f he
  have hp : client_add_lease_num_passes cfg.pass_value (remote_share_sizes s a.storage_index none)
      = bucketPrice cfg.pass_value (s.buckets a.storage_index) := (bucket_price_eq _ hv hb).2
  have hvc : validCount (cfg.verifies (add_lease_message a.storage_index)) ps = ps.length := by
    unfold validCount; rw [List.filter_eq_self.mpr hall]
  have e := add_lease_granted cfg hv a s hb ps h (by omega)
  simp only [] at e
  rw [e] at he
  split at he <;> simp at he

example : ((remote_add_lease exCfg
    ⟨[65, 65, 65, 65, 65].map (fun c => (exPass c).pass_bytes), [9], [6], 100, fun _ => true⟩ exServer).1.buckets
      [9]).lookup 1 |>.isSome := by decide +kernel

example : ∀ n r f, (remote_add_lease exCfg
    ⟨[65, 65, 65, 65, 65].map (fun c => (exPass c).pass_bytes), [9], [6], 100, fun _ => true⟩ exServer).2
      ≠ .error (.morePassesRequired n r f) :=
  C06_never_refused exCfg (by decide) _ exServer exBucket_wf ([65, 65, 65, 65, 65].map exPass)
    (exParses _ (by decide)) (by decide) (by decide)

/-! ### C07: mutable writes and leases -/

/-- C07: if the passes do not cover the price nothing changes. -/
theorem C07_refused (cfg : ServerConfig) (hv : 0 < cfg.pass_value) (a : WritevArgs) (s : Server)
    (hb : Dict.WF (s.buckets a.storage_index)) (htw : Dict.WF a.tw_vectors)
    (hnl : ∀ kv ∈ a.tw_vectors, kv.2.new_length = none) (ps : List Pass) (h : Parses a.passes ps)
    (hlt : (validCount (cfg.verifies (slot_testv_and_readv_and_writev_message a.storage_index)) ps : Int)
      < writePrice cfg.pass_value (s.buckets a.storage_index) a.now a.tw_vectors) :
    ∃ failed, FailedPositions (cfg.verifies (slot_testv_and_readv_and_writev_message a.storage_index)) ps failed ∧
      remote_slot_writev cfg a s = (s, .error (.morePassesRequired
        (validCount (cfg.verifies (slot_testv_and_readv_and_writev_message a.storage_index)) ps)
        (writePrice cfg.pass_value (s.buckets a.storage_index) a.now a.tw_vectors) failed)) :=
  writev_refused cfg hv a s hb htw hnl ps h hlt

theorem C07_malformed (cfg : ServerConfig) (a : WritevArgs) (s : Server) (h : ¬ ∃ ps, Parses a.passes ps) :
    (remote_slot_writev cfg a s).1 = s ∧ ∃ e, (remote_slot_writev cfg a s).2 = .error e := by
  obtain ⟨e, he⟩ := writev_parse_error cfg a s h
  rw [he]; exact ⟨rfl, e, rfl⟩

/-- C07: a successful write. The price was covered; no other slot is touched; every share of the
slot that exists afterwards and to which something was written is leased; shares that were leased
before keep exactly their leases; each written share is exactly as long as the longer of its old
length and the end of the writes; shares not in the request are unchanged. -/
theorem C07_written_shares_leased (cfg : ServerConfig) (hv : 0 < cfg.pass_value) (a : WritevArgs) (s : Server)
    (hb : Dict.WF (s.buckets a.storage_index)) (htw : Dict.WF a.tw_vectors)
    (hnl : ∀ kv ∈ a.tw_vectors, kv.2.new_length = none) (ps : List Pass) (h : Parses a.passes ps)
    (read : Dict Nat (List Bytes)) (hok : (remote_slot_writev cfg a s).2 = .ok (true, read)) :
    writePrice cfg.pass_value (s.buckets a.storage_index) a.now a.tw_vectors ≤
      (validCount (cfg.verifies (slot_testv_and_readv_and_writev_message a.storage_index)) ps : Int) ∧
    (∀ si, si ≠ a.storage_index → (remote_slot_writev cfg a s).1.buckets si = s.buckets si) ∧
    (∀ n t, a.tw_vectors.lookup n = some t → ∃ share',
      ((remote_slot_writev cfg a s).1.buckets a.storage_index).lookup n = some share' ∧
      (t.datav ≠ [] → Leased share' a.now) ∧
      (share'.data.length = max (((s.buckets a.storage_index).lookup n).elim 0 (fun sh => sh.data.length))
        (writtenEnd t.datav)) ∧
      ∀ share, (s.buckets a.storage_index).lookup n = some share → Leased share a.now →
        share'.leases = share.leases) ∧
    (∀ n, a.tw_vectors.lookup n = none →
      ((remote_slot_writev cfg a s).1.buckets a.storage_index).lookup n
        = (s.buckets a.storage_index).lookup n) := by
  by_cases hlt : (validCount (cfg.verifies (slot_testv_and_readv_and_writev_message a.storage_index)) ps : Int)
      < writePrice cfg.pass_value (s.buckets a.storage_index) a.now a.tw_vectors
  · obtain ⟨f, _, e⟩ := writev_refused cfg hv a s hb htw hnl ps h hlt
    rw [e] at hok; simp at hok
  have e := writev_granted cfg hv a s hb htw hnl ps h (by omega)
  rw [e] at hok ⊢
  refine ⟨by omega, ?_⟩
  clear e
  cases ho : original_slot_writev a.write_enabler (s.buckets a.storage_index) a.tw_vectors a.r_vector with
  | error er => rw [ho] at hok; simp at hok
  | ok res =>
    obtain ⟨bucket, good, rd⟩ := res
    rw [ho] at hok
    simp only [] at hok ⊢
    by_cases hr : (add_leases_for_writev a bucket).2 = true
    · rw [if_pos hr] at hok ⊢
      simp only [Except.ok.injEq, Prod.mk.injEq] at hok
      have hg := hok.1
      subst hg
      have hbk := original_slot_writev_ok ho
      simp only [if_true] at hbk
      have hwf : Dict.WF bucket := by rw [hbk]; exact wf_write_vectors _ _ hb _
      refine ⟨?_, ?_, ?_⟩
      · intro si hsi; simp [set_bucket, hsi]
      · intro n t ht
        have hl := lookup_write_vectors a.write_enabler a.tw_vectors htw (s.buckets a.storage_index) n
        rw [ht] at hl
        simp only [] at hl
        rw [← hbk] at hl
        obtain ⟨share', h1, h2, h3, h4⟩ := (add_leases_loop_lookup a.space
          ⟨a.renew_secret, a.now + LEASE_PERIOD⟩ (wants_lease a.tw_vectors a.now) bucket hwf n).2 _ hl
        refine ⟨share', by simp only [set_bucket, if_true]; exact h1, ?_, ?_, ?_⟩
        · intro hd
          by_cases hw : wants_lease a.tw_vectors a.now n
              { ((s.buckets a.storage_index).lookup n).getD ⟨true, a.write_enabler, [], []⟩ with
                data := t.datav.foldl original_write
                  (((s.buckets a.storage_index).lookup n).getD ⟨true, a.write_enabler, [], []⟩).data } = true
          · exact (add_or_renew_leased _ _ _ _ a.now (h4 hw hr) (by
              show a.now < a.now + LEASE_PERIOD
              unfold LEASE_PERIOD; omega)).1
          · have hf := h3 (by simpa using hw)
            unfold wants_lease at hw
            rw [ht] at hw
            have hne : t.datav.isEmpty = false := by simp [hd]
            simp only [hne, Bool.not_false, Bool.true_or, Bool.true_and, Bool.not_eq_true',
              Bool.not_eq_false] at hw
            rw [hf]
            exact (active_iff _ _).mp hw
        · rw [h2]
          simp only [writes_length]
          cases (s.buckets a.storage_index).lookup n <;> simp
        · intro share hsh hle
          rw [hsh] at h3
          have hact : share_has_active_leases
              { share with data := t.datav.foldl original_write share.data } a.now = true :=
            (active_iff _ _).mpr hle
          have := h3 (by unfold wants_lease; rw [ht]; simp only [Option.getD_some]; rw [hact]; simp)
          rw [this]; rfl
      · intro n ht
        have hl := lookup_write_vectors a.write_enabler a.tw_vectors htw (s.buckets a.storage_index) n
        rw [ht] at hl
        simp only [] at hl
        rw [← hbk] at hl
        simp only [set_bucket, if_true]
        have hloop := add_leases_loop_lookup a.space
          ⟨a.renew_secret, a.now + LEASE_PERIOD⟩ (wants_lease a.tw_vectors a.now) bucket hwf n
        cases hs : (s.buckets a.storage_index).lookup n with
        | none => rw [hs] at hl; exact hloop.1 hl
        | some share =>
          rw [hs] at hl
          obtain ⟨share', h1, _, h3, _⟩ := hloop.2 share hl
          have := h3 (by unfold wants_lease; rw [ht])
          rw [this] at h1; exact h1
    · rw [if_neg hr] at hok; simp at hok

/-- The example write succeeds and leases the expired share 1 and the new share 2. -/
example : ∃ read, (remote_slot_writev exCfg (exWritev [65, 65, 65, 65, 65]) exServer).2 = .ok (true, read) :=
  ⟨[(0, []), (1, [])], by decide +kernel⟩

/-- C07: a write whose test vector fails changes no data, only possibly leases. -/
theorem C07_failed_test_keeps_data (cfg : ServerConfig) (hv : 0 < cfg.pass_value) (a : WritevArgs) (s : Server)
    (hb : Dict.WF (s.buckets a.storage_index)) (htw : Dict.WF a.tw_vectors)
    (hnl : ∀ kv ∈ a.tw_vectors, kv.2.new_length = none) (ps : List Pass) (h : Parses a.passes ps)
    (read : Dict Nat (List Bytes)) (hok : (remote_slot_writev cfg a s).2 = .ok (false, read)) :
    (∀ si, si ≠ a.storage_index → (remote_slot_writev cfg a s).1.buckets si = s.buckets si) ∧
    ∀ n, (((remote_slot_writev cfg a s).1.buckets a.storage_index).lookup n).map Share.data
      = ((s.buckets a.storage_index).lookup n).map Share.data := by
  by_cases hlt : (validCount (cfg.verifies (slot_testv_and_readv_and_writev_message a.storage_index)) ps : Int)
      < writePrice cfg.pass_value (s.buckets a.storage_index) a.now a.tw_vectors
  · obtain ⟨f, _, e⟩ := writev_refused cfg hv a s hb htw hnl ps h hlt
    rw [e] at hok; simp at hok
  rw [writev_granted cfg hv a s hb htw hnl ps h (by omega)] at hok ⊢
  cases ho : original_slot_writev a.write_enabler (s.buckets a.storage_index) a.tw_vectors a.r_vector with
  | error er => rw [ho] at hok; simp at hok
  | ok res =>
    obtain ⟨bucket, good, rd⟩ := res
    rw [ho] at hok
    simp only [] at hok ⊢
    by_cases hr : (add_leases_for_writev a bucket).2 = true
    · rw [if_pos hr] at hok ⊢
      simp only [Except.ok.injEq, Prod.mk.injEq] at hok
      have hg := hok.1
      subst hg
      have hbk := original_slot_writev_ok ho
      simp only [Bool.false_eq_true, if_false] at hbk
      subst hbk
      refine ⟨fun si hsi => by simp [set_bucket, hsi], ?_⟩
      intro n
      simp only [set_bucket, if_true]
      have hloop := add_leases_loop_lookup a.space
        ⟨a.renew_secret, a.now + LEASE_PERIOD⟩ (wants_lease a.tw_vectors a.now) (s.buckets a.storage_index) hb n
      cases hs : (s.buckets a.storage_index).lookup n with
      | none => have := hloop.1 hs; unfold add_leases_for_writev; rw [this]
      | some share =>
        obtain ⟨share', h1, h2, _⟩ := hloop.2 share hs
        unfold add_leases_for_writev; rw [h1]; simp [h2]
    · rw [if_neg hr] at hok; simp at hok

/-- A write to share 0 guarded by a test that fails. -/
def exFailing (ps : List UInt8) : WritevArgs :=
  { exWritev ps with tw_vectors := [(0, ⟨[⟨0, 1, [99]⟩], [(20, [1])], none⟩)] }

example : ∃ read, (remote_slot_writev exCfg (exFailing [65]) exServer).2 = .ok (false, read) :=
  ⟨[(0, []), (1, [])], by decide +kernel⟩

/-! ### C08: truncation -/

/-- C08: any `new_length` in the request: refused without any effect. -/
theorem C08_new_length_refused (cfg : ServerConfig) (a : WritevArgs) (s : Server) (n : Nat) (t : TW) (len : Nat)
    (hm : (n, t) ∈ a.tw_vectors) (hn : t.new_length = some len) :
    remote_slot_writev cfg a s = (s, .error .newLengthRejected) :=
  writev_new_length cfg a s ⟨(n, t), hm, by simp [hn]⟩

example : remote_slot_writev exCfg
    { exWritev [65, 65, 65, 65, 65] with
      tw_vectors := [(0, ⟨[], [(20, [1])], none⟩), (1, ⟨[], [], some 0⟩)] } exServer
    = (exServer, .error .newLengthRejected) :=
  C08_new_length_refused _ _ _ 1 ⟨[], [], some 0⟩ 0 (by decide) rfl

/-! ### C10: double spending -/

/-- C10, full statement: a request is granted only if none of the passes it relies on was
recorded as spent before. -/
def C10_statement : Prop :=
  ∀ (cfg : ServerConfig) (a : AddLeaseArgs) (s : Server) (ps : List Pass), 0 < cfg.pass_value →
    BucketsWF s → Parses a.passes ps → (remote_add_lease cfg a s).2 = .ok () →
      ∀ p ∈ ps, cfg.verifies (add_lease_message a.storage_index) p = true → p.preimage ∉ s.spent

def exLease (ps : List UInt8) : AddLeaseArgs :=
  ⟨ps.map (fun c => (exPass c).pass_bytes), [9], [6], 100, fun _ => true⟩

theorem exServer_wf : BucketsWF exServer := by
  intro si
  show Dict.WF (if si = [9] then exBucket else [])
  split
  · exact exBucket_wf
  · exact List.nodup_nil

/-- C10 is false of the code: the same passes renew a lease twice. -/
theorem C10_double_spend_fails : ¬ C10_statement := by
  intro h
  have h1 := h exCfg (exLease [65, 66, 67, 68, 69])
    (remote_add_lease exCfg (exLease [65, 66, 67, 68, 69]) exServer).1 ([65, 66, 67, 68, 69].map exPass)
    (by decide) (step_wf exCfg exServer exServer_wf (.addLease _))
    (exParses [65, 66, 67, 68, 69] (by decide)) (by decide +kernel) (exPass 65) (by decide) (by decide)
  exact h1 (by decide +kernel)

/-- Even one and the same pass, repeated within a single request, pays for the whole request. -/
theorem C10_repeated_pass_fails :
    (remote_add_lease exCfg (exLease [65, 65, 65, 65, 65]) exServer).2 = .ok () ∧
    (remote_add_lease exCfg (exLease [65]) exServer).2 ≠ .ok () := by
  decide +kernel

/-- C10, the part that holds: every pass a granted lease renewal relies on is recorded, so that
double spends can be detected afterwards. -/
theorem C10_spent_recorded_partial (cfg : ServerConfig) (hv : 0 < cfg.pass_value) (a : AddLeaseArgs) (s : Server)
    (hb : Dict.WF (s.buckets a.storage_index)) (ps : List Pass) (h : Parses a.passes ps)
    (hok : (remote_add_lease cfg a s).2 = .ok ()) (p : Pass) (hp : p ∈ ps)
    (hver : cfg.verifies (add_lease_message a.storage_index) p = true) :
    (remote_add_lease cfg a s).1.spent.count p.preimage ≥ s.spent.count p.preimage + 1 := by
  rw [(C06_granted cfg hv a s hb ps h hok).2.1, List.count_append]
  have : 0 < ((ps.filter (cfg.verifies (add_lease_message a.storage_index))).map Pass.preimage).count p.preimage := by
    rw [List.count_pos_iff, List.mem_map]
    exact ⟨p, by rw [List.mem_filter]; exact ⟨hp, hver⟩, rfl⟩
  omega

example : (remote_add_lease exCfg (exLease [65, 66, 67, 68, 69]) exServer).1.spent.count (exPass 65).preimage ≥ 0 + 1 :=
  C10_spent_recorded_partial exCfg (by decide) (exLease [65, 66, 67, 68, 69]) exServer exBucket_wf ([65, 66, 67, 68, 69].map exPass)
    (exParses _ (by decide)) (by decide +kernel) (exPass 65) (by decide) (by decide)

/-! ### C11: what a mutable write spends -/

/-- C11, full statement: what is recorded as spent is at most the price of what was written:
nothing if the test vector failed, the price otherwise. -/
def C11_statement : Prop :=
  ∀ (cfg : ServerConfig) (a : WritevArgs) (s : Server) (good : Bool) (read : Dict Nat (List Bytes)),
    0 < cfg.pass_value → BucketsWF s → Dict.WF a.tw_vectors →
    (remote_slot_writev cfg a s).2 = .ok (good, read) →
      ((remote_slot_writev cfg a s).1.spent.length : Int) ≤ s.spent.length +
        (if good then writePrice cfg.pass_value (s.buckets a.storage_index) a.now a.tw_vectors else 0)

/-- C11 is false of the code: a write refused by its test vector spends its passes. -/
theorem C11_failed_test_spends_fails : ¬ C11_statement := by
  intro h
  have := h exCfg (exFailing [65]) exServer false [(0, []), (1, [])] (by decide) exServer_wf
    (by unfold Dict.WF; decide) (by decide +kernel)
  revert this
  decide +kernel

/-- C11 is false of the code: a write that succeeds spends every valid pass sent, here six
although the price is five. -/
theorem C11_overspend_fails :
    (remote_slot_writev exCfg (exWritev [65, 66, 67, 68, 69, 70]) exServer).1.spent.length = 6 ∧
    writePrice exCfg.pass_value (exServer.buckets [9]) 100 exTw = 5 ∧
    (remote_slot_writev exCfg (exWritev [65, 66, 67, 68, 69]) exServer).2 =
      .ok (true, [(0, []), (1, [])]) := by
  decide +kernel

/-- C11, the part that holds: a call that ends with an error spends nothing; a call that returns
spends exactly the valid passes sent; so a client that sends exactly the price and whose test
vector passes spends exactly the price. -/
theorem C11_spends_valid_partial (cfg : ServerConfig) (hv : 0 < cfg.pass_value) (a : WritevArgs) (s : Server)
    (hb : Dict.WF (s.buckets a.storage_index)) (htw : Dict.WF a.tw_vectors)
    (ps : List Pass) (h : Parses a.passes ps) :
    (∀ e, (remote_slot_writev cfg a s).2 = .error e → (remote_slot_writev cfg a s).1.spent = s.spent) ∧
    (∀ r, (remote_slot_writev cfg a s).2 = .ok r → (remote_slot_writev cfg a s).1.spent =
      s.spent ++ (ps.filter (cfg.verifies (slot_testv_and_readv_and_writev_message a.storage_index))).map
        Pass.preimage) := by
  by_cases hnl : ∀ kv ∈ a.tw_vectors, kv.2.new_length = none
  · by_cases hlt : (validCount (cfg.verifies (slot_testv_and_readv_and_writev_message a.storage_index)) ps : Int)
        < writePrice cfg.pass_value (s.buckets a.storage_index) a.now a.tw_vectors
    · obtain ⟨f, _, e⟩ := writev_refused cfg hv a s hb htw hnl ps h hlt
      rw [e]; exact ⟨fun _ _ => rfl, fun r hr => by simp at hr⟩
    · rw [writev_granted cfg hv a s hb htw hnl ps h (by omega)]
      split
      · exact ⟨fun _ _ => rfl, fun r hr => by simp at hr⟩
      · split
        · exact ⟨fun e he => by simp at he, fun _ _ => rfl⟩
        · exact ⟨fun _ _ => rfl, fun r hr => by simp at hr⟩
  · have : ∃ kv ∈ a.tw_vectors, kv.2.new_length ≠ none := by
      apply Decidable.byContradiction
      intro hc
      apply hnl
      intro kv hkv
      apply Decidable.byContradiction
      intro hne
      exact hc ⟨kv, hkv, hne⟩
    rw [writev_new_length cfg a s this]
    exact ⟨fun _ _ => rfl, fun r hr => by simp at hr⟩

example : (remote_slot_writev exCfg (exWritev [65, 66, 67, 68, 69]) exServer).1.spent
    = [] ++ ([65, 66, 67, 68, 69].map exPass |>.filter (exCfg.verifies [])).map Pass.preimage :=
  (C11_spends_valid_partial exCfg (by decide) (exWritev [65, 66, 67, 68, 69]) exServer exBucket_wf exTw_wf ([65, 66, 67, 68, 69].map exPass)
    (exParses _ (by decide))).2 (true, [(0, []), (1, [])]) (by decide +kernel)

/-! ### C74: a lease gained by a write is paid for in full -/

/-- C74, full statement: a share that was not leased and is after a successful write was charged
for at its whole size. -/
def C74_statement : Prop :=
  ∀ (cfg : ServerConfig) (a : WritevArgs) (s : Server) (read : Dict Nat (List Bytes)) (n : Nat)
    (share share' : Share), 0 < cfg.pass_value → BucketsWF s → Dict.WF a.tw_vectors →
    (remote_slot_writev cfg a s).2 = .ok (true, read) →
    (s.buckets a.storage_index).lookup n = some share → ¬ Leased share a.now →
    ((remote_slot_writev cfg a s).1.buckets a.storage_index).lookup n = some share' → Leased share' a.now →
      passes cfg.pass_value share'.data.length ≤
        writePrice cfg.pass_value (s.buckets a.storage_index) a.now a.tw_vectors

/-- C74 is false of the code: one pass, charged for a one byte write, renews the lease of an expired
share of 25 bytes that costs three. -/
theorem C74_cheap_renewal_fails : ¬ C74_statement := by
  intro h
  have := h exCfg { exWritev [65] with tw_vectors := [(1, ⟨[], [(0, [1])], none⟩)] } exServer
    [(0, []), (1, [])] 1 ⟨true, [1], List.replicate 25 7, [⟨[5], 10⟩]⟩
    ⟨true, [1], 1 :: List.replicate 24 7, [⟨[5], 10⟩, ⟨[6], 100 + LEASE_PERIOD⟩]⟩
    (by decide) exServer_wf (by unfold Dict.WF; decide) (by decide +kernel) (by decide +kernel)
    (by decide +kernel) (by decide +kernel) (by decide +kernel)
  revert this
  decide +kernel

/-- C74, the part that holds: if the write reaches the end of the share, the share is charged for
in full. -/
theorem C74_covering_write_partial (cfg : ServerConfig) (hv : 0 < cfg.pass_value) (a : WritevArgs) (s : Server)
    (hb : Dict.WF (s.buckets a.storage_index)) (htw : Dict.WF a.tw_vectors)
    (hnl : ∀ kv ∈ a.tw_vectors, kv.2.new_length = none) (ps : List Pass) (h : Parses a.passes ps)
    (read : Dict Nat (List Bytes)) (hok : (remote_slot_writev cfg a s).2 = .ok (true, read))
    (n : Nat) (t : TW) (ht : (n, t) ∈ a.tw_vectors)
    (hnot : ∀ share, (s.buckets a.storage_index).lookup n = some share →
      ¬ Leased share a.now ∧ share.data.length ≤ writtenEnd t.datav)
    (share' : Share)
    (hsh : ((remote_slot_writev cfg a s).1.buckets a.storage_index).lookup n = some share') :
    passes cfg.pass_value share'.data.length ≤
      writePrice cfg.pass_value (s.buckets a.storage_index) a.now a.tw_vectors := by
  have hlk : a.tw_vectors.lookup n = some t := (Dict.lookup_eq_some_iff htw n t).mpr ht
  obtain ⟨_, _, h3, _⟩ := C07_written_shares_leased cfg hv a s hb htw hnl ps h read hok
  obtain ⟨sh2, e1, _, e3, _⟩ := h3 n t hlk
  rw [hsh] at e1
  simp only [Option.some.injEq] at e1
  subst e1
  have hlen : share'.data.length = writtenEnd t.datav := by
    rw [e3]
    cases hs : (s.buckets a.storage_index).lookup n with
    | none => simp
    | some sh => have := (hnot sh hs).2; simp; omega
  have hpaid : paidSize (s.buckets a.storage_index) a.now n = 0 := by
    unfold paidSize
    cases hs : (s.buckets a.storage_index).lookup n with
    | none => rfl
    | some sh => simp [(hnot sh hs).1]
  have hterm : growth cfg.pass_value (paidSize (s.buckets a.storage_index) a.now n) (writtenEnd t.datav)
      = passes cfg.pass_value share'.data.length := by
    rw [hpaid, hlen]; unfold growth
    rw [passes_zero _ hv, Int.max_eq_right (by omega)]; omega
  have hle : ∀ (l : TWVectors), (n, t) ∈ l →
      growth cfg.pass_value (paidSize (s.buckets a.storage_index) a.now n) (writtenEnd t.datav)
        ≤ writePrice cfg.pass_value (s.buckets a.storage_index) a.now l := by
    intro l
    induction l with
    | nil => intro hm; simp at hm
    | cons kv l ih =>
      intro hm
      have h1 := writePrice_nonneg cfg.pass_value hv (s.buckets a.storage_index) a.now l
      have h2 := growth_nonneg cfg.pass_value hv (paidSize (s.buckets a.storage_index) a.now kv.1)
        (writtenEnd kv.2.datav)
      have e : writePrice cfg.pass_value (s.buckets a.storage_index) a.now (kv :: l)
          = growth cfg.pass_value (paidSize (s.buckets a.storage_index) a.now kv.1) (writtenEnd kv.2.datav)
            + writePrice cfg.pass_value (s.buckets a.storage_index) a.now l := rfl
      simp only [List.mem_cons] at hm
      rcases hm with hm | hm
      · subst hm; rw [e]; simp only [] at h2 ⊢; omega
      · have := ih hm; omega
  have := hle a.tw_vectors ht
  omega

/-- In the example write, share 1 is expired and covered, and costs three passes. -/
example : passes 10 (30 : Nat) = 3 ∧ ∃ share', ((remote_slot_writev exCfg (exWritev [65, 65, 65, 65, 65])
      exServer).1.buckets [9]).lookup 1 = some share' ∧ share'.data.length = 30 :=
  ⟨by decide, _, rfl, by decide +kernel⟩

end ZKAP
