import Verif.Lemmas.StorageClient
import Verif.Lemmas.ServerHistory
import Verif.Lemmas.Slot
import Verif.Props.Wire
import Verif.Props.Slot
import Verif.Props.Encoding
import Verif.Spec.Conversation

namespace ZKAP
open Spec

/-! ### Tokens -/

theorem affords_enough {t : Tables} {held : List String} (h : Held t held) (o : Order) {n : Int}
    (hn : Affords t n) : ¬ (((sql_limit n (o.f (select_available t))).length : Int) < n) := by
  obtain ⟨tokens, h1, h2, h3⟩ := hn
  have hl : tokens.length ≤ (o.f (select_available t)).length := by
    rw [(o.perm _).length_eq]
    exact nodup_subset_length h1 fun x hx => (mem_select_available t x).mpr (h2 x hx)
  unfold sql_limit
  split
  · omega
  · rw [List.length_take]; omega

theorem get_affords {sign : Signer} (hs : Signs sign) {t : Tables} {held : List String} (h : Held t held)
    (o : Order) (m : Bytes) {n : Int} (h0 : 0 ≤ n) (h1 : n ≤ 2 ^ 20) (hn : Affords t n) :
    ∃ g t', spending_get sign o m n t = (.ok g, t') ∧ t'.app = t.app ∧ g.message = m ∧
      (g.tokens.length : Int) = n ∧ (∀ x ∈ g.unblinded_tokens, Available t x) ∧
      Held t' (held ++ g.unblinded_tokens) := by
  rcases get_held hs h o m n with he | ⟨g, t', he, h2, h3, h4, h5, h6⟩
  · unfold spending_get at he
    rw [getTokens_wf_eq h.wf, if_neg (by
      have := affords_enough h o hn
      unfold SQLITE3_INTEGER_MAX; omega)] at he
    obtain ⟨ps, hps, -⟩ := hs m (sql_limit n (o.f (select_available t)))
    simp only [hps] at he
    cases he
  · exact ⟨g, t', he, h2, h3, h4 h0, h5, h6⟩

/-- What the passes of a group are like. -/
structure GoodGroup (cfg : ServerConfig) (g : PassGroup) : Prop where
  parses : Parses (g.passes.map Pass.pass_bytes) g.passes
  verify : ∀ p ∈ g.passes, cfg.verifies g.message p = true
  length : ∀ b ∈ g.passes.map Pass.pass_bytes, b.length = 177

theorem good_group {sign : Signer} {cfg : ServerConfig} {t : Tables} (hg : GoodTokens sign cfg t) {g : PassGroup}
    (hm : GroupMade sign g) (ha : ∀ x ∈ g.unblinded_tokens, Available t x) : GoodGroup cfg g := by
  have key : ∀ p ∈ g.passes, Pass.from_bytes p.pass_bytes = .ok p ∧ cfg.verifies g.message p = true := by
    intro p hp
    obtain ⟨xp, hxp, rfl⟩ := List.mem_map.mp hp
    obtain ⟨tokens, made, h1, h2⟩ := hm xp.1 xp.2 hxp
    exact hg.good _ _ _ h1 _ _ h2 (ha _ (List.mem_map_of_mem hxp))
  refine ⟨?_, fun p hp => (key p hp).2, ?_⟩
  · unfold Parses
    rw [List.map_map]
    exact List.map_congr_left fun p hp => (key p hp).1
  · intro b hb
    obtain ⟨p, hp, rfl⟩ := List.mem_map.mp hb
    obtain ⟨-, h2, h3⟩ := C13_parse_sound _ _ (key p hp).1
    unfold Pass.pass_bytes
    rw [List.length_append, List.length_cons, h2, h3]

theorem fits_paid {op : StorageOp} (h : Fits (op.request [])) {ps : List Bytes} (h1 : ps.length ≤ 2 ^ 20)
    (h2 : ∀ b ∈ ps, b.length = 177) : Fits (op.request ps) := by
  have hp : PassesFit ps := ⟨h1, h2⟩
  cases op with
  | allocateBuckets => exact ⟨hp, h.2⟩
  | addLease => exact ⟨hp, h.2⟩
  | writev => exact ⟨hp, h.2⟩
  | _ => exact h

theorem pay_sends {sign : Signer} {cfg : ServerConfig} {t : Tables} (hg : GoodTokens sign cfg t) {held : List String}
    (h : Held t held) (o : Order) (v : Int) {op : StorageOp} (hf : Fits (op.request [])) {n : Int} (h0 : 0 ≤ n)
    (h1 : n ≤ 2 ^ 20) (hn : Affords t n) :
    ∃ g t', pay sign o v op n t =
        (.paying ⟨op.on_success v, n, g⟩, [.sent op (op.request (g.passes.map Pass.pass_bytes))], t') ∧
      t'.app = t.app ∧ g.message = op.message ∧ (g.tokens.length : Int) = n ∧ GoodGroup cfg g ∧
      Held t' (held ++ g.unblinded_tokens) := by
  obtain ⟨g, t', he, h2, h3, h4, h5, h6⟩ := get_affords hg.works h o op.message h0 h1 hn
  have hgood := good_group hg (get_made he).1 h5
  refine ⟨g, t', ?_, h2, h3, h4, hgood, h6⟩
  unfold pay call_start
  rw [he]
  dsimp only [settle, send_paid]
  rw [(C115_calls_arrive _).1 (fits_paid hf (by
    rw [List.length_map, PassGroup.passes, List.length_map]; omega) hgood.length)]

theorem filter_gone_length {l s : List String} (hl : l.Nodup) (hs : s.Nodup) (h : ∀ x ∈ s, x ∈ l) :
    (l.filter (· ∉ s)).length + s.length = l.length := by
  induction s generalizing l with
  | nil => rw [List.filter_eq_self.mpr (by simp)]; simp
  | cons x s ih =>
    obtain ⟨h1, h2⟩ := List.nodup_cons.mp hs
    have hx := h x List.mem_cons_self
    have := ih (l := l.erase x) (hl.erase x) h2 fun y hy =>
      (List.mem_erase_of_ne (fun e : y = x => h1 (e ▸ hy))).mpr (h y (List.mem_cons_of_mem _ hy))
    have hlen := List.length_erase_of_mem hx
    have hpos := List.length_pos_of_mem hx
    have e : l.filter (· ∉ x :: s) = (l.erase x).filter (· ∉ s) := by
      rw [hl.erase_eq_filter, List.filter_filter]
      apply List.filter_congr
      intro y _
      simp only [List.mem_cons, not_or, bne_iff_ne, Bool.decide_and, ne_eq]
      grind
    rw [e, List.length_cons]
    omega

theorem spent_tokens_length {t : Tables} {held s : List String} (h : Held t held) (hs : s.Nodup)
    (hm : ∀ x ∈ s, x ∈ held) {t' : Tables}
    (he : t'.app = { t.app with unblinded := t.app.unblinded.filter (·.token ∉ s) }) :
    (storedTokens t').length + s.length = (storedTokens t).length := by
  have e : storedTokens t' = (storedTokens t).filter (· ∉ s) := by
    unfold storedTokens
    rw [he, List.filter_map]
    rfl
  rw [e]
  refine filter_gone_length h.wf.unblinded hs fun x hx => ?_
  obtain ⟨r, hr, hrx, -⟩ := h.wf.in_use_stored x (h.perm.mem_iff.mpr (hm x hx))
  exact List.mem_map.mpr ⟨r, hr, hrx⟩

/-! ### Answers -/

theorem required_passesE_ok {v : Int} (hv : 0 < v) (l : List Int) : required_passesE v l = .ok (total v l) := by
  induction l with
  | nil => rfl
  | cons x l ih =>
    unfold required_passesE
    rw [if_neg (by omega), ih, passes_for_size_eq v x hv]
    rfl

/-- What the client does with an answer that says yes. -/
theorem paid_returns {sign : Signer} {v : Int} (hv : 0 < v) {op : StorageOp} {n : Int} {g : PassGroup} {t : Tables}
    {held : List String} (h : Held t (held ++ g.unblinded_tokens)) (o : Order) {w : Wire} {r : OpResult} {k : Nat}
    (hr : paid_result w op = .ok (r, k)) {price : Nat}
    (hp : ∀ si renew cancel nums size canary, op = .allocateBuckets si renew cancel nums size canary →
      (price : Int) = total v (List.replicate k (size : Int)) ∧ price ≤ g.tokens.length)
    (hp' : (∀ si renew cancel nums size canary, op ≠ .allocateBuckets si renew cancel nums size canary) →
      price = g.tokens.length) :
    ∃ t', op_paid sign o op ⟨op.on_success v, n, g⟩ (.result w) t = (.over, [.returned op r], t') ∧
      (storedTokens t').length + price = (storedTokens t).length ∧ t'.app.invalid = t.app.invalid := by
  have hlen : g.unblinded_tokens.length = g.tokens.length := by
    unfold PassGroup.unblinded_tokens; rw [List.length_map]
  have hnd : g.unblinded_tokens.Nodup := (List.nodup_append.mp h.nodup).2.1
  have hmem : ∀ x ∈ g.unblinded_tokens, x ∈ held ++ g.unblinded_tokens := fun x hx =>
    List.mem_append_right _ hx
  have hfc : Reply.for_call op (.result w) = (.ok k, r) := by
    unfold Reply.for_call
    dsimp only
    rw [hr]
  unfold op_paid
  rw [hfc]
  dsimp only
  obtain ⟨s, t', h1, -, -, h4⟩ := answer_ok_held (sign := sign) (a := held) (b := []) (by simpa using h) o
    (op.on_success v) n k
  rw [h1]
  by_cases hop : ∃ si renew cancel nums size canary, op = .allocateBuckets si renew cancel nums size canary
  · obtain ⟨si, renew, cancel, nums, size, canary, rfl⟩ := hop
    obtain ⟨hpr, hle⟩ := hp _ _ _ _ _ _ rfl
    have hreq : required_passesE v (List.replicate k (size : Int)) =
        .ok (total v (List.replicate k (size : Int))) := required_passesE_ok hv _
    dsimp only [StorageOp.on_success] at h4
    rw [hreq] at h4
    dsimp only at h4
    obtain ⟨rfl, happ⟩ := h4
    refine ⟨t', rfl, ?_, by rw [happ]⟩
    have := spent_tokens_length h ((List.take_sublist _ _).nodup hnd)
      (fun x hx => hmem x (List.mem_of_mem_take hx)) happ
    rw [List.length_take] at this
    omega
  · have hne : op.on_success v = .spendAll := by
      cases op with
      | allocateBuckets => exact absurd ⟨_, _, _, _, _, _, rfl⟩ hop
      | _ => rfl
    rw [hne] at h4
    dsimp only at h4
    obtain ⟨rfl, happ⟩ := h4
    refine ⟨t', rfl, ?_, by rw [happ]⟩
    have := spent_tokens_length h hnd hmem happ
    have := hp' fun si renew cancel nums size canary e => hop ⟨_, _, _, _, _, _, e⟩
    omega

/-! ### The server -/

theorem all_valid {cfg : ServerConfig} {g : PassGroup} (h : GoodGroup cfg g) :
    g.passes.filter (cfg.verifies g.message) = g.passes :=
  List.filter_eq_self.mpr h.verify

/-- The server performs an upload that is paid for. -/
theorem reply_allocate {cfg : ServerConfig} (hv : 0 < cfg.pass_value) (m : Moment) (s : Server)
    {si renew cancel : Bytes} {nums : List Nat} {size canary : Nat} {g : PassGroup} (hg : GoodGroup cfg g)
    (hm : g.message = allocate_buckets_message si)
    (hl : (g.tokens.length : Int) = total cfg.pass_value (List.replicate nums.length (size : Int))) :
    ∃ s' w r k records, server_reply cfg m s (.allocateBuckets (g.passes.map Pass.pass_bytes) si renew cancel nums
        size canary) = (s', .result w) ∧
      paid_result w (.allocateBuckets si renew cancel nums size canary) = .ok (r, k) ∧
      s'.writers.length = s.writers.length + k ∧ s'.spent = s.spent ++ records ∧
      (records.length : Int) = total cfg.pass_value (List.replicate k (size : Int)) ∧
      records.length ≤ g.tokens.length := by
  have hpl : g.passes.length = g.tokens.length := by unfold PassGroup.passes; rw [List.length_map]
  have hval := all_valid hg
  rw [hm] at hval
  have hgr := allocate_granted cfg hv ⟨g.passes.map Pass.pass_bytes, si, renew, nums, size, canary, m.server_now,
    m.room⟩ s g.passes hg.parses (by
      dsimp only [validCount]
      rw [hval, hpl, hl, total_replicate]
      exact Int.le_refl _)
  dsimp only at hgr
  rw [hval] at hgr
  unfold server_reply
  dsimp only
  rw [hgr]
  dsimp only
  obtain ⟨h1, -, -, -, new, h5, h6, -⟩ := opened_spec ⟨g.passes.map Pass.pass_bytes, si, renew, nums, size, canary,
    m.server_now, m.room⟩ (original_accepted s si nums m.room) s
  have hacc : (original_accepted s si nums m.room).length ≤ nums.length := List.length_filter_le _ _
  have hnn := passes_nonneg cfg.pass_value hv (a := (size : Int)) (by omega)
  have hle : ((original_accepted s si nums m.room).length : Int) * passes cfg.pass_value size ≤
      (nums.length : Int) * passes cfg.pass_value size :=
    Int.mul_le_mul_of_nonneg_right (by omega) hnn
  have h0 : 0 ≤ ((original_accepted s si nums m.room).length : Int) * passes cfg.pass_value size :=
    Int.mul_nonneg (by omega) hnn
  rw [total_replicate] at hl
  have hpr : ∀ a d, paid_result (.tuple [a, .dict d]) (.allocateBuckets si renew cancel nums size canary) =
      .ok (.allocated a (.dict d), d.length) := fun a d => rfl
  have hdl : ((original_accepted s si nums m.room).zipIdx s.next_bw |>.map fun nb =>
      (Wire.int nb.1, Wire.ref nb.2)).length = (original_accepted s si nums m.room).length := by
    rw [List.length_map, List.length_zipIdx]
  refine ⟨_, _, _, _, _, rfl, hpr _ _, ?_, rfl, ?_, ?_⟩
  · dsimp only
    rw [h5, List.length_append, hdl, ← h6, List.length_map]
  · rw [hdl, List.length_take, List.length_map, hpl, total_replicate]
    omega
  · rw [List.length_take, List.length_map, hpl]
    omega

/-- The server performs a lease renewal that is paid for. -/
theorem reply_add_lease {cfg : ServerConfig} (hv : 0 < cfg.pass_value) (m : Moment) (s : Server)
    {si renew cancel : Bytes} {g : PassGroup} (hg : GoodGroup cfg g) (hm : g.message = add_lease_message si)
    (hb : Dict.WF (s.buckets si)) (hroom : ∀ n, m.room n = true)
    (hl : bucketPrice cfg.pass_value (s.buckets si) ≤ g.tokens.length) :
    ∃ s' w r k records, server_reply cfg m s (.addLease (g.passes.map Pass.pass_bytes) si renew cancel) =
        (s', .result w) ∧ paid_result w (.addLease si renew cancel) = .ok (r, k) ∧
      s'.spent = s.spent ++ records ∧ records.length = g.tokens.length := by
  have hpl : g.passes.length = g.tokens.length := by unfold PassGroup.passes; rw [List.length_map]
  have hval := all_valid hg
  rw [hm] at hval
  have hgr := add_lease_granted cfg hv ⟨g.passes.map Pass.pass_bytes, si, renew, m.server_now, m.room⟩ s hb g.passes
    hg.parses (by dsimp only [validCount]; rw [hval, hpl]; exact hl)
  dsimp only at hgr
  rw [hval, if_pos (by exact loop_completes m.room hroom _ _ _)] at hgr
  unfold server_reply
  dsimp only
  rw [hgr]
  exact ⟨_, _, _, _, _, rfl, rfl, rfl, by rw [List.length_map, hpl]⟩

/-- The server performs a slot write that is paid for. -/
theorem reply_writev {cfg : ServerConfig} (hv : 0 < cfg.pass_value) (m : Moment) (s : Server)
    {si : Bytes} {secrets : Bytes × Bytes × Bytes} {tw : TWVectors} {rv : List (Nat × Nat)} {g : PassGroup}
    (hg : GoodGroup cfg g) (hm : g.message = slot_testv_and_readv_and_writev_message si)
    (hb : Dict.WF (s.buckets si)) (htw : Dict.WF tw) (hnl : ∀ kv ∈ tw, kv.2.new_length = none)
    (hroom : ∀ n, m.room n = true)
    (hkind : ∀ kv ∈ s.buckets si, kv.2.is_mutable = true ∧ kv.2.write_enabler = secrets.1)
    (hl : writePrice cfg.pass_value (s.buckets si) m.server_now tw ≤ g.tokens.length) :
    ∃ s' w r k records, server_reply cfg m s (.writev (g.passes.map Pass.pass_bytes) si secrets tw rv) =
        (s', .result w) ∧ paid_result w (.writev si secrets tw rv) = .ok (r, k) ∧
      s'.spent = s.spent ++ records ∧ records.length = g.tokens.length := by
  have hpl : g.passes.length = g.tokens.length := by unfold PassGroup.passes; rw [List.length_map]
  have hval := all_valid hg
  rw [hm] at hval
  have hgr := writev_granted cfg hv ⟨g.passes.map Pass.pass_bytes, si, secrets.1, secrets.2.1, tw, rv, m.server_now,
    m.room⟩ s hb htw hnl g.passes hg.parses (by dsimp only [validCount]; rw [hval, hpl]; exact hl)
  dsimp only at hgr
  rw [hval] at hgr
  have hor : ∃ bucket good, original_slot_writev secrets.1 (s.buckets si) tw rv =
      .ok (bucket, good, original_evaluate_read_vectors (s.buckets si) rv) := by
    unfold original_slot_writev
    rw [if_neg, if_neg]
    · dsimp only
      split
      · exact ⟨_, _, rfl⟩
      · exact ⟨_, _, rfl⟩
    · simp only [List.any_eq_true, not_exists, not_and, bne_iff_ne, ne_eq, Classical.not_not]
      exact fun kv hkv => (hkind kv hkv).2
    · simp only [List.any_eq_true, not_exists, not_and, Bool.not_eq_true', Bool.not_eq_false]
      exact fun kv hkv => (hkind kv hkv).1
  obtain ⟨bucket, good, hor⟩ := hor
  rw [hor] at hgr
  dsimp only at hgr
  rw [if_pos (by exact loop_completes m.room hroom _ _ _)] at hgr
  unfold server_reply
  dsimp only
  rw [hgr]
  dsimp only
  obtain ⟨r, hr⟩ : ∃ r, client_writev_answer (.tuple [.bool good,
      .dict ((original_evaluate_read_vectors (s.buckets si) rv).map read_to_wire)]) = .ok r := by
    refine ⟨_, ((C117_write_partial _).1 (good, _)).mpr ⟨good,
      (original_evaluate_read_vectors (s.buckets si) rv).map fun kv => ((kv.1 : Int), kv.2), ⟨_, rfl, ?_⟩, rfl⟩⟩
    unfold Items
    rw [List.map_map, List.map_map]
    apply List.map_congr_left
    intro kv _
    show (some (kv.1 : Int), wire_list wire_bytes (byte_strings_to_wire kv.2)) = _
    unfold byte_strings_to_wire
    show (some (kv.1 : Int), wire_each wire_bytes (kv.2.map Wire.bytes)) = _
    rw [wire_each_map wire_bytes Wire.bytes fun _ => rfl]
    rfl
  refine ⟨_, _, .written r.1 r.2, 0, _, rfl, ?_, rfl, by rw [List.length_map, hpl]⟩
  show (match client_writev_answer _ with
    | .error e => _
    | .ok (ok, data) => _) = _
  rw [hr]

/-! ### Prices -/

theorem growth_antitone (v : Int) (hv : 0 < v) {a b : Int} (h : a ≤ b) (n : Int) : growth v b n ≤ growth v a n := by
  unfold growth
  have h1 := passes_mono v hv h
  have h2 := growth_nonneg v hv a n
  unfold growth at h2
  by_cases hb : b ≤ n
  · rw [Int.max_eq_right hb, Int.max_eq_right (by omega)]; omega
  · rw [Int.max_eq_left (by omega : n ≤ b)]; omega

theorem paid_size_mono {bucket : Bucket} {now later : Int}
    (h : ∀ kv ∈ bucket, Leased kv.2 now → Leased kv.2 later) (n : Nat) :
    paidSize bucket now n ≤ paidSize bucket later n := by
  unfold paidSize
  cases hl : bucket.lookup n with
  | none => exact Int.le_refl _
  | some share =>
    have hm : (n, share) ∈ bucket := by
      obtain ⟨l1, l2, e, -⟩ := List.lookup_eq_some_iff.mp hl
      rw [e]
      exact List.mem_append_right _ List.mem_cons_self
    dsimp only
    by_cases h1 : Leased share now
    · rw [if_pos h1, if_pos (h _ hm h1)]; exact Int.le_refl _
    · rw [if_neg h1]; split <;> omega

theorem write_price_later {v : Int} (hv : 0 < v) {bucket : Bucket} {now later : Int}
    (h : ∀ kv ∈ bucket, Leased kv.2 now → Leased kv.2 later) (tw : TWVectors) :
    writePrice v bucket later tw ≤ writePrice v bucket now tw := by
  unfold writePrice
  induction tw with
  | nil => exact Int.le_refl _
  | cons kv tw ih =>
    rw [List.map_cons, List.map_cons, List.sum_cons, List.sum_cons]
    have := growth_antitone v hv (paid_size_mono h kv.1) (writtenEnd kv.2.datav)
    omega

theorem write_price_no_data {v : Int} (bucket : Bucket) (now : Int) {tw : TWVectors}
    (h : ∀ kv ∈ tw, kv.2.datav = []) : writePrice v bucket now tw = 0 := by
  unfold writePrice
  induction tw with
  | nil => rfl
  | cons kv tw ih =>
    rw [List.map_cons, List.sum_cons, ih fun kv hkv => h kv (List.mem_cons_of_mem _ hkv),
      h kv List.mem_cons_self]
    show growth v _ 0 + 0 = 0
    rw [growth_zero v _ (paidSize_nonneg _ _ _)]
    rfl

theorem bucket_price_nonneg {v : Int} (hv : 0 < v) (bucket : Bucket) : 0 ≤ bucketPrice v bucket := by
  unfold bucketPrice
  induction bucket with
  | nil => exact Int.le_refl _
  | cons kv b ih =>
    rw [List.map_cons, List.sum_cons]
    have := passes_nonneg v hv (a := (kv.2.data.length : Int)) (by omega)
    omega

theorem lease_answer_price {v : Int} (hv : 0 < v) {s : Server} {si : SI} (h : Tellable (s.buckets si)) :
    client_add_lease_price v (.dict ((remote_share_sizes s si none).map fun kv => (.int kv.1, .int kv.2))) =
      .ok (bucketPrice v (s.buckets si)) := by
  have hsz : get_share_sizes (s.buckets si) none =
      (s.buckets si).map (fun kv => (kv.1, (kv.2.data.length : Int))) := by
    unfold get_share_sizes get_share_stats
    rw [List.filter_eq_self.mpr (fun _ _ => rfl), List.map_map]
    rfl
  have hwf : Dict.WF (get_share_sizes (s.buckets si) none) := wf_share_sizes h.1 none
  have hrem : remote_share_sizes s si none = get_share_sizes (s.buckets si) none := Dict.ofItems_wf _ hwf
  have hitems : (get_share_sizes (s.buckets si) none).map (fun kv => ((kv.1 : Int), kv.2)) =
      (s.buckets si).map (fun kv => ((kv.1 : Int), (kv.2.data.length : Int))) := by
    rw [hsz, List.map_map]; rfl
  have hwf2 : Dict.WF ((get_share_sizes (s.buckets si) none).map (fun kv => ((kv.1 : Int), kv.2))) := by
    unfold Dict.WF at hwf ⊢
    rw [List.map_map, show (Prod.fst ∘ fun kv : Nat × Int => ((kv.1 : Int), kv.2)) = (fun n : Nat => (n : Int)) ∘ Prod.fst
      from rfl, ← List.map_map]
    exact hwf.map _ fun a b hab => by omega
  have hans := ((C117_sizes_partial (.dict ((remote_share_sizes s si none).map fun kv =>
      (.int kv.1, .int kv.2)))).1 _).mpr
    ⟨(get_share_sizes (s.buckets si) none).map (fun kv => ((kv.1 : Int), kv.2)), ⟨_, rfl, by
      rw [hrem]
      unfold Items
      rw [List.map_map, List.map_map]
      rfl, by
      intro it hit
      rw [hitems] at hit
      obtain ⟨kv, hkv, rfl⟩ := List.mem_map.mp hit
      obtain ⟨h1, h2⟩ := h.2 kv hkv
      exact ⟨⟨by dsimp only; omega, by dsimp only; omega⟩, by dsimp only; omega⟩⟩, rfl⟩
  unfold client_add_lease_price
  rw [hans]
  dsimp only
  rw [Dict.ofItems_wf _ hwf2, required_passes_eq v hv]
  unfold Dict.values
  rw [hitems, List.map_map, total, bucketPrice, List.map_map]
  rfl

theorem write_answer_price {v : Int} (hv : 0 < v) {s : Server} {si : SI} (h : Tellable (s.buckets si))
    {tw : TWVectors} (htw : Dict.WF tw) (hnl : ∀ kv ∈ tw, kv.2.new_length = none) {now : Int} (h0 : 0 ≤ now) :
    client_writev_price v (.list ((remote_stat_shares s [si]).map fun d => .dict (d.map stat_to_wire))) tw now =
      .ok (writePrice v (s.buckets si) now tw) := by
  obtain ⟨stats, h1, h2⟩ := C02_wire_price v hv s si h.1 (fun kv hkv => (h.2 kv hkv).1) tw htw now h0
  rw [h1, ← server_price_eq v hv h.1 tw htw now hnl, ← h2]
  rfl

/-! ### Turns -/

theorem turn_asked {sign : Signer} {cfg : ServerConfig} {v : Int} {t : Tables} {asked : List StorageOp}
    {paying : List (StorageOp × Call)} {log : List Out} {op : StorageOp} {r : StorageRequest} {before server : Server}
    (hr : r.with_passes = false) (m : Moment) {server' : Server} {reply : Reply}
    (hs : server_reply cfg m (server.run cfg m.others) r = (server', reply)) {state : OpState} {out : List Out}
    {t' : Tables} (hm : op_asked sign m.order v m.client_now op reply t = (state, out, t')) :
    Talk.turn sign cfg v ⟨⟨t, asked ++ [op], paying, log ++ [.sent op r]⟩, before, server⟩ m =
      ⟨⟨t', asked ++ still_asked op state, paying ++ still_paying op state,
        log ++ [.sent op r] ++ .got op reply m.client_now :: out⟩, server.run cfg m.others, server'⟩ := by
  unfold Talk.turn
  dsimp only
  rw [List.getLast?_concat]
  dsimp only
  rw [hs, hr]
  dsimp only [StorageSession.step]
  rw [if_neg (by decide)]
  have hi : (asked ++ [op]).length - 1 = asked.length := by simp
  rw [hi]
  dsimp only
  rw [List.getElem?_concat_length]
  dsimp only
  rw [hm]
  dsimp only
  rw [List.take_left, List.drop_eq_nil_of_le (by simp), List.append_nil]

theorem turn_paid {sign : Signer} {cfg : ServerConfig} {v : Int} {t : Tables} {asked : List StorageOp}
    {paying : List (StorageOp × Call)} {c : Call} {log : List Out} {op : StorageOp} {r : StorageRequest}
    {before server : Server} (hr : r.with_passes = true) (m : Moment) {server' : Server} {reply : Reply}
    (hs : server_reply cfg m (server.run cfg m.others) r = (server', reply)) {out : List Out}
    {t' : Tables} (hm : op_paid sign m.order op c reply t = (.over, out, t')) :
    Talk.turn sign cfg v ⟨⟨t, asked, paying ++ [(op, c)], log ++ [.sent op r]⟩, before, server⟩ m =
      ⟨⟨t', asked, paying, log ++ [.sent op r] ++ .got op reply m.client_now :: out⟩,
        server.run cfg m.others, server'⟩ := by
  unfold Talk.turn
  dsimp only
  rw [List.getLast?_concat]
  dsimp only
  rw [hs, hr]
  dsimp only [StorageSession.step]
  rw [if_pos rfl]
  have hi : (paying ++ [(op, c)]).length - 1 = paying.length := by simp
  rw [hi]
  dsimp only
  rw [List.getElem?_concat_length]
  dsimp only
  rw [hm]
  dsimp only
  rw [List.take_left, List.drop_eq_nil_of_le (by simp), List.append_nil]
  simp only [still_paying, List.append_nil]

theorem turn_over {sign : Signer} {cfg : ServerConfig} {v : Int} {k : Talk} {op : StorageOp} {r : OpResult}
    (h : k.client.log.getLast? = some (.returned op r)) (m : Moment) : Talk.turn sign cfg v k m = k := by
  unfold Talk.turn
  rw [h]

end ZKAP
