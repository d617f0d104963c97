import Verif.Lemmas.ServerOps

namespace ZKAP
open Spec

/-! ### Disconnect registrations -/

/-- Bookkeeping invariant: markers, registrations and open writers correspond one to one. -/
structure Tidy (s : Server) : Prop where
  same : s.next_marker = s.next_bw
  regs : s.registrations = s.writers.map (fun w => (w.canary, w.bw, w.bw))
  marks : s.markers = s.writers.map (fun w => (w.bw, (w.canary, w.bw)))
  nodup : (s.writers.map Writer.bw).Nodup
  fresh : ∀ w ∈ s.writers, w.bw < s.next_bw

theorem tidy_open (a : AllocateArgs) (s : Server) (n : Nat) (h : Tidy s) : Tidy (open_writer a s n) := by
  obtain ⟨h1, h2, h3, h4, h5⟩ := h
  constructor
  · simp [open_writer, h1]
  · simp [open_writer, h1, h2]
  · simp only [open_writer, h1, h3, List.map_append, List.map_cons, List.map_nil]
    apply Dict.set_append_new
    rw [List.map_map]
    intro hm
    rw [List.mem_map] at hm
    obtain ⟨w, hw, e⟩ := hm
    have := h5 w hw
    simp at e; omega
  · simp only [open_writer, List.map_append, List.map_cons, List.map_nil, List.nodup_append]
    refine ⟨h4, by simp, ?_⟩
    intro x hx y hy
    rw [List.mem_map] at hx
    obtain ⟨w, hw, rfl⟩ := hx
    have := h5 w hw
    simp at hy; omega
  · intro w hw
    simp only [open_writer, List.mem_append, List.mem_singleton] at hw ⊢
    rcases hw with hw | rfl
    · have := h5 w hw; omega
    · simp

theorem lookup_marks (ws : List Writer) (hn : (ws.map Writer.bw).Nodup) (w : Writer) (hw : w ∈ ws) :
    (ws.map (fun w => (w.bw, (w.canary, w.bw)))).lookup w.bw = some (w.canary, w.bw) := by
  have hwf : Dict.WF (ws.map (fun w => (w.bw, (w.canary, w.bw)))) := by
    unfold Dict.WF; rw [List.map_map]; exact hn
  exact (Dict.lookup_eq_some_iff hwf _ _).mpr (List.mem_map.mpr ⟨w, hw, rfl⟩)

theorem eq_of_bw (ws : List Writer) (hn : (ws.map Writer.bw).Nodup) (w w' : Writer) (hw : w ∈ ws)
    (hw' : w' ∈ ws) (e : w.bw = w'.bw) : w = w' := by
  induction ws with
  | nil => simp at hw
  | cons x ws ih =>
    simp only [List.map_cons, List.nodup_cons, List.mem_map, not_exists, not_and] at hn
    simp only [List.mem_cons] at hw hw'
    rcases hw with rfl | hw <;> rcases hw' with rfl | hw'
    · rfl
    · exact absurd e.symm (hn.1 w' hw')
    · exact absurd e (hn.1 w hw)
    · exact ih hn.2 hw hw'

/-- Removing a writer and running its close handler keeps the books tidy. -/
theorem tidy_remove (s : Server) (h : Tidy s) (b : SI → Bucket) (w : Writer) (hw : w ∈ s.writers) :
    Tidy (bucket_writer_closed { s with buckets := b, writers := s.writers.filter (fun x => x.bw != w.bw) } w.bw) ∧
    (bucket_writer_closed { s with buckets := b, writers := s.writers.filter (fun x => x.bw != w.bw) } w.bw).writers
      = s.writers.filter (fun x => x.bw != w.bw) := by
  obtain ⟨h1, h2, h3, h4, h5⟩ := h
  have hl : s.markers.lookup w.bw = some (w.canary, w.bw) := by
    rw [h3]; exact lookup_marks _ h4 w hw
  unfold bucket_writer_closed
  simp only [hl, and_true]
  constructor
  · exact h1
  · simp only [h2, List.filter_map]
    congr 1
    apply List.filter_congr
    intro x hx
    simp only [Function.comp]
    by_cases e : x.bw = w.bw
    · have := eq_of_bw _ h4 x w hx hw e
      subst this; simp
    · have hb : (x.bw == w.bw) = false := by simp [e]
      simp [hb, bne]
  · simp only [h3, List.filter_map]
    rfl
  · exact List.Nodup.sublist (List.Sublist.map _ List.filter_sublist) h4
  · intro x hx
    exact h5 x ((List.mem_filter.mp hx).1)

theorem find_bw {s : Server} {bw : Nat} {w : Writer} (hf : s.writers.find? (fun w => w.bw == bw) = some w) :
    w ∈ s.writers ∧ w.bw = bw :=
  ⟨List.mem_of_find?_eq_some hf, by simpa using List.find?_some hf⟩

theorem tidy_abort (s : Server) (h : Tidy s) (bw : Nat) :
    Tidy (original_abort s bw) ∧
    (original_abort s bw).writers = s.writers.filter (fun x => x.bw != bw) := by
  unfold original_abort
  cases hf : s.writers.find? (fun w => w.bw == bw) with
  | none =>
    refine ⟨h, ?_⟩
    rw [List.filter_eq_self.mpr]
    intro w hw
    have := List.find?_eq_none.mp hf w hw
    simpa using this
  | some w =>
    obtain ⟨hw, e⟩ := find_bw hf
    subst e
    exact tidy_remove s h s.buckets w hw

theorem tidy_aborts (l : List (Nat × Nat × Nat)) : ∀ s : Server, Tidy s →
    Tidy (l.foldl (fun s r => original_abort s r.2.2) s) ∧
    (l.foldl (fun s r => original_abort s r.2.2) s).writers
      = s.writers.filter (fun w => !(l.any (fun r => r.2.2 == w.bw))) := by
  induction l with
  | nil => intro s h; refine ⟨h, ?_⟩; simp only [List.foldl_nil, List.any_nil, Bool.not_false]; rw [List.filter_eq_self.mpr (by simp)]
  | cons r l ih =>
    intro s h
    obtain ⟨h1, h2⟩ := tidy_abort s h r.2.2
    obtain ⟨h3, h4⟩ := ih _ h1
    refine ⟨h3, ?_⟩
    simp only [List.foldl_cons]
    rw [h4, h2, List.filter_filter]
    apply List.filter_congr
    intro w _
    simp only [List.any_cons, Bool.not_or, bne]
    rw [Bool.and_comm, BEq.comm]

theorem tidy_disconnect (s : Server) (h : Tidy s) (c : Nat) :
    Tidy (ZKAP.disconnect s c) ∧ (ZKAP.disconnect s c).writers = s.writers.filter (fun w => w.canary != c) := by
  unfold ZKAP.disconnect
  simp only []
  obtain ⟨t, hw⟩ := tidy_aborts (s.registrations.filter (fun r => r.1 == c)) s h
  have hcond : s.writers.filter (fun w =>
      !((s.registrations.filter (fun r => r.1 == c)).any (fun r => r.2.2 == w.bw)))
        = s.writers.filter (fun w => w.canary != c) := by
    apply List.filter_congr
    intro w hwm
    rw [h.regs]
    rw [Bool.eq_iff_iff]
    simp only [Bool.not_eq_true', List.any_eq_false, List.mem_filter, List.mem_map, beq_iff_eq, bne_iff_ne,
      and_imp, forall_exists_index]
    constructor
    · intro hh e
      exact hh (w.canary, w.bw, w.bw) w hwm rfl e rfl
    · rintro hne r x hx rfl hc e
      have := eq_of_bw _ h.nodup x w hx hwm e
      subst this; exact hne hc
  rw [hcond] at hw
  refine ⟨?_, hw⟩
  obtain ⟨h1, h2, h3, h4, h5⟩ := t
  constructor
  · exact h1
  · simp only []
    rw [List.filter_eq_self.mpr]
    · exact h2
    · intro r hr
      rw [h2, hw, List.mem_map] at hr
      obtain ⟨w, hwm, rfl⟩ := hr
      exact (List.mem_filter.mp hwm).2
  · exact h3
  · exact h4
  · exact h5

theorem tidy_opened (a : AllocateArgs) (l : List Nat) : ∀ s, Tidy s → Tidy (opened a s l) := by
  induction l with
  | nil => intro s h; exact h
  | cons n l ih => intro s h; exact ih _ (tidy_open a s n h)

theorem tidy_congr {s t : Server} (h : Tidy s) (e1 : t.writers = s.writers) (e2 : t.next_bw = s.next_bw)
    (e3 : t.markers = s.markers) (e4 : t.registrations = s.registrations) (e5 : t.next_marker = s.next_marker) :
    Tidy t := by
  obtain ⟨h1, h2, h3, h4, h5⟩ := h
  exact ⟨by rw [e5, e2, h1], by rw [e4, e1, h2], by rw [e3, e1, h3], by rw [e1]; exact h4,
    by rw [e1, e2]; exact h5⟩

theorem tidy_step (cfg : ServerConfig) (s : Server) (h : Tidy s) (op : ServerOp) : Tidy (s.step cfg op) := by
  cases op with
  | allocate a =>
    show Tidy (remote_allocate_buckets cfg a s).1
    unfold remote_allocate_buckets
    split
    · exact h
    · split
      · exact h
      · exact tidy_congr (tidy_opened a (original_accepted s a.storage_index a.sharenums a.accept) s h)
          rfl rfl rfl rfl rfl
  | addLease a =>
    show Tidy (remote_add_lease cfg a s).1
    unfold remote_add_lease
    split
    · exact h
    · split
      · exact h
      · simp only []
        split <;> exact tidy_congr h rfl rfl rfl rfl rfl
  | writev a =>
    show Tidy (remote_slot_writev cfg a s).1
    unfold remote_slot_writev
    split
    · exact h
    · split
      · exact h
      · simp only []
        split
        · exact h
        · split
          · exact h
          · split <;> exact tidy_congr h rfl rfl rfl rfl rfl
  | close bw data =>
    show Tidy (original_close s bw data)
    unfold original_close
    cases hf : s.writers.find? (fun w => w.bw == bw) with
    | none => exact h
    | some w =>
      obtain ⟨hw, e⟩ := find_bw hf
      subst e
      exact (tidy_remove s h _ w hw).1
  | abort bw => exact (tidy_abort s h bw).1
  | disconnect c => exact (tidy_disconnect s h c).1

theorem tidy_run (cfg : ServerConfig) (ops : List ServerOp) : ∀ s, Tidy s → Tidy (s.run cfg ops) := by
  induction ops with
  | nil => intro s h; exact h
  | cons op ops ih => intro s h; exact ih _ (tidy_step cfg s h op)

theorem tidy_init (b : SI → Bucket) : Tidy (Server.init b) :=
  ⟨rfl, rfl, rfl, by simp [Server.init], by simp [Server.init]⟩

/-! ### Everything stored was paid for -/

theorem bucketPrice_nonneg (v : Int) (hv : 0 < v) (b : Bucket) : 0 ≤ bucketPrice v b := by
  unfold bucketPrice
  apply sum_nonneg
  intro x hx
  rw [List.mem_map] at hx
  obtain ⟨kv, _, rfl⟩ := hx
  exact passes_nonneg v hv (by omega)

/-- Price of the share at `n`, nothing if there is none. -/
def sharePrice (v : Int) (b : Bucket) (n : Nat) : Int :=
  match b.lookup n with
  | none => 0
  | some sh => passes v sh.data.length

theorem bucketPrice_set (v : Int) (b : Bucket) (n : Nat) (sh : Share) :
    bucketPrice v (b.set n sh) = bucketPrice v b - sharePrice v b n + passes v sh.data.length := by
  induction b with
  | nil => simp [Dict.set, bucketPrice, sharePrice]
  | cons kv b ih =>
    obtain ⟨a, x⟩ := kv
    unfold Dict.set
    by_cases e : a = n
    · subst e
      simp [bucketPrice, sharePrice]; omega
    · have h1 : (a == n) = false := by simp [e]
      have h2 : (n == a) = false := by simp [Ne.symm e]
      have hs : sharePrice v ((a, x) :: b) n = sharePrice v b n := by
        unfold sharePrice; rw [List.lookup_cons, h2]
      rw [hs]
      simp only [h1, Bool.false_eq_true, if_false]
      unfold bucketPrice at ih ⊢
      simp only [List.map_cons, List.sum_cons, ih]
      omega

theorem sharePrice_nonneg (v : Int) (hv : 0 < v) (b : Bucket) (n : Nat) : 0 ≤ sharePrice v b n := by
  unfold sharePrice
  split
  · omega
  · exact passes_nonneg v hv (by omega)

/-- Writing costs at least the growth of the price of the slot. -/
theorem bucketPrice_write (v : Int) (hv : 0 < v) (we : Secret) (b0 : Bucket) (now : Int) (tw : TWVectors) :
    ∀ b : Bucket, Dict.WF tw → (∀ kv ∈ tw, b.lookup kv.1 = b0.lookup kv.1) →
    bucketPrice v (original_evaluate_write_vectors we b tw) ≤ bucketPrice v b + writePrice v b0 now tw := by
  induction tw with
  | nil => intro b _ _; simp [original_evaluate_write_vectors, writePrice]
  | cons kv tw ih =>
    intro b hwf hsame
    obtain ⟨n, t⟩ := kv
    have hn : n ∉ tw.map Prod.fst ∧ (tw.map Prod.fst).Nodup := by
      have : (n :: tw.map Prod.fst).Nodup := hwf
      simpa using List.nodup_cons.mp this
    have hrec := ih (original_write_share we b (n, t)) hn.2 (by
      intro kv hkv
      have hne : kv.1 ≠ n := fun e => hn.1 (e ▸ List.mem_map_of_mem hkv)
      unfold original_write_share
      simp only []
      rw [Dict.lookup_set]
      have : (kv.1 == n) = false := by simp [hne]
      rw [this]
      exact hsame kv (by simp [hkv]))
    have e1 : original_evaluate_write_vectors we b ((n, t) :: tw)
        = original_evaluate_write_vectors we (original_write_share we b (n, t)) tw := rfl
    have e2 : writePrice v b0 now ((n, t) :: tw)
        = growth v (paidSize b0 now n) (writtenEnd t.datav) + writePrice v b0 now tw := rfl
    have e3 : bucketPrice v (original_write_share we b (n, t)) ≤
        bucketPrice v b + growth v (paidSize b0 now n) (writtenEnd t.datav) := by
      unfold original_write_share
      simp only []
      rw [bucketPrice_set]
      simp only [writes_length]
      have hl := hsame (n, t) (by simp)
      simp only [] at hl
      unfold sharePrice paidSize growth
      rw [← hl]
      cases hb : b.lookup n with
      | none =>
        simp only [Option.getD_none, List.length_nil]
        rw [passes_zero v hv, Int.max_eq_right (by omega)]
        rw [show ((max 0 (writtenEnd t.datav) : Nat) : Int) = (writtenEnd t.datav : Int) by omega]
        omega
      | some sh =>
        simp only [Option.getD_some]
        have hmax : ((max sh.data.length (writtenEnd t.datav) : Nat) : Int)
            = max (sh.data.length : Int) (writtenEnd t.datav : Int) := by omega
        rw [hmax]
        split
        · omega
        · rw [passes_zero v hv, Int.max_eq_right (a := 0) (by omega)]
          have p1 := passes_nonneg v hv (show (0 : Int) ≤ (writtenEnd t.datav : Int) by omega)
          have p2 := passes_nonneg v hv (show (0 : Int) ≤ (sh.data.length : Int) by omega)
          rcases Int.le_total (sh.data.length : Int) (writtenEnd t.datav : Int) with hle | hle
          · rw [Int.max_eq_right hle]; omega
          · rw [Int.max_eq_left hle]; omega
    rw [e1, e2]
    omega

theorem bucketPrice_leases (v : Int) (space : Nat → Bool) (lease : Lease) (sel : Nat → Share → Bool) (b : Bucket) :
    bucketPrice v (add_leases_loop space lease sel b).1 = bucketPrice v b := by
  induction b with
  | nil => rfl
  | cons kv b ih =>
    obtain ⟨a, sh⟩ := kv
    unfold add_leases_loop
    split
    · cases hr : original_add_or_renew_lease (space a) lease sh with
      | none => rfl
      | some sh' =>
        have := (add_or_renew_leased _ _ _ _ (lease.expiration - 1) hr (by omega)).2
        unfold bucketPrice at ih ⊢
        simp only [List.map_cons, List.sum_cons, ih, this]
    · unfold bucketPrice at ih ⊢
      simp only [List.map_cons, List.sum_cons, ih]

/-- The price of everything stored at some indexes. -/
def storedPrice (v : Int) (b : SI → Bucket) (sis : List SI) : Int :=
  (sis.map (fun si => bucketPrice v (b si))).sum

/-- The price of everything being uploaded. -/
def writersPrice (v : Int) (ws : List Writer) : Int :=
  (ws.map (fun w => passes v w.allocated_size)).sum

theorem storedPrice_not_mem (v : Int) (b : SI → Bucket) (si : SI) (x : Bucket) (sis : List SI) (h : si ∉ sis) :
    storedPrice v (set_bucket b si x) sis = storedPrice v b sis := by
  unfold storedPrice
  congr 1
  apply List.map_congr_left
  intro y hy
  have : y ≠ si := fun e => h (e ▸ hy)
  simp [set_bucket, this]

theorem storedPrice_mem (v : Int) (b : SI → Bucket) (si : SI) (x : Bucket) (sis : List SI) (hn : sis.Nodup)
    (h : si ∈ sis) :
    storedPrice v (set_bucket b si x) sis = storedPrice v b sis - bucketPrice v (b si) + bucketPrice v x := by
  induction sis with
  | nil => simp at h
  | cons y sis ih =>
    simp only [List.nodup_cons] at hn
    simp only [List.mem_cons] at h
    by_cases e : y = si
    · subst e
      have := storedPrice_not_mem v b y x sis hn.1
      unfold storedPrice at this ⊢
      simp only [List.map_cons, List.sum_cons, this]
      simp [set_bucket]; omega
    · have h' : si ∈ sis := by
        rcases h with h | h
        · exact absurd h.symm e
        · exact h
      have := ih hn.2 h'
      unfold storedPrice at this ⊢
      simp only [List.map_cons, List.sum_cons, this]
      simp [set_bucket, e]; omega

theorem storedPrice_set_le (v : Int) (b : SI → Bucket) (si : SI) (x : Bucket) (d : Int) (hd : 0 ≤ d)
    (hx : bucketPrice v x ≤ bucketPrice v (b si) + d) (sis : List SI) (hn : sis.Nodup) :
    storedPrice v (set_bucket b si x) sis ≤ storedPrice v b sis + d := by
  by_cases h : si ∈ sis
  · rw [storedPrice_mem v b si x sis hn h]; omega
  · rw [storedPrice_not_mem v b si x sis h]; omega

/-- An operation that does not run out of disk space while adding leases; requests are
well-formed dictionaries. -/
def OpOk : ServerOp → Prop
  | .addLease a => ∀ n, a.space n = true
  | .writev a => (∀ n, a.space n = true) ∧ Dict.WF a.tw_vectors
  | _ => True

theorem loop_completes (space : Nat → Bool) (hs : ∀ n, space n = true) (lease : Lease) (sel : Nat → Share → Bool)
    (b : Bucket) : (add_leases_loop space lease sel b).2 = true := by
  induction b with
  | nil => rfl
  | cons kv b ih =>
    obtain ⟨a, sh⟩ := kv
    unfold add_leases_loop
    split
    · cases hr : original_add_or_renew_lease (space a) lease sh with
      | none =>
        unfold original_add_or_renew_lease at hr
        split at hr <;> simp [hs] at hr
      | some sh' => exact ih
    · exact ih

theorem writersPrice_filter_le (v : Int) (hv : 0 < v) (p : Writer → Bool) (ws : List Writer) :
    writersPrice v (ws.filter p) ≤ writersPrice v ws := by
  induction ws with
  | nil => simp [writersPrice]
  | cons w ws ih =>
    have := passes_nonneg v hv (show (0 : Int) ≤ (w.allocated_size : Int) by omega)
    unfold writersPrice at ih ⊢
    simp only [List.filter_cons]
    split
    · simp only [List.map_cons, List.sum_cons]; omega
    · simp only [List.map_cons, List.sum_cons]; omega

theorem writersPrice_remove (v : Int) (hv : 0 < v) (ws : List Writer) (w : Writer) (hw : w ∈ ws) :
    writersPrice v (ws.filter (fun x => x.bw != w.bw)) + passes v w.allocated_size ≤ writersPrice v ws := by
  induction ws with
  | nil => simp at hw
  | cons x ws ih =>
    have hx := passes_nonneg v hv (show (0 : Int) ≤ (x.allocated_size : Int) by omega)
    simp only [List.mem_cons] at hw
    by_cases e : x.bw = w.bw
    · have hf : (x.bw != w.bw) = false := by simp [e]
      simp only [List.filter_cons, hf, Bool.false_eq_true, if_false]
      rcases hw with rfl | hw
      · have := writersPrice_filter_le v hv (fun x => x.bw != w.bw) ws
        unfold writersPrice at this ⊢
        simp only [List.map_cons, List.sum_cons]; omega
      · have := ih hw
        unfold writersPrice at this ⊢
        simp only [List.map_cons, List.sum_cons]; omega
    · have hf : (x.bw != w.bw) = true := by simp [e]
      rcases hw with rfl | hw
      · exact absurd rfl e
      · have := ih hw
        simp only [List.filter_cons, hf, if_true]
        unfold writersPrice at this ⊢
        simp only [List.map_cons, List.sum_cons]; omega

theorem bwc_same (s : Server) (bw : Nat) : (bucket_writer_closed s bw).spent = s.spent ∧
    (bucket_writer_closed s bw).writers = s.writers := by
  unfold bucket_writer_closed; split <;> exact ⟨rfl, rfl⟩

theorem abort_same (s : Server) (bw : Nat) : (original_abort s bw).spent = s.spent ∧
    ∃ p, (original_abort s bw).writers = s.writers.filter p := by
  unfold original_abort; split
  · exact ⟨rfl, fun _ => true, by rw [List.filter_eq_self.mpr (by simp)]⟩
  · rw [(bwc_same _ _).1, (bwc_same _ _).2]; exact ⟨rfl, _, rfl⟩

theorem aborts_same (l : List (Nat × Nat × Nat)) : ∀ s : Server,
    (l.foldl (fun s r => original_abort s r.2.2) s).spent = s.spent ∧
    ∃ p, (l.foldl (fun s r => original_abort s r.2.2) s).writers = s.writers.filter p := by
  induction l with
  | nil => intro s; exact ⟨rfl, fun _ => true, by rw [List.filter_eq_self.mpr (by simp)]; rfl⟩
  | cons r l ih =>
    intro s
    obtain ⟨h1, p, h2⟩ := ih (original_abort s r.2.2)
    obtain ⟨h3, q, h4⟩ := abort_same s r.2.2
    refine ⟨by simp only [List.foldl_cons]; rw [h1, h3], fun w => p w && q w, ?_⟩
    simp only [List.foldl_cons]
    rw [h2, h4, List.filter_filter]

/-- One step: the growth of what is stored or being uploaded is at most the growth of what is
recorded as spent. -/
theorem paid_step (cfg : ServerConfig) (hv : 0 < cfg.pass_value) (s : Server) (hb : BucketsWF s) (op : ServerOp)
    (hop : OpOk op) (sis : List SI) (hn : sis.Nodup) :
    storedPrice cfg.pass_value (s.step cfg op).buckets sis + writersPrice cfg.pass_value (s.step cfg op).writers
      - (s.step cfg op).spent.length
    ≤ storedPrice cfg.pass_value s.buckets sis + writersPrice cfg.pass_value s.writers - s.spent.length := by
  cases op with
  | allocate a =>
    show storedPrice _ (remote_allocate_buckets cfg a s).1.buckets sis + writersPrice _
      (remote_allocate_buckets cfg a s).1.writers - _ ≤ _
    by_cases hp : ∃ ps, Parses a.passes ps
    · obtain ⟨ps, hp⟩ := hp
      by_cases hlt : (validCount (cfg.verifies (allocate_buckets_message a.storage_index)) ps : Int)
          < a.sharenums.length * passes cfg.pass_value a.allocated_size
      · obtain ⟨f, _, e⟩ := allocate_refused cfg hv a s ps hp hlt
        have e' : s.step cfg (.allocate a) = s := by
          show (remote_allocate_buckets cfg a s).1 = s; rw [e]
        rw [e', e]; exact Int.le_refl _
      · have e := allocate_granted cfg hv a s ps hp (by omega)
        simp only [] at e
        have es : (s.step cfg (.allocate a)).spent.length = s.spent.length +
            (((ps.filter (cfg.verifies (allocate_buckets_message a.storage_index))).map Pass.preimage).take
              (((original_accepted s a.storage_index a.sharenums a.accept).length : Int)
                * passes cfg.pass_value a.allocated_size).toNat).length := by
          show (remote_allocate_buckets cfg a s).1.spent.length = _
          rw [e]; simp
        rw [es, e]
        obtain ⟨h1, _, _, _, new, h5, h6, h7⟩ :=
          opened_spec a (original_accepted s a.storage_index a.sharenums a.accept) s
        simp only []
        rw [h1, h5]
        have hw : writersPrice cfg.pass_value (s.writers ++ new) = writersPrice cfg.pass_value s.writers
            + new.length * passes cfg.pass_value a.allocated_size := by
          have : new.map (fun w => passes cfg.pass_value w.allocated_size)
              = new.map (fun _ => passes cfg.pass_value a.allocated_size) :=
            List.map_congr_left (fun w hw => by rw [(h7 w hw).2.1])
          unfold writersPrice
          rw [List.map_append, List.sum_append, this]
          have hrep : ∀ (l : List Writer) (c : Int), (l.map (fun _ => c)).sum = l.length * c := by
            intro l c
            induction l with
            | nil => simp
            | cons x l ih => simp only [List.map_cons, List.sum_cons, ih, List.length_cons]; rw [Int.natCast_succ, Int.add_mul]; omega
          rw [hrep]
        have hnew : new.length = (original_accepted s a.storage_index a.sharenums a.accept).length := by
          rw [← h6]; simp
        have hle : (original_accepted s a.storage_index a.sharenums a.accept).length ≤ a.sharenums.length := by
          unfold original_accepted; exact List.length_filter_le _ _
        have hpn := passes_nonneg cfg.pass_value hv (show (0 : Int) ≤ (a.allocated_size : Int) by omega)
        have hmul : ((original_accepted s a.storage_index a.sharenums a.accept).length : Int)
            * passes cfg.pass_value a.allocated_size ≤ a.sharenums.length * passes cfg.pass_value a.allocated_size :=
          Int.mul_le_mul_of_nonneg_right (by omega) hpn
        have hmul0 : 0 ≤ ((original_accepted s a.storage_index a.sharenums a.accept).length : Int)
            * passes cfg.pass_value a.allocated_size := Int.mul_nonneg (by omega) hpn
        rw [hw, hnew, List.length_take, List.length_map]
        unfold validCount at hlt
        omega
    · obtain ⟨er, e⟩ := allocate_parse_error cfg a s hp
      have e' : s.step cfg (.allocate a) = s := by
        show (remote_allocate_buckets cfg a s).1 = s; rw [e]
      rw [e', e]; exact Int.le_refl _
  | addLease a =>
    show storedPrice _ (remote_add_lease cfg a s).1.buckets sis + writersPrice _
      (remote_add_lease cfg a s).1.writers - ((remote_add_lease cfg a s).1.spent.length : Int) ≤ _
    by_cases hp : ∃ ps, Parses a.passes ps
    · obtain ⟨ps, hp⟩ := hp
      by_cases hlt : (validCount (cfg.verifies (add_lease_message a.storage_index)) ps : Int)
          < bucketPrice cfg.pass_value (s.buckets a.storage_index)
      · obtain ⟨f, _, e⟩ := add_lease_refused cfg hv a s (hb _) ps hp hlt
        rw [e]; exact Int.le_refl _
      · have e := add_lease_granted cfg hv a s (hb _) ps hp (by omega)
        simp only [] at e
        have hstored := storedPrice_set_le cfg.pass_value s.buckets a.storage_index
          (original_add_lease a.space ⟨a.renew_secret, a.now + LEASE_PERIOD⟩ (s.buckets a.storage_index)).1 0
          (by omega) (by unfold original_add_lease; rw [bucketPrice_leases]; omega) sis hn
        rw [e]
        split
        · simp only [List.length_append]; omega
        · simp only []; omega
    · obtain ⟨er, e⟩ := add_lease_parse_error cfg a s hp
      rw [e]; exact Int.le_refl _
  | writev a =>
    show storedPrice _ (remote_slot_writev cfg a s).1.buckets sis + writersPrice _
      (remote_slot_writev cfg a s).1.writers - ((remote_slot_writev cfg a s).1.spent.length : Int) ≤ _
    obtain ⟨hspace, htw⟩ := hop
    by_cases hnl : ∀ kv ∈ a.tw_vectors, kv.2.new_length = none
    · by_cases hp : ∃ ps, Parses a.passes ps
      · obtain ⟨ps, hp⟩ := hp
        by_cases hlt : (validCount (cfg.verifies (slot_testv_and_readv_and_writev_message a.storage_index)) ps : Int)
            < writePrice cfg.pass_value (s.buckets a.storage_index) a.now a.tw_vectors
        · obtain ⟨f, _, e⟩ := writev_refused cfg hv a s (hb _) htw hnl ps hp hlt
          rw [e]; exact Int.le_refl _
        · rw [writev_granted cfg hv a s (hb _) htw hnl ps hp (by omega)]
          cases ho : original_slot_writev a.write_enabler (s.buckets a.storage_index) a.tw_vectors a.r_vector with
          | error er => exact Int.le_refl _
          | ok res =>
            obtain ⟨bucket, good, rd⟩ := res
            simp only []
            have hc : (add_leases_for_writev a bucket).2 = true := loop_completes _ hspace _ _ _
            rw [if_pos hc]
            simp only []
            have hw0 := writePrice_nonneg cfg.pass_value hv (s.buckets a.storage_index) a.now a.tw_vectors
            have hbk : bucketPrice cfg.pass_value (add_leases_for_writev a bucket).1 ≤
                bucketPrice cfg.pass_value (s.buckets a.storage_index)
                  + writePrice cfg.pass_value (s.buckets a.storage_index) a.now a.tw_vectors := by
              unfold add_leases_for_writev
              rw [bucketPrice_leases, original_slot_writev_ok ho]
              split
              · exact bucketPrice_write cfg.pass_value hv _ _ _ _ _ htw (fun _ _ => rfl)
              · omega
            have hst := storedPrice_set_le cfg.pass_value s.buckets a.storage_index _ _ hw0 hbk sis hn
            have hvl : (List.map Pass.preimage (ps.filter (cfg.verifies
                (slot_testv_and_readv_and_writev_message a.storage_index)))).length
                = validCount (cfg.verifies (slot_testv_and_readv_and_writev_message a.storage_index)) ps := by
              simp [validCount]
            rw [List.length_append, hvl]
            omega
      · obtain ⟨er, e⟩ := writev_parse_error cfg a s hp
        rw [e]; exact Int.le_refl _
    · have : ∃ kv ∈ a.tw_vectors, kv.2.new_length ≠ none := by
        apply Decidable.byContradiction
        intro hc
        apply hnl
        intro kv hkv
        apply Decidable.byContradiction
        intro hne
        exact hc ⟨kv, hkv, hne⟩
      rw [writev_new_length cfg a s this]; exact Int.le_refl _
  | close bw data =>
    show storedPrice _ (original_close s bw data).buckets sis + writersPrice _
      (original_close s bw data).writers - ((original_close s bw data).spent.length : Int) ≤ _
    unfold original_close
    cases hf : s.writers.find? (fun w => w.bw == bw) with
    | none => exact Int.le_refl _
    | some w =>
      obtain ⟨hw, e⟩ := find_bw hf
      subst e
      simp only []
      rw [bucket_writer_closed_buckets, (bwc_same _ _).1, (bwc_same _ _).2]
      simp only []
      have hpn := passes_nonneg cfg.pass_value hv (show (0 : Int) ≤ (w.allocated_size : Int) by omega)
      have hsp := sharePrice_nonneg cfg.pass_value hv (s.buckets w.si) w.sharenum
      have hset := bucketPrice_set cfg.pass_value (s.buckets w.si) w.sharenum
        ⟨false, [], data.take w.allocated_size, [w.lease]⟩
      have hm : passes cfg.pass_value ((data.take w.allocated_size).length : Int)
          ≤ passes cfg.pass_value w.allocated_size :=
        passes_mono cfg.pass_value hv (by rw [List.length_take]; omega)
      simp only [] at hset
      have hst := storedPrice_set_le cfg.pass_value s.buckets w.si
        ((s.buckets w.si).set w.sharenum ⟨false, [], data.take w.allocated_size, [w.lease]⟩)
        (passes cfg.pass_value w.allocated_size) hpn (by rw [hset]; omega) sis hn
      have hwr := writersPrice_remove cfg.pass_value hv s.writers w hw
      omega
  | abort bw =>
    show storedPrice _ (original_abort s bw).buckets sis + writersPrice _
      (original_abort s bw).writers - ((original_abort s bw).spent.length : Int) ≤ _
    obtain ⟨h1, p, h2⟩ := abort_same s bw
    rw [original_abort_buckets, h1, h2]
    have := writersPrice_filter_le cfg.pass_value hv p s.writers
    omega
  | disconnect c =>
    show storedPrice _ (ZKAP.disconnect s c).buckets sis + writersPrice _
      (ZKAP.disconnect s c).writers - ((ZKAP.disconnect s c).spent.length : Int) ≤ _
    unfold ZKAP.disconnect
    simp only []
    obtain ⟨h1, p, h2⟩ := aborts_same (s.registrations.filter (fun r => r.1 == c)) s
    rw [foldl_abort_buckets, h1, h2]
    have := writersPrice_filter_le cfg.pass_value hv p s.writers
    omega

theorem paid_run (cfg : ServerConfig) (hv : 0 < cfg.pass_value) (sis : List SI) (hn : sis.Nodup)
    (ops : List ServerOp) : ∀ s : Server, BucketsWF s → (∀ op ∈ ops, OpOk op) →
    storedPrice cfg.pass_value (s.run cfg ops).buckets sis + writersPrice cfg.pass_value (s.run cfg ops).writers
      - (s.run cfg ops).spent.length
    ≤ storedPrice cfg.pass_value s.buckets sis + writersPrice cfg.pass_value s.writers - s.spent.length := by
  induction ops with
  | nil => intro s _ _; exact Int.le_refl _
  | cons op ops ih =>
    intro s hb hop
    have h1 := paid_step cfg hv s hb op (hop op (by simp)) sis hn
    have h2 := ih (s.step cfg op) (step_wf cfg s hb op) (fun o ho => hop o (by simp [ho]))
    exact Int.le_trans h2 h1

end ZKAP
