import Verif.Lemmas.ServerReads
import Verif.Props.Server

namespace ZKAP
open Spec

/-! ### C141: uploaded data can be read back by anyone -/

/-- C141: no request of anyone deletes a share. -/
theorem C141_never_deleted (cfg : ServerConfig) (s : Server) (ops : List ServerOp)
    (hops : ∀ op ∈ ops, ProperOp op) (si : SI) (n : Nat) (share : Share) (h : StoredShare s si n share) :
    ∃ share', StoredShare (s.run cfg ops) si n share' :=
  stored_run cfg ops s hops h

/-- C141: an immutable share that was there at some moment is there, with the same bytes and still
immutable, at every later one, whatever is requested. -/
theorem C141_immutable (cfg : ServerConfig) (buckets : SI → Bucket) (before after : List ServerOp)
    (hb : ∀ op ∈ before, ProperOp op) (ha : ∀ op ∈ after, ProperOp op) (si : SI) (n : Nat) (share : Share)
    (h : StoredShare ((Server.init buckets).run cfg before) si n share) (hm : share.is_mutable = false) :
    ∃ share', StoredShare (((Server.init buckets).run cfg before).run cfg after) si n share' ∧
      share'.is_mutable = false ∧ share'.data = share.data := by
  obtain ⟨ls, h'⟩ := immutable_run cfg after _ (places_run cfg before _ (places_init buckets) hb) ha h hm
  exact ⟨_, h', hm, rfl⟩

/-- Closing an open writer stores what was written to it. -/
theorem close_stores (cfg : ServerConfig) (s : Server) (w : Writer) (hw : w ∈ s.writers)
    (hu : (s.writers.map Writer.bw).Nodup) (data : Bytes) (hd : data.length ≤ w.allocated_size) :
    StoredShare (s.step cfg (.close w.bw data)) w.si w.sharenum ⟨false, [], data, [w.lease]⟩ := by
  show ((original_close s w.bw data).buckets w.si).lookup w.sharenum = _
  have hf : s.writers.find? (fun v => v.bw == w.bw) = some w := by
    generalize s.writers = l at hw hu
    induction l with
    | nil => cases hw
    | cons v l ih =>
      rw [List.map_cons, List.nodup_cons] at hu
      rcases List.mem_cons.mp hw with rfl | hw
      · simp
      · have hne : v.bw ≠ w.bw := fun e => hu.1 (e ▸ List.mem_map_of_mem hw)
        rw [List.find?_cons_of_neg (by simp [hne])]
        exact ih hw hu.2
  unfold original_close
  rw [hf]
  dsimp only
  rw [bucket_writer_closed_buckets]
  unfold set_bucket
  dsimp only
  rw [if_pos rfl, Dict.lookup_set, List.take_of_length_le hd]
  simp

/-- C141: an upload. When a bucket writer that the server handed out is closed after `data` was
written to it, those very bytes are stored from then on. -/
theorem C141_uploaded (cfg : ServerConfig) (buckets : SI → Bucket) (before after : List ServerOp)
    (hb : ∀ op ∈ before, ProperOp op) (ha : ∀ op ∈ after, ProperOp op) (w : Writer)
    (hw : w ∈ ((Server.init buckets).run cfg before).writers) (data : Bytes)
    (hd : data.length ≤ w.allocated_size) :
    ∃ share, StoredShare (((Server.init buckets).run cfg before).run cfg (.close w.bw data :: after))
        w.si w.sharenum share ∧ share.is_mutable = false ∧ share.data = data := by
  have hu := (tidy_run cfg before _ (tidy_init buckets)).nodup
  have hp := places_run cfg before _ (places_init buckets) hb
  obtain ⟨ls, h'⟩ := immutable_run cfg after _ (places_step cfg _ hp (.close w.bw data) trivial) ha
    (close_stores cfg _ w hw hu data hd) rfl
  exact ⟨_, h', rfl, rfl⟩

/-- C141, full statement: at a storage index that held no slot when the server started, uploaded data
is what anyone reads from then on, whatever is requested before and after the upload. -/
def C141_statement : Prop :=
  ∀ (cfg : ServerConfig) (buckets : SI → Bucket), ProperShares buckets →
  ∀ (before after : List ServerOp), (∀ op ∈ before, ProperOp op) → (∀ op ∈ after, ProperOp op) →
  ∀ w ∈ ((Server.init buckets).run cfg before).writers,
  (∀ n share, (buckets w.si).lookup n = some share → share.is_mutable = false) →
  ∀ (data : Bytes), data.length ≤ w.allocated_size →
  ∃ read, remote_get_buckets (((Server.init buckets).run cfg before).run cfg (.close w.bw data :: after)) w.si
      = .ok read ∧ read.lookup w.sharenum = some data

/-- What C141 leaves open: someone writes a slot with the storage index of the upload, while the upload is
under way. This is the only way to prevent the reading: without slot writes at the index everyone reads
exactly what was uploaded. -/
theorem C141_partial (cfg : ServerConfig) (buckets : SI → Bucket) (hbk : ProperShares buckets)
    (before after : List ServerOp) (w : Writer)
    (hb : ∀ op ∈ before, ProperOp op ∧ ¬ SlotWriteAt w.si op)
    (ha : ∀ op ∈ after, ProperOp op ∧ ¬ SlotWriteAt w.si op)
    (hw : w ∈ ((Server.init buckets).run cfg before).writers)
    (h0 : ∀ n share, (buckets w.si).lookup n = some share → share.is_mutable = false)
    (data : Bytes) (hd : data.length ≤ w.allocated_size) :
    ∃ read, remote_get_buckets (((Server.init buckets).run cfg before).run cfg (.close w.bw data :: after)) w.si
      = .ok read ∧ read.lookup w.sharenum = some data := by
  obtain ⟨share, hs, _, hdata⟩ := C141_uploaded cfg buckets before after (fun o ho => (hb o ho).1)
    (fun o ho => (ha o ho).1) w hw data hd
  have hwf : BucketsWF (((Server.init buckets).run cfg before).run cfg (.close w.bw data :: after)) :=
    run_wf cfg _ _ (run_wf cfg _ _ (show BucketsWF (Server.init buckets) from hbk))
  have himm := immutable_only_run cfg (.close w.bw data :: after) w.si _ (by
      intro op hop
      rcases List.mem_cons.mp hop with rfl | hop
      · exact ⟨trivial, fun ⟨_, e, _⟩ => (nomatch e)⟩
      · exact ha op hop)
    (immutable_only_run cfg before w.si (Server.init buckets) hb h0)
  obtain ⟨read, e, hr⟩ := get_buckets_reads _ hwf w.si himm
  refine ⟨read, e, ?_⟩
  rw [hr]
  unfold StoredShare at hs
  rw [hs, ← hdata]
  rfl

/-- A slot write to share 7 at index 8, for three passes. -/
def exIntruder : WritevArgs :=
  ⟨[65, 66, 67].map (fun c => (exPass c).pass_bytes), [8], [1], [6],
    [(7, ⟨[], [(0, List.replicate 21 5)], none⟩)], [], 100, fun _ => true⟩

/-- The upload of two shares of 15 bytes, of which share 3 is completed, and another upload. -/
example : let before := [ServerOp.allocate (exAllocate [65, 66, 67, 68])]
    let after := [ServerOp.allocate (exAllocate [70, 71, 72, 73]), .close 1 [9], .disconnect 77]
    let s := (exServer.run exCfg before).run exCfg (.close 0 [1, 2] :: after)
    (∀ op ∈ before ++ after, ProperOp op ∧ ¬ SlotWriteAt [8] op) ∧
      (∃ w ∈ (exServer.run exCfg before).writers, w.bw = 0 ∧ w.si = [8] ∧ w.sharenum = 3 ∧ w.allocated_size = 15) ∧
      remote_get_buckets s [8] = .ok [(3, [1, 2]), (4, [9])] := by
  refine ⟨?_, by decide +kernel, by rfl⟩
  intro op hop
  simp only [List.cons_append, List.nil_append, List.mem_cons, List.not_mem_nil, or_false] at hop
  rcases hop with rfl | rfl | rfl | rfl
  · exact ⟨(by decide : [3, 4].Nodup), fun ⟨_, e, _⟩ => (nomatch e)⟩
  · exact ⟨(by decide : [3, 4].Nodup), fun ⟨_, e, _⟩ => (nomatch e)⟩
  · exact ⟨trivial, fun ⟨_, e, _⟩ => (nomatch e)⟩
  · exact ⟨trivial, fun ⟨_, e, _⟩ => (nomatch e)⟩

/-- C141 does not hold: while an upload is under way, someone else creates a slot with the same storage
index. Both succeed, and from then on the uploaded share, although stored, is read by no one. -/
theorem C141_fails : ¬ C141_statement := by
  intro h
  have h := h exCfg (fun _ => []) (fun _ => by unfold Dict.WF; exact List.nodup_nil)
    [.allocate (exAllocate [65, 66, 67, 68]), .writev exIntruder] []
    (by
      intro op hop
      simp only [List.mem_cons, List.not_mem_nil, or_false] at hop
      rcases hop with rfl | rfl
      · exact (by decide : [3, 4].Nodup)
      · exact (by unfold Dict.WF; decide : Dict.WF exIntruder.tw_vectors))
    (by simp)
    ⟨0, [8], 3, 15, ⟨[6], 100 + LEASE_PERIOD⟩, 77⟩ (by decide +kernel) (by intro n share e; cases e)
    [1, 2] (by decide)
  obtain ⟨read, e, _⟩ := h
  have h2 := congrArg Except.isOk e
  change Except.isOk _ = true at h2
  exact absurd h2 (by decide +kernel)

/-! ### C142: a slot is changed only by those who know its write enabler -/

/-- C142, full statement: as long as nobody writes with a mutable share's write enabler, its data stays. -/
def C142_statement : Prop :=
  ∀ (cfg : ServerConfig) (buckets : SI → Bucket), ProperShares buckets →
  ∀ (before after : List ServerOp), (∀ op ∈ before, ProperOp op) → (∀ op ∈ after, ProperOp op) →
  ∀ (si : SI) (n : Nat) (share : Share), StoredShare ((Server.init buckets).run cfg before) si n share →
  share.is_mutable = true → (∀ op ∈ after, ¬ HolderWrite si share.write_enabler op) →
  ∃ share', StoredShare (((Server.init buckets).run cfg before).run cfg after) si n share' ∧
    share'.data = share.data

/-- What C142 leaves open: an upload of immutable shares to the slot's storage index, started before the
share existed and finished later. Without uploads to that index, the share keeps its data and its write
enabler, and reading it gives its data. -/
theorem C142_partial (cfg : ServerConfig) (buckets : SI → Bucket) (hbk : ProperShares buckets)
    (before after : List ServerOp) (si : SI) (n : Nat) (share : Share)
    (hb : ∀ op ∈ before, ¬ UploadAt si op)
    (h : StoredShare ((Server.init buckets).run cfg before) si n share) (hm : share.is_mutable = true)
    (ha : ∀ op ∈ after, ProperOp op ∧ ¬ UploadAt si op ∧ ¬ HolderWrite si share.write_enabler op) :
    (∃ share', StoredShare (((Server.init buckets).run cfg before).run cfg after) si n share' ∧
      share'.data = share.data ∧ share'.write_enabler = share.write_enabler ∧ share'.is_mutable = true) ∧
    remote_slot_readv (((Server.init buckets).run cfg before).run cfg after) si [n] [(0, share.data.length)]
      = .ok [(n, [share.data])] := by
  obtain ⟨ls, h'⟩ := mutable_run cfg after si n _ share
    (no_writers_run cfg before si (Server.init buckets) hb (fun w hw => nomatch hw)) h ha
  refine ⟨⟨_, h', rfl, rfl, hm⟩, ?_⟩
  rw [slot_readv_reads _ (run_wf cfg _ _ (run_wf cfg _ _ (show BucketsWF (Server.init buckets) from hbk))) si n _ h' hm]
  simp

/-- C142: whatever the history, a single request that changes the data of a mutable share is a write that
carries its write enabler, or the completion of an upload of a share with the same number. -/
theorem C142_who (cfg : ServerConfig) (s : Server) (op : ServerOp) (hop : ProperOp op) (si : SI) (n : Nat)
    (share share' : Share) (h : StoredShare s si n share) (h' : StoredShare (s.step cfg op) si n share')
    (hd : share'.data ≠ share.data) :
    (share.is_mutable = true ∧ HolderWrite si share.write_enabler op) ∨
    ∃ bw data w, op = .close bw data ∧ w ∈ s.writers ∧ w.si = si ∧ w.sharenum = n := by
  have hc := step_change cfg s op hop si n
  unfold StoredShare at h h'
  rw [h, h'] at hc
  cases hc with
  | leases _ ls => exact absurd rfl hd
  | written _ ls d hm hw => exact .inl ⟨hm, hw⟩
  | closed _ bw d w ho hw _ hsi hn => exact .inr ⟨bw, d, w, ho, hw, hsi, hn⟩

/-- A write by its holder changes share 0 of the example's slot; others' requests leave it alone. -/
example : let after := [ServerOp.writev { exWritev [65, 66, 67, 68, 69] with write_enabler := [2] },
      .addLease (exLease [65, 66, 67, 68, 69])]
    (∀ op ∈ after, ProperOp op ∧ ¬ UploadAt [9] op ∧ ¬ HolderWrite [9] [1] op) ∧
      remote_slot_readv (exServer.run exCfg after) [9] [0] [(0, 15)] = .ok [(0, [List.replicate 15 7])] ∧
      remote_slot_readv (exServer.run exCfg [.writev (exWritev [65, 66, 67, 68, 69])]) [9] [0] [(0, 30)]
        ≠ .ok [(0, [List.replicate 15 7])] := by
  refine ⟨?_, by rfl, ?_⟩
  · intro op hop
    simp only [List.mem_cons, List.not_mem_nil, or_false] at hop
    rcases hop with rfl | rfl
    · refine ⟨exTw_wf, fun ⟨_, e, _⟩ => (nomatch e), ?_⟩
      rintro ⟨a, e, _, e'⟩
      cases e
      exact absurd e' (by decide)
    · exact ⟨trivial, fun ⟨_, e, _⟩ => (nomatch e), fun ⟨_, e, _⟩ => (nomatch e)⟩
  · intro e
    have : (match remote_slot_readv (exServer.run exCfg [.writev (exWritev [65, 66, 67, 68, 69])]) [9] [0] [(0, 30)] with
      | .ok d => decide (d = [(0, [List.replicate 15 7])])
      | .error _ => false) = true := by rw [e]; rfl
    exact absurd this (by decide +kernel)

/-- A slot write to share 3 at index 8. -/
def exVictim : WritevArgs := { exIntruder with tw_vectors := [(3, ⟨[], [(0, List.replicate 21 5)], none⟩)] }

/-- C142 does not hold: whoever started an upload of share 3 before the slot existed replaces the slot's
share 3 by finishing the upload, without knowing the write enabler. -/
theorem C142_fails : ¬ C142_statement := by
  intro h
  have h := h exCfg (fun _ => []) (fun _ => by unfold Dict.WF; exact List.nodup_nil)
    [.allocate (exAllocate [65, 66, 67, 68]), .writev exVictim] [.close 0 [1, 2]]
    (by
      intro op hop
      simp only [List.mem_cons, List.not_mem_nil, or_false] at hop
      rcases hop with rfl | rfl
      · exact (by decide : [3, 4].Nodup)
      · exact (by unfold Dict.WF; decide : Dict.WF exVictim.tw_vectors))
    (by intro op hop; rw [List.mem_singleton.mp hop]; exact trivial)
    [8] 3 ⟨true, [1], List.replicate 21 5, [⟨[6], 100 + LEASE_PERIOD⟩]⟩ (by unfold StoredShare; decide +kernel) rfl
    (by intro op hop ⟨a, e, _⟩; rw [List.mem_singleton.mp hop] at e; cases e)
  obtain ⟨share', e, hd⟩ := h
  have hx : ((((Server.init (fun _ => [])).run exCfg
      [.allocate (exAllocate [65, 66, 67, 68]), .writev exVictim]).run exCfg [.close 0 [1, 2]]).buckets [8]).lookup 3
      = some ⟨false, [], [1, 2], [⟨[6], 100 + LEASE_PERIOD⟩]⟩ := by decide +kernel
  unfold StoredShare at e
  rw [hx] at e
  cases e
  exact absurd hd (by decide)

end ZKAP
