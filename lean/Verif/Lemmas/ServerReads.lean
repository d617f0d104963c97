import Verif.Spec.ServerReads
import Verif.Lemmas.ServerHistory

namespace ZKAP
open Spec

/-- Lease loops change nothing but leases. -/
theorem loop_only_leases (space : Nat → Bool) (lease : Lease) (sel : Nat → Share → Bool) (bucket : Bucket)
    (n : Nat) :
    (bucket.lookup n = none → (add_leases_loop space lease sel bucket).1.lookup n = none) ∧
    ∀ share, bucket.lookup n = some share →
      ∃ ls, (add_leases_loop space lease sel bucket).1.lookup n = some { share with leases := ls } := by
  induction bucket with
  | nil => simp [add_leases_loop]
  | cons kv rest ih =>
    obtain ⟨a, sh⟩ := kv
    have hkeep : ∀ sh', original_add_or_renew_lease (space a) lease sh = some sh' →
        ∃ ls, sh' = { sh with leases := ls } := by
      intro sh' h
      unfold original_add_or_renew_lease at h
      split at h
      · cases h; exact ⟨_, rfl⟩
      · split at h
        · cases h; exact ⟨_, rfl⟩
        · cases h
    unfold add_leases_loop
    split
    · split
      · exact ⟨fun h => h, fun share h => ⟨share.leases, h⟩⟩
      · rename_i sh' hs
        dsimp only
        rw [List.lookup_cons, List.lookup_cons]
        cases hk : n == a with
        | true =>
          refine ⟨fun h => (nomatch h), fun share h => ?_⟩
          cases h
          obtain ⟨ls, rfl⟩ := hkeep _ hs
          exact ⟨ls, rfl⟩
        | false => exact ih
    · dsimp only
      rw [List.lookup_cons, List.lookup_cons]
      cases hk : n == a with
      | true => exact ⟨fun h => (nomatch h), fun share h => ⟨share.leases, h⟩⟩
      | false => exact ih

/-- What one request does to one place, in terms of what was there. -/
inductive PlaceChange (s : Server) (op : ServerOp) (si : SI) (n : Nat) : Option Share → Option Share → Prop
  | absent : PlaceChange s op si n none none
  | leases (share : Share) (ls : List Lease) :
      PlaceChange s op si n (some share) (some { share with leases := ls })
  | written (share : Share) (ls : List Lease) (data : Bytes) (hm : share.is_mutable = true)
      (hw : HolderWrite si share.write_enabler op) :
      PlaceChange s op si n (some share) (some { share with leases := ls, data := data })
  | created (a : WritevArgs) (ls : List Lease) (data : Bytes) (ho : op = .writev a)
      (hsi : a.storage_index = si) :
      PlaceChange s op si n none (some ⟨true, a.write_enabler, data, ls⟩)
  | closed (old : Option Share) (bw : Nat) (data : Bytes) (w : Writer) (ho : op = .close bw data)
      (hw : w ∈ s.writers) (hbw : w.bw = bw) (hsi : w.si = si) (hn : w.sharenum = n) :
      PlaceChange s op si n old (some ⟨false, [], data.take w.allocated_size, [w.lease]⟩)

theorem PlaceChange.same (s : Server) (op : ServerOp) (si : SI) (n : Nat) (o : Option Share) :
    PlaceChange s op si n o o := by
  cases o with
  | none => exact .absent
  | some share => exact .leases share share.leases

theorem allocate_keeps_buckets (cfg : ServerConfig) (a : AllocateArgs) (s : Server) :
    (remote_allocate_buckets cfg a s).1.buckets = s.buckets := by
  unfold remote_allocate_buckets
  split
  · rfl
  · split
    · rfl
    · exact (opened_spec a _ s).1

theorem lookup_all {bucket : Bucket} {n : Nat} {share : Share} {p : Nat × Share → Bool}
    (h : bucket.lookup n = some share) (ha : bucket.any p = false) : p (n, share) = false := by
  induction bucket with
  | nil => cases h
  | cons kv rest ih =>
    obtain ⟨a, sh⟩ := kv
    rw [List.lookup_cons] at h
    rw [List.any_cons, Bool.or_eq_false_iff] at ha
    cases hk : n == a with
    | true =>
      rw [hk] at h; cases h
      have := eq_of_beq hk; subst this
      exact ha.1
    | false => rw [hk] at h; exact ih h ha.2

/-- A slot write by the wrapped server, at one place. -/
theorem slot_write_change {a : WritevArgs} {bucket bucket' : Bucket} {good : Bool}
    {read : Dict Nat (List Bytes)} (s : Server) (htw : Dict.WF a.tw_vectors)
    (h : original_slot_writev a.write_enabler bucket a.tw_vectors a.r_vector = .ok (bucket', good, read))
    (n : Nat) :
    PlaceChange s (.writev a) a.storage_index n (bucket.lookup n) (bucket'.lookup n) := by
  have hb := original_slot_writev_ok h
  have hm : bucket.any (fun kv => !kv.2.is_mutable) = false := by
    unfold original_slot_writev at h
    split at h
    · cases h
    · rename_i hc; simpa using hc
  have hw : bucket.any (fun kv => kv.2.write_enabler != a.write_enabler) = false := by
    unfold original_slot_writev at h
    split at h
    · cases h
    · split at h
      · cases h
      · rename_i hc; simpa using hc
  subst hb
  split
  · rw [lookup_write_vectors _ _ htw]
    cases a.tw_vectors.lookup n with
    | none => exact PlaceChange.same _ _ _ _ _
    | some t =>
      cases hl : bucket.lookup n with
      | none => exact .created a [] _ rfl rfl
      | some share =>
        have h1 := lookup_all hl hm
        have h2 := lookup_all hl hw
        simp only [Bool.not_eq_false'] at h1
        have h2 : share.write_enabler = a.write_enabler := by simpa using h2
        exact .written share share.leases _ h1 ⟨a, rfl, rfl, h2.symm⟩
  · exact PlaceChange.same _ _ _ _ _

theorem change_then_leases {s : Server} {op : ServerOp} {si : SI} {n : Nat} {o : Option Share} {b : Bucket}
    (h : PlaceChange s op si n o (b.lookup n)) (space : Nat → Bool) (lease : Lease) (sel : Nat → Share → Bool)
    (hop : ∀ bw d, op ≠ .close bw d) :
    PlaceChange s op si n o ((add_leases_loop space lease sel b).1.lookup n) := by
  obtain ⟨h1, h2⟩ := loop_only_leases space lease sel b n
  cases hb : b.lookup n with
  | none => rw [h1 hb]; rw [hb] at h; exact h
  | some share =>
    obtain ⟨ls, e⟩ := h2 share hb
    rw [e]; rw [hb] at h
    cases h with
    | leases sh l => exact .leases sh ls
    | written sh l d hm hw => exact .written sh ls d hm hw
    | created a l d ho hsi => exact .created a ls d ho hsi
    | closed old bw d w ho _ _ _ _ => exact absurd ho (hop bw d)

/-- What one request does to one place. -/
theorem step_change (cfg : ServerConfig) (s : Server) (op : ServerOp) (hop : ProperOp op) (si : SI) (n : Nat) :
    PlaceChange s op si n ((s.buckets si).lookup n) (((s.step cfg op).buckets si).lookup n) := by
  have same : ∀ {t : Server}, t.buckets = s.buckets →
      PlaceChange s op si n ((s.buckets si).lookup n) ((t.buckets si).lookup n) := by
    intro t e; rw [e]; exact PlaceChange.same _ _ _ _ _
  have other : ∀ {t : Server} {x : SI} {b : Bucket}, t.buckets = set_bucket s.buckets x b →
      (x = si → PlaceChange s op si n ((s.buckets si).lookup n) (b.lookup n)) →
      PlaceChange s op si n ((s.buckets si).lookup n) ((t.buckets si).lookup n) := by
    intro t x b e h
    rw [e]; unfold set_bucket
    split
    · rename_i e'; exact h e'.symm
    · exact PlaceChange.same _ _ _ _ _
  cases op with
  | allocate a => exact same (allocate_keeps_buckets cfg a s)
  | addLease a =>
    show PlaceChange s _ si n _ (((remote_add_lease cfg a s).1.buckets si).lookup n)
    unfold remote_add_lease
    split
    · exact same rfl
    · split
      · exact same rfl
      · have hc : a.storage_index = si → PlaceChange s (.addLease a) si n ((s.buckets si).lookup n)
            ((original_add_lease a.space ⟨a.renew_secret, a.now + LEASE_PERIOD⟩
              (s.buckets a.storage_index)).1.lookup n) := by
          intro e
          rw [e]
          exact change_then_leases (PlaceChange.same _ _ _ _ _) _ _ _ (by intro _ _ h; cases h)
        simp only []
        split
        · exact other rfl hc
        · exact other rfl hc
  | writev a =>
    show PlaceChange s _ si n _ (((remote_slot_writev cfg a s).1.buckets si).lookup n)
    unfold remote_slot_writev
    split
    · exact same rfl
    · split
      · exact same rfl
      · simp only []
        split
        · exact same rfl
        · split
          · exact same rfl
          · rename_i bucket good read ho
            have hc : a.storage_index = si → PlaceChange s (.writev a) si n ((s.buckets si).lookup n)
                ((add_leases_for_writev a bucket).1.lookup n) := by
              intro e
              subst e
              exact change_then_leases (slot_write_change s hop ho n) _ _ _ (by intro _ _ h; cases h)
            split
            · exact other rfl hc
            · exact other rfl hc
  | close bw data =>
    show PlaceChange s _ si n _ (((original_close s bw data).buckets si).lookup n)
    unfold original_close
    split
    · exact same rfl
    · rename_i w hf
      obtain ⟨hw, e⟩ := find_bw hf
      refine other (x := w.si) (bucket_writer_closed_buckets _ _) ?_
      intro e'
      rw [e', Dict.lookup_set]
      split
      · rename_i hk
        exact .closed _ bw data w rfl hw e e' (eq_of_beq hk).symm
      · exact PlaceChange.same _ _ _ _ _
  | abort bw => exact same (original_abort_buckets s bw)
  | disconnect c =>
    apply same
    show (ZKAP.disconnect s c).buckets = _
    unfold ZKAP.disconnect
    exact foldl_abort_buckets _ _

/-! Where writers are -/

/-- Two writers are for different places. -/
def Apart (v w : Writer) : Prop := ¬ (v.si = w.si ∧ v.sharenum = w.sharenum)

/-- No upload is under way to a place that holds an immutable share, and no two to the same place. -/
structure Places (s : Server) : Prop where
  apart : s.writers.Pairwise Apart
  free : ∀ w ∈ s.writers, ∀ share, StoredShare s w.si w.sharenum share → share.is_mutable = true

theorem bucket_writer_closed_writers (s : Server) (bw : Nat) : (bucket_writer_closed s bw).writers = s.writers := by
  unfold bucket_writer_closed; split <;> rfl

theorem abort_writers (s : Server) (bw : Nat) : (original_abort s bw).writers.Sublist s.writers := by
  unfold original_abort
  split
  · exact List.Sublist.refl _
  · rw [bucket_writer_closed_writers]; exact List.filter_sublist

theorem foldl_abort_writers (l : List (Nat × Nat × Nat)) : ∀ s : Server,
    (l.foldl (fun s r => original_abort s r.2.2) s).writers.Sublist s.writers := by
  induction l with
  | nil => intro s; exact List.Sublist.refl _
  | cons r l ih => intro s; exact (ih _).trans (abort_writers s _)

/-- The writers after a request: fewer, unless it started an upload. -/
theorem step_writers (cfg : ServerConfig) (s : Server) (op : ServerOp) :
    (s.step cfg op).writers.Sublist s.writers ∨
    ∃ a new, op = .allocate a ∧ (s.step cfg op).writers = s.writers ++ new ∧
      new.map Writer.sharenum = original_accepted s a.storage_index a.sharenums a.accept ∧
      ∀ w ∈ new, w.si = a.storage_index := by
  cases op with
  | allocate a =>
    show (remote_allocate_buckets cfg a s).1.writers.Sublist _ ∨ ∃ a' new, _ ∧
      (remote_allocate_buckets cfg a s).1.writers = _ ∧ _
    unfold remote_allocate_buckets
    split
    · exact .inl (List.Sublist.refl _)
    · split
      · exact .inl (List.Sublist.refl _)
      · obtain ⟨_, _, _, _, new, h5, h6, h7⟩ :=
          opened_spec a (original_accepted s a.storage_index a.sharenums a.accept) s
        exact .inr ⟨a, new, rfl, h5, h6, fun w hw => (h7 w hw).1⟩
  | addLease a =>
    left
    show (remote_add_lease cfg a s).1.writers.Sublist _
    unfold remote_add_lease
    split
    · exact List.Sublist.refl _
    · split
      · exact List.Sublist.refl _
      · simp only []; split <;> exact List.Sublist.refl _
  | writev a =>
    left
    show (remote_slot_writev cfg a s).1.writers.Sublist _
    unfold remote_slot_writev
    split
    · exact List.Sublist.refl _
    · split
      · exact List.Sublist.refl _
      · simp only []
        split
        · exact List.Sublist.refl _
        · split
          · exact List.Sublist.refl _
          · split <;> exact List.Sublist.refl _
  | close bw data =>
    left
    show (original_close s bw data).writers.Sublist _
    unfold original_close
    split
    · exact List.Sublist.refl _
    · rw [bucket_writer_closed_writers]; exact List.filter_sublist
  | abort bw => exact .inl (abort_writers s bw)
  | disconnect c =>
    left
    show (ZKAP.disconnect s c).writers.Sublist _
    unfold ZKAP.disconnect
    exact foldl_abort_writers _ _

theorem accepted_spec {s : Server} {si : SI} {ns : List Nat} {acc : Nat → Bool} {n : Nat}
    (h : n ∈ original_accepted s si ns acc) :
    (s.buckets si).lookup n = none ∧ ∀ w ∈ s.writers, ¬ (w.si = si ∧ w.sharenum = n) := by
  unfold original_accepted at h
  rw [List.mem_filter] at h
  simp only [Bool.and_eq_true, Bool.not_eq_true'] at h
  obtain ⟨_, ⟨h1, h2⟩, _⟩ := h
  constructor
  · rw [Dict.lookup_eq_none_iff]
    intro hm
    have : (s.buckets si).keys.contains n = true := List.contains_iff_mem.mpr hm
    rw [this] at h1; cases h1
  · intro w hw ⟨e1, e2⟩
    rw [List.any_eq_false] at h2
    have := h2 w hw
    simp [e1, e2] at this

theorem pairwise_of_map {l : List Writer} (h : (l.map Writer.sharenum).Nodup) : l.Pairwise Apart := by
  induction l with
  | nil => exact List.Pairwise.nil
  | cons w l ih =>
    rw [List.map_cons, List.nodup_cons] at h
    refine List.Pairwise.cons ?_ (ih h.2)
    intro v hv ⟨_, e⟩
    exact h.1 (e ▸ List.mem_map_of_mem hv)

/-- A closed writer is gone. -/
theorem close_gone (cfg : ServerConfig) (s : Server) (bw : Nat) (data : Bytes) (w : Writer)
    (hw : w ∈ (s.step cfg (.close bw data)).writers) : w.bw ≠ bw := by
  replace hw : w ∈ (original_close s bw data).writers := hw
  unfold original_close at hw
  cases hf : s.writers.find? (fun w => w.bw == bw) with
  | none =>
    rw [hf] at hw
    intro e
    have := List.find?_eq_none.mp hf w hw
    simp [e] at this
  | some v =>
    rw [hf] at hw
    dsimp only at hw
    rw [bucket_writer_closed_writers] at hw
    have := (List.mem_filter.mp hw).2
    simpa using this

theorem places_step (cfg : ServerConfig) (s : Server) (h : Places s) (op : ServerOp) (hop : ProperOp op) :
    Places (s.step cfg op) := by
  have key : ∀ w ∈ s.writers, (∀ bw d, op = .close bw d → w.bw ≠ bw) →
      ∀ share, StoredShare (s.step cfg op) w.si w.sharenum share → share.is_mutable = true := by
    intro w hw hnot share hs
    have hc := step_change cfg s op hop w.si w.sharenum
    unfold StoredShare at hs
    rw [hs] at hc
    generalize ho : (s.buckets w.si).lookup w.sharenum = o at hc
    cases hc with
    | leases sh ls => exact h.free w hw sh ho
    | written sh ls d hm _ => exact hm
    | created a ls d _ _ => rfl
    | closed old bw d v hop' hv hbw hsi hn =>
      exfalso
      have hne : v ≠ w := by
        intro e; exact hnot bw d hop' (e ▸ hbw)
      obtain ⟨i, hi, ei⟩ := List.getElem_of_mem hv
      obtain ⟨j, hj, ej⟩ := List.getElem_of_mem hw
      have hp := List.pairwise_iff_getElem.mp h.apart
      rcases Nat.lt_trichotomy i j with hlt | heq | hgt
      · exact hp i j hi hj hlt ⟨by rw [ei, ej, hsi], by rw [ei, ej, hn]⟩
      · subst heq; exact hne (ei.symm.trans ej)
      · exact hp j i hj hi hgt ⟨by rw [ei, ej, hsi], by rw [ei, ej, hn]⟩
  rcases step_writers cfg s op with hsub | ⟨a, new, e, hw, hn, hsi⟩
  · refine ⟨h.apart.sublist hsub, ?_⟩
    intro w hw share hs
    refine key w (hsub.subset hw) ?_ share hs
    intro bw d e
    subst e
    exact close_gone cfg s bw d w hw
  · subst e
    have hb : (s.step cfg (.allocate a)).buckets = s.buckets := allocate_keeps_buckets cfg a s
    have hacc : ∀ w ∈ new, (s.buckets w.si).lookup w.sharenum = none ∧
        ∀ v ∈ s.writers, ¬ (v.si = w.si ∧ v.sharenum = w.sharenum) := by
      intro w hw'
      have : w.sharenum ∈ original_accepted s a.storage_index a.sharenums a.accept := by
        rw [← hn]; exact List.mem_map_of_mem hw'
      rw [hsi w hw']
      exact accepted_spec this
    constructor
    · rw [hw, List.pairwise_append]
      refine ⟨h.apart, pairwise_of_map ?_, fun v hv w hw' => (hacc w hw').2 v hv⟩
      rw [hn]
      exact List.Pairwise.filter _ hop
    · intro w hw' share hs
      unfold StoredShare at hs
      rw [hb] at hs
      rw [hw, List.mem_append] at hw'
      rcases hw' with hw' | hw'
      · exact h.free w hw' share hs
      · rw [(hacc w hw').1] at hs; cases hs

theorem places_run (cfg : ServerConfig) (ops : List ServerOp) : ∀ s : Server, Places s →
    (∀ op ∈ ops, ProperOp op) → Places (s.run cfg ops) := by
  induction ops with
  | nil => intro s h _; exact h
  | cons op ops ih =>
    intro s h hp
    exact ih _ (places_step cfg s h op (hp op (by simp))) (fun o ho => hp o (by simp [ho]))

theorem places_init (b : SI → Bucket) : Places (Server.init b) :=
  ⟨List.Pairwise.nil, fun _ hw => (nomatch hw)⟩

/-- An immutable share keeps its data over one request. -/
theorem immutable_step (cfg : ServerConfig) (s : Server) (h : Places s) (op : ServerOp) (hop : ProperOp op)
    {si : SI} {n : Nat} {share : Share} (hs : StoredShare s si n share) (hm : share.is_mutable = false) :
    ∃ ls, StoredShare (s.step cfg op) si n { share with leases := ls } := by
  have hc := step_change cfg s op hop si n
  unfold StoredShare at hs ⊢
  rw [hs] at hc
  generalize ho : ((s.step cfg op).buckets si).lookup n = o at hc
  cases hc with
  | leases sh ls => exact ⟨ls, rfl⟩
  | written sh ls d hm' _ => rw [hm] at hm'; cases hm'
  | closed old bw d v hop' hv hbw hsi hn =>
    subst hsi hn
    have := h.free v hv share hs
    rw [hm] at this; cases this

theorem immutable_run (cfg : ServerConfig) (ops : List ServerOp) : ∀ (s : Server), Places s →
    (∀ op ∈ ops, ProperOp op) → ∀ {si : SI} {n : Nat} {share : Share}, StoredShare s si n share →
    share.is_mutable = false → ∃ ls, StoredShare (s.run cfg ops) si n { share with leases := ls } := by
  induction ops with
  | nil => intro s _ _ si n share h _; exact ⟨share.leases, h⟩
  | cons op ops ih =>
    intro s hp hops si n share h hm
    obtain ⟨ls, h1⟩ := immutable_step cfg s hp op (hops op (by simp)) h hm
    obtain ⟨ls', h2⟩ := ih _ (places_step cfg s hp op (hops op (by simp))) (fun o ho => hops o (by simp [ho]))
      (share := { share with leases := ls }) h1 hm
    exact ⟨ls', h2⟩

/-- A stored share stays stored. -/
theorem stored_step (cfg : ServerConfig) (s : Server) (op : ServerOp) (hop : ProperOp op)
    {si : SI} {n : Nat} {share : Share} (hs : StoredShare s si n share) :
    ∃ share', StoredShare (s.step cfg op) si n share' := by
  have hc := step_change cfg s op hop si n
  unfold StoredShare at hs ⊢
  rw [hs] at hc
  generalize ho : ((s.step cfg op).buckets si).lookup n = o at hc
  cases hc with
  | leases sh ls => exact ⟨_, rfl⟩
  | written sh ls d hm' _ => exact ⟨_, rfl⟩
  | closed old bw d v hop' hv hbw hsi hn => exact ⟨_, rfl⟩

theorem stored_run (cfg : ServerConfig) (ops : List ServerOp) : ∀ (s : Server),
    (∀ op ∈ ops, ProperOp op) → ∀ {si : SI} {n : Nat} {share : Share}, StoredShare s si n share →
    ∃ share', StoredShare (s.run cfg ops) si n share' := by
  induction ops with
  | nil => intro s _ si n share h; exact ⟨share, h⟩
  | cons op ops ih =>
    intro s hops si n share h
    obtain ⟨share', h1⟩ := stored_step cfg s op (hops op (by simp)) h
    exact ih _ (fun o ho => hops o (by simp [ho])) h1

/-- Without slot writes at an index, no mutable share appears there. -/
theorem immutable_only_run (cfg : ServerConfig) (ops : List ServerOp) (si : SI) : ∀ (s : Server),
    (∀ op ∈ ops, ProperOp op ∧ ¬ SlotWriteAt si op) →
    (∀ n share, StoredShare s si n share → share.is_mutable = false) →
    ∀ n share, StoredShare (s.run cfg ops) si n share → share.is_mutable = false := by
  induction ops with
  | nil => intro s _ h; exact h
  | cons op ops ih =>
    intro s hops h
    refine ih (s.step cfg op) (fun o ho => hops o (by simp [ho])) ?_
    intro n share hs
    obtain ⟨hp, hn⟩ := hops op (by simp)
    have hc := step_change cfg s op hp si n
    unfold StoredShare at hs
    rw [hs] at hc
    generalize ho : (s.buckets si).lookup n = o at hc
    cases hc with
    | leases sh ls => exact h n sh ho
    | written sh ls d hm hw =>
      obtain ⟨a, e1, e2, _⟩ := hw
      exact absurd ⟨a, e1, e2⟩ hn
    | created a ls d e1 e2 => exact absurd ⟨a, e1, e2⟩ hn
    | closed old bw d v _ _ _ _ _ => rfl

/-- Without uploads to an index there are no writers for it. -/
theorem no_writers_run (cfg : ServerConfig) (ops : List ServerOp) (si : SI) : ∀ (s : Server),
    (∀ op ∈ ops, ¬ UploadAt si op) → (∀ w ∈ s.writers, w.si ≠ si) →
    ∀ w ∈ (s.run cfg ops).writers, w.si ≠ si := by
  induction ops with
  | nil => intro s _ h; exact h
  | cons op ops ih =>
    intro s hops h
    refine ih (s.step cfg op) (fun o ho => hops o (by simp [ho])) ?_
    intro w hw
    rcases step_writers cfg s op with hsub | ⟨a, new, e, hwr, hn, hsi⟩
    · exact h w (hsub.subset hw)
    · rw [hwr, List.mem_append] at hw
      rcases hw with hw | hw
      · exact h w hw
      · intro e'
        exact hops op (by simp) ⟨a, e, (hsi w hw).symm.trans e'⟩

/-- Without uploads to the index and without the write enabler, nobody changes a mutable share. -/
theorem mutable_run (cfg : ServerConfig) (ops : List ServerOp) (si : SI) (n : Nat) : ∀ (s : Server) (share : Share),
    (∀ w ∈ s.writers, w.si ≠ si) → StoredShare s si n share →
    (∀ op ∈ ops, ProperOp op ∧ ¬ UploadAt si op ∧ ¬ HolderWrite si share.write_enabler op) →
    ∃ ls, StoredShare (s.run cfg ops) si n { share with leases := ls } := by
  induction ops with
  | nil => intro s share _ h _; exact ⟨share.leases, h⟩
  | cons op ops ih =>
    intro s share hw hs hops
    obtain ⟨hp, hu, hh⟩ := hops op (by simp)
    have hw' := no_writers_run cfg [op] si s (by intro o ho; rw [List.mem_singleton.mp ho]; exact hu) hw
    have hc := step_change cfg s op hp si n
    have hs0 := hs
    unfold StoredShare at hs
    rw [hs] at hc
    generalize ho : ((s.step cfg op).buckets si).lookup n = o at hc
    cases hc with
    | leases sh ls =>
      obtain ⟨ls', h'⟩ := ih (s.step cfg op) { share with leases := ls } hw' ho
        (fun o ho => hops o (by simp [ho]))
      exact ⟨ls', h'⟩
    | written sh ls d hm hwr => exact absurd hwr hh
    | closed old bw d v _ hv _ hsi _ => exact absurd hsi (hw v hv)

theorem lookup_map_snd {β : Type} (f : Share → β) (b : Bucket) (n : Nat) :
    (b.map (fun kv => (kv.1, f kv.2))).lookup n = (b.lookup n).map f := by
  induction b with
  | nil => rfl
  | cons kv b ih =>
    obtain ⟨a, sh⟩ := kv
    rw [List.map_cons, List.lookup_cons, List.lookup_cons]
    cases n == a with
    | true => rfl
    | false => exact ih

theorem mem_lookup {b : Bucket} (hb : Dict.WF b) {kv : Nat × Share} (h : kv ∈ b) :
    b.lookup kv.1 = some kv.2 := by
  induction b with
  | nil => cases h
  | cons x b ih =>
    have hn : x.1 ∉ b.map Prod.fst ∧ (b.map Prod.fst).Nodup := by
      have : (x.1 :: b.map Prod.fst).Nodup := hb
      simpa using List.nodup_cons.mp this
    rcases List.mem_cons.mp h with rfl | h'
    · obtain ⟨a, sh⟩ := kv
      rw [List.lookup_cons, beq_self_eq_true]
    · have hne : (kv.1 == x.1) = false := by
        apply beq_eq_false_iff_ne.mpr
        intro e
        exact hn.1 (e ▸ List.mem_map_of_mem h')
      obtain ⟨a, sh⟩ := x
      rw [List.lookup_cons, hne]
      exact ih hn.2 h'

/-- Reading the readers of an index that holds immutable shares only. -/
theorem get_buckets_reads (s : Server) (hs : BucketsWF s) (si : SI)
    (hi : ∀ n share, StoredShare s si n share → share.is_mutable = false) :
    ∃ d, remote_get_buckets s si = .ok d ∧ ∀ n, d.lookup n = ((s.buckets si).lookup n).map Share.data := by
  have ha : (s.buckets si).any (fun kv => kv.2.is_mutable) = false := by
    rw [List.any_eq_false]
    intro kv hkv
    rw [hi kv.1 kv.2 (mem_lookup (hs si) hkv)]
    simp
  refine ⟨(s.buckets si).map (fun kv => (kv.1, kv.2.data)), ?_, fun n => lookup_map_snd _ _ n⟩
  unfold remote_get_buckets original_get_buckets
  rw [if_neg (by rw [ha]; simp)]
  simp

theorem filter_one {b : Bucket} (hb : Dict.WF b) {n : Nat} {share : Share} (h : b.lookup n = some share) :
    b.filter (fun kv => [n].contains kv.1 || [n].isEmpty) = [(n, share)] := by
  induction b with
  | nil => cases h
  | cons x b ih =>
    obtain ⟨a, sh⟩ := x
    have hn : a ∉ b.map Prod.fst ∧ (b.map Prod.fst).Nodup := by
      have : (a :: b.map Prod.fst).Nodup := hb
      simpa using List.nodup_cons.mp this
    rw [List.lookup_cons] at h
    cases hk : n == a with
    | true =>
      rw [hk] at h; cases h
      have e := eq_of_beq hk; subst e
      rw [List.filter_cons_of_pos (by simp)]
      congr 1
      rw [List.filter_eq_nil_iff]
      intro kv hkv
      have : kv.1 ≠ n := fun e => hn.1 (e ▸ List.mem_map_of_mem hkv)
      simp [this]
    | false =>
      rw [hk] at h
      have : a ≠ n := fun e => by subst e; simp at hk
      rw [List.filter_cons_of_neg (by simp [this])]
      exact ih hn.2 h

/-- Reading one mutable share. -/
theorem slot_readv_reads (s : Server) (hs : BucketsWF s) (si : SI) (n : Nat) (share : Share)
    (h : StoredShare s si n share) (hm : share.is_mutable = true) (readv : List (Nat × Nat)) :
    remote_slot_readv s si [n] readv
      = .ok [(n, readv.map (fun r => (share.data.drop r.1).take r.2))] := by
  unfold remote_slot_readv original_slot_readv
  rw [filter_one (hs si) h]
  simp [hm, original_evaluate_read_vectors]

end ZKAP
