import Verif.Model.ClientPrice
import Verif.Spec.Server
import Verif.Lemmas.Pricing
import Verif.Lemmas.Pass

namespace ZKAP
open Spec

/-! Dictionaries -/

section
variable {κ α : Type} [BEq κ] [LawfulBEq κ]

theorem Dict.set_append_new (d : Dict κ α) (k : κ) (v : α) (h : k ∉ d.map Prod.fst) :
    d.set k v = d ++ [(k, v)] := by
  induction d with
  | nil => rfl
  | cons hd tl ih =>
    obtain ⟨a, b⟩ := hd
    simp only [List.map_cons, List.mem_cons, not_or] at h
    have : (a == k) = false := by
      cases hb : a == k with
      | false => rfl
      | true => exact absurd (eq_of_beq hb).symm h.1
    simp [Dict.set, this, ih h.2]

theorem Dict.update_disjoint (d e : Dict κ α) (he : Dict.WF e)
    (h : ∀ k ∈ e.map Prod.fst, k ∉ d.map Prod.fst) : Dict.update d e = d ++ e := by
  induction e generalizing d with
  | nil => simp [Dict.update]
  | cons hd tl ih =>
    obtain ⟨a, b⟩ := hd
    have hn : a ∉ tl.map Prod.fst ∧ (tl.map Prod.fst).Nodup := by
      have : (a :: tl.map Prod.fst).Nodup := he
      simpa using List.nodup_cons.mp this
    simp only [Dict.update, List.foldl_cons]
    rw [Dict.set_append_new _ _ _ (h a (by simp))]
    have := ih (d ++ [(a, b)]) hn.2 (by
      intro k hk
      simp only [List.map_append, List.map_cons, List.map_nil, List.mem_append, List.mem_singleton, not_or]
      exact ⟨h k (by simp only [List.map_cons, List.mem_cons]; exact Or.inr hk),
        fun e => hn.1 (e ▸ hk)⟩)
    simp only [Dict.update] at this
    rw [this]; simp

theorem Dict.ofItems_wf (d : Dict κ α) (h : Dict.WF d) : Dict.ofItems d = d := by
  unfold Dict.ofItems
  rw [Dict.update_disjoint [] d h (by simp)]; simp

theorem Dict.lookup_update (d e : Dict κ α) (he : Dict.WF e) (k : κ) :
    (Dict.update d e).lookup k = (e.lookup k).or (d.lookup k) := by
  induction e generalizing d with
  | nil => simp [Dict.update]
  | cons hd tl ih =>
    obtain ⟨a, b⟩ := hd
    have hn : a ∉ tl.map Prod.fst ∧ (tl.map Prod.fst).Nodup := by
      have : (a :: tl.map Prod.fst).Nodup := he
      simpa using List.nodup_cons.mp this
    have := ih (d.set a b) hn.2
    simp only [Dict.update, List.foldl_cons] at this ⊢
    rw [this, Dict.lookup_set, List.lookup_cons]
    by_cases hk : k == a
    · have e := eq_of_beq hk; subst e
      have : tl.lookup k = none := (Dict.lookup_eq_none_iff k).mpr hn.1
      simp [this]
    · have : (k == a) = false := by simpa using hk
      simp [this]

theorem lookup_map_val {β : Type} (d : Dict κ α) (f : κ → α → β) (k : κ) :
    (d.map (fun kv => (kv.1, f kv.1 kv.2))).lookup k = (d.lookup k).map (f k) := by
  induction d with
  | nil => rfl
  | cons hd tl ih =>
    obtain ⟨a, b⟩ := hd
    simp only [List.map_cons, List.lookup_cons, ih]
    by_cases hk : k == a
    · have e := eq_of_beq hk; subst e; simp
    · have : (k == a) = false := by simpa using hk
      simp [this]

theorem lookup_filter (d : Dict κ α) (hd : Dict.WF d) (p : κ × α → Bool) (k : κ) :
    (d.filter p).lookup k = (d.lookup k).bind (fun v => if p (k, v) then some v else none) := by
  induction d with
  | nil => rfl
  | cons h tl ih =>
    obtain ⟨a, b⟩ := h
    have hn : a ∉ tl.map Prod.fst ∧ (tl.map Prod.fst).Nodup := by
      have : (a :: tl.map Prod.fst).Nodup := hd
      simpa using List.nodup_cons.mp this
    have ih := ih hn.2
    simp only [List.filter_cons, List.lookup_cons]
    by_cases hk : k == a
    · have e := eq_of_beq hk; subst e
      have hnone : tl.lookup k = none := (Dict.lookup_eq_none_iff k).mpr hn.1
      by_cases hp : p (k, b) = true
      · simp [hp]
      · simp [hp, ih, hnone]
    · have hk' : (k == a) = false := by simpa using hk
      by_cases hp : p (a, b) = true
      · simp [hp, hk', List.lookup_cons, ih]
      · simp [hp, hk', ih]

omit [BEq κ] [LawfulBEq κ] in
theorem keys_filter_nodup {d : Dict κ α} (hd : Dict.WF d) (p : κ × α → Bool) : Dict.WF (d.filter p) :=
  List.Nodup.sublist (List.Sublist.map Prod.fst List.filter_sublist) hd

omit [BEq κ] [LawfulBEq κ] in
theorem wf_map_val {β : Type} {d : Dict κ α} (hd : Dict.WF d) (f : κ × α → β) :
    Dict.WF (d.map (fun kv => (kv.1, f kv))) := by
  unfold Dict.WF at *
  rw [List.map_map]
  exact hd

end

/-! Validation -/

theorem validate_loop_ok (ok : Pass → Bool) (idx : Nat) (wire : List Bytes) (ps : List Pass)
    (h : Parses wire ps) :
    ∃ r, validate_loop ok idx wire = .ok r ∧ r.valid = (ps.filter ok).map Pass.preimage ∧
      (∀ i, i ∈ r.signature_check_failed ↔ idx ≤ i ∧ ∃ p, ps[i - idx]? = some p ∧ ok p = false) ∧
      r.signature_check_failed.Nodup := by
  unfold Parses at h
  induction wire generalizing idx ps with
  | nil =>
    cases ps with
    | nil => exact ⟨⟨[], []⟩, rfl, rfl, by simp, by simp⟩
    | cons _ _ => simp at h
  | cons w wire ih =>
    cases ps with
    | nil => simp at h
    | cons p ps =>
      simp only [List.map_cons, List.cons.injEq] at h
      obtain ⟨r, h1, h2, h3, h4⟩ := ih (idx + 1) ps h.2
      unfold validate_loop
      rw [h.1, h1]
      have idx_lt : idx ∉ r.signature_check_failed := by
        intro hm
        have := (h3 idx).mp hm
        omega
      by_cases hp : ok p = true
      · refine ⟨{ r with valid := p.preimage :: r.valid }, by simp [hp], by simp [hp, h2], ?_, h4⟩
        intro i
        simp only [h3]
        constructor
        · rintro ⟨hi, q, hq, hq2⟩
          refine ⟨by omega, q, ?_, hq2⟩
          have : i - idx = (i - (idx + 1)) + 1 := by omega
          rw [this, List.getElem?_cons_succ]; exact hq
        · rintro ⟨hi, q, hq, hq2⟩
          by_cases he : i = idx
          · subst he
            simp only [Nat.sub_self, List.getElem?_cons_zero, Option.some.injEq] at hq
            subst hq; rw [hp] at hq2; simp at hq2
          · refine ⟨by omega, q, ?_, hq2⟩
            have : i - idx = (i - (idx + 1)) + 1 := by omega
            rw [this, List.getElem?_cons_succ] at hq; exact hq
      · have hp' : ok p = false := by simpa using hp
        refine ⟨{ r with signature_check_failed := idx :: r.signature_check_failed }, by simp [hp'],
          by simp [hp', h2], ?_, by simp [idx_lt, h4]⟩
        intro i
        simp only [List.mem_cons, h3]
        constructor
        · rintro (rfl | ⟨hi, q, hq, hq2⟩)
          · exact ⟨by omega, p, by simp, hp'⟩
          · refine ⟨by omega, q, ?_, hq2⟩
            have : i - idx = (i - (idx + 1)) + 1 := by omega
            rw [this, List.getElem?_cons_succ]; exact hq
        · rintro ⟨hi, q, hq, hq2⟩
          by_cases he : i = idx
          · exact Or.inl he
          · refine Or.inr ⟨by omega, q, ?_, hq2⟩
            have : i - idx = (i - (idx + 1)) + 1 := by omega
            rw [this, List.getElem?_cons_succ] at hq; exact hq

theorem validate_passes_ok (cfg : ServerConfig) (msg : Bytes) (wire : List Bytes) (ps : List Pass)
    (h : Parses wire ps) :
    ∃ r, validate_passes cfg msg wire = .ok r ∧
      r.valid = (ps.filter (cfg.verifies msg)).map Pass.preimage ∧
      FailedPositions (cfg.verifies msg) ps r.signature_check_failed := by
  obtain ⟨r, h1, h2, h3, h4⟩ := validate_loop_ok (cfg.verifies msg) 0 wire ps h
  exact ⟨r, h1, h2, h4, fun i => by simpa using h3 i⟩

/-- Conversely a successful validation means the wire strings parse. -/
theorem validate_loop_parses (ok : Pass → Bool) (idx : Nat) (wire : List Bytes) (r : ValidationResult)
    (h : validate_loop ok idx wire = .ok r) : ∃ ps, Parses wire ps := by
  induction wire generalizing idx r with
  | nil => exact ⟨[], rfl⟩
  | cons w wire ih =>
    unfold validate_loop at h
    cases hw : Pass.from_bytes w with
    | error e => rw [hw] at h; simp at h
    | ok p =>
      rw [hw] at h
      cases hr : validate_loop ok (idx + 1) wire with
      | error e => rw [hr] at h; simp at h
      | ok r' =>
        obtain ⟨ps, hps⟩ := ih (idx + 1) r' hr
        exact ⟨p :: ps, by unfold Parses at *; simp [hw, hps]⟩

/-! Prices -/

theorem max_end_eq (datav : List (Nat × Bytes)) : max_end datav = writtenEnd datav := by
  unfold max_end writtenEnd
  have gen : ∀ (l : List (Nat × Bytes)) (m : Nat),
      l.foldl (fun m od => Nat.max m (od.1 + od.2.length)) m
        = max m ((l.map (fun w => w.1 + w.2.length)).foldr max 0) := by
    intro l
    induction l with
    | nil => intro m; simp
    | cons a l ih =>
      intro m
      rw [List.foldl_cons, ih]
      simp only [List.map_cons, List.foldr_cons]
      rw [show m.max (a.1 + a.2.length) = max m (a.1 + a.2.length) from rfl]
      omega
  rw [gen]; omega

theorem implied_none (datav : List (Nat × Bytes)) :
    get_implied_data_length datav none = writtenEnd datav := by
  unfold get_implied_data_length
  rw [max_end_eq]
  cases datav <;> simp [writtenEnd]

theorem implied_empty (nl : Option Nat) : get_implied_data_length [] nl = 0 := by
  unfold get_implied_data_length
  cases nl with
  | none => rfl
  | some n => simp only [List.isEmpty_nil, if_true]; exact Nat.min_zero n

theorem active_iff (share : Share) (now : Int) :
    share_has_active_leases share now = true ↔ Leased share now := by
  unfold share_has_active_leases Leased
  simp [List.any_eq_true]

theorem foldl_max_gt (ls : List Lease) (a now : Int) :
    now < ls.foldl (fun m l => max m l.expiration) a ↔ now < a ∨ ∃ l ∈ ls, now < l.expiration := by
  induction ls generalizing a with
  | nil => simp
  | cons l ls ih =>
    simp only [List.foldl_cons, ih, List.mem_cons, exists_eq_or_imp]
    rw [← or_assoc]
    have : now < max a l.expiration ↔ now < a ∨ now < l.expiration := by omega
    rw [this]

/-- The client's test on the reported expiration agrees with the server's test on leases. -/
theorem stat_active_iff (share : Share) (now : Int) (h0 : 0 ≤ now) :
    now < (share_stat share).lease_expiration ↔ Leased share now := by
  unfold share_stat get_lease_expiration Leased
  match h : share.leases with
  | [] => simp; omega
  | l :: ls => simp [foldl_max_gt]

theorem getD_of_lookup {κ α : Type} [BEq κ] (d : Dict κ α) (k : κ) (x : α) :
    Dict.getD d k x = (d.lookup k).getD x := rfl

theorem wf_share_sizes {bucket : Bucket} (hb : Dict.WF bucket) (l : Option (List Nat)) :
    Dict.WF (get_share_sizes bucket l) := by
  unfold get_share_sizes get_share_stats
  exact wf_map_val (wf_map_val (keys_filter_nodup hb _) (fun kv => share_stat kv.2)) (fun kv => kv.2.size)

theorem lookup_share_sizes {bucket : Bucket} (hb : Dict.WF bucket) (l : List Nat) (n : Nat) :
    (get_share_sizes bucket (some l)).lookup n
      = if l.contains n then (bucket.lookup n).map (fun sh => (sh.data.length : Int)) else none := by
  unfold get_share_sizes get_share_stats
  rw [lookup_map_val (f := fun _ st => ShareStat.size st), lookup_map_val (f := fun _ sh => share_stat sh),
    lookup_filter _ hb]
  cases bucket.lookup n with
  | none => simp
  | some sh =>
    simp only [Option.bind_some]
    split <;> simp [share_stat]

/-- The sizes the server prices a write against. -/
theorem server_current_sizes {bucket : Bucket} (hb : Dict.WF bucket) (now : Int) (tw : TWVectors) (n : Nat)
    (hn : n ∈ get_write_sharenums tw) :
    Dict.getD (zero_unleased bucket now
      (Dict.ofItems (get_share_sizes bucket (some (get_write_sharenums tw))))) n 0
      = paidSize bucket now n := by
  have hwf := wf_share_sizes hb (some (get_write_sharenums tw))
  rw [Dict.ofItems_wf _ hwf]
  unfold zero_unleased
  rw [getD_of_lookup, Dict.lookup_update _ _ (wf_map_val (keys_filter_nodup hwf _) (fun _ => (0 : Int)))]
  rw [lookup_map_val (f := fun _ _ => (0 : Int)), lookup_filter _ hwf, lookup_share_sizes hb]
  have hc : (get_write_sharenums tw).contains n = true := by simpa using hn
  simp only [hc, if_true]
  unfold paidSize
  obtain hl | ⟨sh, hl⟩ : bucket.lookup n = none ∨ ∃ sh, bucket.lookup n = some sh := by
    cases bucket.lookup n with
    | none => exact Or.inl rfl
    | some sh => exact Or.inr ⟨sh, rfl⟩
  · simp [hl]
  · by_cases ha : Leased sh now
    · have := (active_iff sh now).mpr ha
      simp [ha, hl, this]
    · have : share_has_active_leases sh now = false := by
        cases h : share_has_active_leases sh now with
        | false => rfl
        | true => exact absurd ((active_iff sh now).mp h) ha
      simp [ha, hl, this]

/-- Sizes the server prices a write against are never negative. -/
theorem server_sizes_nonneg {bucket : Bucket} (hb : Dict.WF bucket) (now : Int) (ws : List Nat) (n : Nat) :
    0 ≤ Dict.getD (zero_unleased bucket now (Dict.ofItems (get_share_sizes bucket (some ws)))) n 0 := by
  have hwf := wf_share_sizes hb (some ws)
  rw [Dict.ofItems_wf _ hwf]
  unfold zero_unleased
  rw [getD_of_lookup, Dict.lookup_update _ _ (wf_map_val (keys_filter_nodup hwf _) (fun _ => (0 : Int)))]
  rw [lookup_map_val (f := fun _ _ => (0 : Int)), lookup_filter _ hwf, lookup_share_sizes hb]
  cases bucket.lookup n with
  | none => split <;> simp
  | some sh =>
    split
    · simp only [Option.map_some, Option.bind_some]
      split <;> simp
    · simp

theorem mem_write_sharenums (tw : TWVectors) (kv : Nat × TW) (h : kv ∈ tw) (hd : kv.2.datav ≠ []) :
    kv.1 ∈ get_write_sharenums tw := by
  unfold get_write_sharenums
  rw [List.mem_map]
  exact ⟨kv, by rw [List.mem_filter]; exact ⟨h, by simp [hd]⟩, rfl⟩

theorem growth_zero (v o : Int) (h : 0 ≤ o) : growth v o 0 = 0 := by
  unfold growth; rw [Int.max_eq_left h]; omega

theorem paidSize_nonneg (bucket : Bucket) (now : Int) (n : Nat) : 0 ≤ paidSize bucket now n := by
  unfold paidSize; split
  · omega
  · split <;> omega

/-- The server's price of a write, for requests without truncation. -/
theorem server_price_eq (v : Int) (hv : 0 < v) {bucket : Bucket} (hb : Dict.WF bucket) (tw : TWVectors)
    (htw : Dict.WF tw) (now : Int) (hnl : ∀ kv ∈ tw, kv.2.new_length = none) :
    get_writev_price bucket v tw now = writePrice v bucket now tw := by
  unfold get_writev_price writePrice
  simp only []
  rw [mutable_price_eq v hv _ tw htw]
  congr 1
  apply List.map_congr_left
  intro kv hkv
  rw [hnl kv hkv, implied_none]
  by_cases hd : kv.2.datav = []
  · rw [hd]
    simp only [writtenEnd, List.map_nil, List.foldr_nil]
    have h1 := server_sizes_nonneg hb now (get_write_sharenums tw) kv.1
    rw [show ((0 : Nat) : Int) = 0 from rfl, growth_zero v _ h1, growth_zero v _ (paidSize_nonneg _ _ _)]
  · rw [server_current_sizes hb now tw kv.1 (mem_write_sharenums tw kv hkv hd)]

theorem lookup_client_sizes {bucket : Bucket} (hb : Dict.WF bucket) (now : Int) (ws : List Nat) (n : Nat) :
    ((((Dict.ofItems (get_share_stats bucket none)).filter
        (fun kv => decide (kv.2.lease_expiration > now) && ws.contains kv.1)).map
          (fun kv => (kv.1, kv.2.size))).lookup n)
      = (bucket.lookup n).bind (fun sh =>
          if decide ((share_stat sh).lease_expiration > now) && ws.contains n
            then some (sh.data.length : Int) else none) := by
  have hst : get_share_stats bucket none = bucket.map (fun kv => (kv.1, share_stat kv.2)) := by
    unfold get_share_stats; rw [List.filter_eq_self.mpr (by simp)]
  have hwf : Dict.WF (get_share_stats bucket none) := by
    rw [hst]; exact wf_map_val hb (fun kv => share_stat kv.2)
  rw [Dict.ofItems_wf _ hwf, lookup_map_val (f := fun _ st => ShareStat.size st), lookup_filter _ hwf, hst,
    lookup_map_val (f := fun _ sh => share_stat sh)]
  cases bucket.lookup n with
  | none => rfl
  | some sh =>
    simp only [Option.map_some, Option.bind_some]
    split <;> simp [share_stat]

theorem client_sizes_nonneg {bucket : Bucket} (hb : Dict.WF bucket) (now : Int) (ws : List Nat) (n : Nat) :
    0 ≤ Dict.getD (((Dict.ofItems (get_share_stats bucket none)).filter
        (fun kv => decide (kv.2.lease_expiration > now) && ws.contains kv.1)).map
          (fun kv => (kv.1, kv.2.size))) n 0 := by
  rw [getD_of_lookup, lookup_client_sizes hb]
  cases bucket.lookup n with
  | none => simp
  | some sh => simp only [Option.bind_some]; split <;> simp

theorem client_current_sizes {bucket : Bucket} (hb : Dict.WF bucket) (now : Int) (h0 : 0 ≤ now)
    (ws : List Nat) (n : Nat) (hn : n ∈ ws) :
    Dict.getD (((Dict.ofItems (get_share_stats bucket none)).filter
        (fun kv => decide (kv.2.lease_expiration > now) && ws.contains kv.1)).map
          (fun kv => (kv.1, kv.2.size))) n 0 = paidSize bucket now n := by
  rw [getD_of_lookup, lookup_client_sizes hb]
  unfold paidSize
  cases bucket.lookup n with
  | none => rfl
  | some sh =>
    have hc : ws.contains n = true := by simpa using hn
    simp only [Option.bind_some, hc, Bool.and_true, decide_eq_true_eq]
    have := stat_active_iff sh now h0
    by_cases hl : Leased sh now
    · have h2 := this.mpr hl
      simp [hl, h2]
    · have h2 : ¬ now < (share_stat sh).lease_expiration := fun h => hl (this.mp h)
      simp only [hl, if_false, gt_iff_lt, h2, Option.getD_none]

/-- The client's and the server's price agree, whatever the request. -/
theorem client_server_price (v : Int) (hv : 0 < v) {bucket : Bucket} (hb : Dict.WF bucket) (tw : TWVectors)
    (htw : Dict.WF tw) (now : Int) (h0 : 0 ≤ now) :
    client_writev_num_passes v (Dict.ofItems (get_share_stats bucket none)) tw now
      = get_writev_price bucket v tw now := by
  have main : get_required_new_passes_for_mutable_write v
      (((Dict.ofItems (get_share_stats bucket none)).filter
        (fun kv => decide (kv.2.lease_expiration > now) && (get_write_sharenums tw).contains kv.1)).map
          (fun kv => (kv.1, kv.2.size))) tw = get_writev_price bucket v tw now := by
    unfold get_writev_price
    simp only []
    rw [mutable_price_eq v hv _ tw htw, mutable_price_eq v hv _ tw htw]
    congr 1
    apply List.map_congr_left
    intro kv hkv
    by_cases hd : kv.2.datav = []
    · rw [hd, implied_empty]
      have h1 := server_sizes_nonneg hb now (get_write_sharenums tw) kv.1
      have h2 := client_sizes_nonneg hb now (get_write_sharenums tw) kv.1
      rw [show ((0 : Nat) : Int) = 0 from rfl, growth_zero v _ h1, growth_zero v _ h2]
    · have hm := mem_write_sharenums tw kv hkv hd
      rw [server_current_sizes hb now tw kv.1 hm, client_current_sizes hb now h0 _ kv.1 hm]
  unfold client_writev_num_passes
  simp only []
  split
  · exact main
  · rename_i hlen
    -- nothing is written: every term of the server's price is zero
    unfold get_writev_price
    simp only []
    rw [mutable_price_eq v hv _ tw htw]
    symm
    have : ∀ kv ∈ tw, growth v (Dict.getD (zero_unleased bucket now
        (Dict.ofItems (get_share_sizes bucket (some (get_write_sharenums tw))))) kv.1 0)
        (get_implied_data_length kv.2.datav kv.2.new_length : Int) = 0 := by
      intro kv hkv
      have hd : kv.2.datav = [] := by
        apply Decidable.byContradiction
        intro hd
        have hm := mem_write_sharenums tw kv hkv hd
        have := List.length_pos_of_mem hm
        omega
      rw [hd, implied_empty]
      exact growth_zero v _ (server_sizes_nonneg hb now (get_write_sharenums tw) kv.1)
    rw [List.map_congr_left this]
    clear this main htw hlen
    induction tw with
    | nil => rfl
    | cons a l ih => simp only [List.map_cons, List.sum_cons, ih]; rfl

/-- The price of all shares at an index, as the server and the client compute it. -/
theorem bucket_price_eq (v : Int) (hv : 0 < v) {bucket : Bucket} (hb : Dict.WF bucket) :
    required_passes v (Dict.ofItems (get_share_sizes bucket (some bucket.keys))).values = bucketPrice v bucket
    ∧ required_passes v (Dict.ofItems (get_share_sizes bucket none)).values = bucketPrice v bucket := by
  have h1 : get_share_sizes bucket (some bucket.keys) = bucket.map (fun kv => (kv.1, (kv.2.data.length : Int))) := by
    unfold get_share_sizes get_share_stats
    rw [List.filter_eq_self.mpr, List.map_map]
    · rfl
    · intro kv hkv
      simp only [List.contains_eq_mem, decide_eq_true_eq]
      exact List.mem_map_of_mem hkv
  have h2 : get_share_sizes bucket none = bucket.map (fun kv => (kv.1, (kv.2.data.length : Int))) := by
    unfold get_share_sizes get_share_stats
    rw [List.filter_eq_self.mpr, List.map_map]
    · rfl
    · simp
  have key : required_passes v (Dict.ofItems (bucket.map (fun kv => (kv.1, (kv.2.data.length : Int))))).values
      = bucketPrice v bucket := by
    rw [Dict.ofItems_wf _ (wf_map_val hb (fun kv => (kv.2.data.length : Int))), required_passes_eq v hv]
    unfold total bucketPrice Dict.values
    rw [List.map_map, List.map_map]
    rfl
  exact ⟨by rw [h1]; exact key, by rw [h2]; exact key⟩

/-! Slot writes -/

theorem original_write_length (data : Bytes) (w : Nat × Bytes) :
    (original_write data w).length = max data.length (w.1 + w.2.length) := by
  unfold original_write
  simp only [List.length_append, List.length_take, List.length_replicate, List.length_drop]
  omega

theorem writes_length (datav : List (Nat × Bytes)) (data : Bytes) :
    (datav.foldl original_write data).length = max data.length (writtenEnd datav) := by
  induction datav generalizing data with
  | nil => simp [writtenEnd]
  | cons w ws ih =>
    simp only [List.foldl_cons, ih, original_write_length, writtenEnd, List.map_cons, List.foldr_cons]
    omega

theorem wf_write_share (we : Secret) (bucket : Bucket) (hb : Dict.WF bucket) (kv : Nat × TW) :
    Dict.WF (original_write_share we bucket kv) := by
  unfold original_write_share; exact Dict.WF.set hb _ _

theorem wf_write_vectors (we : Secret) (bucket : Bucket) (hb : Dict.WF bucket) (tw : TWVectors) :
    Dict.WF (original_evaluate_write_vectors we bucket tw) := by
  unfold original_evaluate_write_vectors
  induction tw generalizing bucket with
  | nil => exact hb
  | cons kv tw ih => exact ih _ (wf_write_share we bucket hb kv)

/-- What a slot write does to each share. -/
theorem lookup_write_vectors (we : Secret) (tw : TWVectors) (htw : Dict.WF tw) (bucket : Bucket) (n : Nat) :
    (original_evaluate_write_vectors we bucket tw).lookup n
      = match tw.lookup n with
        | none => bucket.lookup n
        | some t =>
          let share := (bucket.lookup n).getD ⟨true, we, [], []⟩
          some { share with data := t.datav.foldl original_write share.data } := by
  induction tw generalizing bucket with
  | nil => rfl
  | cons kv tw ih =>
    obtain ⟨a, t⟩ := kv
    have hn : a ∉ tw.map Prod.fst ∧ (tw.map Prod.fst).Nodup := by
      have : (a :: tw.map Prod.fst).Nodup := htw
      simpa using List.nodup_cons.mp this
    have ih := ih hn.2 (original_write_share we bucket (a, t))
    unfold original_evaluate_write_vectors at ih ⊢
    rw [List.foldl_cons, ih, List.lookup_cons]
    unfold original_write_share
    by_cases hk : n == a
    · have e := eq_of_beq hk; subst e
      have : tw.lookup n = none := (Dict.lookup_eq_none_iff n).mpr hn.1
      rw [this]
      simp [Dict.lookup_set]
    · have hk' : (n == a) = false := by simpa using hk
      simp only [hk', Dict.lookup_set, Bool.false_eq_true, if_false]

/-! Leases -/

theorem original_renew_leased (secret : Secret) (e now : Int) (ls ls' : List Lease)
    (h : original_renew secret e ls = some ls') (he : now < e) : ∃ l ∈ ls', now < l.expiration := by
  induction ls generalizing ls' with
  | nil => simp [original_renew] at h
  | cons l ls ih =>
    unfold original_renew at h
    split at h
    · simp only [Option.some.injEq] at h
      subst h
      exact ⟨_, List.mem_cons_self .., by simp only []; omega⟩
    · cases hr : original_renew secret e ls with
      | none => rw [hr] at h; simp at h
      | some r =>
        rw [hr] at h
        simp only [Option.map_some, Option.some.injEq] at h
        subst h
        obtain ⟨x, hx, hx2⟩ := ih r hr
        exact ⟨x, by simp [hx], hx2⟩

theorem add_or_renew_leased (space : Bool) (lease : Lease) (share share' : Share) (now : Int)
    (h : original_add_or_renew_lease space lease share = some share') (he : now < lease.expiration) :
    Leased share' now ∧ share'.data = share.data := by
  unfold original_add_or_renew_lease at h
  split at h
  · rename_i ls hr
    simp only [Option.some.injEq] at h
    subst h
    exact ⟨original_renew_leased _ _ _ _ _ hr he, rfl⟩
  · split at h
    · simp only [Option.some.injEq] at h
      subst h
      exact ⟨⟨lease, by simp, he⟩, rfl⟩
    · simp at h

/-- What a lease loop does to each share: shares not selected are untouched; if the loop
completes, selected shares are leased; data never changes. -/
theorem add_leases_loop_lookup (space : Nat → Bool) (lease : Lease) (sel : Nat → Share → Bool)
    (bucket : Bucket) (hb : Dict.WF bucket) (n : Nat) :
    (bucket.lookup n = none → (add_leases_loop space lease sel bucket).1.lookup n = none) ∧
    ∀ share, bucket.lookup n = some share →
      ∃ share', (add_leases_loop space lease sel bucket).1.lookup n = some share' ∧
        share'.data = share.data ∧
        (sel n share = false → share' = share) ∧
        (sel n share = true → (add_leases_loop space lease sel bucket).2 = true →
          original_add_or_renew_lease (space n) lease share = some share') := by
  induction bucket with
  | nil => simp [add_leases_loop]
  | cons kv rest ih =>
    obtain ⟨a, sh⟩ := kv
    have hn : a ∉ rest.map Prod.fst ∧ (rest.map Prod.fst).Nodup := by
      have : (a :: rest.map Prod.fst).Nodup := hb
      simpa using List.nodup_cons.mp this
    have ih := ih hn.2
    have datakeep : ∀ sh', original_add_or_renew_lease (space a) lease sh = some sh' → sh'.data = sh.data := by
      intro sh' h
      exact (add_or_renew_leased _ _ _ _ (lease.expiration - 1) h (by omega)).2
    unfold add_leases_loop
    by_cases hs : sel a sh = true
    · simp only [hs, if_true]
      cases hr : original_add_or_renew_lease (space a) lease sh with
      | none =>
        simp only [List.lookup_cons]
        refine ⟨fun h => h, ?_⟩
        intro share hshare
        exact ⟨share, hshare, rfl, fun _ => rfl, fun _ h => by simp at h⟩
      | some sh' =>
        simp only [List.lookup_cons]
        by_cases hk : n == a
        · have e := eq_of_beq hk; subst e
          simp only [beq_self_eq_true, Option.some.injEq, reduceCtorEq, false_imp_iff, true_and]
          intro share hshare; subst hshare
          refine ⟨sh', rfl, datakeep _ hr, ?_, fun _ _ => hr⟩
          intro h; rw [hs] at h; simp at h
        · have hk' : (n == a) = false := by simpa using hk
          simp only [hk']
          exact ih
    · have hs' : sel a sh = false := by simpa using hs
      simp only [hs', Bool.false_eq_true, if_false, List.lookup_cons]
      by_cases hk : n == a
      · have e := eq_of_beq hk; subst e
        simp only [beq_self_eq_true, Option.some.injEq, reduceCtorEq, false_imp_iff, true_and]
        intro share hshare; subst hshare
        refine ⟨sh, rfl, rfl, fun _ => rfl, ?_⟩
        intro h; rw [hs'] at h; simp at h
      · have hk' : (n == a) = false := by simpa using hk
        simp only [hk']
        exact ih

theorem add_leases_loop_keys (space : Nat → Bool) (lease : Lease) (sel : Nat → Share → Bool) (bucket : Bucket) :
    (add_leases_loop space lease sel bucket).1.map Prod.fst = bucket.map Prod.fst := by
  induction bucket with
  | nil => rfl
  | cons kv rest ih =>
    obtain ⟨a, sh⟩ := kv
    unfold add_leases_loop
    split
    · split
      · rfl
      · simp [ih]
    · simp [ih]

end ZKAP
