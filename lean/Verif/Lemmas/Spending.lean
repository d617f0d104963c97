import Verif.Spec.Spending
import Verif.Lemmas.StoreHistory

/-! Facts about pass groups and storage calls. -/
namespace ZKAP
open Spec

/-! ### Splitting -/

theorem split_loop_eq {α} (select : Nat → Bool) (l : List α) (k : Nat) :
    split_loop select k l =
      (((l.zipIdx k).filter (fun p => select p.2)).map Prod.fst,
       ((l.zipIdx k).filter (fun p => !select p.2)).map Prod.fst) := by
  induction l generalizing k with
  | nil => rfl
  | cons x xs ih =>
    simp only [split_loop, ih, List.zipIdx_cons]
    cases h : select k <;> simp [h]

theorem split_tokens (g : PassGroup) (select : Nat → Bool) :
    (g.split select).1 = ⟨g.message, atPositions select g.tokens⟩ ∧
    (g.split select).2 = ⟨g.message, atPositions (fun i => !select i) g.tokens⟩ := by
  simp only [PassGroup.split, split_loop_eq]
  exact ⟨rfl, rfl⟩

theorem atPositions_perm {α} (select : Nat → Bool) (l : List α) :
    (atPositions select l ++ atPositions (fun i => !select i) l).Perm l := by
  unfold atPositions
  rw [← List.map_append]
  have h := (List.filter_append_perm (fun p : α × Nat => select p.2) l.zipIdx).map Prod.fst
  have h2 : (l.zipIdx).map Prod.fst = l := by
    exact List.zipIdx_map_fst 0 l
  rw [h2] at h
  exact h

theorem atPositions_sublist {α} (select : Nat → Bool) (l : List α) :
    (atPositions select l).Sublist l := by
  unfold atPositions
  have h := (List.filter_sublist (p := fun p : α × Nat => select p.2) (l := l.zipIdx)).map Prod.fst
  have h2 : (l.zipIdx).map Prod.fst = l := List.zipIdx_map_fst 0 l
  rwa [h2] at h

theorem mem_atPositions {α} (select : Nat → Bool) (l : List α) (x : α) :
    x ∈ atPositions select l ↔ ∃ i, l[i]? = some x ∧ select i = true := by
  unfold atPositions
  simp only [List.mem_map, List.mem_filter, Prod.exists, exists_and_right, exists_eq_right]
  constructor
  · rintro ⟨i, h1, h2⟩
    exact ⟨i, by simpa [List.mem_zipIdx_iff_getElem?] using h1, h2⟩
  · rintro ⟨i, h1, h2⟩
    exact ⟨i, by simpa [List.mem_zipIdx_iff_getElem?] using h1, h2⟩

theorem atPositions_take {α} (n : Int) (l : List α) :
    atPositions (fun i => decide ((i : Int) < n)) l = l.take n.toNat := by
  have gen : ∀ (l : List α) (k : Nat),
      ((l.zipIdx k).filter (fun p => decide ((p.2 : Int) < n))).map Prod.fst
        = l.take (n.toNat - k) := by
    intro l
    induction l with
    | nil => intro k; simp
    | cons x xs ih =>
      intro k
      rw [List.zipIdx_cons]
      by_cases h : (k : Int) < n
      · rw [List.filter_cons_of_pos (by simpa using h), List.map_cons, ih]
        have : n.toNat - k = (n.toNat - (k + 1)) + 1 := by omega
        rw [this, List.take_succ_cons]
      · rw [List.filter_cons_of_neg (by simpa using h), ih]
        have h1 : n.toNat - k = 0 := by omega
        have h2 : n.toNat - (k + 1) = 0 := by omega
        rw [h1, h2]; simp
  exact gen l 0

theorem atPositions_drop {α} (n : Int) (l : List α) :
    atPositions (fun i => !decide ((i : Int) < n)) l = l.drop n.toNat := by
  have gen : ∀ (l : List α) (k : Nat),
      ((l.zipIdx k).filter (fun p => !decide ((p.2 : Int) < n))).map Prod.fst
        = l.drop (n.toNat - k) := by
    intro l
    induction l with
    | nil => intro k; simp
    | cons x xs ih =>
      intro k
      rw [List.zipIdx_cons]
      by_cases h : (k : Int) < n
      · rw [List.filter_cons_of_neg (by simpa using h), ih]
        have : n.toNat - k = (n.toNat - (k + 1)) + 1 := by omega
        rw [this, List.drop_succ_cons]
      · rw [List.filter_cons_of_pos (by simpa using h), List.map_cons, ih]
        have h1 : n.toNat - k = 0 := by omega
        have h2 : n.toNat - (k + 1) = 0 := by omega
        rw [h1, h2]; simp
  exact gen l 0

/-! ### The store while calls hold tokens -/

/-- The store's invariant, the tokens in use are exactly those held, and no stored token is in
the table of invalid tokens. -/
structure Held (t : Tables) (held : List String) : Prop where
  wf : StoreWF t
  perm : t.temp.in_use.Perm held
  clean : ∀ r ∈ t.app.unblinded, r.token ∉ invalidTokens t

theorem Held.nodup {t : Tables} {held : List String} (h : Held t held) : held.Nodup :=
  h.perm.nodup_iff.mp h.wf.in_use

theorem perm_filter_mid {l a g b : List String} (hn : l.Nodup) (hp : l.Perm (a ++ g ++ b)) :
    (l.filter (· ∉ g)).Perm (a ++ b) := by
  have h1 := hp.filter (fun x => decide (x ∉ g))
  have hn' : (a ++ g ++ b).Nodup := hp.nodup_iff.mp hn
  rw [List.nodup_append, List.nodup_append] at hn'
  obtain ⟨⟨-, -, hag⟩, -, hgb⟩ := hn'
  have ha : a.filter (fun x => decide (x ∉ g)) = a := by
    rw [List.filter_eq_self]
    intro x hx
    simp only [decide_eq_true_eq]
    exact fun h => hag x hx x h rfl
  have hb : b.filter (fun x => decide (x ∉ g)) = b := by
    rw [List.filter_eq_self]
    intro x hx
    simp only [decide_eq_true_eq]
    exact fun h => hgb x (List.mem_append_right _ h) x hx rfl
  have hg : g.filter (fun x => decide (x ∉ g)) = [] := by
    rw [List.filter_eq_nil_iff]
    intro x hx
    simp [hx]
  rw [List.filter_append, List.filter_append, ha, hb, hg, List.append_nil] at h1
  exact h1

theorem Held.mem {t : Tables} {held : List String} (h : Held t held) {x : String} (hx : x ∈ held) :
    x ∈ t.temp.in_use := h.perm.mem_iff.mpr hx

theorem reset_held {t : Tables} {a g b : List String} (h : Held t (a ++ g ++ b)) :
    ∃ t', transact (store_reset g) t = (.ok (), t') ∧ t'.app = t.app ∧ Held t' (a ++ b) := by
  have hw := wf_reset h.wf g
  rw [reset_eq, h.wf.to_reset] at *
  exact ⟨_, rfl, rfl, hw, perm_filter_mid h.wf.in_use h.perm, h.clean⟩

theorem discard_held {t : Tables} {a g b : List String} (h : Held t (a ++ g ++ b)) :
    ∃ t', transact (store_discard g) t = (.ok (), t') ∧
      t'.app = { t.app with unblinded := t.app.unblinded.filter (·.token ∉ g) } ∧
      Held t' (a ++ b) := by
  have hw := wf_discard h.wf g
  rw [discard_eq, h.wf.to_discard] at *
  refine ⟨_, rfl, rfl, hw, perm_filter_mid h.wf.in_use h.perm, ?_⟩
  intro r hr
  exact h.clean r (List.mem_filter.mp hr).1

theorem invalidate_held {t : Tables} {a g b : List String} (reason : String)
    (h : Held t (a ++ g ++ b)) :
    ∃ t', transact (store_invalidate reason g) t = (.ok (), t') ∧
      t'.app = { t.app with
        unblinded := t.app.unblinded.filter (·.token ∉ g)
        invalid := t.app.invalid ++ g.map (fun x => ⟨x, reason⟩) } ∧
      Held t' (a ++ b) := by
  have hw := wf_invalidate h.wf reason g
  have hcond : g.Nodup ∧ (∀ x ∈ g, x ∉ t.app.invalid.map (·.token)) := by
    have hn := h.nodup
    rw [List.nodup_append, List.nodup_append] at hn
    refine ⟨hn.1.2.1, fun x hx => ?_⟩
    have hu := h.mem (x := x) (by simp [hx])
    obtain ⟨r, hr, rfl, -⟩ := h.wf.in_use_stored x hu
    exact h.clean r hr
  have hf : t.app.unblinded.filter (·.token ∉ t.app.invalid.map (·.token) ++ g) =
      t.app.unblinded.filter (·.token ∉ g) := by
    apply List.filter_congr
    intro r hr
    have := h.clean r hr
    simp only [invalidTokens] at this
    simp [this]
  have hi : t.temp.in_use.filter (· ∉ t.app.invalid.map (·.token) ++ g) =
      t.temp.in_use.filter (· ∉ g) := by
    apply List.filter_congr
    intro x hx
    obtain ⟨r, hr, rfl, -⟩ := h.wf.in_use_stored x hx
    have := h.clean r hr
    simp only [invalidTokens] at this
    simp [this]
  rw [invalidate_eq, if_pos hcond, hf, hi] at hw ⊢
  refine ⟨_, rfl, rfl, hw, perm_filter_mid h.wf.in_use h.perm, ?_⟩
  intro r hr
  obtain ⟨h1, h2⟩ := List.mem_filter.mp hr
  have := h.clean r h1
  simp only [invalidTokens, List.map_append, List.map_map, List.mem_append, not_or] at this ⊢
  refine ⟨this, ?_⟩
  simp only [decide_eq_true_eq] at h2
  simpa using h2

theorem sql_limit_length {α} (n : Int) (hn : 0 ≤ n) (l : List α)
    (h : ¬ ((sql_limit n l).length : Int) < n) : ((sql_limit n l).length : Int) = n := by
  unfold sql_limit at *
  rw [if_neg (by omega)] at *
  rw [List.length_take] at *
  omega

theorem get_held {sign : Signer} (hs : Signs sign) {t : Tables} {held : List String}
    (h : Held t held) (o : Order) (m : Bytes) (n : Int) :
    (spending_get sign o m n t = (.error .notEnoughTokens, t)) ∨
    ∃ g t', spending_get sign o m n t = (.ok g, t') ∧ t'.app = t.app ∧ g.message = m ∧
      (0 ≤ n → (g.tokens.length : Int) = n) ∧
      (∀ x ∈ g.unblinded_tokens, Available t x) ∧
      Held t' (held ++ g.unblinded_tokens) := by
  have hw := wf_getTokens h.wf o n
  unfold spending_get
  rw [getTokens_wf_eq h.wf] at *
  by_cases hc : n > SQLITE3_INTEGER_MAX ∨
      ((sql_limit n (o.f (select_available t))).length : Int) < n
  · left; rw [if_pos hc]
  · right
    rw [if_neg hc] at *
    obtain ⟨ps, hps, hlen⟩ := hs m (sql_limit n (o.f (select_available t)))
    simp only [hps]
    have hfst : PassGroup.unblinded_tokens ⟨m, (sql_limit n (o.f (select_available t))).zip ps⟩ =
        sql_limit n (o.f (select_available t)) := by
      unfold PassGroup.unblinded_tokens
      exact List.map_fst_zip (by omega)
    refine ⟨_, _, rfl, rfl, rfl, fun hn => ?_, ?_, hw, ?_, h.clean⟩
    · rw [List.length_zip]
      have := sql_limit_length n hn (o.f (select_available t)) (fun hh => hc (.inr hh))
      omega
    · rw [hfst]; exact (limit_available h.wf o n).2
    · rw [hfst]; exact h.perm.append_right _

theorem give_up_held {t : Tables} {a b : List String} {g : PassGroup} (e : PyErr)
    (h : Held t (a ++ g.unblinded_tokens ++ b)) :
    ∃ t', give_up g e t = (.raised e, t') ∧ t'.app = t.app ∧ Held t' (a ++ b) := by
  obtain ⟨t', h1, h2, h3⟩ := reset_held h
  refine ⟨t', ?_, h2, h3⟩
  unfold give_up PassGroup.reset
  rw [h1]

/-- The tokens a state of a call holds. -/
def stateTokens : CallState → List String
  | .waiting g => g.unblinded_tokens
  | _ => []

theorem split_unblinded_perm (g : PassGroup) (select : Nat → Bool) :
    ((g.split select).1.unblinded_tokens ++ (g.split select).2.unblinded_tokens).Perm
      g.unblinded_tokens := by
  obtain ⟨h1, h2⟩ := split_tokens g select
  unfold PassGroup.unblinded_tokens
  rw [h1, h2, ← List.map_append]
  exact (atPositions_perm select g.tokens).map _

theorem Held.of_perm {t : Tables} {a b : List String} (h : Held t a) (hp : a.Perm b) : Held t b :=
  ⟨h.wf, h.perm.trans hp, h.clean⟩

theorem held_split {t : Tables} {a b : List String} {g : PassGroup} (select : Nat → Bool)
    (h : Held t (a ++ g.unblinded_tokens ++ b)) :
    Held t (a ++ (g.split select).1.unblinded_tokens ++
      ((g.split select).2.unblinded_tokens ++ b)) := by
  apply h.of_perm
  rw [List.append_assoc, List.append_assoc]
  apply List.Perm.append_left
  rw [← List.append_assoc]
  exact (split_unblinded_perm g select).symm.append_right b

/-- What the server's success does. -/
theorem answer_ok_held {sign : Signer} {t : Tables} {a b : List String} {g : PassGroup}
    (h : Held t (a ++ g.unblinded_tokens ++ b)) (o : Order) (k : OnSuccess) (num : Int) (n : Nat) :
    ∃ s t', call_answer sign o k num g (.ok n) t = (s, t') ∧
      Held t' (a ++ b) ∧ stateTokens s = [] ∧
      match k with
      | .spendAll => s = .returned ∧
          t'.app = { t.app with unblinded := t.app.unblinded.filter (·.token ∉ g.unblinded_tokens) }
      | .allocate pv size =>
        match required_passesE pv (List.replicate n size) with
        | .error e => s = .raised e ∧ t'.app = t.app
        | .ok m => s = .returned ∧
          t'.app = { t.app with unblinded :=
            t.app.unblinded.filter (·.token ∉ g.unblinded_tokens.take m.toNat) } := by
  unfold call_answer OnSuccess.run
  cases k with
  | spendAll =>
    obtain ⟨t', h1, h2, h3⟩ := discard_held h
    simp only [PassGroup.mark_spent, h1]
    exact ⟨_, _, rfl, h3, rfl, rfl, h2⟩
  | allocate pv size =>
    simp only [spend_for_allocate_buckets]
    cases hr : required_passesE pv (List.replicate n size) with
    | error e =>
      obtain ⟨t', h1, h2, h3⟩ := give_up_held e h
      simp only [h1]
      exact ⟨_, _, rfl, h3, rfl, rfl, h2⟩
    | ok m =>
      simp only []
      have hsp := held_split (fun i => decide ((i : Int) < m)) h
      obtain ⟨t1, h1, h2, h3⟩ := discard_held hsp
      simp only [PassGroup.mark_spent, h1]
      rw [← List.append_assoc] at h3
      obtain ⟨t2, k1, k2, k3⟩ := reset_held h3
      simp only [PassGroup.reset, k1]
      refine ⟨_, _, rfl, k3, rfl, rfl, ?_⟩
      have hh : (g.split (fun i => decide ((i : Int) < m))).1.unblinded_tokens =
          g.unblinded_tokens.take m.toNat := by
        rw [(split_tokens g _).1]
        simp only [PassGroup.unblinded_tokens, atPositions_take, List.map_take]
      rw [hh] at h2
      rw [k2, h2]

/-- What an error other than a rejection does. -/
theorem answer_error_held {sign : Signer} {t : Tables} {a b : List String} {g : PassGroup}
    (h : Held t (a ++ g.unblinded_tokens ++ b)) (o : Order) (k : OnSuccess) (num : Int) (e : PyErr) :
    ∃ t', call_answer sign o k num g (.error e) t = (.raised e, t') ∧ t'.app = t.app ∧
      Held t' (a ++ b) := give_up_held e h

theorem answer_rejected_nil_held {sign : Signer} {t : Tables} {a b : List String} {g : PassGroup}
    (h : Held t (a ++ g.unblinded_tokens ++ b)) (o : Order) (k : OnSuccess) (num : Int) :
    ∃ t', call_answer sign o k num g (.rejected []) t = (.raised morePassesRequired, t') ∧
      t'.app = t.app ∧ Held t' (a ++ b) := give_up_held morePassesRequired h

/-- What a rejection of some passes does. -/
theorem answer_rejected_held {sign : Signer} (hs : Signs sign) {t : Tables} {a b : List String}
    {g : PassGroup} (h : Held t (a ++ g.unblinded_tokens ++ b)) (o : Order) (k : OnSuccess)
    (num : Int) (failed : List Nat) (hf : failed ≠ []) :
    ∃ s t' t1, call_answer sign o k num g (.rejected failed) t = (s, t') ∧
      t'.app = { t.app with
        unblinded := t.app.unblinded.filter
          (·.token ∉ (atPositions failed.contains g.tokens).map Prod.fst)
        invalid := t.app.invalid ++ ((atPositions failed.contains g.tokens).map Prod.fst).map
          (fun x => ⟨x, "signature check failed"⟩) } ∧
      t1.app = t'.app ∧
      Held t1 (a ++ (atPositions (fun i => !failed.contains i) g.tokens).map Prod.fst ++ b) ∧
      Held t' (a ++ stateTokens s ++ b) ∧
      (s = .raised .notEnoughTokens ∨
        ∃ more : List (String × Pass),
          s = .waiting ⟨g.message, atPositions (fun i => !failed.contains i) g.tokens ++ more⟩ ∧
          (∀ p ∈ more, Available t1 p.1) ∧
          (0 ≤ num → g.tokens.length ≤ num →
            ((atPositions (fun i => !failed.contains i) g.tokens ++ more).length : Int) = num)) := by
  unfold call_answer invalidate_rejected_passes
  have hlen : ¬ failed.length = 0 := by
    intro h0; exact hf (List.length_eq_zero_iff.mp h0)
  simp only [hlen, if_false]
  have hsp := held_split failed.contains h
  obtain ⟨t1, h1, h2, h3⟩ := invalidate_held "signature check failed" hsp
  simp only [PassGroup.mark_invalid, h1]
  obtain ⟨g1, g2⟩ := split_tokens g failed.contains
  rw [g1] at h2
  rw [g2] at h3 ⊢
  rw [← List.append_assoc] at h3
  have hlen2 : (PassGroup.passes ⟨g.message, atPositions (fun i => !failed.contains i) g.tokens⟩).length =
      (atPositions (fun i => !failed.contains i) g.tokens).length := by
    simp [PassGroup.passes]
  rw [hlen2]
  have hle := (atPositions_sublist (fun i => !failed.contains i) g.tokens).length_le
  unfold PassGroup.expand
  rcases get_held hs h3 o g.message
    (num - (atPositions (fun i => !failed.contains i) g.tokens).length) with he | ⟨more, t2, he, k2, km, kn, ka, kh⟩
  · simp only [he]
    obtain ⟨t2, k1, k2, k3⟩ := give_up_held (a := a) (b := b)
      (g := ⟨g.message, atPositions (fun i => !failed.contains i) g.tokens⟩) .notEnoughTokens h3
    refine ⟨_, t2, t1, k1, ?_, k2.symm, h3, ?_, .inl rfl⟩
    · rw [k2, h2]; rfl
    · simpa [stateTokens] using k3
  · simp only [he]
    have hzip : more.unblinded_tokens.zip more.passes = more.tokens := by
      unfold PassGroup.unblinded_tokens PassGroup.passes
      exact (List.zip_of_prod rfl rfl).symm
    refine ⟨_, t2, t1, rfl, ?_, k2.symm, h3, ?_, .inr ⟨more.tokens, ?_, ?_, ?_⟩⟩
    · rw [k2, h2]; rfl
    · apply kh.of_perm
      simp only [stateTokens, PassGroup.add, hzip]
      simp only [PassGroup.unblinded_tokens, List.map_append, List.append_assoc]
      apply List.Perm.append_left
      apply List.Perm.append_left
      exact List.perm_append_comm
    · simp [PassGroup.add, hzip]
    · intro p hp
      exact ka p.1 (List.mem_map_of_mem hp)
    · intro h0 hle2
      rw [List.length_append]
      have := kn (by omega)
      omega

/-! ### The client process -/

/-- Every token in use is held by exactly one call in progress, and every call holds as many as
it needs. -/
structure ClientInv (w : Client) : Prop where
  held : Held w.store (w.active.flatMap holds)
  size : ∀ c ∈ w.active, 0 ≤ c.num_passes → (c.pass_group.tokens.length : Int) = c.num_passes

theorem clientInv_init : ClientInv {} := by
  refine ⟨⟨wf_empty, ?_, ?_⟩, ?_⟩
  · simp
  · intro r hr; cases hr
  · intro c hc; cases hc

theorem outside_temp {op : StoreOp} (ho : outside op = true) (t : Tables) :
    (op.step t).2.temp = t.temp ∧ (op.step t).2.app.invalid = t.app.invalid ∧
      ∀ r ∈ (op.step t).2.app.unblinded, r ∈ t.app.unblinded ∨ Issues r.token op := by
  by_cases hn : Neutral op
  · have := step_neutral hn t
    exact ⟨this.2.2.2, this.2.2.1, fun r hr => .inl (this.1 ▸ hr)⟩
  · cases op <;> simp only [Neutral, not_true] at hn <;> simp only [outside, Bool.false_eq_true] at ho
    case insert now v pk ts c s =>
      rw [step_insert]
      split
      · exact ⟨rfl, rfl, fun r hr => .inl hr⟩
      · split
        · refine ⟨rfl, rfl, fun r hr => ?_⟩
          simp only [inserted, List.mem_append, List.mem_map] at hr
          rcases hr with hr | ⟨x, hx, rfl⟩
          · exact .inl hr
          · exact .inr hx
        · exact ⟨rfl, rfl, fun r hr => .inl hr⟩

theorem getElem?_split {α} {l : List α} {i : Nat} {c : α} (h : l[i]? = some c) :
    l = l.take i ++ [c] ++ l.drop (i + 1) := by
  obtain ⟨hi, rfl⟩ := List.getElem?_eq_some_iff.mp h
  rw [List.append_assoc, List.singleton_append, List.getElem_cons_drop, List.take_append_drop]

theorem place_holds (c : Call) (s : CallState) : (place c s).flatMap holds = stateTokens s := by
  cases s <;> simp [place, stateTokens, holds, PassGroup.unblinded_tokens]

theorem answer_size {sign : Signer} (hs : Signs sign) {t : Tables} {a b : List String} {c : Call}
    (h : Held t (a ++ c.pass_group.unblinded_tokens ++ b)) (o : Order) (ans : CallAnswer)
    (hc : 0 ≤ c.num_passes → (c.pass_group.tokens.length : Int) = c.num_passes) :
    Held (call_answer sign o c.on_success c.num_passes c.pass_group ans t).2
      (a ++ stateTokens (call_answer sign o c.on_success c.num_passes c.pass_group ans t).1 ++ b) ∧
    ∀ g, (call_answer sign o c.on_success c.num_passes c.pass_group ans t).1 = .waiting g →
      0 ≤ c.num_passes → (g.tokens.length : Int) = c.num_passes := by
  cases ans with
  | ok n =>
    obtain ⟨s, t', h1, h2, h3, -⟩ := answer_ok_held (sign := sign) h o c.on_success c.num_passes n
    rw [h1]
    simp only [h3, List.append_nil]
    refine ⟨h2, ?_⟩
    rintro g rfl h0
    have : g.tokens = [] := by simpa [stateTokens, PassGroup.unblinded_tokens] using h3
    exfalso
    unfold call_answer at h1
    dsimp only at h1
    split at h1
    · unfold give_up at h1
      split at h1 <;> simp at h1
    · simp at h1
  | error e =>
    obtain ⟨t', h1, -, h3⟩ := answer_error_held (sign := sign) h o c.on_success c.num_passes e
    rw [h1]
    exact ⟨by simpa [stateTokens] using h3, fun g hg => by cases hg⟩
  | rejected failed =>
    by_cases hf : failed = []
    · subst hf
      obtain ⟨t', h1, -, h3⟩ := answer_rejected_nil_held (sign := sign) h o c.on_success c.num_passes
      rw [h1]
      exact ⟨by simpa [stateTokens] using h3, fun g hg => by cases hg⟩
    · obtain ⟨s, t', t1, h1, -, -, -, h4, h5⟩ :=
        answer_rejected_held hs h o c.on_success c.num_passes failed hf
      rw [h1]
      refine ⟨h4, ?_⟩
      rintro g rfl h0
      rcases h5 with h5 | ⟨more, h5, -, h6⟩
      · cases h5
      · cases h5
        exact h6 h0 (by have := hc h0; omega)

theorem start_held {sign : Signer} (hs : Signs sign) {t : Tables} {held : List String}
    (h : Held t held) (o : Order) (m : Bytes) (n : Int) :
    Held (call_start sign o m n t).2 (held ++ stateTokens (call_start sign o m n t).1) ∧
    (call_start sign o m n t).2.app = t.app ∧
    ∀ g, (call_start sign o m n t).1 = .waiting g →
      g.message = m ∧ (0 ≤ n → (g.tokens.length : Int) = n) := by
  unfold call_start
  rcases get_held hs h o m n with he | ⟨g, t', he, h2, hm, hn, -, hh⟩
  · rw [he]
    exact ⟨by simpa [stateTokens] using h, rfl, fun g hg => by cases hg⟩
  · rw [he]
    refine ⟨hh, h2, ?_⟩
    rintro g' hg
    cases hg
    exact ⟨hm, hn⟩

theorem client_inv_step {sign : Signer} (hs : Signs sign) {w : Client} (h : ClientInv w)
    (e : ClientEvent)
    (hr : ∀ op, e = .other op → ∀ x, Issues x op → x ∉ invalidTokens w.store) :
    ClientInv (w.step sign e) := by
  cases e with
  | start k m n o =>
    obtain ⟨h1, -, h3⟩ := start_held hs h.held o m n
    simp only [Client.step]
    refine ⟨?_, ?_⟩
    · rw [List.flatMap_append, place_holds]; exact h1
    · intro c hc
      rcases List.mem_append.mp hc with hc | hc
      · exact h.size c hc
      · cases hst : (call_start sign o m n w.store).1 with
        | waiting g =>
          rw [hst, place, List.mem_singleton] at hc
          subst hc
          exact (h3 g hst).2
        | returned => rw [hst] at hc; cases hc
        | raised e => rw [hst] at hc; cases hc
  | answer i a o =>
    simp only [Client.step]
    cases hi : w.active[i]? with
    | none => exact h
    | some c =>
      dsimp only
      have hsplit := getElem?_split hi
      have hcm : c ∈ w.active := List.mem_of_getElem? hi
      have hh := h.held
      rw [hsplit] at hh
      simp only [List.flatMap_append, List.flatMap_cons, List.flatMap_nil, List.append_nil] at hh
      obtain ⟨h1, h2⟩ := answer_size hs (c := c) hh o a (h.size c hcm)
      refine ⟨?_, ?_⟩
      · simp only [List.flatMap_append, place_holds]; exact h1
      · intro c' hc'
        rcases List.mem_append.mp hc' with hc' | hc'
        · rcases List.mem_append.mp hc' with hc' | hc'
          · exact h.size c' (List.mem_of_mem_take hc')
          · cases hst : (call_answer sign o c.on_success c.num_passes c.pass_group a w.store).1 with
            | waiting g =>
              rw [hst, place, List.mem_singleton] at hc'
              subst hc'
              exact h2 g hst
            | returned => rw [hst] at hc'; cases hc'
            | raised e => rw [hst] at hc'; cases hc'
        · exact h.size c' (List.mem_of_mem_drop hc')
  | other op =>
    simp only [Client.step]
    cases ho : outside op with
    | false => simpa using h
    | true =>
      obtain ⟨h1, h2, h3⟩ := outside_temp ho w.store
      simp only [if_true]
      refine ⟨⟨step_wf_store h.held.wf op, ?_, ?_⟩, h.size⟩
      · dsimp only; rw [h1]; exact h.held.perm
      · intro r hr'
        have : invalidTokens (op.step w.store).2 = invalidTokens w.store := by
          unfold invalidTokens; rw [h2]
        dsimp only at hr' ⊢
        rw [this]
        rcases h3 r hr' with hr' | hr'
        · exact h.held.clean r hr'
        · exact hr op rfl _ hr'
  | restart =>
    simp only [Client.step]
    refine ⟨⟨step_wf_store h.held.wf .restart, ?_, h.held.clean⟩, ?_⟩
    · exact List.Perm.refl _
    · intro c hc; cases hc

theorem client_inv_run {sign : Signer} (hs : Signs sign) (es : List ClientEvent) {w : Client}
    (h : ClientInv w) (hr : NoReissue sign w es) : ClientInv (w.run sign es) := by
  induction es generalizing w with
  | nil => exact h
  | cons e es ih => exact ih (client_inv_step hs h e hr.1) hr.2

end ZKAP
