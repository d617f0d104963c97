import Verif.Lemmas.Store
import Verif.Spec.Store

/-! Invariants of the voucher store. -/
namespace ZKAP
open Spec

theorem nodup_filter {α} {l : List α} (p : α → Bool) (h : l.Nodup) : (l.filter p).Nodup :=
  h.sublist List.filter_sublist

theorem inj_of_nodup_map {α β} {l : List α} {f : α → β} (h : (l.map f).Nodup) {a b : α}
    (ha : a ∈ l) (hb : b ∈ l) (hab : f a = f b) : a = b := by
  induction l with
  | nil => simp at ha
  | cons c cs ih =>
    simp only [List.map_cons, List.nodup_cons] at h
    rcases List.mem_cons.mp ha with h1 | h1
    · subst h1
      rcases List.mem_cons.mp hb with h2 | h2
      · exact h2.symm
      · exact absurd (List.mem_map.mpr ⟨b, h2, hab.symm⟩) h.1
    · rcases List.mem_cons.mp hb with h2 | h2
      · subst h2
        exact absurd (List.mem_map.mpr ⟨a, h1, hab⟩) h.1
      · exact ih h.2 h1 h2

/-- What holds of the tables between any two calls. -/
structure StoreWF (t : Tables) : Prop where
  unblinded : (t.app.unblinded.map (·.token)).Nodup
  groups : (t.app.groups.map (·.rowid)).Nodup
  vouchers : (t.app.vouchers.map (·.number)).Nodup
  tokens : (t.app.tokens.map (·.text)).Nodup
  invalid : (t.app.invalid.map (·.token)).Nodup
  maint : (t.app.maint.map (·.id)).Nodup
  in_use : t.temp.in_use.Nodup
  to_discard : t.temp.to_discard = []
  to_reset : t.temp.to_reset = []
  grp : ∀ r ∈ t.app.unblinded, ∃ g ∈ t.app.groups, g.rowid = r.group
  in_use_stored : ∀ x ∈ t.temp.in_use, StoredIn t.app true x
  tokens_voucher : ∀ r ∈ t.app.tokens, r.voucher ∈ t.app.vouchers.map (·.number)

theorem wf_empty : StoreWF {} := by constructor <;> simp

theorem foldl_max_ge (l : List Nat) (a : Nat) :
    a ≤ l.foldl Nat.max a ∧ ∀ x ∈ l, x ≤ l.foldl Nat.max a := by
  induction l generalizing a with
  | nil => simp
  | cons y ys ih =>
    have h := ih (Nat.max a y)
    have h1 : a ≤ Nat.max a y := Nat.le_max_left a y
    have h2 : y ≤ Nat.max a y := Nat.le_max_right a y
    simp only [List.foldl_cons]
    refine ⟨by omega, fun x hx => ?_⟩
    rcases List.mem_cons.mp hx with rfl | hx
    · omega
    · exact h.2 x hx

theorem nextRowid_fresh (l : List Nat) : nextRowid l ∉ l := by
  intro h
  have := (foldl_max_ge l 0).2 _ h
  unfold nextRowid at this
  omega

theorem nextRowid_gt (l : List Nat) : ∀ x ∈ l, x < nextRowid l := by
  intro x h
  have := (foldl_max_ge l 0).2 _ h
  unfold nextRowid
  omega

/-! ### What can be obtained -/

theorem mem_select_available (t : Tables) (x : String) :
    x ∈ select_available t ↔ Available t x := by
  unfold select_available Available StoredIn
  simp only [List.mem_filter, List.mem_flatMap, List.mem_map, Bool.and_eq_true, beq_iff_eq,
    decide_eq_true_eq]
  constructor
  · rintro ⟨⟨r, hr, g, ⟨hg, h1, h2⟩, rfl⟩, hx⟩
    exact ⟨⟨r, hr, rfl, g, hg, h1.symm, h2⟩, hx⟩
  · rintro ⟨⟨r, hr, rfl, g, hg, h1, h2⟩, hx⟩
    exact ⟨⟨r, hr, g, ⟨hg, h1.symm, h2⟩, rfl⟩, hx⟩

theorem filter_unique_length {α} (l : List α) (f : α → Nat) (n : Nat) (p : α → Bool)
    (h : (l.map f).Nodup) (hp : ∀ x, p x = true → f x = n) : (l.filter p).length ≤ 1 := by
  induction l with
  | nil => simp
  | cons a as ih =>
    simp only [List.map_cons, List.nodup_cons] at h
    simp only [List.filter_cons]
    split
    · rename_i hpa
      have : as.filter p = [] := by
        rw [List.filter_eq_nil_iff]
        intro b hb hpb
        exact h.1 (List.mem_map.mpr ⟨b, hb, by rw [hp _ hpb, hp _ hpa]⟩)
      simp [this]
    · exact ih h.2

theorem nodup_flatMap_le_one {α} (l : List α) (k : α → String) (f : α → List String)
    (h : (l.map k).Nodup) (h1 : ∀ x, (f x).length ≤ 1) (h2 : ∀ x, ∀ y ∈ f x, y = k x) :
    (l.flatMap f).Nodup := by
  induction l with
  | nil => simp
  | cons a as ih =>
    simp only [List.map_cons, List.nodup_cons] at h
    simp only [List.flatMap_cons, List.nodup_append]
    refine ⟨?_, ih h.2, ?_⟩
    · have := h1 a
      match hf : f a with
      | [] => simp
      | [y] => simp
      | y :: z :: w => rw [hf] at this; simp at this
    · intro x hx y hy
      rw [h2 a x hx]
      obtain ⟨b, hb, hy⟩ := List.mem_flatMap.mp hy
      rw [h2 b y hy]
      rintro heq
      exact h.1 (List.mem_map.mpr ⟨b, hb, heq.symm⟩)

theorem nodup_select_available {t : Tables} (h : StoreWF t) : (select_available t).Nodup := by
  unfold select_available
  apply nodup_filter
  apply nodup_flatMap_le_one _ (·.token) _ h.unblinded
  · intro r
    rw [List.length_map]
    exact filter_unique_length _ (·.rowid) r.group _ h.groups (by
      intro g hg
      simp only [Bool.and_eq_true, beq_iff_eq] at hg
      exact hg.1.symm)
  · intro r y hy
    obtain ⟨g, _, rfl⟩ := List.mem_map.mp hy
    rfl

theorem stored_both {t : Tables} (h : StoreWF t) {x : String} :
    ¬ (StoredIn t.app true x ∧ StoredIn t.app false x) := by
  rintro ⟨⟨r, hr, rfl, g, hg, h1, h2⟩, ⟨r', hr', hx, g', hg', h1', h2'⟩⟩
  have hrr : r' = r := by
    have := h.unblinded
    exact inj_of_nodup_map this hr' hr hx
  subst hrr
  have : g' = g := inj_of_nodup_map h.groups hg' hg (by simp [h1, h1'])
  subst this
  simp_all

theorem stored_cases {t : Tables} (h : StoreWF t) {x : String}
    (hx : x ∈ t.app.unblinded.map (·.token)) :
    StoredIn t.app true x ∨ StoredIn t.app false x := by
  obtain ⟨r, hr, rfl⟩ := List.mem_map.mp hx
  obtain ⟨g, hg, hgr⟩ := h.grp r hr
  cases hs : g.spendable
  · exact .inr ⟨r, hr, rfl, g, hg, hgr, hs⟩
  · exact .inl ⟨r, hr, rfl, g, hg, hgr, hs⟩

theorem stored_mem {a : App} {b x} (h : StoredIn a b x) : x ∈ a.unblinded.map (·.token) := by
  obtain ⟨r, hr, rfl, _⟩ := h
  exact List.mem_map.mpr ⟨r, hr, rfl⟩

/-! ### Effect of the calls on stored tokens -/

theorem storedIn_filter (a : App) (b : Bool) (x : String) (ts : List String) :
    StoredIn { a with unblinded := a.unblinded.filter (·.token ∉ ts) } b x ↔
      StoredIn a b x ∧ x ∉ ts := by
  unfold StoredIn
  simp only [List.mem_filter, decide_eq_true_eq]
  constructor
  · rintro ⟨r, ⟨hr, hn⟩, rfl, hg⟩
    exact ⟨⟨r, hr, rfl, hg⟩, hn⟩
  · rintro ⟨⟨r, hr, rfl, hg⟩, hn⟩
    exact ⟨r, ⟨hr, hn⟩, rfl, hg⟩

theorem storedIn_inserted {t : Tables} (h : StoreWF t) (now v pk : String) (ts : List String)
    (c s b : Bool) (x : String) :
    StoredIn (inserted now v pk ts c s t).app b x ↔
      (x ∈ ts ∧ b = s) ∨ StoredIn t.app b x := by
  unfold StoredIn inserted
  simp only [List.mem_append, List.mem_map, List.mem_singleton]
  have hfresh := nextRowid_fresh (t.app.groups.map (·.rowid))
  constructor
  · rintro ⟨r, hr | ⟨y, hy, rfl⟩, rfl, g, hg | rfl, h1, h2⟩
    · exact .inr ⟨r, hr, rfl, g, hg, h1, h2⟩
    · exfalso
      obtain ⟨g', hg', h'⟩ := h.grp r hr
      apply hfresh
      simp only at h1
      rw [h1, ← h']
      exact List.mem_map.mpr ⟨g', hg', rfl⟩
    · exfalso
      apply hfresh
      simp only at h1
      rw [← h1]
      exact List.mem_map.mpr ⟨g, hg, rfl⟩
    · exact .inl ⟨hy, h2.symm⟩
  · rintro (⟨hx, rfl⟩ | ⟨r, hr, rfl, g, hg, h1, h2⟩)
    · exact ⟨⟨x, nextRowid (t.app.groups.map (·.rowid))⟩, .inr ⟨x, hx, rfl⟩, rfl, _, .inr rfl, rfl, rfl⟩
    · exact ⟨r, .inl hr, rfl, g, .inl hg, h1, h2⟩

/-! ### The invariant is kept -/

theorem nodup_map_filter {α β} (l : List α) (f : α → β) (p : α → Bool) (h : (l.map f).Nodup) :
    ((l.filter p).map f).Nodup :=
  h.sublist ((List.filter_sublist).map f)

theorem wf_discard {t : Tables} (h : StoreWF t) (ts : List String) :
    StoreWF (transact (store_discard ts) t).2 := by
  rw [discard_eq]
  simp only [h.to_discard, List.nil_append]
  exact {
    unblinded := nodup_map_filter _ _ _ h.unblinded
    groups := h.groups
    vouchers := h.vouchers
    tokens := h.tokens
    invalid := h.invalid
    maint := h.maint
    in_use := nodup_filter _ h.in_use
    to_discard := rfl
    to_reset := h.to_reset
    grp := fun r hr => h.grp r (List.mem_filter.mp hr).1
    in_use_stored := by
      intro x hx
      obtain ⟨h1, h2⟩ := List.mem_filter.mp hx
      exact (storedIn_filter t.app true x ts).mpr ⟨h.in_use_stored x h1, by simpa using h2⟩
    tokens_voucher := h.tokens_voucher }

theorem wf_reset {t : Tables} (h : StoreWF t) (ts : List String) :
    StoreWF (transact (store_reset ts) t).2 := by
  rw [reset_eq]
  exact { h with
    in_use := nodup_filter _ h.in_use
    to_reset := rfl
    in_use_stored := fun x hx => h.in_use_stored x (List.mem_filter.mp hx).1 }

theorem nodup_append_fresh {α} {l ts : List α} (hl : l.Nodup) (ht : ts.Nodup)
    (hd : ∀ x ∈ ts, x ∉ l) : (l ++ ts).Nodup := by
  rw [List.nodup_append]
  refine ⟨hl, ht, ?_⟩
  rintro a ha b hb rfl
  exact hd a hb ha

theorem wf_invalidate {t : Tables} (h : StoreWF t) (reason : String) (ts : List String) :
    StoreWF (transact (store_invalidate reason ts) t).2 := by
  rw [invalidate_eq]
  split
  · rename_i hc
    exact {
      unblinded := nodup_map_filter _ _ _ h.unblinded
      groups := h.groups
      vouchers := h.vouchers
      tokens := h.tokens
      invalid := by
        simp only [List.map_append, List.map_map, Function.comp_def, List.map_id_fun', id]
        exact nodup_append_fresh h.invalid hc.1 hc.2
      maint := h.maint
      in_use := nodup_filter _ h.in_use
      to_discard := h.to_discard
      to_reset := h.to_reset
      grp := fun r hr => h.grp r (List.mem_filter.mp hr).1
      in_use_stored := by
        intro x hx
        obtain ⟨h1, h2⟩ := List.mem_filter.mp hx
        exact (storedIn_filter t.app true x _).mpr ⟨h.in_use_stored x h1, by simpa using h2⟩
      tokens_voucher := h.tokens_voucher }
  · exact h

theorem sql_limit_sublist {α} (n : Int) (l : List α) : (sql_limit n l).Sublist l := by
  unfold sql_limit
  split
  · exact List.Sublist.refl _
  · exact List.take_sublist _ _

theorem limit_available {t : Tables} (h : StoreWF t) (o : Order) (n : Int) :
    (sql_limit n (o.f (select_available t))).Nodup ∧
      ∀ x ∈ sql_limit n (o.f (select_available t)), Available t x := by
  constructor
  · exact (((o.perm _).nodup_iff).mpr (nodup_select_available h)).sublist (sql_limit_sublist _ _)
  · intro x hx
    exact (mem_select_available t x).mp ((o.perm _).mem_iff.mp ((sql_limit_sublist _ _).mem hx))

theorem getTokens_wf_eq {t : Tables} (h : StoreWF t) (o : Order) (n : Int) :
    transact (store_get_unblinded_tokens o n) t =
      if n > SQLITE3_INTEGER_MAX ∨ ((sql_limit n (o.f (select_available t))).length : Int) < n then
        (.error .notEnoughTokens, t)
      else (.ok (sql_limit n (o.f (select_available t))),
        { t with temp := { t.temp with
          in_use := t.temp.in_use ++ sql_limit n (o.f (select_available t)) } }) := by
  rw [getTokens_eq]
  have hl := limit_available h o n
  have hcond : (sql_limit n (o.f (select_available t))).Nodup ∧
      (∀ x ∈ sql_limit n (o.f (select_available t)), x ∉ t.temp.in_use) :=
    ⟨hl.1, fun x hx => (hl.2 x hx).2⟩
  by_cases h1 : n > SQLITE3_INTEGER_MAX
  · simp [h1]
  · by_cases h2 : ((sql_limit n (o.f (select_available t))).length : Int) < n
    · simp only [h1, if_false, h2, if_true, or_true]
    · simp only [h1, h2, if_false, or_self, if_pos hcond]

theorem wf_getTokens {t : Tables} (h : StoreWF t) (o : Order) (n : Int) :
    StoreWF (transact (store_get_unblinded_tokens o n) t).2 := by
  rw [getTokens_wf_eq h]
  have hl := limit_available h o n
  split
  · exact h
  · exact { h with
      in_use := nodup_append_fresh h.in_use hl.1 (fun x hx => (hl.2 x hx).2)
      in_use_stored := by
        intro x hx
        rcases List.mem_append.mp hx with hx | hx
        · exact h.in_use_stored x hx
        · exact (hl.2 x hx).1 }

theorem map_number_update (vs : List VoucherRow) (f : VoucherRow → VoucherRow)
    (hf : ∀ r, (f r).number = r.number) : (vs.map f).map (·.number) = vs.map (·.number) := by
  rw [List.map_map]
  exact List.map_congr_left (fun r _ => hf r)

theorem wf_doubleSpent {t : Tables} (h : StoreWF t) (now v : String) :
    StoreWF (transact (store_mark_double_spent now v) t).2 := by
  rw [doubleSpent_eq]
  split
  · have hn := map_number_update t.app.vouchers (fun r =>
            if r.number == v && r.state == "pending" then
              { r with state := "double-spend", finished := some now }
            else r) (by intro r; split <;> rfl)
    exact { h with
      vouchers := by rw [hn]; exact h.vouchers
      tokens_voucher := by rw [hn]; exact h.tokens_voucher }
  · exact h

theorem inserted_numbers (now v pk : String) (ts : List String) (c s : Bool) (t : Tables) :
    (inserted now v pk ts c s t).app.vouchers.map (·.number) = t.app.vouchers.map (·.number) := by
  unfold inserted
  apply map_number_update
  intro r
  split <;> rfl

theorem wf_insert {t : Tables} (h : StoreWF t) (now v pk : String) (ts : List String)
    (c s : Bool) : StoreWF (transact (store_insert_unblinded now v pk ts c s) t).2 := by
  rw [insert_eq]
  split
  · exact h
  · split
    · rename_i hv hc
      exact {
        unblinded := by
          simp only [inserted, List.map_append, List.map_map, Function.comp_def, List.map_id_fun', id]
          exact nodup_append_fresh h.unblinded hc.1 hc.2
        groups := by
          simp only [inserted, List.map_append, List.map_cons, List.map_nil]
          apply nodup_append_fresh h.groups (by simp)
          intro x hx
          rw [List.mem_singleton.mp hx]
          exact nextRowid_fresh _
        vouchers := by rw [inserted_numbers]; exact h.vouchers
        tokens := nodup_map_filter _ _ _ h.tokens
        invalid := h.invalid
        maint := h.maint
        in_use := h.in_use
        to_discard := h.to_discard
        to_reset := h.to_reset
        grp := by
          intro r hr
          simp only [inserted, List.mem_append, List.mem_map] at hr
          rcases hr with hr | ⟨y, hy, rfl⟩
          · obtain ⟨g, hg, h'⟩ := h.grp r hr
            exact ⟨g, by simp [inserted, hg], h'⟩
          · exact ⟨_, List.mem_append_right _ (List.mem_singleton.mpr rfl), rfl⟩
        in_use_stored := fun x hx =>
          (storedIn_inserted h now v pk ts c s true x).mpr (.inr (h.in_use_stored x hx))
        tokens_voucher := by
          intro r hr
          rw [inserted_numbers]
          exact h.tokens_voucher r (List.mem_filter.mp hr).1 }
    · exact h

theorem added_numbers (now v : String) (e c : Nat) (ts : List String) (t : Tables) :
    ∀ x, x ∈ (added now v e c ts t).app.vouchers.map (·.number) ↔
      x = v ∨ x ∈ t.app.vouchers.map (·.number) := by
  intro x
  unfold added
  dsimp only
  split
  · rename_i h
    constructor
    · exact .inr
    · rintro (rfl | h')
      · exact h
      · exact h'
  · simp only [List.map_append, List.map_cons, List.map_nil, List.mem_append, List.mem_singleton]
    exact or_comm

theorem wf_add {t : Tables} (h : StoreWF t) (o : Order) (now v : String) (e c : Nat)
    (get : Except PyErr (List String)) : StoreWF (transact (store_add o now v e c get) t).2 := by
  rw [add_eq]
  split
  · exact h
  · cases get with
    | error e => exact h
    | ok ts =>
      dsimp only
      split
      · rename_i hc
        exact { h with
          vouchers := by
            unfold added
            dsimp only
            split
            · exact h.vouchers
            · rename_i hv
              simp only [List.map_append, List.map_cons, List.map_nil]
              apply nodup_append_fresh h.vouchers (by simp)
              intro x hx
              rw [List.mem_singleton.mp hx]
              exact hv
          tokens := by
            simp only [added, List.map_append, List.map_map, Function.comp_def,
              List.map_id_fun', id]
            exact nodup_append_fresh h.tokens hc.1 hc.2
          tokens_voucher := by
            intro r hr
            rw [added_numbers]
            simp only [added, List.mem_append, List.mem_map] at hr
            rcases hr with hr | ⟨y, _, rfl⟩
            · exact .inr (h.tokens_voucher r hr)
            · exact .inl rfl }
      · exact h

theorem wf_maint {t : Tables} (h : StoreWF t) (l : List MaintRow) (hl : (l.map (·.id)).Nodup) :
    StoreWF { t with app := { t.app with maint := l } } :=
  { h with maint := hl }

theorem maintStart_eq (now : String) (m : LeaseMaintenance) (t : Tables) :
    transact (maint_start now m) t =
      match m.rowid with
      | some _ => (.error (.other 0), t)
      | none => (.ok ⟨some (nextRowid (t.app.maint.map (·.id)))⟩,
          { t with app := { t.app with maint := (t.app.maint ++
            [⟨nextRowid (t.app.maint.map (·.id)), now, none, 0⟩]) } }) := by
  unfold transact maint_start
  cases m.rowid <;> rfl

theorem maintObserve_eq (pv : Int) (sizes : List Int) (m : LeaseMaintenance) (t : Tables) :
    transact (maint_observe pv sizes m) t =
      match required_passesE pv sizes with
      | .error e => (.error e, t)
      | .ok n => (.ok (), { t with app := { t.app with maint := t.app.maint.map (fun r =>
            if some r.id = m.rowid then { r with count := r.count + n } else r) } }) := by
  unfold transact maint_observe
  cases required_passesE pv sizes <;> rfl

theorem maintFinish_eq (now : String) (m : LeaseMaintenance) (t : Tables) :
    transact (maint_finish now m) t =
      (.ok {}, { t with app := { t.app with maint := t.app.maint.map (fun r =>
            if some r.id = m.rowid then { r with finished := some now } else r) } }) := rfl

theorem map_id_update (vs : List MaintRow) (f : MaintRow → MaintRow)
    (hf : ∀ r, (f r).id = r.id) : (vs.map f).map (·.id) = vs.map (·.id) := by
  rw [List.map_map]
  exact List.map_congr_left (fun r _ => hf r)

theorem wf_maintStart {t : Tables} (h : StoreWF t) (now : String) (m : LeaseMaintenance) :
    StoreWF (transact (maint_start now m) t).2 := by
  rw [maintStart_eq]
  cases m.rowid with
  | some _ => exact h
  | none =>
    apply wf_maint h
    simp only [List.map_append, List.map_cons, List.map_nil]
    apply nodup_append_fresh h.maint (by simp)
    intro x hx
    rw [List.mem_singleton.mp hx]
    exact nextRowid_fresh _

theorem wf_maintObserve {t : Tables} (h : StoreWF t) (pv : Int) (sizes : List Int)
    (m : LeaseMaintenance) : StoreWF (transact (maint_observe pv sizes m) t).2 := by
  rw [maintObserve_eq]
  cases required_passesE pv sizes with
  | error e => exact h
  | ok n =>
    apply wf_maint h
    rw [map_id_update _ _ (by intro r; split <;> rfl)]
    exact h.maint

theorem wf_maintFinish {t : Tables} (h : StoreWF t) (now : String) (m : LeaseMaintenance) :
    StoreWF (transact (maint_finish now m) t).2 := by
  rw [maintFinish_eq]
  apply wf_maint h
  rw [map_id_update _ _ (by intro r; split <;> rfl)]
  exact h.maint

theorem wf_restart {t : Tables} (h : StoreWF t) : StoreWF { t with temp := {} } :=
  { h with
    in_use := List.nodup_nil
    to_discard := rfl
    to_reset := rfl
    in_use_stored := by simp }

theorem step_wf_store {t : Tables} (h : StoreWF t) (op : StoreOp) : StoreWF (op.step t).2 := by
  cases op <;> simp only [StoreOp.step, StoreOp.prog, transact_map]
  · exact wf_add h ..
  · exact wf_insert h ..
  · exact wf_doubleSpent h ..
  · exact wf_getTokens h ..
  · exact wf_discard h ..
  · exact wf_invalidate h ..
  · exact wf_reset h ..
  · exact wf_maintStart h ..
  · exact wf_maintObserve h ..
  · exact wf_maintFinish h ..
  · exact wf_restart h

theorem run_wf_store (ops : List StoreOp) {t : Tables} (h : StoreWF t) :
    StoreWF (runStore ops t) := by
  induction ops generalizing t with
  | nil => exact h
  | cons op ops ih => exact ih (step_wf_store h op)

theorem runStore_append (a b : List StoreOp) (t : Tables) :
    runStore (a ++ b) t = runStore b (runStore a t) := by
  induction a generalizing t with
  | nil => rfl
  | cons op ops ih => exact ih _

end ZKAP
